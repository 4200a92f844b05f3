import Verif.Lemmas.Print2
/-!
# Printed attributes are parsed back: fmtp and rid
-/

namespace Sdp

section
variable [Env]

/-! ## fmtp -/

omit [Env] in
/-- Parameters that agree in every field are equal. -/
theorem FmtpParams.ext_get {p q : FmtpParams} (h : ∀ f : FmtpField, f ≠ .apt → f.get p = f.get q)
    (hr : p.rtx = q.rtx) (hu : p.unknownTokens = q.unknownTokens) (he : p.encodings = q.encodings)
    (ht : p.dtmfTones = q.dtmfTones) : p = q := by
  have h0 := h .profileLevelId
  have h1 := h .packetizationMode
  have h2 := h .levelAsymmetryAllowed
  have h3 := h .maxMbps
  have h4 := h .maxFs
  have h5 := h .maxCpb
  have h6 := h .maxDpb
  have h7 := h .maxBr
  have h8 := h .maxFr
  have h9 := h .profile
  have h10 := h .levelIdx
  have h11 := h .tier
  have h12 := h .maxplaybackrate
  have h13 := h .maxaveragebitrate
  have h14 := h .ptime
  have h15 := h .maxptime
  have h16 := h .minptime
  have h17 := h .usedtx
  have h18 := h .stereo
  have h19 := h .useinbandfec
  have h20 := h .cbr
  have inj8 : ∀ {a b : Option UInt8}, a.map (·.toNat) = b.map (·.toNat) → a = b := by
    intro a b h
    cases a <;> cases b <;> simp at h ⊢
    exact UInt8.toNat_inj.1 h
  have injb : ∀ {a b : Bool}, a.toNat = b.toNat → a = b := by
    intro a b h; cases a <;> cases b <;> first | rfl | cases h
  cases p
  cases q
  simp only [FmtpField.get, ne_eq, reduceCtorEq, not_false_eq_true, Option.some.injEq, UInt32.toNat_inj,
    true_implies] at h0 h1 h2 h3 h4 h5 h6 h7 h8 h9 h10 h11 h12 h13 h14 h15 h16 h17 h18 h19 h20 hr hu he ht
  simp only [h0, h1, injb h2, h3, h4, h5, h6, h7, h8, inj8 h9, inj8 h10, inj8 h11, h12, h13, h14, h15, h16,
    injb h17, injb h18, injb h19, injb h20, hr, hu, he, ht]

/-- The order in which the fields are printed. -/
def fmtpOrder : List FmtpField :=
  [.profileLevelId, .levelAsymmetryAllowed, .packetizationMode, .maxFs, .maxCpb, .maxDpb, .maxBr, .maxMbps, .maxFr,
   .profile, .levelIdx, .tier, .maxplaybackrate, .maxaveragebitrate, .ptime, .minptime, .maxptime, .usedtx, .stereo,
   .useinbandfec, .cbr]

/-- What is printed for a field. -/
def pieceOf (p : FmtpParams) : FmtpField → Str
  | .profileLevelId => maybeParamS c%"profile-level-id=" (showHexPad 6 p.profileLevelId.toNat) c%"42000a"
  | .levelAsymmetryAllowed => maybeBool c%"level-asymmetry-allowed" p.levelAsymmetryAllowed false
  | .packetizationMode => maybeParam c%"packetization-mode=" p.packetizationMode 0
  | .maxFs => maybeParam c%"max-fs=" p.maxFs 0
  | .maxCpb => maybeParam c%"max-cpb=" p.maxCpb 0
  | .maxDpb => maybeParam c%"max-dpb=" p.maxDpb 0
  | .maxBr => maybeParam c%"max-br=" p.maxBr 0
  | .maxMbps => maybeParam c%"max-mbps=" p.maxMbps 0
  | .maxFr => maybeParam c%"max-fr=" p.maxFr 0
  | .profile => optStr c%"profile=" showU8 p.profile
  | .levelIdx => optStr c%"level-idx=" showU8 p.levelIdx
  | .tier => optStr c%"tier=" showU8 p.tier
  | .maxplaybackrate => maybeParam c%"maxplaybackrate=" p.maxplaybackrate 48000
  | .maxaveragebitrate => maybeParam c%"maxaveragebitrate=" p.maxaveragebitrate 0
  | .ptime => maybeParam c%"ptime=" p.ptime 0
  | .minptime => maybeParam c%"minptime=" p.minptime 0
  | .maxptime => maybeParam c%"maxptime=" p.maxptime 0
  | .usedtx => maybeBool c%"usedtx" p.usedtx false
  | .stereo => maybeBool c%"stereo" p.stereo false
  | .useinbandfec => maybeBool c%"useinbandfec" p.useinbandfec false
  | .cbr => maybeBool c%"cbr" p.cbr false
  | .apt => []

omit [Env] in
theorem fmtpPieces_eq (p : FmtpParams) :
    fmtpPieces p = fmtpOrder.map (pieceOf p) ++ [maybeVec [] [] c%"," p.unknownTokens] := rfl

/-- A printed field. -/
structure FieldText (f : FmtpField) (s : Str) (n : Nat) : Prop where
  ex : ∃ name v, s = name ++ '=' :: v ∧ '=' ∉ name ∧ ';' ∉ name ∧ upper name = f.text ∧
    v = (if f = .profileLevelId then showHexPad 6 n else showNat n)
  le : n ≤ f.max

theorem fieldText_u32 {f : FmtpField} {nm : Str} {v d : UInt32} (name : Str) (hnm : nm = name ++ ['='])
    (h1 : '=' ∉ name) (h2 : ';' ∉ name) (h3 : upper name = f.text) (h4 : f ≠ .profileLevelId) (h5 : v.toNat ≤ f.max) :
    (maybeParam nm v d = [] ∧ v = d) ∨ FieldText f (maybeParam nm v d) v.toNat := by
  unfold maybeParam
  by_cases h : v = d
  · exact .inl ⟨by simp [h], h⟩
  · refine .inr ⟨⟨name, showNat v.toNat, ?_, h1, h2, h3, by rw [if_neg h4]⟩, h5⟩
    rw [if_pos h, hnm]; simp

theorem fieldText_bool {f : FmtpField} {v : Bool} (name : Str)
    (h1 : '=' ∉ name) (h2 : ';' ∉ name) (h3 : upper name = f.text) (h4 : f ≠ .profileLevelId) (h5 : 1 ≤ f.max) :
    (maybeBool name v false = [] ∧ v = false) ∨ FieldText f (maybeBool name v false) v.toNat := by
  cases v with
  | false => exact .inl ⟨rfl, rfl⟩
  | true =>
    refine .inr ⟨⟨name, showNat 1, ?_, h1, h2, h3, by rw [if_neg h4]; rfl⟩, h5⟩
    simp [maybeBool]

theorem fieldText_opt {f : FmtpField} {nm : Str} {v : Option UInt8} (name : Str) (hnm : nm = name ++ ['='])
    (h1 : '=' ∉ name) (h2 : ';' ∉ name) (h3 : upper name = f.text) (h4 : f ≠ .profileLevelId)
    (h5 : ∀ x, v = some x → x.toNat ≤ f.max) :
    (optStr nm showU8 v = [] ∧ v = none) ∨ ∃ x, v = some x ∧ FieldText f (optStr nm showU8 v) x.toNat := by
  cases v with
  | none => exact .inl ⟨rfl, rfl⟩
  | some x =>
    refine .inr ⟨x, rfl, ⟨name, showU8 x, ?_, h1, h2, h3, by rw [if_neg h4]; rfl⟩, h5 x rfl⟩
    simp [optStr, hnm]

theorem pieceOf_cases {p : FmtpParams} (hr : FmtpInRange p) {f : FmtpField} (hf : f ≠ .apt) :
    (pieceOf p f = [] ∧ f.get p = f.absent) ∨ ∃ n, f.get p = some n ∧ FieldText f (pieceOf p f) n := by
  have u32 : ∀ x : UInt32, x.toNat ≤ 0xffffffff := u32_max
  cases f with
  | apt => exact absurd rfl hf
  | profileLevelId =>
    by_cases h : showHexPad 6 p.profileLevelId.toNat = c%"42000a"
    · left
      refine ⟨by simp [pieceOf, maybeParamS, h], ?_⟩
      have h1 := parseHexU32_show 6 p.profileLevelId
      rw [h] at h1
      have h2 : parseHexU32 c%"42000a" = .ok 0x42000a := by decide +kernel
      rw [h2] at h1
      have h3 : p.profileLevelId = 0x42000a := by injection h1 with h1; exact h1.symm
      simp [FmtpField.get, FmtpField.absent, h3]
    · right
      refine ⟨p.profileLevelId.toNat, rfl, ⟨c%"profile-level-id", _, ?_, by decide, by decide, rfl, rfl⟩,
        hr.profileLevelId⟩
      simp [pieceOf, maybeParamS, h]
  | packetizationMode =>
    rcases fieldText_u32 (f := .packetizationMode) (nm := c%"packetization-mode=") (v := p.packetizationMode) (d := 0)
      c%"packetization-mode" rfl (by decide) (by decide) rfl (by decide) hr.packetizationMode with ⟨h1, h2⟩ | h
    · exact .inl ⟨h1, by simp [FmtpField.get, FmtpField.absent, h2]⟩
    · exact .inr ⟨_, rfl, h⟩
  | levelAsymmetryAllowed =>
    rcases fieldText_bool (f := .levelAsymmetryAllowed) (v := p.levelAsymmetryAllowed) c%"level-asymmetry-allowed"
      (by decide) (by decide) rfl (by decide) (by decide) with ⟨h1, h2⟩ | h
    · exact .inl ⟨h1, by simp [FmtpField.get, FmtpField.absent, h2]⟩
    · exact .inr ⟨_, rfl, h⟩
  | maxMbps =>
    rcases fieldText_u32 (f := .maxMbps) (nm := c%"max-mbps=") (v := p.maxMbps) (d := 0)
      c%"max-mbps" rfl (by decide) (by decide) rfl (by decide) (u32 _) with ⟨h1, h2⟩ | h
    · exact .inl ⟨h1, by simp [FmtpField.get, FmtpField.absent, h2]⟩
    · exact .inr ⟨_, rfl, h⟩
  | maxFs =>
    rcases fieldText_u32 (f := .maxFs) (nm := c%"max-fs=") (v := p.maxFs) (d := 0)
      c%"max-fs" rfl (by decide) (by decide) rfl (by decide) (u32 _) with ⟨h1, h2⟩ | h
    · exact .inl ⟨h1, by simp [FmtpField.get, FmtpField.absent, h2]⟩
    · exact .inr ⟨_, rfl, h⟩
  | maxCpb =>
    rcases fieldText_u32 (f := .maxCpb) (nm := c%"max-cpb=") (v := p.maxCpb) (d := 0)
      c%"max-cpb" rfl (by decide) (by decide) rfl (by decide) (u32 _) with ⟨h1, h2⟩ | h
    · exact .inl ⟨h1, by simp [FmtpField.get, FmtpField.absent, h2]⟩
    · exact .inr ⟨_, rfl, h⟩
  | maxDpb =>
    rcases fieldText_u32 (f := .maxDpb) (nm := c%"max-dpb=") (v := p.maxDpb) (d := 0)
      c%"max-dpb" rfl (by decide) (by decide) rfl (by decide) (u32 _) with ⟨h1, h2⟩ | h
    · exact .inl ⟨h1, by simp [FmtpField.get, FmtpField.absent, h2]⟩
    · exact .inr ⟨_, rfl, h⟩
  | maxBr =>
    rcases fieldText_u32 (f := .maxBr) (nm := c%"max-br=") (v := p.maxBr) (d := 0)
      c%"max-br" rfl (by decide) (by decide) rfl (by decide) (u32 _) with ⟨h1, h2⟩ | h
    · exact .inl ⟨h1, by simp [FmtpField.get, FmtpField.absent, h2]⟩
    · exact .inr ⟨_, rfl, h⟩
  | maxFr =>
    rcases fieldText_u32 (f := .maxFr) (nm := c%"max-fr=") (v := p.maxFr) (d := 0)
      c%"max-fr" rfl (by decide) (by decide) rfl (by decide) (u32 _) with ⟨h1, h2⟩ | h
    · exact .inl ⟨h1, by simp [FmtpField.get, FmtpField.absent, h2]⟩
    · exact .inr ⟨_, rfl, h⟩
  | maxplaybackrate =>
    rcases fieldText_u32 (f := .maxplaybackrate) (nm := c%"maxplaybackrate=") (v := p.maxplaybackrate) (d := 48000)
      c%"maxplaybackrate" rfl (by decide) (by decide) rfl (by decide) (u32 _) with ⟨h1, h2⟩ | h
    · exact .inl ⟨h1, by simp [FmtpField.get, FmtpField.absent, h2]⟩
    · exact .inr ⟨_, rfl, h⟩
  | maxaveragebitrate =>
    rcases fieldText_u32 (f := .maxaveragebitrate) (nm := c%"maxaveragebitrate=") (v := p.maxaveragebitrate) (d := 0)
      c%"maxaveragebitrate" rfl (by decide) (by decide) rfl (by decide) (u32 _) with ⟨h1, h2⟩ | h
    · exact .inl ⟨h1, by simp [FmtpField.get, FmtpField.absent, h2]⟩
    · exact .inr ⟨_, rfl, h⟩
  | ptime =>
    rcases fieldText_u32 (f := .ptime) (nm := c%"ptime=") (v := p.ptime) (d := 0)
      c%"ptime" rfl (by decide) (by decide) rfl (by decide) (u32 _) with ⟨h1, h2⟩ | h
    · exact .inl ⟨h1, by simp [FmtpField.get, FmtpField.absent, h2]⟩
    · exact .inr ⟨_, rfl, h⟩
  | minptime =>
    rcases fieldText_u32 (f := .minptime) (nm := c%"minptime=") (v := p.minptime) (d := 0)
      c%"minptime" rfl (by decide) (by decide) rfl (by decide) (u32 _) with ⟨h1, h2⟩ | h
    · exact .inl ⟨h1, by simp [FmtpField.get, FmtpField.absent, h2]⟩
    · exact .inr ⟨_, rfl, h⟩
  | maxptime =>
    rcases fieldText_u32 (f := .maxptime) (nm := c%"maxptime=") (v := p.maxptime) (d := 0)
      c%"maxptime" rfl (by decide) (by decide) rfl (by decide) (u32 _) with ⟨h1, h2⟩ | h
    · exact .inl ⟨h1, by simp [FmtpField.get, FmtpField.absent, h2]⟩
    · exact .inr ⟨_, rfl, h⟩
  | usedtx =>
    rcases fieldText_bool (f := .usedtx) (v := p.usedtx) c%"usedtx"
      (by decide) (by decide) rfl (by decide) (by decide) with ⟨h1, h2⟩ | h
    · exact .inl ⟨h1, by simp [FmtpField.get, FmtpField.absent, h2]⟩
    · exact .inr ⟨_, rfl, h⟩
  | stereo =>
    rcases fieldText_bool (f := .stereo) (v := p.stereo) c%"stereo"
      (by decide) (by decide) rfl (by decide) (by decide) with ⟨h1, h2⟩ | h
    · exact .inl ⟨h1, by simp [FmtpField.get, FmtpField.absent, h2]⟩
    · exact .inr ⟨_, rfl, h⟩
  | useinbandfec =>
    rcases fieldText_bool (f := .useinbandfec) (v := p.useinbandfec) c%"useinbandfec"
      (by decide) (by decide) rfl (by decide) (by decide) with ⟨h1, h2⟩ | h
    · exact .inl ⟨h1, by simp [FmtpField.get, FmtpField.absent, h2]⟩
    · exact .inr ⟨_, rfl, h⟩
  | cbr =>
    rcases fieldText_bool (f := .cbr) (v := p.cbr) c%"cbr"
      (by decide) (by decide) rfl (by decide) (by decide) with ⟨h1, h2⟩ | h
    · exact .inl ⟨h1, by simp [FmtpField.get, FmtpField.absent, h2]⟩
    · exact .inr ⟨_, rfl, h⟩
  | profile =>
    rcases fieldText_opt (f := .profile) (nm := c%"profile=") (v := p.profile)
      c%"profile" rfl (by decide) (by decide) rfl (by decide) hr.profile with ⟨h1, h2⟩ | ⟨x, hx, h⟩
    · exact .inl ⟨h1, by simp [FmtpField.get, FmtpField.absent, h2]⟩
    · exact .inr ⟨_, by simp [FmtpField.get, hx], h⟩
  | levelIdx =>
    rcases fieldText_opt (f := .levelIdx) (nm := c%"level-idx=") (v := p.levelIdx)
      c%"level-idx" rfl (by decide) (by decide) rfl (by decide) hr.levelIdx with ⟨h1, h2⟩ | ⟨x, hx, h⟩
    · exact .inl ⟨h1, by simp [FmtpField.get, FmtpField.absent, h2]⟩
    · exact .inr ⟨_, by simp [FmtpField.get, hx], h⟩
  | tier =>
    rcases fieldText_opt (f := .tier) (nm := c%"tier=") (v := p.tier)
      c%"tier" rfl (by decide) (by decide) rfl (by decide) hr.tier with ⟨h1, h2⟩ | ⟨x, hx, h⟩
    · exact .inl ⟨h1, by simp [FmtpField.get, FmtpField.absent, h2]⟩
    · exact .inr ⟨_, by simp [FmtpField.get, hx], h⟩

omit [Env] in
theorem hexPad_chars {w n : Nat} {c : Char} (h : c ∈ showHexPad w n) : IsHexDigit c := by
  obtain ⟨-, h2, -⟩ := toDigits_sixteen n
  unfold showHexPad padLeft at h
  simp only [List.mem_append, List.mem_replicate] at h
  rcases h with ⟨-, rfl⟩ | h
  · left; decide
  · exact h2 c h

theorem FieldText.facts {f : FmtpField} {s : Str} {n : Nat} (h : FieldText f s n) :
    s ≠ [] ∧ '=' ∈ s ∧ ';' ∉ s ∧ EndsClean s := by
  obtain ⟨⟨name, v, rfl, h1, h2, -, hv⟩, -⟩ := h
  have hv' : v ≠ [] ∧ ∀ c ∈ v, IsHexDigit c := by
    by_cases hf : f = .profileLevelId
    · rw [if_pos hf] at hv
      subst hv
      refine ⟨?_, fun c hc => hexPad_chars hc⟩
      obtain ⟨h1, -, -⟩ := toDigits_sixteen n
      unfold showHexPad padLeft; simp [h1]
    · rw [if_neg hf] at hv
      subst hv
      exact ⟨showNat_ne_nil n, fun c hc => .inl (showNat_digits hc)⟩
  refine ⟨by simp, by simp, ?_, ?_⟩
  · simp only [List.mem_append, List.mem_cons, not_or]
    refine ⟨h2, by decide, fun hm => ?_⟩
    rcases hv'.2 _ hm with h | h | h
    · exact absurd h (by decide)
    · exact absurd h.1 (by decide)
    · exact absurd h.1 (by decide)
  · have : Token v := ⟨hv'.1, fun c hc => IpChar.noWs (.inl (hv'.2 c hc))⟩
    exact this.ends.cons.append

theorem FieldText.param {f : FmtpField} {s : Str} {n : Nat} (h : FieldText f s n) (q : FmtpParams) :
    fmtpParam q s = .ok (f.set q n) := by
  obtain ⟨⟨name, v, rfl, h1, -, h3, hv⟩, hm⟩ := h
  refine (fmtpParam_field h1 h3).2 ⟨n, ?_, hm, rfl⟩
  unfold FmtpField.Notation
  by_cases hf : f = .profileLevelId
  · rw [if_pos hf] at hv ⊢; subst hv; exact HexText.show 6 n
  · rw [if_neg hf] at hv ⊢; subst hv; exact DecText.show n

omit [Env] in
theorem nonEmpty_append (a b : List Str) : nonEmpty (a ++ b) = nonEmpty a ++ nonEmpty b := List.filter_append ..

theorem paramList_pieces {p : FmtpParams} (hr : FmtpInRange p) {fs : List FmtpField} (hnd : fs.Nodup)
    (hapt : .apt ∉ fs) {q : FmtpParams} (hq : ∀ f ∈ fs, f.get q = f.absent) :
    ∃ r, fmtpParamList q (nonEmpty (fs.map (pieceOf p))) = .ok r ∧ (∀ f ∈ fs, f.get r = f.get p) ∧
      (∀ f, f ∉ fs → f.get r = f.get q) ∧ r.rtx = q.rtx ∧ r.unknownTokens = q.unknownTokens ∧
      r.encodings = q.encodings ∧ r.dtmfTones = q.dtmfTones := by
  induction fs generalizing q with
  | nil => exact ⟨q, rfl, by simp, fun _ _ => rfl, rfl, rfl, rfl, rfl⟩
  | cons f fs ih =>
    have hfa : f ≠ .apt := fun h => hapt (by simp [h])
    obtain ⟨hn1, hn2⟩ := List.nodup_cons.1 hnd
    have hapt' : .apt ∉ fs := fun h => hapt (by simp [h])
    rcases pieceOf_cases hr hfa with ⟨h1, h2⟩ | ⟨n, h1, h2⟩
    · have : nonEmpty ((f :: fs).map (pieceOf p)) = nonEmpty (fs.map (pieceOf p)) := by
        simp [nonEmpty, h1]
      rw [this]
      obtain ⟨r, k1, k2, k3, k4⟩ := ih hn2 hapt' (q := q) fun g hg => hq g (by simp [hg])
      refine ⟨r, k1, ?_, fun g hg => k3 g fun h => hg (by simp [h]), k4⟩
      intro g hg
      rcases List.mem_cons.1 hg with rfl | hg
      · rw [k3 _ hn1, hq _ (by simp), h2]
      · exact k2 g hg
    · have : nonEmpty ((f :: fs).map (pieceOf p)) = pieceOf p f :: nonEmpty (fs.map (pieceOf p)) := by
        simp [nonEmpty, h2.facts.1]
      rw [this, fmtpParamList, h2.param, ok_bind]
      have hset : ∀ g, g ≠ f → g.get (f.set q n) = g.get q := fun g hg => FmtpField.get_set_ne q n (Ne.symm hg)
      obtain ⟨r, k1, k2, k3, k4, k5, k6, k7⟩ := ih hn2 hapt' (q := f.set q n) fun g hg => by
        rw [hset g (fun h => hn1 (h ▸ hg)), hq g (by simp [hg])]
      obtain ⟨u1, u2, u3⟩ := FmtpField.set_unknown f q n
      refine ⟨r, k1, ?_, ?_, by rw [k4, FmtpField.set_rtx q n hfa], by rw [k5, u1], by rw [k6, u2], by rw [k7, u3]⟩
      · intro g hg
        rcases List.mem_cons.1 hg with rfl | hg
        · rw [k3 _ hn1, FmtpField.get_set h2.le, h1]
        · exact k2 g hg
      · intro g hg
        rw [k3 g fun h => hg (by simp [h]), hset g fun h => hg (by simp [h])]

omit [Env] in
theorem get_default (f : FmtpField) : f.get FmtpParams.default = f.absent := by cases f <;> rfl

omit [Env] in
theorem fmtpOrder_mem {f : FmtpField} (h : f ≠ .apt) : f ∈ fmtpOrder := by
  cases f <;> first | exact absurd rfl h | simp [fmtpOrder]

omit [Env] in
theorem maybeVec_one {l : List Str} (h : l.length ≤ 1) (hn : ∀ t ∈ l, t ≠ []) :
    nonEmpty [maybeVec [] [] c%"," l] = l := by
  match l with
  | [] => rfl
  | [t] =>
    have ht := hn t (by simp)
    simp [maybeVec, nonEmpty, joinS, ht]
  | _ :: _ :: _ => simp at h

omit [Env] in
theorem semicolon_not_mem_u8 (n : UInt8) : ';' ∉ showU8 n := by
  intro h; have := showNat_digits h; exact absurd this (by decide)

theorem fmtpBlock_show {p : FmtpParams} (h : p.WF) :
    fmtpBlock FmtpParams.default (showFmtpParams p) = .ok p ∧ EndsClean (showFmtpParams p) := by
  cases h with
  | rtx r h rest un enc tn =>
    have e : showFmtpParams p = showRtx r := by simp [showFmtpParams, h]
    rw [e]
    obtain ⟨apt, time⟩ := r
    have ha : (c%"APT") = FmtpField.apt.text := rfl
    have hq : p = { FmtpParams.default with rtx := some ⟨apt, time⟩ } := by
      refine FmtpParams.ext_get (fun f hf => ?_) h un enc tn
      rw [rest f hf, ← get_default]
      cases f <;> first | rfl | exact absurd rfl hf
    have happ : ∀ q, fmtpParam q (c%"apt" ++ '=' :: showU8 apt) = .ok { q with rtx := some ⟨apt, none⟩ } := by
      intro q
      have := (fmtpParam_field (f := .apt) (p := q) (p' := { q with rtx := some ⟨apt, none⟩ }) (a := c%"apt")
        (v := showU8 apt) (by decide) rfl).2 ⟨apt.toNat, DecText.show _, by
          show apt.toNat ≤ 255
          have := apt.toNat_lt; omega, by simp [FmtpField.set]⟩
      exact this
    have hs : ';' ∉ c%"apt" ++ '=' :: showU8 apt := by
      simp only [List.mem_append, List.mem_cons, not_or]
      exact ⟨by decide, by decide, semicolon_not_mem_u8 _⟩
    cases time with
    | none =>
      have e : showRtx ⟨apt, none⟩ = c%"apt" ++ '=' :: showU8 apt := rfl
      rw [e]
      refine ⟨?_, (Token.u8 _).ends.cons.append⟩
      unfold fmtpBlock
      rw [if_pos (by simp), splitC_of_not_mem hs]
      rw [List.filter_eq_self.2 (by simp), fmtpParamList, happ, ok_bind, hq]
      rfl
    | some t =>
      have e : showRtx ⟨apt, some t⟩ = (c%"apt" ++ '=' :: showU8 apt) ++ ';' :: (c%"rtx-time" ++ '=' :: showU32 t) := by
        simp [showRtx]
      rw [e]
      have hs2 : ';' ∉ c%"rtx-time" ++ '=' :: showU32 t := by
        simp only [List.mem_append, List.mem_cons, not_or]
        refine ⟨by decide, by decide, fun h => ?_⟩
        have := showNat_digits h; exact absurd this (by decide)
      refine ⟨?_, ((Token.u32 _).ends.cons.append).cons.append⟩
      unfold fmtpBlock
      rw [if_pos (by simp), splitC_append hs, splitC_of_not_mem hs2]
      rw [List.filter_eq_self.2 (by simp), fmtpParamList, happ, ok_bind, fmtpParamList]
      have := (fmtpParam_rtx_time (p := { FmtpParams.default with rtx := some ⟨apt, none⟩ })
        (p' := p) (a := c%"rtx-time") (v := showU32 t) (by decide) rfl).2
        ⟨⟨apt, none⟩, rfl, t.toNat, DecText.show _, u32_max t, by rw [hq]; simp⟩
      rw [this]; rfl
  | tones h rest un enc rtx =>
    have hne : p.dtmfTones ≠ [] := by
      obtain ⟨items, h1, h2, h3⟩ := h
      rw [h2, ne_eq, joinS_eq_nil (by decide)]
      rintro (h | h)
      · exact h1 h
      · have := h3 [] (by simp [h])
        rcases this with ⟨n, ⟨ds, h, h', -⟩, -⟩ | ⟨a, b, m, n, h, -⟩
        · rcases h with h | h
          · exact h' h.symm
          · cases h
        · simp at h
    have e : showFmtpParams p = p.dtmfTones := by simp [showFmtpParams, rtx, hne]
    have hc : ∀ c ∈ p.dtmfTones, c = ',' ∨ c = '-' ∨ c = '+' ∨ c.isDigit = true := by
      obtain ⟨items, h1, h2, h3⟩ := h
      intro c hc
      rw [h2] at hc
      rcases mem_joinS hc with hc | ⟨t, ht, hc⟩
      · exact .inl (by simpa using hc)
      · rcases h3 t ht with ⟨n, hd, -⟩ | ⟨a, b, m, n, rfl, ha, hb, -⟩
        · rcases hd.chars c hc with h | h
          · exact .inr (.inr (.inl h))
          · exact .inr (.inr (.inr h))
        · simp only [List.mem_append, List.mem_cons] at hc
          rcases hc with hc | hc | hc
          · rcases ha.chars c hc with h | h
            · exact .inr (.inr (.inl h))
            · exact .inr (.inr (.inr h))
          · exact .inr (.inl hc)
          · rcases hb.chars c hc with h | h
            · exact .inr (.inr (.inl h))
            · exact .inr (.inr (.inr h))
    rw [e]
    refine ⟨?_, ?_⟩
    · unfold fmtpBlock
      rw [if_neg, if_neg, if_pos (toneList_iff.2 h)]
      · refine congrArg _ (FmtpParams.ext_get (fun f hf => ?_) rtx.symm un.symm enc.symm rfl)
        rw [rest f hf, ← get_default]
        cases f <;> first | rfl | exact absurd rfl hf
      · intro hm; rcases hc _ hm with h | h | h | h <;> exact absurd h (by decide)
      · intro hm; rcases hc _ hm with h | h | h | h <;> exact absurd h (by decide)
    · refine Token.ends ⟨hne, fun c h => ?_⟩
      rcases hc c h with rfl | rfl | rfl | h
      · decide
      · decide
      · decide
      · exact isDigit_ws h
  | red h le rest un tn rtx =>
    have hne : p.encodings ≠ [] := by intro h0; simp [h0] at h
    have e : showFmtpParams p = joinS c%"/" (p.encodings.map showU8) := by simp [showFmtpParams, rtx, tn, hne]
    have hslash : ∀ n : UInt8, '/' ∉ showU8 n := by
      intro n h; have := showNat_digits h; exact absurd this (by decide)
    have hsp : splitC '/' (joinS c%"/" (p.encodings.map showU8)) = p.encodings.map showU8 :=
      splitC_joinS (by simpa using hne) (by
        intro t ht; obtain ⟨n, -, rfl⟩ := List.mem_map.1 ht; exact hslash n)
    rw [e]
    refine ⟨?_, Token.joinS_ends (by simpa using hne) (by
      intro t ht; obtain ⟨n, -, rfl⟩ := List.mem_map.1 ht; exact (Token.u8 n).ends)⟩
    unfold fmtpBlock
    rw [if_neg, if_pos, hsp]
    · rw [fmtpRed_ok]
      refine ⟨p.encodings, ?_, ?_⟩
      · rw [List.forall₂_map_left_iff, List.forall₂_same]
        intro n hn; exact ⟨DecText.show _, le n hn⟩
      · refine FmtpParams.ext_get (fun f hf => ?_) rtx un rfl tn
        rw [rest f hf, ← get_default]
        cases f <;> first | rfl | exact absurd rfl hf
    · by_contra hm
      have := splitC_of_not_mem hm
      rw [hsp] at this
      have := congrArg List.length this
      simp at this; omega
    · intro hm
      rcases mem_joinS hm with hc | ⟨t, ht, hc⟩
      · simp at hc
      · obtain ⟨n, -, rfl⟩ := List.mem_map.1 ht
        have := showNat_digits hc; exact absurd this (by decide)
  | params hr rtx enc tn one un some =>
    have hun : ∀ t ∈ p.unknownTokens, t ≠ [] := fun t ht => (un t ht).clean.ne
    have hl : nonEmpty (fmtpPieces p) = nonEmpty (fmtpOrder.map (pieceOf p)) ++ p.unknownTokens := by
      rw [fmtpPieces_eq, nonEmpty_append, maybeVec_one one hun]
    have e : showFmtpParams p = joinS c%";" (nonEmpty (fmtpPieces p)) := by simp [showFmtpParams, rtx, tn, enc]
    have hp : ∀ s ∈ nonEmpty (fmtpPieces p), '=' ∈ s ∧ ';' ∉ s ∧ EndsClean s ∧ s ≠ [] := by
      intro s hs
      rw [hl] at hs
      rcases List.mem_append.1 hs with hs | hs
      · simp only [nonEmpty, List.mem_filter] at hs
        obtain ⟨hs, hne⟩ := hs
        obtain ⟨f, hf, rfl⟩ := List.mem_map.1 hs
        rcases pieceOf_cases hr (f := f) (by rintro rfl; simp [fmtpOrder] at hf) with ⟨h1, -⟩ | ⟨n, -, h⟩
        · rw [h1] at hne; simp at hne
        · exact ⟨h.facts.2.1, h.facts.2.2.1, h.facts.2.2.2, h.facts.1⟩
      · exact ⟨(un s hs).eq, (un s hs).noSemicolon, (un s hs).clean, hun s hs⟩
    have hne : nonEmpty (fmtpPieces p) ≠ [] := by
      intro h0
      rw [hl] at h0
      obtain ⟨h1, h2⟩ := List.append_eq_nil_iff.1 h0
      refine some (fun f hf => ?_) h2
      rcases pieceOf_cases hr hf with ⟨-, h⟩ | ⟨n, -, h⟩
      · exact h
      · have : pieceOf p f ∈ nonEmpty (fmtpOrder.map (pieceOf p)) := by
          simp only [nonEmpty, List.mem_filter, List.mem_map]
          exact ⟨⟨f, fmtpOrder_mem hf, rfl⟩, by simpa using h.facts.1⟩
        rw [h1] at this; simp at this
    rw [e]
    refine ⟨?_, Token.joinS_ends hne fun s hs => (hp s hs).2.2.1⟩
    unfold fmtpBlock
    rw [if_pos, splitC_joinS hne fun s hs => (hp s hs).2.1]
    · have hf : (nonEmpty (fmtpPieces p)).filter (fun t => !t.isEmpty) = nonEmpty (fmtpPieces p) := by
        unfold nonEmpty; rw [List.filter_filter]; simp
      rw [hf, hl]
      obtain ⟨r, k1, k2, k3, k4, k5, k6, k7⟩ := paramList_pieces hr (fs := fmtpOrder) (by decide) (by decide)
        (q := FmtpParams.default) fun f _ => get_default f
      rw [fmtpParamList_append]
      refine ⟨r, k1, ?_⟩
      have hfin : ∀ l : List Str, (∀ t ∈ l, UnknownParam t) → ∀ q,
          fmtpParamList q l = .ok { q with unknownTokens := q.unknownTokens ++ l } := by
        intro l
        induction l with
        | nil => intro _ q; simp [fmtpParamList]
        | cons t ts ih =>
          intro hl q
          have ht := hl t (by simp)
          obtain ⟨n1, n2⟩ := not_mem_fmtpNames.1 ht.name
          rw [fmtpParamList, fmtpParam_iff.2 (FmtpStep.unknown ht.eq n1 n2), ok_bind,
            ih (fun t h => hl t (by simp [h]))]
          simp
      rw [hfin _ un]
      refine congrArg _ (FmtpParams.ext_get (fun f hf => ?_) ?_ ?_ ?_ ?_)
      · have := k2 f (fmtpOrder_mem hf)
        rw [← this]; cases f <;> rfl
      · show r.rtx = p.rtx; rw [k4, rtx]; rfl
      · show r.unknownTokens ++ p.unknownTokens = p.unknownTokens; rw [k5]; rfl
      · show r.encodings = p.encodings; rw [k6, enc]; rfl
      · show r.dtmfTones = p.dtmfTones; rw [k7, tn]; rfl
    · cases hx : nonEmpty (fmtpPieces p) with
      | nil => exact absurd hx hne
      | cons s ss =>
        have := (hp s (by rw [hx]; simp)).1
        cases ss with
        | nil => exact this
        | cons _ _ => simp [joinS, this]

theorem prints_fmtp {f : Fmtp} (h : f.WF) : Prints .fmtp (showFmtp f) (.fmtp f) := by
  obtain ⟨pt, p⟩ := f
  obtain ⟨h1, h2⟩ := fmtpBlock_show h.parameters
  dsimp only at h1 h2
  have e : showFmtp ⟨pt, p⟩ = showU8 pt ++ ' ' :: showFmtpParams p := by
    simp [showFmtp, h2.ne]
  rw [e]
  refine ⟨⟨(Token.u8 _).begins.append, h2.cons.append⟩, ?_⟩
  show parseFmtp _ = _
  unfold parseFmtp
  rw [splitn_two_append (Token.u8 _).not_space]
  simp [idx, sliceFrom, fmtpBlocks, h1, parseU8_show]

/-! ## rid -/

/-- The pieces between semicolons; none for the empty text. -/
def pieces (s : Str) : List Str := if s = [] then [] else splitC ';' s

omit [Env] in
theorem pieces_join (l : List Str) : pieces (joinS c%";" (nonEmpty l)) = l.flatMap pieces := by
  have hn : ∀ l : List Str, l.flatMap pieces = (nonEmpty l).flatMap (splitC ';') := by
    intro l
    induction l with
    | nil => rfl
    | cons x xs ih =>
      by_cases hx : x = []
      · subst hx; simp only [List.flatMap_cons, pieces, if_pos, List.nil_append]; exact ih
      · have : nonEmpty (x :: xs) = x :: nonEmpty xs := by simp [nonEmpty, hx]
        rw [this, List.flatMap_cons, List.flatMap_cons, ih]; simp [pieces, hx]
  rw [hn]
  by_cases h : nonEmpty l = []
  · rw [h]; rfl
  · have hj : joinS c%";" (nonEmpty l) ≠ [] := by
      rw [ne_eq, joinS_eq_nil (by decide)]
      rintro (h' | h')
      · exact h h'
      · have : [] ∈ nonEmpty l := by rw [h']; simp
        simp [nonEmpty] at this
    unfold pieces
    rw [if_neg hj, splitC_joinS_flatMap h]

omit [Env] in
theorem pieces_single {s : Str} (h : ';' ∉ s) : pieces s = if s = [] then [] else [s] := by
  unfold pieces; rw [splitC_of_not_mem h]

omit [Env] in
theorem semicolon_not_mem_u32 (n : UInt32) : ';' ∉ showU32 n := by
  intro h; have := showNat_digits h; exact absurd this (by decide)

omit [Env] in
theorem pieces_maybeParam {nm : Str} (name : Str) (hnm : nm = name ++ ['=']) (h : ';' ∉ name) (v : UInt32) :
    pieces (maybeParam nm v 0) = if v = 0 then [] else [name ++ '=' :: showU32 v] := by
  have h' : maybeParam nm v 0 = if v = 0 then [] else name ++ '=' :: showU32 v := by
    unfold maybeParam
    by_cases hv : v = 0
    · simp [hv]
    · rw [if_pos hv, if_neg hv, hnm]; simp [showU32]
  rw [h']
  by_cases hv : v = 0
  · rw [if_pos hv, if_pos hv]; rfl
  · rw [if_neg hv, if_neg hv, pieces_single, if_neg (by simp)]
    simp only [List.mem_append, List.mem_cons, not_or]
    exact ⟨h, by decide, semicolon_not_mem_u32 _⟩

omit [Env] in
theorem ridParamList_append {st : RidState} {a b : List Str} :
    ridParamList st (a ++ b) = ridParamList st a >>= fun st => ridParamList st b := by
  induction a generalizing st with
  | nil => rfl
  | cons t ts ih =>
    simp only [List.cons_append, ridParamList]
    cases ridParam st t <;> simp [ih]

theorem ridParam_unknown {st : RidState} {u : Str} (he : '=' ∈ u)
    (hn : u.takeWhile (fun c => decide (c ≠ '=')) ∉ ridNames) :
    ridParam st u = .ok { st with params := { st.params with unknown := st.params.unknown ++ [u] } } := by
  obtain ⟨a, v, rfl, ha⟩ := eq_cases he
  rw [takeWhile_stop ha] at hn
  simp only [ridNames, List.mem_cons, List.not_mem_nil, or_false, not_or] at hn
  obtain ⟨n1, n2, n3, n4, n5, n6, n7⟩ := hn
  unfold ridParam
  rw [splitn_two_append ha]
  simp [idx, n1, n2, n3, n4, n5, n6, n7]

theorem ridParamList_unknown {st : RidState} {us : List Str}
    (h : ∀ u ∈ us, '=' ∈ u ∧ u.takeWhile (fun c => decide (c ≠ '=')) ∉ ridNames) :
    ridParamList st us = .ok { st with params := { st.params with unknown := st.params.unknown ++ us } } := by
  induction us generalizing st with
  | nil => simp [ridParamList]
  | cons u us ih =>
    obtain ⟨h1, h2⟩ := h u (by simp)
    rw [ridParamList, ridParam_unknown h1 h2, ok_bind, ih fun u hu => h u (by simp [hu])]
    simp

omit [Env] in
theorem stripPrefix_pt_none {u : Str} (h : u.takeWhile (fun c => decide (c ≠ '=')) ≠ c%"pt") :
    stripPrefix c%"pt=" u = none := by
  match u with
  | [] => rfl
  | [a] => by_cases h1 : 'p' = a <;> simp [stripPrefix, h1]
  | [a, b] => by_cases h1 : 'p' = a <;> by_cases h2 : 't' = b <;> simp [stripPrefix, h1, h2]
  | a :: b :: c :: r =>
    by_cases h1 : 'p' = a
    · by_cases h2 : 't' = b
      · by_cases h3 : '=' = c
        · subst h1 h2 h3; exact absurd rfl h
        · simp [stripPrefix, h1, h2, h3]
      · simp [stripPrefix, h1, h2]
    · simp [stripPrefix, h1]

/-- The single parameters of a printed rid after the formats. -/
def ridTail (r : Rid) : List Str :=
  (if r.params.maxWidth = 0 then [] else [c%"max-width" ++ '=' :: showU32 r.params.maxWidth]) ++
  ((if r.params.maxHeight = 0 then [] else [c%"max-height" ++ '=' :: showU32 r.params.maxHeight]) ++
  ((if r.params.maxFps = 0 then [] else [c%"max-fps" ++ '=' :: showU32 r.params.maxFps]) ++
  ((if r.params.maxFs = 0 then [] else [c%"max-fs" ++ '=' :: showU32 r.params.maxFs]) ++
  ((if r.params.maxBr = 0 then [] else [c%"max-br" ++ '=' :: showU32 r.params.maxBr]) ++
  ((if r.params.maxPps = 0 then [] else [c%"max-pps" ++ '=' :: showU32 r.params.maxPps]) ++
  (r.params.unknown ++
  (if r.depends = [] then [] else [c%"depends" ++ '=' :: joinS c%"," r.depends])))))))

def ridHead (r : Rid) : List Str :=
  if r.formats = [] then [] else [c%"pt=" ++ joinS c%"," (r.formats.map showU16)]

/-- The text after the direction. -/
def ridText (r : Rid) : Str :=
  joinS c%";" (nonEmpty [maybeVec c%"pt=" [] c%"," (r.formats.map showU16), showRidParams r.params,
    maybeVec c%"depends=" [] c%"," r.depends])

omit [Env] in
theorem pieces_unknown {us : List Str} (h : ∀ u ∈ us, ';' ∉ u ∧ u ≠ []) :
    pieces (maybeVec [] [] c%";" us) = us := by
  cases us with
  | nil => rfl
  | cons u us =>
    have hf : (u :: us).filter (fun s => !s.isEmpty) = u :: us := by
      rw [List.filter_eq_self]; intro t ht; simpa using (h t ht).2
    have e : maybeVec [] [] c%";" (u :: us) = joinS c%";" (u :: us) := by simp [maybeVec, hf]
    rw [e]
    have hj : joinS c%";" (u :: us) ≠ [] := by
      rw [ne_eq, joinS_eq_nil (by decide)]
      rintro (h' | h')
      · cases h'
      · simp at h'; exact (h u (by simp)).2 h'.1
    unfold pieces
    rw [if_neg hj, splitC_joinS (by simp) fun t ht => (h t ht).1]

omit [Env] in
theorem ridDepends_text {r : Rid} (h : r.depends = [[]] ∨ ∀ d ∈ r.depends, d ≠ [] ∧ ',' ∉ d ∧ ';' ∉ d) :
    maybeVec c%"depends=" [] c%"," r.depends =
      (if r.depends = [] then [] else c%"depends" ++ '=' :: joinS c%"," r.depends) ∧
    ';' ∉ joinS c%"," r.depends := by
  rcases h with h | h
  · rw [h]; exact ⟨rfl, by simp [joinS]⟩
  · constructor
    · cases hd : r.depends with
      | nil => rfl
      | cons d ds =>
        have hf : (d :: ds).filter (fun s => !s.isEmpty) = d :: ds := by
          rw [List.filter_eq_self]; intro t ht; rw [← hd] at ht; simpa using (h t ht).1
        simp [maybeVec, hf]
    · intro hm
      rcases mem_joinS hm with hc | ⟨t, ht, hc⟩
      · simp at hc
      · exact (h t ht).2.2 hc

omit [Env] in
theorem ridFormats_text (r : Rid) : maybeVec c%"pt=" [] c%"," (r.formats.map showU16) =
      (if r.formats = [] then [] else c%"pt=" ++ joinS c%"," (r.formats.map showU16)) ∧
    ';' ∉ c%"pt=" ++ joinS c%"," (r.formats.map showU16) := by
  constructor
  · cases hd : r.formats with
    | nil => rfl
    | cons d ds =>
      have hf : ((d :: ds).map showU16).filter (fun s => !s.isEmpty) = (d :: ds).map showU16 := by
        rw [List.filter_eq_self]
        intro t ht
        obtain ⟨n, -, rfl⟩ := List.mem_map.1 ht
        simpa using (Token.u16 n).ne
      simp only [List.map_cons] at hf ⊢
      simp [maybeVec, hf]
  · simp only [List.mem_append, not_or]
    refine ⟨by decide, fun hm => ?_⟩
    rcases mem_joinS hm with hc | ⟨t, ht, hc⟩
    · simp at hc
    · obtain ⟨n, -, rfl⟩ := List.mem_map.1 ht
      have := showNat_digits hc; exact absurd this (by decide)

omit [Env] in
theorem rid_pieces {r : Rid} (hu : ∀ u ∈ r.params.unknown, ';' ∉ u ∧ u ≠ [])
    (hd : r.depends = [[]] ∨ ∀ d ∈ r.depends, d ≠ [] ∧ ',' ∉ d ∧ ';' ∉ d) :
    pieces (ridText r) = ridHead r ++ ridTail r := by
  unfold ridText
  rw [pieces_join]
  obtain ⟨hd1, hd2⟩ := ridDepends_text hd
  obtain ⟨hf1, hf2⟩ := ridFormats_text r
  have hp : pieces (showRidParams r.params) = ridTail { r with depends := [] } := by
    unfold showRidParams
    rw [pieces_join]
    simp only [List.flatMap_cons, List.flatMap_nil, List.append_nil]
    rw [pieces_maybeParam (nm := c%"max-width=") c%"max-width" rfl (by decide),
      pieces_maybeParam (nm := c%"max-height=") c%"max-height" rfl (by decide),
      pieces_maybeParam (nm := c%"max-fps=") c%"max-fps" rfl (by decide),
      pieces_maybeParam (nm := c%"max-fs=") c%"max-fs" rfl (by decide),
      pieces_maybeParam (nm := c%"max-br=") c%"max-br" rfl (by decide),
      pieces_maybeParam (nm := c%"max-pps=") c%"max-pps" rfl (by decide),
      pieces_unknown hu]
    simp [ridTail]
  simp only [List.flatMap_cons, List.flatMap_nil, List.append_nil]
  rw [hp, hd1, hf1]
  have e1 : pieces (if r.formats = [] then [] else c%"pt=" ++ joinS c%"," (r.formats.map showU16)) = ridHead r := by
    unfold ridHead
    by_cases hx : r.formats = []
    · simp [hx, pieces]
    · rw [if_neg hx, if_neg hx, pieces_single hf2, if_neg (by simp)]
  have e2 : pieces (if r.depends = [] then [] else c%"depends" ++ '=' :: joinS c%"," r.depends) =
      if r.depends = [] then [] else [c%"depends" ++ '=' :: joinS c%"," r.depends] := by
    by_cases hx : r.depends = []
    · simp [hx, pieces]
    · rw [if_neg hx, if_neg hx, pieces_single, if_neg (by simp)]
      simp only [List.mem_append, List.mem_cons, not_or]
      exact ⟨by decide, by decide, hd2⟩
  rw [e1, e2]
  simp [ridTail]

omit [Env] in
theorem Rid.WF.pieces_eq {r : Rid} (h : r.WF) : pieces (ridText r) = ridHead r ++ ridTail r :=
  rid_pieces (fun u hu => ⟨(h.unknown u hu).2.1, List.ne_nil_of_mem (h.unknown u hu).1⟩) h.depends

theorem ridParamList_tail {r : Rid} (h : r.WF) :
    ridParamList RidState.default (ridTail r) = .ok ⟨r.params, r.depends⟩ := by
  obtain ⟨id, dir, fm, ⟨w, he, fps, fs, br, pps, un⟩, dep⟩ := r
  have hun := h.unknown
  have hdep := h.depends
  clear h
  dsimp only at hun hdep
  unfold ridTail
  dsimp only
  have step : ∀ {name : Str} {v : UInt32} {st : RidState}, '=' ∉ name → ridParam st (name ++ '=' :: showU32 v) =
      (if name = c%"max-width" then .ok { st with params := { st.params with maxWidth := v } }
      else if name = c%"max-height" then .ok { st with params := { st.params with maxHeight := v } }
      else if name = c%"max-fps" then .ok { st with params := { st.params with maxFps := v } }
      else if name = c%"max-fs" then .ok { st with params := { st.params with maxFs := v } }
      else if name = c%"max-br" then .ok { st with params := { st.params with maxBr := v } }
      else if name = c%"max-pps" then .ok { st with params := { st.params with maxPps := v } }
      else if name = c%"depends" then .ok { st with depends := st.depends ++ splitC ',' (showU32 v) }
      else .ok { st with params := { st.params with unknown := st.params.unknown ++ [name ++ '=' :: showU32 v] } }) := by
    intro name v st hn
    unfold ridParam
    rw [splitn_two_append hn]
    simp [idx, parseU32_show]
  have s1 : ∀ st : RidState, st.params.maxWidth = 0 → ridParamList st
      (if w = 0 then [] else [c%"max-width" ++ '=' :: showU32 w]) =
      .ok { st with params := { st.params with maxWidth := w } } := by
    intro st hs
    by_cases hw : w = 0
    · obtain ⟨⟨_, _, _, _, _, _, _⟩, _⟩ := st; subst hw; cases hs; rfl
    · rw [if_neg hw, ridParamList, step (by decide)]; simp [ridParamList]
  have s2 : ∀ st : RidState, st.params.maxHeight = 0 → ridParamList st
      (if he = 0 then [] else [c%"max-height" ++ '=' :: showU32 he]) =
      .ok { st with params := { st.params with maxHeight := he } } := by
    intro st hs
    by_cases hw : he = 0
    · obtain ⟨⟨_, _, _, _, _, _, _⟩, _⟩ := st; subst hw; cases hs; rfl
    · rw [if_neg hw, ridParamList, step (by decide)]; simp [ridParamList]
  have s3 : ∀ st : RidState, st.params.maxFps = 0 → ridParamList st
      (if fps = 0 then [] else [c%"max-fps" ++ '=' :: showU32 fps]) =
      .ok { st with params := { st.params with maxFps := fps } } := by
    intro st hs
    by_cases hw : fps = 0
    · obtain ⟨⟨_, _, _, _, _, _, _⟩, _⟩ := st; subst hw; cases hs; rfl
    · rw [if_neg hw, ridParamList, step (by decide)]; simp [ridParamList]
  have s4 : ∀ st : RidState, st.params.maxFs = 0 → ridParamList st
      (if fs = 0 then [] else [c%"max-fs" ++ '=' :: showU32 fs]) =
      .ok { st with params := { st.params with maxFs := fs } } := by
    intro st hs
    by_cases hw : fs = 0
    · obtain ⟨⟨_, _, _, _, _, _, _⟩, _⟩ := st; subst hw; cases hs; rfl
    · rw [if_neg hw, ridParamList, step (by decide)]; simp [ridParamList]
  have s5 : ∀ st : RidState, st.params.maxBr = 0 → ridParamList st
      (if br = 0 then [] else [c%"max-br" ++ '=' :: showU32 br]) =
      .ok { st with params := { st.params with maxBr := br } } := by
    intro st hs
    by_cases hw : br = 0
    · obtain ⟨⟨_, _, _, _, _, _, _⟩, _⟩ := st; subst hw; cases hs; rfl
    · rw [if_neg hw, ridParamList, step (by decide)]; simp [ridParamList]
  have s6 : ∀ st : RidState, st.params.maxPps = 0 → ridParamList st
      (if pps = 0 then [] else [c%"max-pps" ++ '=' :: showU32 pps]) =
      .ok { st with params := { st.params with maxPps := pps } } := by
    intro st hs
    by_cases hw : pps = 0
    · obtain ⟨⟨_, _, _, _, _, _, _⟩, _⟩ := st; subst hw; cases hs; rfl
    · rw [if_neg hw, ridParamList, step (by decide)]; simp [ridParamList]
  have s7 : ∀ st : RidState, st.depends = [] → ridParamList st
      (if dep = [] then [] else [c%"depends" ++ '=' :: joinS c%"," dep]) = .ok { st with depends := dep } := by
    intro st hs
    by_cases hw : dep = []
    · obtain ⟨_, _⟩ := st; subst hw; cases hs; rfl
    · have hsp : splitC ',' (joinS c%"," dep) = dep := by
        rcases hdep with h | h
        · rw [h]; rfl
        · exact splitC_joinS hw fun t ht => (h t ht).2.1
      rw [if_neg hw, ridParamList]
      unfold ridParam
      rw [splitn_two_append (by decide)]
      simp [idx, hsp, hs, ridParamList]
  rw [ridParamList_append, s1 _ rfl, ok_bind, ridParamList_append, s2 _ rfl, ok_bind, ridParamList_append, s3 _ rfl,
    ok_bind, ridParamList_append, s4 _ rfl, ok_bind, ridParamList_append, s5 _ rfl, ok_bind, ridParamList_append,
    s6 _ rfl, ok_bind, ridParamList_append,
    ridParamList_unknown (fun u hu => ⟨(hun u hu).1, (hun u hu).2.2⟩), ok_bind, s7 _ rfl]
  rfl

omit [Env] in
theorem ridTail_no_pt {r : Rid} (h : r.WF) (hf : r.formats = []) {t : Str} (ht : (ridTail r).head? = some t) :
    t.takeWhile (fun c => decide (c ≠ '=')) ≠ c%"pt" := by
  have key : ∀ {name v : Str}, '=' ∉ name → name ≠ c%"pt" →
      (name ++ '=' :: v).takeWhile (fun c => decide (c ≠ '=')) ≠ c%"pt" := by
    intro name v h1 h2; rwa [takeWhile_stop h1]
  unfold ridTail at ht
  by_cases h1 : r.params.maxWidth = 0
  on_goal 2 => (rw [if_neg h1] at ht; cases ht; exact key (by decide) (by decide))
  by_cases h2 : r.params.maxHeight = 0
  on_goal 2 => (rw [if_pos h1, if_neg h2] at ht; cases ht; exact key (by decide) (by decide))
  by_cases h3 : r.params.maxFps = 0
  on_goal 2 => (rw [if_pos h1, if_pos h2, if_neg h3] at ht; cases ht; exact key (by decide) (by decide))
  by_cases h4 : r.params.maxFs = 0
  on_goal 2 => (rw [if_pos h1, if_pos h2, if_pos h3, if_neg h4] at ht; cases ht; exact key (by decide) (by decide))
  by_cases h5 : r.params.maxBr = 0
  on_goal 2 => (rw [if_pos h1, if_pos h2, if_pos h3, if_pos h4, if_neg h5] at ht; cases ht; exact key (by decide) (by decide))
  by_cases h6 : r.params.maxPps = 0
  on_goal 2 => (rw [if_pos h1, if_pos h2, if_pos h3, if_pos h4, if_pos h5, if_neg h6] at ht; cases ht; exact key (by decide) (by decide))
  rw [if_pos h1, if_pos h2, if_pos h3, if_pos h4, if_pos h5, if_pos h6] at ht
  simp only [List.nil_append] at ht
  have hfirst := h.first ⟨hf, h1, h2, h3, h4, h5, h6⟩
  cases hu : r.params.unknown with
  | cons u us =>
    rw [hu] at ht hfirst
    exact hfirst t ht
  | nil =>
    rw [hu, List.nil_append] at ht
    split at ht
    · cases ht
    · cases ht; exact key (by decide) (by decide)

omit [Env] in
theorem ridFormats_show {r : Rid} (h : r.WF) : ridFormats (ridHead r ++ ridTail r) = .ok (r.formats, ridTail r) := by
  unfold ridHead
  by_cases hf : r.formats = []
  · rw [if_pos hf, List.nil_append, hf]
    cases ht : ridTail r with
    | nil => rfl
    | cons t ts =>
      unfold ridFormats
      dsimp only
      rw [stripPrefix_pt_none (ridTail_no_pt h hf (by rw [ht]; rfl))]
  · rw [if_neg hf]
    have hs : stripPrefix c%"pt=" (c%"pt=" ++ joinS c%"," (r.formats.map showU16)) =
        some (joinS c%"," (r.formats.map showU16)) := by simp [stripPrefix]
    simp only [List.cons_append, List.nil_append] at hs ⊢
    unfold ridFormats
    dsimp only
    rw [hs]
    simp only
    rw [splitC_joinS (by simpa using hf) (by
      intro t ht hm
      obtain ⟨n, -, rfl⟩ := List.mem_map.1 ht
      have := showNat_digits hm; exact absurd this (by decide)),
      collect_map_id (f := fun f => parseU16 (trim f)) (fun n _ => by
        rw [(Token.u16 n).trimmed.trim, parseU16_show])]
    rfl

omit [Env] in
theorem joinS_endsClean {l : List Str} {sep t : Str} (h : l.getLast? = some t) (ht : EndsClean t) :
    EndsClean (joinS sep l) := by
  induction l with
  | nil => cases h
  | cons x xs ih =>
    cases xs with
    | nil => cases h; exact ht
    | cons y ys => exact (ih (by simpa using h)).append

omit [Env] in
theorem endsClean_of_pieces {s : Str} (hs : s ≠ []) (h : ∀ t, (pieces s).getLast? = some t → EndsClean t) : EndsClean s := by
  unfold pieces at h
  rw [if_neg hs] at h
  rw [← joinS_splitC (c := ';') (s := s)]
  have hn := splitC_ne_nil ';' s
  exact joinS_endsClean (List.getLast?_eq_some_getLast hn) (h _ (List.getLast?_eq_some_getLast hn))

omit [Env] in
theorem ridDepends_ends {r : Rid} (h : r.WF) (hd : r.depends ≠ []) : EndsClean (c%"depends" ++ '=' :: joinS c%"," r.depends) := by
  rcases h.depends with h' | h'
  · rw [h']; exact ⟨c%"depends", '=', rfl, by decide⟩
  · have hl := List.getLast?_eq_some_getLast hd
    rcases h.lastDepends _ hl with k | k
    · exact absurd k (h' _ (List.getLast_mem hd)).1
    · exact ((joinS_endsClean hl k).cons).append

omit [Env] in
/-- Everything before the unknown parameters. -/
theorem ridFront_ends (r : Rid) : ∀ t ∈ ridHead r ++ ridTail { r with params := { r.params with unknown := [] }, depends := [] }, EndsClean t := by
  intro t ht
  simp only [ridHead, ridTail, List.mem_append] at ht
  have key : ∀ {name : Str} {v : UInt32}, EndsClean (name ++ '=' :: showU32 v) := (Token.u32 _).ends.cons.append
  rcases ht with ht | ht | ht | ht | ht | ht | ht | ht | ht
  · split at ht
    · simp at ht
    · rename_i hf
      simp only [List.mem_cons, List.not_mem_nil, or_false] at ht; subst ht
      exact (Token.joinS_ends (by simpa using hf) (by
        intro t ht; obtain ⟨n, -, rfl⟩ := List.mem_map.1 ht; exact (Token.u16 n).ends)).append
  · split at ht
    · simp at ht
    · simp only [List.mem_cons, List.not_mem_nil, or_false] at ht; subst ht; exact key
  · split at ht
    · simp at ht
    · simp only [List.mem_cons, List.not_mem_nil, or_false] at ht; subst ht; exact key
  · split at ht
    · simp at ht
    · simp only [List.mem_cons, List.not_mem_nil, or_false] at ht; subst ht; exact key
  · split at ht
    · simp at ht
    · simp only [List.mem_cons, List.not_mem_nil, or_false] at ht; subst ht; exact key
  · split at ht
    · simp at ht
    · simp only [List.mem_cons, List.not_mem_nil, or_false] at ht; subst ht; exact key
  · split at ht
    · simp at ht
    · simp only [List.mem_cons, List.not_mem_nil, or_false] at ht; subst ht; exact key
  · cases ht
  · simp at ht

omit [Env] in
theorem ridTail_split (r : Rid) : ridTail r = ridTail { r with params := { r.params with unknown := [] }, depends := [] } ++
    (r.params.unknown ++ (if r.depends = [] then [] else [c%"depends" ++ '=' :: joinS c%"," r.depends])) := by
  simp only [ridTail, List.append_assoc, List.nil_append, if_true]

omit [Env] in
theorem ridParts_ends {r : Rid} (h : r.WF) {t : Str} (ht : (ridHead r ++ ridTail r).getLast? = some t) : EndsClean t := by
  rw [ridTail_split, ← List.append_assoc] at ht
  by_cases hd : r.depends = []
  · rw [if_pos hd, List.append_nil] at ht
    rw [List.getLast?_append] at ht
    cases hu : r.params.unknown.getLast? with
    | some u => rw [hu] at ht; cases ht; exact h.lastUnknown hd _ hu
    | none => rw [hu] at ht; exact ridFront_ends r t (List.mem_of_getLast? ht)
  · rw [if_neg hd, ← List.append_assoc, List.getLast?_concat] at ht
    cases ht
    exact ridDepends_ends h hd

theorem prints_rid {r : Rid} (h : r.WF) : Prints .rid (showRid r) (.rid r) := by
  have hdir : Token (showSingleDirection r.direction) := by cases r.direction <;> exact ⟨by decide, by decide⟩
  have pdir : parseSingleDirection (showSingleDirection r.direction) = .ok r.direction := by
    cases r.direction <;> rfl
  have hpe := h.pieces_eq
  have e : showRid r = r.id ++ ' ' :: (showSingleDirection r.direction ++
      (if ridText r = [] then [] else ' ' :: ridText r)) := by
    unfold showRid
    rw [show joinS c%";" (nonEmpty
        [ maybeVec c%"pt=" [] c%"," (r.formats.map showU16),
          showRidParams r.params,
          maybeVec c%"depends=" [] c%"," r.depends ]) = ridText r from rfl]
    cases ridText r <;> simp
  rw [e]
  by_cases ht : ridText r = []
  · rw [if_pos ht, List.append_nil]
    refine ⟨⟨h.id.1.append, hdir.ends.cons.append⟩, ?_⟩
    show parseRid _ = _
    unfold parseRid
    rw [splitn_append h.id.2, splitn_of_not_mem hdir.not_space]
    have hnil : ridHead r ++ ridTail r = [] := by rw [← hpe, ht]; rfl
    obtain ⟨h1, h2⟩ := List.append_eq_nil_iff.1 hnil
    have hl := ridParamList_tail h
    rw [h2] at hl
    have hf : r.formats = [] := by
      unfold ridHead at h1
      by_cases hf : r.formats = []
      · exact hf
      · rw [if_neg hf] at h1; cases h1
    simp only [ridParamList, Outcome.ok.injEq] at hl
    simp [idx, pdir, hl]
    rw [← hf]
  · rw [if_neg ht]
    refine ⟨⟨h.id.1.append, ?_⟩, ?_⟩
    · refine (EndsClean.cons (EndsClean.append (EndsClean.cons ?_))).append
      exact endsClean_of_pieces ht (by rw [hpe]; exact fun t => ridParts_ends h)
    · show parseRid _ = _
      unfold parseRid
      rw [splitn_append h.id.2, splitn_append hdir.not_space]
      have hsp : splitC ';' (ridText r) = ridHead r ++ ridTail r := by
        rw [← hpe]; unfold pieces; rw [if_neg ht]
      simp [idx, splitn, pdir, hsp, ridFormats_show h, ridParamList_tail h]

end

end Sdp
