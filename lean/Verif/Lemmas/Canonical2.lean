import Verif.Lemmas.FloatShow
import Verif.Lemmas.Canonical
/-!
# What is printed is the canonical text: attributes
-/

namespace Sdp

/-! ## Optional parts -/

theorem OnlyAll.cons' {P : Field} {s : Str} {Ps : List Field} {ss : List Str} (h : Only P s) (h' : OnlyAll Ps ss) :
    OnlyAll (P :: Ps) (s :: ss) := .cons h h'

theorem OnlyAll.one {P : Field} {s : Str} (h : Only P s) : OnlyAll [P] [s] := .cons h .nil

theorem OnlyAll.two {P Q : Field} {s t : Str} (h : Only P s) (h' : Only Q t) : OnlyAll [P, Q] [s, t] := .cons h (.one h')

theorem joinS_append {sep : Str} {l : List Str} (hl : l ≠ []) (m : List Str) :
    joinS sep (l ++ m) = joinS sep l ++ m.flatMap (fun x => sep ++ x) := by
  have hc : ∀ (x : Str) (m : List Str), joinS sep (x :: m) = x ++ m.flatMap (fun x => sep ++ x) := by
    intro x m
    induction m generalizing x with
    | nil => simp [joinS]
    | cons y m ih => rw [joinS, ih y] <;> simp
  cases l with
  | nil => exact absurd rfl hl
  | cons x r => rw [List.cons_append, hc, hc, List.flatMap_append, List.append_assoc]

theorem joinS_cons_flat (sep x : Str) (m : List Str) : joinS sep (x :: m) = x ++ m.flatMap (fun x => sep ++ x) :=
  joinS_append (l := [x]) (by simp) m

theorem showExts_flatMap (l : List (Str × Str)) :
    showExts l = (l.flatMap (fun e => [e.1, e.2])).flatMap (fun x => c%" " ++ x) := by
  induction l with
  | nil => rfl
  | cons e l ih => obtain ⟨a, b⟩ := e; simp [showExts, ih]

/-- The words of an optional part. -/
def optPieces {α : Type} (o : Option α) (g : α → List Str) : List Str :=
  match o with
  | none => []
  | some a => g a

theorem OnlyAll.opt {α : Type} {o : Option α} {f : α → List Field} {g : α → List Str}
    (h : ∀ a, OnlyAll (f a) (g a)) : OnlyAll (Sdp.optional o f) (optPieces o g) := by
  cases o with
  | none => exact .nil
  | some a => exact h a

theorem optPieces_flat {α : Type} (o : Option α) (name : Str) (g : α → Str) :
    (optPieces o (fun a => [name, g a])).flatMap (fun x => c%" " ++ x) = optStr (c%" " ++ name ++ c%" ") g o := by
  cases o <;> simp [optPieces, optStr]

theorem Only.candidate (c : Candidate) : Only (candidateField c) (showCandidate c) := by
  have h : OnlyAll [Sdp.word c.foundation, Sdp.number c.component.toNat, Sdp.word (transportWord c.transport),
      Sdp.number c.priority.toNat, addressField c.address, Sdp.number c.port.toNat, Sdp.word c%"typ",
      Sdp.word (candTypeText c.cType)] [c.foundation, showNat c.component.toNat, showCandTransport c.transport,
      showNat c.priority.toNat, showAddress c.address, showNat c.port.toNat, c%"typ", showCandType c.cType] := by
    have ht : transportWord c.transport = showCandTransport c.transport := by cases c.transport <;> rfl
    have hc : candTypeText c.cType = showCandType c.cType := by cases c.cType <;> rfl
    rw [ht, hc]
    exact .cons (.word _) (.cons (.number _) (.cons (.word _) (.cons (.number _) (.cons (.address _)
      (.cons (.number _) (.cons (.word _) (.one (.word _))))))))
  have h1 := OnlyAll.opt (o := c.raddr) (g := fun a => [c%"raddr", showAddress a]) (fun a => .two (.word _) (.address a))
  have h2 := OnlyAll.opt (o := c.rport) (g := fun a => [c%"rport", showU32 a]) (fun a => .two (.word _) (.number a.toNat))
  have h3 := OnlyAll.opt (o := c.tcpType) (f := fun a => [Sdp.word c%"tcptype", Sdp.word (tcpTypeText a)])
    (g := fun a => [c%"tcptype", showCandTcpType a])
    (fun a => by
      have : tcpTypeText a = showCandTcpType a := by cases a <;> rfl
      rw [this]; exact .two (.word _) (.word _))
  have h4 := OnlyAll.opt (o := c.generation) (g := fun a => [c%"generation", showU32 a]) (fun a => .two (.word _) (.number a.toNat))
  have h5 := OnlyAll.opt (o := c.ufrag) (g := fun a => [c%"ufrag", id a]) (fun a => .two (.word _) (.word a))
  have h6 := OnlyAll.opt (o := c.networkcost) (g := fun a => [c%"network-cost", showU32 a]) (fun a => .two (.word _) (.number a.toNat))
  have h7 := OnlyAll.flatMap (f := fun e : Str × Str => [Sdp.word e.1, Sdp.word e.2]) (g := fun e => [e.1, e.2])
    (fun e => .two (.word e.1) (.word e.2)) c.unknownExtensions
  have hall := (((((((h.append h1).append h2).append h3).append h4).append h5).append h6).append h7).spaced
  refine hall.of_eq ?_
  unfold showCandidate
  rw [showExts_flatMap]
  simp only [List.append_assoc]
  rw [joinS_append (by simp)]
  simp only [List.flatMap_append, optPieces_flat]
  simp [joinS, showU32, showU64]

theorem Only.dtlsMessage (m : DtlsMessage) : Only (dtlsMessageField m) (showDtlsMessage m) := by
  cases m with
  | client m => exact (OnlyAll.two (.word _) (.word _)).spaced.of_eq (by simp [joinS, showDtlsMessage])
  | server m => exact (OnlyAll.two (.word _) (.word _)).spaced.of_eq (by simp [joinS, showDtlsMessage])

theorem Only.extmap (e : Extmap) : Only (extmapField e) (showExtmap e) := by
  have h1 := OnlyAll.optional (o := e.direction) (fun d => .one (.word (directionText d)))
  have h2 := OnlyAll.optional (o := e.extensionAttributes) (fun x => .one (.word x))
  have hd : ∀ d, directionText d = showDirection d := by intro d; cases d <;> rfl
  refine ((OnlyAll.two (OnlyAll.cons (.number e.id.toNat) h1).separated (.word e.url)).append h2).spaced.of_eq ?_
  unfold showExtmap
  cases e.direction <;> cases e.extensionAttributes <;> simp [joinS, optStr, showU16, hd]

theorem hashText_show (h : HashType) : hashText h = showHashType h := by cases h <;> rfl

theorem Only.fingerprint (f : Fingerprint) : Only (fingerprintField f) (showFingerprint f) := by
  refine (OnlyAll.two (.word _) (OnlyAll.map (g := showByteHex) (fun _ _ => byteField_iff) _).separated).spaced.of_eq ?_
  simp [joinS, showFingerprint, hashText_show]

/-! ## fmtp -/

theorem nonEmpty_cons (x : Str) (l : List Str) : nonEmpty (x :: l) = nonEmpty [x] ++ nonEmpty l :=
  nonEmpty_append [x] l

theorem nonEmpty_nil : nonEmpty [] = [] := rfl

theorem nonEmpty_single {x : Str} : nonEmpty [x] = if x = [] then [] else [x] := by
  cases x <;> rfl

/-- One parameter as the specification has it, with what is printed for it. -/
theorem fmtpParameter_num {p : FmtpParams} {f : FmtpField} {name : Str} {x dflt : UInt32} (hf : f ≠ .profileLevelId)
    (hg : f.get p = some x.toNat) (ha : f.absent = some dflt.toNat) :
    ∃ ss, OnlyAll (fmtpParameter p (f, name)) ss ∧ nonEmpty ss = nonEmpty [maybeParam name x dflt] := by
  unfold fmtpParameter maybeParam
  simp only [hg, ha, hf, if_false]
  by_cases h : x = dflt
  · subst h
    exact ⟨[], by simpa using OnlyAll.nil, by simp [nonEmpty]⟩
  · have hn : ¬ (some x.toNat = some dflt.toNat) := by
      intro e; exact h (UInt32.toNat_inj.1 (Option.some.inj e))
    rw [if_neg hn, if_pos h]
    refine ⟨_, OnlyAll.one (OnlyAll.two (.word _) (.number _)).sequence, by simp⟩

theorem fmtpParameter_bool {p : FmtpParams} {f : FmtpField} {name word : Str} {x : Bool} (hf : f ≠ .profileLevelId)
    (hg : f.get p = some x.toNat) (ha : f.absent = some 0) (hw : word = name ++ c%"=") :
    ∃ ss, OnlyAll (fmtpParameter p (f, word)) ss ∧ nonEmpty ss = nonEmpty [maybeBool name x false] := by
  subst hw
  unfold fmtpParameter maybeBool
  simp only [hg, ha, hf, if_false]
  cases x with
  | false => exact ⟨[], by simpa using OnlyAll.nil, by simp [nonEmpty]⟩
  | true =>
    refine ⟨_, OnlyAll.one (OnlyAll.two (.word _) (.number 1)).sequence, by simp⟩

theorem fmtpParameter_opt {p : FmtpParams} {f : FmtpField} {name : Str} {x : Option UInt8} (hf : f ≠ .profileLevelId)
    (hg : f.get p = x.map (·.toNat)) (ha : f.absent = none) :
    ∃ ss, OnlyAll (fmtpParameter p (f, name)) ss ∧ nonEmpty ss = nonEmpty [optStr name showU8 x] := by
  unfold fmtpParameter
  simp only [hg, ha, hf, if_false]
  cases x with
  | none => exact ⟨[], by simpa using OnlyAll.nil, by simp [nonEmpty, optStr]⟩
  | some x =>
    refine ⟨_, OnlyAll.one (OnlyAll.two (.word _) (.number x.toNat)).sequence, by simp [optStr, showU8]⟩

theorem fmtpParameter_profile (p : FmtpParams) :
    ∃ ss, OnlyAll (fmtpParameter p (.profileLevelId, c%"profile-level-id=")) ss ∧
      nonEmpty ss = nonEmpty [maybeParamS c%"profile-level-id=" (showHexPad 6 p.profileLevelId.toNat) c%"42000a"] := by
  unfold fmtpParameter maybeParamS
  have he : showHexPad 6 p.profileLevelId.toNat = c%"42000a" ↔ p.profileLevelId.toNat = 0x42000a := by
    constructor
    · intro h
      have h1 := (hexNumber_show 6 p.profileLevelId.toNat).2.2.2.1
      rw [h] at h1
      rw [← h1]; decide
    · intro h; rw [h]; decide
  simp only [FmtpField.get, FmtpField.absent]
  by_cases h : p.profileLevelId.toNat = 0x42000a
  · rw [if_pos (by rw [h])]
    exact ⟨[], OnlyAll.nil, by rw [if_neg (by simpa using he.2 h)]; rfl⟩
  · rw [if_neg (by simpa using h), if_pos (by simpa using fun e => h (he.1 e))]
    exact ⟨_, OnlyAll.one (OnlyAll.two (.word _) (fun _ => hexNumber_iff)).sequence, by simp⟩

/-- Fields that print like the pieces, up to those that are empty. -/
def PrintsLike (Ps : List Field) (ss : List Str) : Prop := ∃ ts, OnlyAll Ps ts ∧ nonEmpty ts = nonEmpty ss

theorem PrintsLike.append {Ps Qs : List Field} {ss ts : List Str} (h : PrintsLike Ps ss) (h' : PrintsLike Qs ts) :
    PrintsLike (Ps ++ Qs) (ss ++ ts) := by
  obtain ⟨x, h1, h2⟩ := h
  obtain ⟨y, h3, h4⟩ := h'
  exact ⟨_, h1.append h3, by rw [nonEmpty_append, nonEmpty_append, h2, h4]⟩

theorem PrintsLike.cons {Ps Qs : List Field} {s : Str} {ts : List Str} (h : PrintsLike Ps [s]) (h' : PrintsLike Qs ts) :
    PrintsLike (Ps ++ Qs) (s :: ts) := h.append h'

theorem PrintsLike.nil : PrintsLike [] [] := ⟨[], .nil, rfl⟩

theorem PrintsLike.listed {pre sep : Str} {Ps : List Field} {ss : List Str} (h : OnlyAll Ps ss) :
    PrintsLike (listed pre sep Ps) [maybeVec pre [] sep ss] := by
  refine ⟨_, h.listed, ?_⟩
  by_cases hs : ss = []
  · subst hs; simp [maybeVec, nonEmpty]
  · rw [if_neg hs]

theorem PrintsLike.separatedNonEmpty {sep : Str} {Ps : List Field} {ss : List Str} (h : PrintsLike Ps ss) :
    Only (SeparatedNonEmpty sep Ps) (joinS sep (nonEmpty ss)) := by
  obtain ⟨ts, h1, h2⟩ := h
  rw [← h2]
  exact h1.separatedNonEmpty

theorem OnlyAll.words (l : List Str) : OnlyAll (l.map word) l := by
  have := OnlyAll.map (f := word) (g := id) Only.word l
  rwa [List.map_id] at this

theorem Only.fmtpParameters (p : FmtpParams) : Only (fmtpParametersField p) (showFmtpParams p) := by
  unfold fmtpParametersField showFmtpParams
  cases hr : p.rtx with
  | some r =>
    obtain ⟨apt, rt⟩ := r
    have h := OnlyAll.optional (o := rt)
      (fun x => .one (OnlyAll.two (.word c%"rtx-time=") (.number x.toNat)).sequence)
    refine (OnlyAll.cons (OnlyAll.two (.word c%"apt=") (.number apt.toNat)).sequence h).separated.of_eq ?_
    cases rt <;> simp [joinS, showRtx, showU8, showU32]
  | none =>
    dsimp only
    cases ht : p.dtmfTones with
    | cons x xs => exact .word _
    | nil =>
      cases he : p.encodings with
      | cons e es =>
        simp only [List.isEmpty_nil, List.isEmpty_cons, Bool.not_true, Bool.not_false, if_true]
        exact (OnlyAll.map (g := showU8) (fun e => .number e.toNat) (e :: es)).separated
      | nil =>
        simp only [List.isEmpty_nil, Bool.not_true]
        refine PrintsLike.separatedNonEmpty (ss := fmtpPieces p) ?_
        unfold fmtpWrittenOrder fmtpPieces
        simp only [List.flatMap_cons, List.flatMap_nil, List.append_assoc, List.nil_append]
        refine .cons (fmtpParameter_profile p) (.cons (fmtpParameter_bool (by decide) rfl rfl rfl)
          (.cons (fmtpParameter_num (by decide) rfl rfl) (.cons (fmtpParameter_num (by decide) rfl rfl)
          (.cons (fmtpParameter_num (by decide) rfl rfl) (.cons (fmtpParameter_num (by decide) rfl rfl)
          (.cons (fmtpParameter_num (by decide) rfl rfl) (.cons (fmtpParameter_num (by decide) rfl rfl)
          (.cons (fmtpParameter_num (by decide) rfl rfl) (.cons (fmtpParameter_opt (by decide) rfl rfl)
          (.cons (fmtpParameter_opt (by decide) rfl rfl) (.cons (fmtpParameter_opt (by decide) rfl rfl)
          (.cons (fmtpParameter_num (by decide) rfl rfl) (.cons (fmtpParameter_num (by decide) rfl rfl)
          (.cons (fmtpParameter_num (by decide) rfl rfl) (.cons (fmtpParameter_num (by decide) rfl rfl)
          (.cons (fmtpParameter_num (by decide) rfl rfl) (.cons (fmtpParameter_bool (by decide) rfl rfl rfl)
          (.cons (fmtpParameter_bool (by decide) rfl rfl rfl) (.cons (fmtpParameter_bool (by decide) rfl rfl rfl)
          (.cons (fmtpParameter_bool (by decide) rfl rfl rfl) (.listed (.words _))))))))))))))))))))))

theorem Only.fmtp (f : Fmtp) : Only (fmtpField f) (showFmtp f) := by
  intro t
  have h := Only.fmtpParameters f.parameters
  have hs : ∀ ps, Spaced [Sdp.number f.payloadType.toNat, Sdp.word ps] t ↔ t = showU8 f.payloadType ++ c%" " ++ ps := by
    intro ps
    have := (OnlyAll.two (.number f.payloadType.toNat) (.word ps)).spaced t
    simpa [joinS, showU8] using this
  unfold fmtpField showFmtp
  simp only [hs]
  constructor
  · rintro ⟨ps, h1, h2⟩
    rw [h.eq h1] at h2
    cases hp : showFmtpParams f.parameters with
    | nil => rw [hp] at h2; simpa using h2
    | cons x xs => rw [hp] at h2; simpa using h2
  · intro h1
    refine ⟨_, h.self, ?_⟩
    cases hp : showFmtpParams f.parameters with
    | nil => rw [hp] at h1; simpa using h1
    | cons x xs => rw [hp] at h1; simpa using h1

/-! ## The others -/

theorem Only.group (g : Group) : Only (groupField g) (showGroup g) := by
  refine (OnlyAll.cons (.word _) (OnlyAll.words g.tags).listed).sequence.of_eq ?_
  have hg : groupText g.semantics = showGroupSemantic g.semantics := by cases g.semantics <;> rfl
  unfold showGroup
  cases ht : g.tags <;> simp [hg, maybeVec]

theorem Only.payloadType (p : PayloadType) : Only (payloadTypeField p) (showPayloadType p) := by
  cases p with
  | pt n => exact .number _
  | wildcard => exact .word _

theorem Only.values {α : Type} {f : α → Field} {g : α → Str} (h : ∀ a, Only (f a) (g a)) (l : List α) :
    Only (valuesField (l.map f)) (showDiscrete g l) := by
  have hs := (OnlyAll.cons (.word c%"[") (.two (OnlyAll.map h l).separated (.word c%"]"))).sequence
    (ss := [c%"[", joinS c%"," (l.map g), c%"]"])
  cases l with
  | nil => exact hs.of_eq (by simp [showDiscrete])
  | cons a l =>
    cases l with
    | nil => exact h a
    | cons b l => exact hs.of_eq (by simp [showDiscrete])

theorem Only.xy (r : XyRange) : Only (xyField r) (showXyRange r) := by
  cases r with
  | range mn mx st =>
    have h := OnlyAll.optional (o := st) (fun s => .one (.number s.toNat))
    refine (OnlyAll.cons (.word _) (.two (OnlyAll.separated (OnlyAll.append (.cons (.number _) h) (.one (.number _))))
      (.word _))).sequence.of_eq ?_
    cases st <;> simp [joinS, showXyRange, showU32]
  | discrete vs => exact .values (g := showU32) (fun v => .number _) vs

section
variable [Env]

theorem Only.f32 (x : F32) : Only (F32Written x) x.text := fun t => by rw [← F32.text_iff]; exact eq_comm

theorem Only.f64 (x : F64) : Only (F64Written x) x.text := fun t => by rw [← F64.text_iff]; exact eq_comm

theorem Only.floatRange (mn mx : F32) :
    Only (floatRange mn mx) (c%"[" ++ F32.text mn ++ c%"-" ++ F32.text mx ++ c%"]") :=
  (OnlyAll.cons (.word _) (.two (OnlyAll.two (.f32 _) (.f32 _)).separated (.word _))).sequence.of_eq (by simp [joinS])

theorem Only.sar (r : SRange) : Only (sarField r) (showSRange r) := by
  cases r with
  | range mn mx => exact .floatRange mn mx
  | discrete vs => exact .values (g := F32.text) (fun v => .f32 v) vs

theorem Only.imageSet (s : ImageAttrSet) : Only (imageSetField s) (showImageAttrSet s) := by
  have h1 := OnlyAll.optional (o := s.sar) (fun r => .one (OnlyAll.two (.word c%"sar=") (.sar r)).sequence)
  have h2 := OnlyAll.optional (o := s.par) (fun r => .one (OnlyAll.two (.word c%"par=") (.floatRange r.min r.max)).sequence)
  have h3 := OnlyAll.optional (o := s.q) (fun q => .one (OnlyAll.two (.word c%"q=") (.f32 q)).sequence)
  refine (OnlyAll.cons (.word _) (.two (OnlyAll.separated ((((OnlyAll.two (OnlyAll.two (.word c%"x=") (.xy s.x)).sequence
    (OnlyAll.two (.word c%"y=") (.xy s.y)).sequence).append h1).append h2).append h3)) (.word _))).sequence.of_eq ?_
  unfold showImageAttrSet
  cases s.sar <;> cases s.par <;> cases s.q <;> simp [joinS, optStr, showPRange]

theorem OnlyAll.imageSets (name : Str) (l : ImageAttrSetList) :
    ∃ ss, OnlyAll (imageSetsFields name l) ss ∧
      ss.flatMap (fun x => c%" " ++ x) = optStr (c%" " ++ name ++ c%" ") showImageAttrSetList (maybeSets l) := by
  cases l with
  | wildcard => exact ⟨_, .two (.word _) (.word _), by simp [optStr, maybeSets, showImageAttrSetList]⟩
  | sets l =>
    cases l with
    | nil => exact ⟨[], .nil, by simp [optStr, maybeSets]⟩
    | cons s l =>
      refine ⟨_, .cons (.word _) (OnlyAll.map (g := showImageAttrSet) Only.imageSet (s :: l)), ?_⟩
      simp [optStr, maybeSets, showImageAttrSetList, joinS_cons_flat]

theorem Only.imageAttr (i : ImageAttr) : Only (imageAttrField i) (showImageAttr i) := by
  obtain ⟨ss, h1, e1⟩ := OnlyAll.imageSets c%"send" i.send
  obtain ⟨rs, h2, e2⟩ := OnlyAll.imageSets c%"recv" i.recv
  refine (OnlyAll.append (.cons (.payloadType i.pt) h1) h2).spaced.of_eq ?_
  rw [List.cons_append, joinS_cons_flat, List.flatMap_append, e1, e2]
  simp [showImageAttr]

end

theorem Only.msid (m : Msid) : Only (msidField m) (showMsid m) := by
  refine (OnlyAll.cons (.word m.id) (OnlyAll.optional (o := m.appdata) (fun a => .one (.word a)))).spaced.of_eq ?_
  unfold showMsid
  cases m.appdata <;> simp [joinS, optStr]

theorem Only.msidSemantic (m : MsidSemantic) : Only (msidSemanticField m) (showMsidSemantic m) := by
  unfold msidSemanticField showMsidSemantic
  cases h : m.msids with
  | nil => exact (OnlyAll.two (.word _) (.word _)).spaced.of_eq (by simp [joinS])
  | cons x l => exact (OnlyAll.cons (.word _) (OnlyAll.words (x :: l))).spaced.of_eq (by simp [joinS])

theorem joinS_nonEmpty_inner (sep : Str) (hs : sep ≠ []) (a c : List Str) (b : List Str) :
    joinS sep (nonEmpty (a ++ [joinS sep (nonEmpty b)] ++ c)) = joinS sep (nonEmpty (a ++ b ++ c)) := by
  by_cases hb : nonEmpty b = []
  · simp only [nonEmpty_append, hb, joinS]
    simp [nonEmpty]
  · have hne : joinS sep (nonEmpty b) ≠ [] := by
      cases hx : nonEmpty b with
      | nil => exact absurd hx hb
      | cons x r =>
        have hx' : x ≠ [] := by
          have : x ∈ nonEmpty b := by rw [hx]; simp
          simpa [nonEmpty] using (List.mem_filter.1 this).2
        cases r with
        | nil => simpa [joinS] using hx'
        | cons y r => simp [joinS, hx']
    rw [nonEmpty_append, nonEmpty_append, nonEmpty_single, if_neg hne, nonEmpty_append, nonEmpty_append]
    by_cases ha : nonEmpty a = []
    · rw [ha, List.nil_append, List.nil_append, joinS_append (by simp), joinS_append hb]
      simp [joinS]
    · rw [List.append_assoc, List.append_assoc, joinS_append ha, joinS_append ha]
      congr 1
      rw [List.flatMap_append, List.flatMap_append]
      congr 1
      cases hx : nonEmpty b with
      | nil => exact absurd hx hb
      | cons x r =>
        have : joinS sep (x :: r) = x ++ r.flatMap (fun x => sep ++ x) := joinS_append (l := [x]) (by simp) r
        simp [this]

theorem ridParameter {r : Rid} {f : RidField} {name : Str} {x : UInt32} (hg : f.get r.params = x) :
    PrintsLike (if f.get r.params = 0 then [] else [Sequence [word name, number (f.get r.params).toNat]])
      [maybeParam name x 0] := by
  rw [hg]
  unfold maybeParam
  by_cases h : x = 0
  · rw [if_pos h, if_neg (by simpa using h)]
    exact ⟨[], .nil, by simp [nonEmpty]⟩
  · rw [if_neg h, if_pos h]
    exact ⟨_, .one (OnlyAll.two (.word _) (.number _)).sequence, by simp⟩

theorem Only.rid (r : Rid) : Only (ridField r) (showRid r) := by
  have hp : PrintsLike (listed c%"pt=" c%"," (r.formats.map (fun f => Sdp.number f.toNat)) ++
      ridWrittenOrder.flatMap (fun f => if f.1.get r.params = 0 then [] else [Sequence [Sdp.word f.2, Sdp.number (f.1.get r.params).toNat]]) ++
      listed [] c%";" (r.params.unknown.map Sdp.word) ++ listed c%"depends=" c%"," (r.depends.map Sdp.word))
      ([maybeVec c%"pt=" [] c%"," (r.formats.map showU16)] ++
        [ maybeParam c%"max-width=" r.params.maxWidth 0, maybeParam c%"max-height=" r.params.maxHeight 0,
          maybeParam c%"max-fps=" r.params.maxFps 0, maybeParam c%"max-fs=" r.params.maxFs 0,
          maybeParam c%"max-br=" r.params.maxBr 0, maybeParam c%"max-pps=" r.params.maxPps 0,
          maybeVec [] [] c%";" r.params.unknown ] ++ [maybeVec c%"depends=" [] c%"," r.depends]) := by
    have hmid : PrintsLike (ridWrittenOrder.flatMap (fun f => if f.1.get r.params = 0 then []
          else [Sequence [Sdp.word f.2, Sdp.number (f.1.get r.params).toNat]]) ++ listed [] c%";" (r.params.unknown.map Sdp.word))
        [ maybeParam c%"max-width=" r.params.maxWidth 0, maybeParam c%"max-height=" r.params.maxHeight 0,
          maybeParam c%"max-fps=" r.params.maxFps 0, maybeParam c%"max-fs=" r.params.maxFs 0,
          maybeParam c%"max-br=" r.params.maxBr 0, maybeParam c%"max-pps=" r.params.maxPps 0,
          maybeVec [] [] c%";" r.params.unknown ] := by
      unfold ridWrittenOrder
      simp only [List.flatMap_cons, List.flatMap_nil, List.append_assoc, List.nil_append]
      exact .cons (ridParameter rfl) (.cons (ridParameter rfl) (.cons (ridParameter rfl) (.cons (ridParameter rfl)
        (.cons (ridParameter rfl) (.cons (ridParameter rfl) (.listed (.words _)))))))
    have := ((PrintsLike.listed (pre := c%"pt=") (sep := c%",") (OnlyAll.map (g := showU16) (fun f => Only.number f.toNat) r.formats)).append hmid).append
      (PrintsLike.listed (pre := c%"depends=") (sep := c%",") (OnlyAll.words r.depends))
    simpa only [List.append_assoc] using this
  have h := hp.separatedNonEmpty (sep := c%";")
  rw [← joinS_nonEmpty_inner c%";" (by simp)] at h
  have hd : singleDirectionText r.direction = showSingleDirection r.direction := by cases r.direction <;> rfl
  intro t
  have hs : ∀ ps, Spaced ([Sdp.word r.id, Sdp.word (singleDirectionText r.direction)] ++ if ps = [] then [] else [Sdp.word ps]) t ↔
      t = r.id ++ c%" " ++ showSingleDirection r.direction ++ (match ps with | [] => [] | x => c%" " ++ x) := by
    intro ps
    rw [← hd]
    cases ps with
    | nil => simpa [joinS] using (OnlyAll.two (.word r.id) (.word (singleDirectionText r.direction))).spaced t
    | cons x xs =>
      simpa [joinS] using (OnlyAll.cons (.word r.id) (.two (.word (singleDirectionText r.direction)) (.word (x :: xs)))).spaced t
  unfold ridField showRid showRidParams
  simp only [hs]
  simp only [List.cons_append, List.nil_append] at h
  constructor
  · rintro ⟨ps, h1, h2⟩
    rw [h.eq h1] at h2
    exact h2
  · intro h1
    exact ⟨_, h.self, h1⟩

theorem Only.remoteCandidate (c : RemoteCandidate) : Only (remoteCandidateField c) (showRemoteCandidate c) :=
  (OnlyAll.cons (.number _) (.two (.address _) (.number _))).spaced.of_eq (by simp [joinS, showRemoteCandidate, showU32])

theorem Only.rtpmap (r : Rtpmap) : Only (rtpmapField r) (showRtpmap r) := by
  have h := OnlyAll.optional (o := r.channels) (fun n => .one (.number n.toNat))
  refine (OnlyAll.two (.number _) (OnlyAll.append (.two (.word _) (.number _)) h).separated).spaced.of_eq ?_
  unfold showRtpmap
  cases r.channels <;> simp [joinS, optStr, showU8, showU32]

theorem Only.rtcp (r : Rtcp) : Only (rtcpField r) (showRtcp r) := by
  refine (OnlyAll.cons (.number _) (OnlyAll.optional (o := r.unicastAddr) (fun a => .one (.typed a)))).spaced.of_eq ?_
  unfold showRtcp
  cases r.unicastAddr <;> simp [joinS, showU16]

theorem Only.rtcpFb (r : RtcpFb) : Only (rtcpFbField r) (showRtcpFb r) := by
  have hf : fbText r.feedbackType = showRtcpFbType r.feedbackType := by cases r.feedbackType <;> rfl
  unfold rtcpFbField showRtcpFb
  cases hp : r.parameter with
  | nil => exact (OnlyAll.two (.payloadType _) (.word _)).spaced.of_eq (by simp [joinS, hf])
  | cons x xs =>
    cases he : r.extra with
    | nil => exact (OnlyAll.cons (.payloadType _) (.two (.word _) (.word _))).spaced.of_eq (by simp [joinS, hf, maybeParamS])
    | cons y ys =>
      exact (OnlyAll.cons (.payloadType _) (.cons (.word _) (.two (.word _) (.word _)))).spaced.of_eq
        (by simp [joinS, hf, maybeParamS])

theorem Only.sctpmap (s : Sctpmap) : Only (sctpmapField s) (showSctpmap s) :=
  (OnlyAll.cons (.number _) (.two (.word _) (.number _))).spaced.of_eq (by simp [joinS, showSctpmap, showU16, showU32])

theorem Only.simulcastVersion (v : SimulcastVersion) : Only (simulcastVersionField v) (showSimulcastVersion v) :=
  (OnlyAll.map (g := showSimulcastId) (fun i => .word _) v.ids).separated

theorem Only.simulcast (s : Simulcast) : Only (simulcastField s) (showSimulcast s) := by
  have h1 := (OnlyAll.map Only.simulcastVersion s.send).listed (pre := c%"send ") (sep := c%";")
  have h2 := (OnlyAll.map Only.simulcastVersion s.receive).listed (pre := c%"recv ") (sep := c%";")
  refine (h1.append h2).spaced.of_eq ?_
  unfold showSimulcast
  cases s.send <;> cases s.receive <;> simp [maybeVec, nonEmpty]

theorem Only.ssrc (s : Ssrc) : Only (ssrcField s) (showSsrc s) := by
  have h1 := OnlyAll.optional (o := s.attr) (fun a => .two (.word c%" ") (.word a))
  have h2 := OnlyAll.optional (o := s.value) (fun a => .two (.word c%":") (.word a))
  refine (OnlyAll.append (.cons (.number s.id.toNat) h1) h2).sequence.of_eq ?_
  unfold showSsrc
  cases s.attr <;> cases s.value <;> simp [optStr, showU32]

theorem ssrcGroupText_show (g : SsrcGroupSemantic) : ssrcGroupText g = showSsrcGroupSemantic g := by cases g <;> rfl

theorem Only.ssrcGroup (g : SsrcGroupSemantic) (l : List Ssrc) :
    Only (ssrcGroupField g l) (showSsrcGroupSemantic g ++ c%" " ++ joinS c%" " (l.map showSsrc)) :=
  (OnlyAll.cons (.word _) (.two (.word _) (OnlyAll.map Only.ssrc l).spaced)).sequence.of_eq (by simp [ssrcGroupText_show])

theorem Only.named {P : Field} {s name : Str} (h : Only P s) :
    Only (named name P) (if s.isEmpty then [] else name ++ c%":" ++ s) := by
  intro t
  unfold Sdp.named
  have : (∃ v, P v ∧ t = if v = [] then [] else name ++ ':' :: v) ↔ t = if s = [] then [] else name ++ ':' :: s :=
    ⟨fun ⟨v, h1, h2⟩ => h.eq h1 ▸ h2, fun h1 => ⟨s, h.self, h1⟩⟩
  rw [this]
  cases s <;> simp

variable [Env]

theorem Only.attr {ty : AttributeType} {P : Field} {s name : Str} (h : Only P s) (hn : ty.name = name) :
    Only (Sdp.named name P) (attrToString ty s) := by
  subst hn; exact .named h

theorem Only.attribute (a : Attribute) : Only (attributeField a) (showAttribute a) := by
  cases a with
  | bundleOnly | endOfCandidates | extmapAllowMixed | iceLite | iceMismatch | inactive | recvonly | rtcpMux | rtcpMuxOnly
  | rtcpRsize | sendonly | sendrecv => exact .word _
  | candidate c => exact .attr (.candidate c) rfl
  | dtlsMessage m => exact .attr (.dtlsMessage m) rfl
  | extmap e => exact .attr (.extmap e) rfl
  | fingerprint f => exact .attr (.fingerprint f) rfl
  | fmtp f => exact .attr (.fmtp f) rfl
  | frameRate f => exact .attr (.f64 _) rfl
  | group g => exact .attr (.group g) rfl
  | iceOptions os => exact .attr (OnlyAll.words os).spaced rfl
  | icePacing n | maxMessageSize n | maxPtime n | ptime n | sctpPort n => exact .attr (.number _) rfl
  | icePwd s | iceUfrag s | identity s | label s | mid s => exact .attr (.word _) rfl
  | imageAttr i => exact .attr (.imageAttr i) rfl
  | msid m => exact .attr (.msid m) rfl
  | msidSemantic m => exact .attr (.msidSemantic m) rfl
  | rid r => exact .attr (.rid r) rfl
  | remoteCandidate c => exact .attr (.remoteCandidate c) rfl
  | rtpmap r => exact .attr (.rtpmap r) rfl
  | rtcp r => exact .attr (.rtcp r) rfl
  | rtcpfb r => exact .attr (.rtcpFb r) rfl
  | sctpmap s => exact .attr (.sctpmap s) rfl
  | setup s =>
    have : setupText s = showSetup s := by cases s <;> rfl
    rw [attributeField, this]; exact .attr (.word _) rfl
  | simulcast s => exact .attr (.simulcast s) rfl
  | ssrc s => exact .attr (.ssrc s) rfl
  | ssrcGroup g l =>
    refine (Only.named (.ssrcGroup g l)).of_eq ?_
    have h : showSsrcGroupSemantic g ≠ [] := by cases g <;> decide
    cases hg : showSsrcGroupSemantic g with
    | nil => exact absurd hg h
    | cons x xs => simp [showAttribute, attrToString, hg, AttributeType.name]

end Sdp
