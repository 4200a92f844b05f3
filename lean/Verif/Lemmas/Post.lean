import Verif.Lemmas.NoPanic
import Verif.Lemmas.Consistent
import Verif.Spec.Ranges
/-!
# What successful attribute parsers return
-/

namespace Sdp

/-- `P` holds of the value, if there is one. -/
def Post {ε α : Type} (P : α → Prop) (x : Outcome ε α) : Prop := ∀ a, x = .ok a → P a

section
variable {ε α β : Type} {P : β → Prop}

theorem Post.ok {b : β} (h : P b) : Post P (Outcome.ok b : Outcome ε β) := by
  intro a ha; cases ha; exact h
theorem Post.pure {b : β} (h : P b) : Post P (Pure.pure b : Outcome ε β) := Post.ok h
theorem Post.err (e : ε) : Post P (Outcome.err e : Outcome ε β) := by intro a ha; cases ha
theorem Post.panic : Post P (Outcome.panic : Outcome ε β) := by intro a ha; cases ha
theorem Post.egeneric (m : Str) : Post P (egeneric m : IRes β) := Post.err _
theorem Post.eunsupported (m : Str) : Post P (eunsupported m : IRes β) := Post.err _
theorem Post.bind {x : Outcome ε α} {f : α → Outcome ε β} (h : ∀ a, x = .ok a → Post P (f a)) :
    Post P (x >>= f) := by
  intro b hb
  obtain ⟨a, ha, hf⟩ := bind_eq_ok.1 hb
  exact h a ha b hf
theorem Post.ite {c : Prop} [Decidable c] {a b : Outcome ε β} (h : c → Post P a) (h' : ¬c → Post P b) :
    Post P (if c then a else b) := by split <;> simp_all
end

/-- Decompose a goal `Post P x` along the structure of `x`. -/
syntax "post" : tactic
macro_rules
  | `(tactic| post) => `(tactic|
    repeat' (first
      | exact Post.err _ | exact Post.panic | exact Post.egeneric _ | exact Post.eunsupported _
      | with_reducible refine Post.ok ?_ | with_reducible refine Post.pure ?_
      | with_reducible refine Post.bind ?_
      | with_reducible refine Post.ite ?_ ?_
      | with_reducible intro _
      | split))

theorem not_gt_u32 {x : UInt32} (h : ¬ x > 65535) : x.toNat ≤ 65535 := by
  have := UInt32.not_lt.1 h
  simpa [UInt32.le_iff_toNat_le] using this

/-! ## fmtp -/

theorem FmtpInRange.default : FmtpInRange FmtpParams.default := by
  constructor <;> simp [FmtpParams.default]

set_option maxHeartbeats 1000000 in
theorem fmtpParam_range [Env] {p : FmtpParams} (hp : FmtpInRange p) (t : Str) :
    Post FmtpInRange (fmtpParam p t) := by
  obtain ⟨h1, h2, h3, h4, h5, h6⟩ := hp
  unfold fmtpParam
  simp only []
  refine Post.ite (fun _ => Post.egeneric _) fun _ => ?_
  post
  all_goals first
    | exact ⟨h1, h2, h3, h4, h5, h6⟩
    | exact ⟨by simpa [UInt32.le_iff_toNat_le] using ‹_ ≤ (2 : UInt32)›, h2, h3, h4, h5, h6⟩
    | exact ⟨h1, by simpa [UInt32.le_iff_toNat_le] using ‹_ ≤ (0x00ffffff : UInt32)›, h3, h4, h5, h6⟩
    | (refine ⟨h1, h2, ?_, h4, h5, h6⟩
       intro y hy; cases hy; simpa [UInt8.le_iff_toNat_le] using ‹_ ≤ (2 : UInt8)›)
    | (refine ⟨h1, h2, h3, ?_, h5, h6⟩
       intro y hy; cases hy; simpa [UInt8.le_iff_toNat_le] using ‹_ ≤ (31 : UInt8)›)
    | (refine ⟨h1, h2, h3, h4, ?_, h6⟩
       intro y hy; cases hy; simpa [UInt8.le_iff_toNat_le] using ‹_ ≤ (1 : UInt8)›)

theorem fmtpParamList_range [Env] {p : FmtpParams} (hp : FmtpInRange p) (l : List Str) :
    Post FmtpInRange (fmtpParamList p l) := by
  induction l generalizing p with
  | nil => exact Post.ok hp
  | cons t ts ih => exact Post.bind fun q hq => ih (fmtpParam_range hp t q hq)

theorem fmtpRed_range {p : FmtpParams} (hp : FmtpInRange p) (l : List Str) :
    Post FmtpInRange (fmtpRed p l) := by
  induction l generalizing p with
  | nil => exact Post.ok hp
  | cons t ts ih =>
    refine Post.bind fun x _ => Post.ite (fun hx => ih ?_) fun _ => Post.egeneric _
    obtain ⟨h1, h2, h3, h4, h5, h6⟩ := hp
    refine ⟨h1, h2, h3, h4, h5, ?_⟩
    intro y hy
    simp only [List.mem_append, List.mem_singleton] at hy
    rcases hy with hy | rfl
    · exact h6 y hy
    · simpa [UInt8.le_iff_toNat_le] using hx

theorem fmtpBlock_range [Env] {p : FmtpParams} (hp : FmtpInRange p) (b : Str) :
    Post FmtpInRange (fmtpBlock p b) := by
  unfold fmtpBlock
  refine Post.ite (fun _ => fmtpParamList_range hp _) fun _ => Post.ite (fun _ => fmtpRed_range hp _) fun _ => ?_
  obtain ⟨h1, h2, h3, h4, h5, h6⟩ := hp
  post <;> exact ⟨h1, h2, h3, h4, h5, h6⟩

theorem fmtpBlocks_range [Env] {p : FmtpParams} (hp : FmtpInRange p) (l : List Str) :
    Post FmtpInRange (fmtpBlocks p l) := by
  induction l generalizing p with
  | nil => exact Post.ok hp
  | cons t ts ih => exact Post.bind fun q hq => ih (fmtpBlock_range hp t q hq)

/-! ## Candidates -/

/-- The range of the port extension of a candidate. -/
def RportOk (c : Candidate) : Prop := ∀ p, c.rport = some p → p.toNat ≤ 65535

theorem candExt_range [Env] {c : Candidate} (hc : RportOk c ∧ c.port.toNat ≤ 65535) (n v : Str) :
    Post (fun c => RportOk c ∧ c.port.toNat ≤ 65535) (candExt c n v) := by
  unfold candExt
  simp only []
  post
  all_goals first
    | exact hc
    | (refine ⟨?_, hc.2⟩
       intro p hp; simp only [Option.some.injEq] at hp; subst hp; exact not_gt_u32 ‹_›)

theorem candExts_range [Env] {c : Candidate} (hc : RportOk c ∧ c.port.toNat ≤ 65535) (l : List Str) :
    Post (fun c => RportOk c ∧ c.port.toNat ≤ 65535) (candExts c l) := by
  induction c, l using candExts.induct with
  | case1 c n v rest ih =>
    rw [candExts]; exact Post.bind fun c' hc' => ih c' (candExt_range hc n v c' hc')
  | case2 c => rw [candExts]; exact Post.eunsupported _
  | case3 c => rw [candExts]; exact Post.ok hc

theorem parseCandidate_range [Env] (s : Str) :
    Post (fun a => ∃ c, a = .candidate c ∧ RportOk c ∧ c.port.toNat ≤ 65535) (parseCandidate s) := by
  unfold parseCandidate
  simp only []
  post
  refine ⟨_, rfl, ?_⟩
  rename_i hc
  refine candExts_range ?_ _ _ hc
  exact ⟨by intro p hp; simp at hp, not_gt_u32 ‹_›⟩

/-! ## All attributes -/

theorem octetCount_eq (h : HashType) : octetCount h = fingerprintBytes h := by cases h <;> rfl

theorem parseFingerprint_range (s : Str) :
    Post (fun a => a.type = .fingerprint ∧ InRange a) (parseFingerprint s) := by
  unfold parseFingerprint
  simp only []
  post
  rename_i f hf
  refine ⟨rfl, ?_⟩
  unfold fingerprintTryFrom at hf
  split at hf
  · rename_i h; cases hf; simpa [InRange, ← octetCount_eq] using h.symm
  · simp at hf

theorem parseFramerate_range [Env] (s : Str) :
    Post (fun a => a.type = .frameRate ∧ InRange a) (parseFramerate s) := by
  unfold parseFramerate
  refine Post.bind fun x _ => ?_
  refine Post.ite (fun _ => Post.egeneric _) fun h1 => Post.ite (fun _ => Post.egeneric _) fun h2 =>
    Post.ite (fun _ => Post.egeneric _) fun h3 => Post.pure ⟨rfl, ?_⟩
  simp only [F64.isNan, F64.isInf, F64.isZero, decide_eq_true_eq] at h1 h2 h3
  exact ⟨h3, by omega⟩

theorem parseAttrValue_range [Env] (t : AttributeType) (v : Str) :
    Post (fun a => a.type = t ∧ InRange a) (parseAttrValue t v) := by
  cases t <;> simp only [parseAttrValue]
  case candidate =>
    intro a ha
    obtain ⟨c, rfl, h1, h2⟩ := parseCandidate_range v a ha
    exact ⟨rfl, h2, h1⟩
  case fingerprint => exact parseFingerprint_range v
  case frameRate => exact parseFramerate_range v
  case fmtp =>
    unfold parseFmtp
    simp only []
    post
    exact ⟨rfl, fmtpBlocks_range FmtpInRange.default _ _ ‹_›⟩
  case icePwd =>
    unfold stringOrEmpty
    split <;> simp_all [Post, egeneric, InRange, Attribute.type]
  case iceUfrag =>
    unfold stringOrEmpty
    split <;> simp_all [Post, egeneric, InRange, Attribute.type]
  case identity =>
    unfold stringOrEmpty
    split <;> simp_all [Post, egeneric, InRange, Attribute.type]
  case label =>
    unfold stringOrEmpty
    split <;> simp_all [Post, egeneric, InRange, Attribute.type]
  case mid =>
    unfold stringOrEmpty
    split <;> simp_all [Post, egeneric, InRange, Attribute.type]
  case remoteCandidate =>
    unfold parseRemoteCandidates
    simp only []
    post
    exact ⟨rfl, not_gt_u32 ‹_›⟩
  case sctpPort =>
    unfold parseSctpPort
    post
    rename_i h
    exact ⟨rfl, by simpa [InRange, UInt64.le_iff_toNat_le] using UInt64.not_lt.1 h⟩
  case icePacing =>
    unfold parseIcePacing
    post
    rename_i h
    exact ⟨rfl, by simpa [InRange, UInt64.lt_iff_toNat_lt] using UInt64.not_le.1 h⟩
  case rtpmap =>
    unfold parseRtpmap
    post
    all_goals
      refine ⟨rfl, ?_⟩
      have h127 : ∀ x : UInt8, ¬ x > 127 → x.toNat ≤ 127 := fun x hx => by
        simpa [UInt8.le_iff_toNat_le] using UInt8.not_lt.1 hx
      exact h127 _ ‹_›
  case ssrcGroup =>
    unfold parseSsrcGroup
    post
    rename_i h
    exact ⟨rfl, by simpa [InRange] using h⟩
  case dtlsMessage => unfold parseDtlsMessage; simp only []; post <;> exact ⟨rfl, trivial⟩
  case imageAttr => unfold parseImageAttr; simp only []; post <;> exact ⟨rfl, trivial⟩
  case msidSemantic => unfold parseMsidSemantic; simp only []; post <;> exact ⟨rfl, trivial⟩
  case rid => unfold parseRid; simp only []; post <;> exact ⟨rfl, trivial⟩
  case extmap => unfold parseExtmap; simp only []; post <;> exact ⟨rfl, trivial⟩
  case group => unfold parseGroup; simp only []; post <;> exact ⟨rfl, trivial⟩
  case iceOptions => unfold parseIceOptions; simp only []; post <;> exact ⟨rfl, trivial⟩
  case msid => unfold parseMsid; simp only []; post <;> exact ⟨rfl, trivial⟩
  case rtcp => unfold parseRtcp; simp only []; post <;> exact ⟨rfl, trivial⟩
  case rtcpfb => unfold parseRtcpFb; simp only []; post <;> exact ⟨rfl, trivial⟩
  case sctpmap => unfold parseSctpmap; simp only []; post <;> exact ⟨rfl, trivial⟩
  case setup => unfold parseSetup; simp only []; post <;> exact ⟨rfl, trivial⟩
  case simulcast => unfold parseSimulcast; simp only []; post <;> exact ⟨rfl, trivial⟩
  all_goals post <;> exact ⟨rfl, trivial⟩

end Sdp
