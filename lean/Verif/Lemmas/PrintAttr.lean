import Verif.Lemmas.Print4
import Verif.Lemmas.Dispatch
/-!
# The printed form of a whole attribute is read back
-/

namespace Sdp

variable [Env]

theorem AttributeType.name_facts (t : AttributeType) :
    ':' ∉ t.name ∧ lower t.name = t.name ∧ BeginsClean t.name ∧ Token t.name := by
  cases t <;> exact ⟨by decide, rfl, ⟨_, _, rfl, by decide⟩, by decide, by decide⟩

/-- Kinds with a value. -/
theorem round_value {t : AttributeType} {s : Str} {a : Attribute} (hf : isFlagName t.name = false)
    (h : Prints t s a) : Trimmed (t.name ++ ':' :: s) ∧ attrFromStr (t.name ++ ':' :: s) = .ok a := by
  obtain ⟨h1, h2, h3, -⟩ := t.name_facts
  refine ⟨⟨h3.append, h.1.2.cons.append⟩, ?_⟩
  rw [attrFromStr_colon h1, h2, hf, attrTypeOfName_name, h.1.trim]
  simpa using h.2

theorem round_attrToString {t : AttributeType} {s : Str} {a : Attribute} (hf : isFlagName t.name = false)
    (h : Prints t s a) : Trimmed (attrToString t s) ∧ attrFromStr (attrToString t s) = .ok a := by
  have e : attrToString t s = t.name ++ ':' :: s := by
    unfold attrToString
    rw [if_neg (by simpa using h.1.1.ne)]; simp
  rw [e]; exact round_value hf h

/-- Kinds without a value. -/
theorem round_flag {t : AttributeType} {a : Attribute} (h : parseAttrValue t [] = .ok a) :
    Trimmed t.name ∧ attrFromStr t.name = .ok a := by
  obtain ⟨h1, h2, -, h3⟩ := t.name_facts
  refine ⟨h3.trimmed, ?_⟩
  rw [attrFromStr_plain h1, h2, attrTypeOfName_name]; exact h

/-- The text of a well-formed attribute has no white space around it and denotes that attribute. -/
theorem attr_round {a : Attribute} (h : a.WF) :
    Trimmed (showAttribute a) ∧ attrFromStr (showAttribute a) = .ok a := by
  cases a <;> simp only [showAttribute]
  case candidate a => exact round_attrToString rfl (prints_candidate h)
  case dtlsMessage a => exact round_attrToString rfl (prints_dtls h)
  case extmap a => exact round_attrToString rfl (prints_extmap h)
  case fingerprint a => exact round_attrToString rfl (prints_fingerprint h)
  case fmtp a => exact round_attrToString rfl (prints_fmtp h)
  case frameRate a => exact round_attrToString rfl (prints_frameRate h.1 h.2)
  case group a => exact round_attrToString rfl (prints_group h)
  case iceOptions a => exact round_attrToString rfl (prints_iceOptions h.1 h.2)
  case icePacing a => exact round_attrToString rfl (prints_icePacing h)
  case icePwd a => exact round_attrToString rfl (prints_string h rfl)
  case iceUfrag a => exact round_attrToString rfl (prints_string h rfl)
  case identity a => exact round_attrToString rfl (prints_string h rfl)
  case imageAttr a => exact round_attrToString rfl (prints_imageAttr h)
  case label a => exact round_attrToString rfl (prints_string h rfl)
  case maxMessageSize a => exact round_attrToString rfl (prints_u64 fun _ => rfl)
  case maxPtime a => exact round_attrToString rfl (prints_u64 fun _ => rfl)
  case mid a => exact round_attrToString rfl (prints_string h rfl)
  case msid a => exact round_attrToString rfl (prints_msid h.1 h.2)
  case msidSemantic a => exact round_attrToString rfl (prints_msidSemantic h.1 h.2.1 h.2.2)
  case ptime a => exact round_attrToString rfl (prints_u64 fun _ => rfl)
  case rid a => exact round_attrToString rfl (prints_rid h)
  case remoteCandidate a => exact round_attrToString rfl (prints_remoteCandidate h.1 h.2)
  case rtpmap a => exact round_attrToString rfl (prints_rtpmap h)
  case rtcp a => exact round_attrToString rfl (prints_rtcp h)
  case rtcpfb a => exact round_attrToString rfl (prints_rtcpfb h)
  case sctpmap a => exact round_attrToString rfl prints_sctpmap
  case sctpPort a => exact round_attrToString rfl (prints_sctpPort h)
  case setup a => exact round_attrToString rfl prints_setup
  case simulcast a => exact round_attrToString rfl (prints_simulcast h)
  case ssrc a => exact round_attrToString rfl (prints_ssrc h)
  case ssrcGroup k l =>
    have := round_value (t := .ssrcGroup) rfl (prints_ssrcGroup (k := k) h.1 h.2)
    have hk : showSsrcGroupSemantic k ≠ [] := by cases k <;> decide
    have e : attrToString .ssrcGroup (showSsrcGroupSemantic k) ++ c%" " ++ joinS c%" " (l.map showSsrc) =
        AttributeType.ssrcGroup.name ++ ':' :: (showSsrcGroupSemantic k ++ c%" " ++ joinS c%" " (l.map showSsrc)) := by
      unfold attrToString
      rw [if_neg (by simpa using hk)]; simp
    rw [e]; exact this
  all_goals exact round_flag rfl

end Sdp
