import Verif.Lemmas.Canonical3
import Verif.Props.RoundTrip
import Verif.Props.Parsed
/-!
# The exact text that is written

Properties C80 and C81. The grammar of the written text is in `Spec/Canonical.lean`.
-/

namespace Sdp

/-! ## C80 -/

/-- **C80.** A number is written in decimal, without sign and leading zeros. -/
theorem C80_number {n : Nat} {t : Str} : t = showNat n ↔ number n t := numberField_iff.symm

/-- **C80.** IP addresses are written as RFC 5952 has them: the longest run of zero groups, and the first of
these, is shortened. -/
theorem C80_ip {a : IpAddr} {t : Str} : t = showIp a ↔ ipField a t := (Only.ip a t).symm

section
variable [Env]

/-- **C80.** The text of an attribute is the canonical one: there is no other. -/
theorem C80_attribute {a : Attribute} {t : Str} : t = showAttribute a ↔ attributeField a t := (Only.attribute a t).symm

/-- **C80.** The same for the values of the other lines. -/
theorem C80_origin {o : Origin} {t : Str} : t = showOrigin o ↔ originField o t := (Only.origin o t).symm

/-- **C80.** Connections. -/
theorem C80_connection {c : Connection} {t : Str} : t = showConnection c ↔ connectionField c t := (Only.connection c t).symm

/-- **C80.** Bandwidths. -/
theorem C80_bandwidth {b : Bandwidth} {t : Str} : t = showBandwidth b ↔ bandwidthField b t := (Only.bandwidth b t).symm

/-- **C80.** Timings. -/
theorem C80_timing {x : Timing} {t : Str} : t = showTiming x ↔ timingField x t := (Only.timing x t).symm

/-- **C80.** Media lines. -/
theorem C80_media_line {m : MediaLine} {t : Str} : t = showMediaLine m ↔ mediaLineField m t := (Only.mediaLine m t).symm

/-- **C80.** The text of a session is the canonical one. -/
theorem C80_session {s : Session} {t : Str} : t = showSession s ↔ SessionWritten s t := (sessionWritten_iff s t).symm

/-- **C80.** The text of an error: the kind, the message, and the line where it occurred. -/
theorem C80_error {e : ParserError} {t : Str} : t = showParserError e ↔ errorField e t := (Only.error e t).symm

end

/-! ## C81 -/

section
variable [Env]

/-- **C81.** A canonical text is parsed to its session without warnings, whatever the second argument, and the
session is written back as this very text. -/
theorem C81_reproduced {s : Session} {t : Str} (h : s.WF) (hm : s.media ≠ []) (ht : SessionWritten s t) (f : Bool) :
    ∃ r, parseSdp t f = .ok r ∧ r = { s with warnings := [] } ∧ showSession r = t := by
  rw [sessionWritten_iff] at ht
  subst ht
  exact ⟨_, C26_with_media s h hm f, rfl, rfl⟩

/-- **C81.** The same for attributes. -/
theorem C81_attribute {a : Attribute} {t : Str} (h : a.WF) (ht : attributeField a t) :
    attrFromStr t = .ok a ∧ ∀ b, attrFromStr t = .ok b → showAttribute b = t := by
  rw [Only.attribute a t] at ht
  subst ht
  have := (C24_attribute_round_trip a h).1
  refine ⟨this, fun b hb => ?_⟩
  rw [this] at hb
  rw [Outcome.ok.inj hb]

end

section
attribute [local instance] sampleEnv

example : ipField (.v6 0x20010db8000000000001000000000001) c%"2001:db8::1:0:0:1" := C80_ip.1 (by decide +kernel)
/-- The second run of zeros, upper case and leading zeros are not canonical. -/
example : ¬ ipField (.v6 0x20010db8000000000001000000000001) c%"2001:db8:0:0:1::1" :=
  fun h => absurd (C80_ip.2 h) (by decide +kernel)
example : ¬ ipField (.v6 0x20010db8000000000001000000000001) c%"2001:DB8::1:0:0:1" :=
  fun h => absurd (C80_ip.2 h) (by decide +kernel)
example : attributeField (.fingerprint ⟨.sha256, [0x0a, 0xff]⟩) c%"fingerprint:sha-256 0A:FF" :=
  C80_attribute.1 (by decide +kernel)
example : ¬ attributeField (.fingerprint ⟨.sha256, [0x0a, 0xff]⟩) c%"fingerprint:sha-256 0a:ff" :=
  fun h => absurd (C80_attribute.2 h) (by decide +kernel)
example : attributeField (.rid ⟨c%"hi", .send, [96, 97], { maxWidth := 640, maxHeight := 0, maxFps := 30, maxFs := 0, maxBr := 0, maxPps := 0, unknown := [c%"x=1"] }, [c%"lo"]⟩)
    c%"rid:hi send pt=96,97;max-width=640;max-fps=30;x=1;depends=lo" := C80_attribute.1 (by decide +kernel)
example : mediaLineField ⟨.video, 9, 2, .udpTlsRtpSavpf, .integers [96, 97]⟩ c%"video 9/2 UDP/TLS/RTP/SAVPF 96 97" :=
  C80_media_line.1 (by decide +kernel)
example : errorField (.line (.integer .invalidDigit) c%"a=ptime:x" 8)
    c%"Line error: Integer parsing error: invalid digit found in string in line(8): a=ptime:x" :=
  (C80_error (e := _)).1 (by decide +kernel)
example : ∃ t, SessionWritten sampleSession t ∧ t.take 21 = c%"v=0\r\no=- 42 7 IN IP4 " :=
  ⟨_, C80_session.1 rfl, by decide +kernel⟩
example : ∃ t r, SessionWritten sampleSession t ∧ parseSdp t true = .ok r ∧ showSession r = t :=
  have ⟨r, h⟩ := C81_reproduced sampleSession_wf (by decide) (C80_session.1 rfl) true
  ⟨_, r, C80_session.1 rfl, h.1, h.2.2⟩

end

end Sdp
