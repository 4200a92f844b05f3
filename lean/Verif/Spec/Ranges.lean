import Verif.Model.Session
/-!
# Ranges of the numbers in an accepted line
-/

namespace Sdp

/-- The documented ranges of format parameters. -/
structure FmtpInRange (p : FmtpParams) : Prop where
  packetizationMode : p.packetizationMode.toNat ≤ 2
  profileLevelId : p.profileLevelId.toNat ≤ 0xffffff
  profile : ∀ x, p.profile = some x → x.toNat ≤ 2
  levelIdx : ∀ x, p.levelIdx = some x → x.toNat ≤ 31
  tier : ∀ x, p.tier = some x → x.toNat ≤ 1
  encodings : ∀ x ∈ p.encodings, x.toNat ≤ 128

/-- The number of bytes of a fingerprint. -/
def fingerprintBytes : HashType → Nat
  | .sha1 => 160 / 8
  | .sha224 => 224 / 8
  | .sha256 => 256 / 8
  | .sha384 => 384 / 8
  | .sha512 => 512 / 8

/-- What holds of every attribute the parser returns. -/
def InRange : Attribute → Prop
  | .candidate c => c.port.toNat ≤ 65535 ∧ ∀ p, c.rport = some p → p.toNat ≤ 65535
  | .remoteCandidate c => c.port.toNat ≤ 65535
  | .sctpPort p => p.toNat ≤ 65535
  | .rtpmap r => r.payloadType.toNat ≤ 127
  | .icePacing n => n.toNat < 10 ^ 10
  | .frameRate x => x.bits.toNat % 2 ^ 63 ≠ 0 ∧ x.bits.toNat % 2 ^ 63 < 0x7ff0000000000000
  | .fmtp f => FmtpInRange f.parameters
  | .fingerprint f => f.fingerprint.length = fingerprintBytes f.hashAlgorithm
  | .icePwd s | .iceUfrag s | .identity s | .label s | .mid s => s ≠ []
  | .ssrcGroup _ l => l ≠ []
  | _ => True

/-- The payload types usable in an audio or video section. -/
def RtpFormat (n : Nat) : Prop := n = 0 ∨ (3 ≤ n ∧ n ≤ 18) ∨ (20 ≤ n ∧ n ≤ 63) ∨ (96 ≤ n ∧ n ≤ 127)

/-- What holds of every m= line the parser returns. -/
structure MediaInRange (m : MediaLine) : Prop where
  port : m.port.toNat ≤ 65535
  formats : m.media ≠ .application → ∃ l, m.formats = .integers l ∧ l ≠ [] ∧ ∀ n ∈ l, RtpFormat n.toNat

end Sdp
