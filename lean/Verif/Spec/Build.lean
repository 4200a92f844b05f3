import Verif.Spec.Store
import Verif.Spec.SessionWF
/-!
# Building a session from right parts

When the arguments of the mutators are right, each taken for itself. Nothing is asked of the order of
the calls, and calls may fail.
-/

namespace Sdp

/-- No line feed in the texts. -/
def NoLineFeed (l : List Str) : Prop := ∀ t ∈ l, '\n' ∉ t

/-- The port can be written, and so can each format that is there. -/
structure MediaLine.Right (m : MediaLine) : Prop where
  port : m.port.toNat ≤ 65535
  words : ∀ l, m.formats = .strings l → ∀ t ∈ l, Token t
  numbers : ∀ l, m.formats = .integers l → m.media ≠ .application → ∀ n ∈ l, RtpFormat n.toNat

/-- The arguments of a call on a media section are right. -/
def MediaOp.Right [Env] : MediaOp → Prop
  | .setPort p => p.toNat ≤ 65535
  | .addBandwidth b => b.WF ∧ NoLineFeed b.strings
  | .setConnection c => c.WF
  | .addAttribute a | .setAttribute a => a.WF ∧ NoLineFeed a.strings
  | .addCodec r => r.WF ∧ RtpFormat r.payloadType.toNat
  | .addDatachannel name _ _ _ => Token name
  | .removeAttribute _ | .removeCodecs => True

/-- The content of a line is right, as far as it goes into a session. -/
def SdpType.Right [Env] : SdpType → Prop
  | .attr a => a.WF ∧ NoLineFeed a.strings
  | .bandwidth b => b.WF ∧ NoLineFeed b.strings
  | .connection c => c.WF
  | _ => True

/-- The m= line has at least one format: numbers for audio and video, words for application. -/
def FormatsFit : MediaValue → FormatList → Prop
  | .application, .strings l => l ≠ []
  | .audio, .integers l | .video, .integers l => l ≠ []
  | _, _ => False

/-- A call on a session, or on one of its sections (which are reached through the public field `media`). -/
inductive BuildOp where
  | session (op : SessionOp)
  | inSection (i : Nat) (op : MediaOp)

/-- Attributes the session-wide rules speak of, in that adding one can break a rule ... -/
def fragileToAdd : List AttributeType := [.rtcpMuxOnly, .rid, .simulcast, .extmap]

/-- ... or removing one can. -/
def fragileToRemove : List AttributeType := [.rtcpMux, .rid, .simulcast]

/-- A call that cannot break a rule: it touches no fragile attribute, adds no section and leaves the formats. -/
def MediaOp.Harmless : MediaOp → Prop
  | .setPort _ | .addBandwidth _ | .setConnection _ | .addCodec _ => True
  | .addAttribute a => a.type ∉ fragileToAdd
  | .removeAttribute t => t ∉ fragileToRemove
  | .setAttribute a => a.type ∉ fragileToAdd ∧ a.type ∉ fragileToRemove
  | .removeCodecs | .addDatachannel .. => False

def SessionOp.Harmless : SessionOp → Prop
  | .setConnection _ | .addBandwidth _ | .setTiming _ => True
  | .addAttribute a => a.type ≠ .extmap
  | .extendMedia _ | .addMedia .. => False
  | .parseSessionVector ls => ∀ l ∈ ls, ∀ e, l.sdpType ≠ .attr (.extmap e)

def BuildOp.Harmless : BuildOp → Prop
  | .session op => op.Harmless
  | .inSection _ op => op.Harmless

end Sdp
