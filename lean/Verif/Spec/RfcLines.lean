import Verif.Spec.RfcMore
import Verif.Spec.Document
/-!
# What RFC 8866 says about lines

The rules for the lines this library reads, in the notation of Verif/Spec/Abnf.lean, without the letter and the equals sign.
As in Verif/Spec/Rfc.lean, **only** marks where the library takes less; Verif/Props/RfcLines.lean shows that it does.
-/

namespace Sdp.Rfc

open Abnf

/-- `proto-version = "v=" 1*DIGIT`; the version RFC 8866 defines is 0. -/
def version : Rule := exactly ['0']

section
variable [Env]

/-- An IPv4 address. -/
def ip4 : Rule := fun s => ∃ a, IpText s (.v4 a)

/-- An IPv6 address. -/
def ip6 : Rule := fun s => ∃ a, IpText s (.v6 a)

/-- A host name, **only** one the host parser takes. -/
def hostName : Rule := fun s => (∀ a, ¬ IpText s a) ∧ fqdn s ∧ ∃ d, Env.hostNA s = .domain d

/-- `nettype SP addrtype SP unicast-address`, `nettype = token`, `addrtype = token`: **only** `IN`, `IP4` and `IP6`, and only
addresses of the type that is declared. -/
def unicast : Rule :=
  seq [word c%"IN", SP, alt
    [seq [word c%"IP4", SP, ip4], seq [word c%"IP6", SP, ip6], seq [alt [word c%"IP4", word c%"IP6"], SP, hostName]]]

/-- `origin-field = "o=" username SP sess-id SP sess-version SP nettype SP addrtype SP unicast-address`,
`username = non-ws-string`, `sess-id = 1*DIGIT`, `sess-version = 1*DIGIT`, up to 2^64-1. -/
def origin : Rule := seq [nonWsString, SP, number (2 ^ 64 - 1), SP, number (2 ^ 64 - 1), SP, unicast]

/-- `connection-field = "c=" nettype SP addrtype SP connection-address`,
`connection-address = multicast-address / unicast-address`, `IP4-multicast = m1 3("." decimal-uchar) "/" ttl ["/" numaddr]`,
`IP6-multicast = IP6-address ["/" numaddr]`: the number of IPv4 addresses up to 2^32-1, of IPv6 addresses **only** up to 255. -/
def connection : Rule :=
  seq [word c%"IN", SP, alt
    [seq [word c%"IP4", SP, ip4, opt (seq [exactly ['/'], number 255, opt (seq [exactly ['/'], number (2 ^ 32 - 1)])])],
     seq [word c%"IP6", SP, ip6, opt (seq [exactly ['/'], number 255])],
     seq [alt [word c%"IP4", word c%"IP6"], SP, hostName]]]

end

/-- `session-name-field = "s=" text`, `text = byte-string` -/
def sessionName : Rule := byteString

/-- `bandwidth-field = "b=" bwtype ":" bandwidth`, `bwtype = token`, `bandwidth = 1*DIGIT`, up to 2^32-1. -/
def bandwidth : Rule := seq [token, exactly [':'], number (2 ^ 32 - 1)]

/-- `time-field = "t=" start-time SP stop-time`, both `POS-DIGIT 9*DIGIT / "0"`, up to 2^64-1. -/
def timing : Rule := seq [number (2 ^ 64 - 1), SP, number (2 ^ 64 - 1)]

/-- `proto = token *("/" token)`: **only** the protocols the library knows. -/
def proto : Rule := alt
  [word c%"RTP/AVP", word c%"RTP/AVPF", word c%"RTP/SAVP", word c%"RTP/SAVPF", word c%"TCP/DTLS/RTP/SAVP",
   word c%"TCP/DTLS/RTP/SAVPF", word c%"UDP/TLS/RTP/SAVP", word c%"UDP/TLS/RTP/SAVPF", word c%"DTLS/SCTP",
   word c%"UDP/DTLS/SCTP", word c%"TCP/DTLS/SCTP"]

/-- `fmt = token`; for RTP it is a payload type (RFC 3551). **Only** those that do not conflict with RTCP (RFC 5761, 4) and are
not 1, 2 or 19. -/
def payloadType : Rule := fun s => number 127 s ∧ FormatNumber (decValue s)

/-- `media-field = "m=" media SP port ["/" integer] SP proto 1*(SP fmt)`, `media = token`: **only** audio, video and application,
up to port 65535 and 2^32-1 ports. -/
def media : Rule :=
  let ports := seq [port, opt (seq [exactly ['/'], number (2 ^ 32 - 1)])]
  alt [seq [alt [word c%"audio", word c%"video"], SP, ports, SP, proto, rep 1 (seq [SP, payloadType])],
    seq [word c%"application", SP, ports, SP, proto, rep 1 (seq [SP, token])]]

/-! ## Attributes (RFC 8866, 5.13) -/

/-- `attribute = (attribute-name ":" attribute-value) / attribute-name` with a name and the rule for its value. -/
def named (name : Str) (value : Rule) : Rule := seq [exactly name, exactly [':'], value]

/-- The attribute has this name. -/
def HasName (name s : Str) : Prop := s = name ∨ ∃ v, s = name ++ ':' :: v

/-- The attributes that have no value. -/
def flags : List Str :=
  [c%"bundle-only", c%"end-of-candidates", c%"extmap-allow-mixed", c%"ice-lite", c%"ice-mismatch", c%"inactive", c%"recvonly",
   c%"rtcp-mux", c%"rtcp-mux-only", c%"rtcp-rsize", c%"sendonly", c%"sendrecv"]

/-- The attributes of the library with a rule in Verif/Spec/Rfc.lean or Verif/Spec/RfcMore.lean, and those without a value. -/
def knownAttribute [Env] : Rule := alt
  [fun s => s ∈ flags,
   named c%"rtpmap" rtpmap, named c%"ice-ufrag" iceUfrag, named c%"ice-pwd" icePwd, named c%"mid" mid, named c%"label" label,
   named c%"ice-pacing" icePacing, named c%"ptime" ptime, named c%"maxptime" ptime, named c%"sctp-port" sctpPort,
   named c%"max-message-size" maxMessageSize, named c%"ice-options" iceOptions, named c%"setup" setup, named c%"group" group,
   named c%"ssrc-group" ssrcGroup, named c%"msid" msid, named c%"ssrc" ssrc, named c%"extmap" extmap,
   named c%"fingerprint" fingerprint, named c%"rtcp" rtcp, named c%"remote-candidates" remoteCandidates,
   named c%"rtcp-fb" rtcpFb, named c%"simulcast" simulcast, named c%"rid" rid, named c%"candidate" candidate,
   named c%"fmtp" fmtp, named c%"framerate" frameRate, named c%"imageattr" imageattr, named c%"identity" identity,
   named c%"msid-semantic" msidSemantic, named c%"sctpmap" sctpmap, named c%"dtls-message" dtlsMessage]

/-- `attribute-name = token`, `attribute-value = byte-string`: an attribute with a name that is none of the library's. -/
def otherAttribute : Rule :=
  seq [fun s => token s ∧ ∀ n ∈ attributeNames, ¬ word n s, opt (seq [exactly [':'], byteString])]

end Sdp.Rfc
