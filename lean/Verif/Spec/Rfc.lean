import Verif.Spec.Abnf
import Verif.Spec.Grammar
/-!
# What the standards say about attributes and lines

The rules of the RFCs that define the attributes of this library, in the notation of Verif/Spec/Abnf.lean. They refer to
no part of the library. Where the library takes less than the RFC, the rule is restricted to what it takes and the
restriction is pointed out with **only**; Verif/Props/Rfc.lean has texts that show that each of these restrictions is
needed. Where it only says **up to**, the RFC has no limit for a number and the library has.
-/

namespace Sdp.Rfc

open Abnf

/-! ## RFC 5234 and 8866: basic rules -/

/-- `SP = %x20` -/
def SP : Rule := exactly [' ']

/-- `token-char = %x21 / %x23-27 / %x2A-2B / %x2D-2E / %x30-39 / %x41-5A / %x5E-7E` (RFC 8866, 9) -/
def isTokenChar (c : Char) : Bool :=
  let n := c.toNat
  n == 0x21 || (0x23 ≤ n && n ≤ 0x27) || (0x2a ≤ n && n ≤ 0x2b) || (0x2d ≤ n && n ≤ 0x2e) || (0x30 ≤ n && n ≤ 0x39) ||
    (0x41 ≤ n && n ≤ 0x5a) || (0x5e ≤ n && n ≤ 0x7e)

/-- `token = 1*(token-char)` -/
def token : Rule := rep 1 (char isTokenChar)

/-- `VCHAR = %x21-7E` -/
def isVchar (c : Char) : Bool := 0x21 ≤ c.toNat && c.toNat ≤ 0x7e

/-- `non-ws-string = 1*(VCHAR / %x80-FF)`: the characters outside of ASCII are made of bytes from 80 to FF. **Only** those
that are not white space (such as U+00A0). -/
def nonWsString : Rule := rep 1 (char fun c => isVchar c || (0x80 ≤ c.toNat && !isWs c))

/-- `byte-string = 1*(%x01-09 / %x0B-0C / %x0E-FF)`: everything but NUL, CR and LF. -/
def byteString : Rule := rep 1 (char fun c => c.toNat ≠ 0 && c.toNat ≠ 0x0a && c.toNat ≠ 0x0d)

/-- `alpha-numeric = ALPHA / DIGIT` -/
def isAlphaNumeric (c : Char) : Bool :=
  (0x30 ≤ c.toNat && c.toNat ≤ 0x39) || (0x41 ≤ c.toNat && c.toNat ≤ 0x5a) || (0x61 ≤ c.toNat && c.toNat ≤ 0x7a)

/-- `FQDN = 4*(alpha-numeric / "-" / ".")` -/
def fqdn : Rule := rep 4 (char fun c => isAlphaNumeric c || c == '-' || c == '.')

section
variable [Env]

/-- `unicast-address = IP4-address / IP6-address / FQDN / extn-addr`, **only** without `extn-addr`, and only host names the
host parser takes. -/
def address : Rule := alt [fun s => ∃ a, IpText s a, fun s => fqdn s ∧ ∃ d, Env.hostNA s = .domain d]

/-! ## RFC 8839: ICE -/

/-- `ice-char = ALPHA / DIGIT / "+" / "/"` -/
def isIceChar (c : Char) : Bool := isAlphaNumeric c || c == '+' || c == '/'

/-- `foundation = 1*32ice-char` -/
def foundation : Rule := reps 1 32 (char isIceChar)

/-- `component-id = 1*3DIGIT` -/
def componentId : Rule := number 999

/-- `transport = "UDP" / transport-extension`; RFC 6544 adds `"TCP"`. **Only** these two. -/
def transport : Rule := alt [word c%"UDP", word c%"TCP"]

/-- `priority = 1*10DIGIT` -/
def priority : Rule := number (10 ^ 10 - 1)

/-- `port = 1*DIGIT`, up to 65535. -/
def port : Rule := number 65535

/-- `cand-type = "typ" SP candidate-types`, `candidate-types = "host" / "srflx" / "prflx" / "relay" / token`, **only** the
first four. -/
def candType : Rule :=
  seq [word c%"typ", SP, alt [word c%"host", word c%"srflx", word c%"prflx", word c%"relay"]]

/-- `rel-addr = "raddr" SP connection-address` -/
def relAddr : Rule := seq [word c%"raddr", SP, address]

/-- `rel-port = "rport" SP port` -/
def relPort : Rule := seq [word c%"rport", SP, port]

/-- `cand-extension = extension-att-name SP extension-att-value`, `extension-att-name = token`,
`extension-att-value = *VCHAR`: **only** with a value. For the extensions the library knows the value has to be one: RFC 6544
`tcptype`, and `generation`, `network-cost` and `ufrag`, which are in no RFC. -/
def candExtension : Rule := alt
  [seq [word c%"tcptype", SP, alt [word c%"active", word c%"passive", word c%"so"]],
   seq [word c%"generation", SP, number (2 ^ 32 - 1)],
   seq [word c%"network-cost", SP, number (2 ^ 32 - 1)],
   seq [fun s => token s ∧ ∀ n ∈ [c%"tcptype", c%"generation", c%"network-cost", c%"raddr", c%"rport"], ¬ word n s,
     SP, rep 1 (char isVchar)]]

/-- `candidate-attribute = "candidate" ":" foundation SP component-id SP transport SP priority SP connection-address SP port SP
cand-type [SP rel-addr] [SP rel-port] *(SP cand-extension)` -/
def candidate : Rule :=
  seq [foundation, SP, componentId, SP, transport, SP, priority, SP, address, SP, port, SP, candType,
    opt (seq [SP, relAddr]), opt (seq [SP, relPort]), rep 0 (seq [SP, candExtension])]

/-- `remote-candidate-att = "remote-candidates:" remote-candidate 0*(SP remote-candidate)`,
`remote-candidate = component-id SP connection-address SP port` -/
def remoteCandidates : Rule :=
  let one := seq [componentId, SP, address, SP, port]
  seq [one, rep 0 (seq [SP, one])]

end

/-- `ice-ufrag-att = "ice-ufrag:" ufrag`, `ufrag = 4*256ice-char` -/
def iceUfrag : Rule := reps 4 256 (char isIceChar)

/-- `ice-pwd-att = "ice-pwd:" password`, `password = 22*256ice-char` -/
def icePwd : Rule := reps 22 256 (char isIceChar)

/-- `ice-options = "ice-options:" ice-option-tag 0*(SP ice-option-tag)`, `ice-option-tag = 1*ice-char` -/
def iceOptions : Rule :=
  let tag := rep 1 (char isIceChar)
  seq [tag, rep 0 (seq [SP, tag])]

/-- `ice-pacing-att = "ice-pacing:" pacing-value`, `pacing-value = 1*10DIGIT` -/
def icePacing : Rule := reps 1 10 (char Char.isDigit)

/-! ## RFC 8122: fingerprints -/

/-- `UHEX = DIGIT / %x41-46` -/
def isUhex (c : Char) : Bool := c.isDigit || (0x41 ≤ c.toNat && c.toNat ≤ 0x46)

/-- `fingerprint = 2UHEX *(":" 2UHEX)`, of as many bytes as the hash function gives. -/
def fingerprintOf (bytes : Nat) : Rule :=
  let byte := reps 2 2 (char isUhex)
  seq [byte, reps (bytes - 1) (bytes - 1) (seq [exactly [':'], byte])]

/-- `fingerprint-attribute = "fingerprint" ":" hash-func SP fingerprint`,
`hash-func = "sha-1" / "sha-224" / "sha-256" / "sha-384" / "sha-512" / "md5" / "md2" / token`, **only** the first five, in lower
case. -/
def fingerprint : Rule := alt
  [seq [exactly c%"sha-1", SP, fingerprintOf 20], seq [exactly c%"sha-224", SP, fingerprintOf 28],
   seq [exactly c%"sha-256", SP, fingerprintOf 32], seq [exactly c%"sha-384", SP, fingerprintOf 48],
   seq [exactly c%"sha-512", SP, fingerprintOf 64]]

/-! ## RFC 5888, 5576, 8830, 4574: identification -/

/-- `mid-attribute = "mid:" identification-tag`, `identification-tag = token` -/
def mid : Rule := token

/-- `group-attribute = "group:" semantics *(SP identification-tag)`, `semantics = "LS" / "FID" / semantics-extension`, with the
registered extensions; **only** these. -/
def group : Rule :=
  seq [alt [word c%"LS", word c%"FID", word c%"SRF", word c%"ANAT", word c%"FEC", word c%"DDP", word c%"BUNDLE"],
    rep 0 (seq [SP, token])]

/-- `ssrc-attr = "ssrc:" ssrc-id SP attribute`, `attribute = (att-field ":" att-value) / att-field`, `att-field = token`,
`att-value = byte-string` -/
def ssrc : Rule :=
  seq [number (2 ^ 32 - 1), SP, alt [seq [token, exactly [':'], byteString], token]]

/-- `ssrc-group-attr = "ssrc-group:" semantics *(SP ssrc-id)`, `semantics = "FEC" / "FID" / token`, **only** the registered ones,
and only with at least one id. -/
def ssrcGroup : Rule :=
  seq [alt [word c%"FEC", word c%"FID", word c%"FEC-FR", word c%"DUP", word c%"SIM"],
    rep 1 (seq [SP, number (2 ^ 32 - 1)])]

/-- `msid-value = msid-id [SP msid-appdata]`, both `1*64token-char` -/
def msid : Rule :=
  let id := reps 1 64 (char isTokenChar)
  seq [id, opt (seq [SP, id])]

/-- `label-attribute = "a=label:" pointer`, `pointer = token` (RFC 4574) -/
def label : Rule := token

/-! ## RFC 8866, 8285, 4585, 5104, 3605, 4145, 8841: media -/

/-- `rtpmap-value = payload-type SP encoding-name "/" clock-rate ["/" encoding-params]`, `encoding-name = token`,
`encoding-params = channels`; the payload type is up to 127 and the others up to 2^32-1. -/
def rtpmap : Rule :=
  seq [number 127, SP, token, exactly ['/'], number (2 ^ 32 - 1), opt (seq [exactly ['/'], number (2 ^ 32 - 1)])]

/-- `ptime-value = non-zero-int-or-real`, **only** integers, up to 2^64-1. -/
def ptime : Rule := number (2 ^ 64 - 1)

/-- `extmap = mapentry SP extensionname [SP extensionattributes]`, `mapentry = "extmap:" 1*5DIGIT ["/" direction]`,
`direction = "sendonly" / "recvonly" / "sendrecv" / "inactive"`, `extensionname = URI`, `extensionattributes = byte-string`:
**only** the first three directions. An URI is taken as `1*VCHAR`. -/
def extmap : Rule :=
  seq [number 65535, opt (seq [exactly ['/'], alt [word c%"sendonly", word c%"recvonly", word c%"sendrecv"]]), SP,
    rep 1 (char isVchar), opt (seq [SP, byteString])]

/-- `rtcp-fb-syntax = "rtcp-fb:" rtcp-fb-pt SP rtcp-fb-val`, `rtcp-fb-pt = "*" / fmt`; the values are those of RFC 4585, 4.2,
and of RFC 5104, 7.1, and `goog-remb` and `transport-cc` that are in no RFC. **Only** in lower case, only `ack` with a
parameter, and only the parameters listed. -/
def rtcpFb : Rule :=
  let more := opt (seq [SP, byteString])
  seq [alt [exactly ['*'], number 255], SP, alt
    [seq [exactly c%"ack", SP, alt [exactly c%"rpsi", exactly c%"app"], more],
     seq [exactly c%"nack", opt (seq [SP, alt [exactly c%"pli", exactly c%"sli", exactly c%"rpsi", exactly c%"app"], more])],
     seq [exactly c%"trr-int", SP, number (2 ^ 32 - 1)],
     seq [exactly c%"ccm", opt (seq [SP, alt [exactly c%"fir", exactly c%"tmmbr", exactly c%"tstr", exactly c%"vbcm"], more])],
     exactly c%"goog-remb", exactly c%"transport-cc"]]

section
variable [Env]

/-- `rtcp-attribute = "a=rtcp:" port [nettype space addrtype space connection-address]` (RFC 3605): **only** internet addresses
of the family that is declared. -/
def rtcp : Rule :=
  seq [port, opt (seq [SP, word c%"IN", SP, alt
    [seq [word c%"IP4", SP, fun s => ∃ a, IpText s (.v4 a)],
     seq [word c%"IP6", SP, fun s => ∃ a, IpText s (.v6 a)],
     seq [alt [word c%"IP4", word c%"IP6"], SP, fun s => (∀ a, ¬ IpText s a) ∧ fqdn s ∧ ∃ d, Env.hostNA s = .domain d]]])]

end

/-- `setup-attr = "a=setup:" role`, `role = "active" / "passive" / "actpass" / "holdconn"` (RFC 4145) -/
def setup : Rule := alt [word c%"active", word c%"passive", word c%"actpass", word c%"holdconn"]

/-- `sctp-port-value = 1*5DIGIT` (RFC 8841), up to 65535 -/
def sctpPort : Rule := number 65535

/-- `max-message-size-value = 1*DIGIT` (RFC 8841), up to 2^64-1 -/
def maxMessageSize : Rule := number (2 ^ 64 - 1)

/-! ## RFC 8851 and 8853: simulcast -/

/-- `rid-id = 1*(alpha-numeric / "-" / "_")` -/
def ridId : Rule := rep 1 (char fun c => isAlphaNumeric c || c == '-' || c == '_')

/-- `param-val = *(%x20-3A / %x3C-7E)` -/
def paramVal : Rule := rep 0 (char fun c => (0x20 ≤ c.toNat && c.toNat ≤ 0x3a) || (0x3c ≤ c.toNat && c.toNat ≤ 0x7e))

/-- `rid-param = rid-width-param / ... / rid-depend-param / rid-param-other`, `rid-width-param = "max-width" ["=" int-param-val]`,
`rid-depend-param = "depend=" rid-list` (`depends` in the library), `rid-param-other = 1*(alpha-numeric / "-") ["=" param-val]`:
**only** with a value. -/
def ridParam : Rule := alt
  [seq [alt [exactly c%"max-width", exactly c%"max-height", exactly c%"max-fps", exactly c%"max-fs", exactly c%"max-br",
      exactly c%"max-pps"], exactly ['='], number (2 ^ 32 - 1)],
   seq [fun s => rep 1 (char fun c => isAlphaNumeric c || c == '-') s ∧
      s ∉ [c%"max-width", c%"max-height", c%"max-fps", c%"max-fs", c%"max-br", c%"max-pps", c%"pt"],
      exactly ['='], paramVal]]

/-- `rid-syntax = "a=rid:" rid-id SP rid-dir [rid-pt-param-list / rid-param-list]`, `rid-dir = "send" / "recv"`,
`rid-pt-param-list = SP rid-fmt-list *(";" rid-param)`, `rid-param-list = SP rid-param *(";" rid-param)`,
`rid-fmt-list = "pt=" fmt *("," fmt)`: **only** in lower case and with formats that are numbers, up to 65535. -/
def rid : Rule :=
  let params := rep 0 (seq [exactly [';'], ridParam])
  seq [ridId, SP, alt [exactly c%"send", exactly c%"recv"], opt (alt
    [seq [SP, exactly c%"pt=", number 65535, rep 0 (seq [exactly [','], number 65535]), params],
     seq [SP, ridParam, params]])]

/-- `sc-value = (sc-send [SP sc-recv]) / (sc-recv [SP sc-send])`, `sc-send = %s"send" SP sc-str-list`,
`sc-recv = %s"recv" SP sc-str-list`, `sc-str-list = sc-alt-list *(";" sc-alt-list)`, `sc-alt-list = sc-id *("," sc-id)`,
`sc-id-paused = "~"`, `sc-id = [sc-id-paused] rid-id` (RFC 8853, 5.1) -/
def simulcast : Rule :=
  let id := seq [opt (exactly ['~']), ridId]
  let alts := seq [id, rep 0 (seq [exactly [','], id])]
  let list := seq [alts, rep 0 (seq [exactly [';'], alts])]
  let send := seq [exactly c%"send", SP, list]
  let recv := seq [exactly c%"recv", SP, list]
  alt [seq [send, opt (seq [SP, recv])], seq [recv, opt (seq [SP, send])]]

/-- What a rid says: its id, its direction, and the formats after `pt=`, if there are any. -/
def RidHas (v id dir : Str) (formats : List Str) : Prop :=
  ∃ rest, v = id ++ ' ' :: dir ++ rest ∧ ' ' ∉ id ∧ ' ' ∉ dir ∧
    (((rest = [] ∨ ∃ r, rest = ' ' :: r) ∧ ¬ c%" pt=" <+: rest ∧ formats = []) ∨
      ∃ more, rest = c%" pt=" ++ joinS c%"," formats ++ more ∧ (more = [] ∨ ∃ r, more = ';' :: r) ∧ formats ≠ [] ∧
        ∀ f ∈ formats, f ≠ [] ∧ ∀ c ∈ f, c.isDigit = true)

/-- The stream is in the list a simulcast attribute has for this direction, paused or not. -/
def SimulcastHas (v dir id : Str) : Prop :=
  ∃ ws l alts a ids, Fields ' ' v ws ∧ ((∃ r, ws = dir :: l :: r) ∨ ∃ d l', ws = [d, l', dir, l]) ∧
    Fields ';' l alts ∧ a ∈ alts ∧ Fields ',' a ids ∧ ((id ∈ ids ∧ id.head? ≠ some '~') ∨ '~' :: id ∈ ids)

end Sdp.Rfc
