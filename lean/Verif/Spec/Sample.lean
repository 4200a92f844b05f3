import Verif.Model.Anon
/-!
# A concrete environment and a concrete text

Used only in the non-vacuity examples that stand beside the theorems. `sampleEnv` is a toy: host
names are kept as they are (without white space, colons, slashes and dotted quads).
-/

namespace Sdp

def sampleEnv : Env where
  lowerNA := id
  upperNA := id
  hostNA s :=
    if s.isEmpty then .error c%"empty host"
    else if s.all (fun c => !isWs c && c != ':' && c != '/') && (parseV4Strict s).isNone then .domain s
    else .error c%"invalid host"
  debugNA := id

/-- A small offer with two media sections, an unsupported line, a blank line and mixed line ends. -/
def sampleText : Str :=
  c%"v=0\r\no=- 42 7 IN IP4 10.0.0.1\r\ns=-\r\nt=0 0\r\nc=IN IP6 2001:db8::1\r\nb=AS:64\r\na=group:BUNDLE 0 1\r\na=foo:bar\r\n\r\nm=audio 9 UDP/TLS/RTP/SAVPF 109 9\r\na=rtpmap:109 opus/48000/2\r\na=fmtp:109 maxplaybackrate=16000;stereo=1\na=extmap:1 urn:ietf:params:rtp-hdrext:ssrc-audio-level\r\na=rtcp-mux\r\na=rtcp-mux-only\r\nm=video 9 UDP/TLS/RTP/SAVPF 120 121\r\nc=IN IP4 192.168.0.1\r\na=rtpmap:120 VP8/90000\r\na=rid:hi send pt=120;max-width=1280\r\na=rid:lo send pt=120,121\r\na=simulcast:send hi;lo\r\na=sendrecv\r\n"

/-- The session `sampleText` is parsed to (in `sampleEnv`), or the session of a failed parse. -/
def sampleResult : Outcome ParserError Session := letI := sampleEnv; parseSdp sampleText false

end Sdp
