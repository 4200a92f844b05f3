import Verif.Model.Show
/-!
# The strings inside values

Every place in a value where free text is kept. Numbers, keywords, IP addresses and floats are not
text in this sense.
-/

namespace Sdp

def Address.strings : Address → List Str
  | .fqdn d => [d]
  | .ip _ => []

def TypedAddress.strings : TypedAddress → List Str
  | .fqdn _ d => [d]
  | .ip _ => []

def Candidate.strings (c : Candidate) : List Str :=
  c.foundation :: (c.address.strings ++ (c.raddr.toList.flatMap Address.strings ++
    (c.ufrag.toList ++ c.unknownExtensions.flatMap (fun p => [p.1, p.2]))))

def Simulcast.strings (s : Simulcast) : List Str :=
  (s.send ++ s.receive).flatMap fun v => v.ids.map fun i => i.id

def Attribute.strings : Attribute → List Str
  | .candidate c => c.strings
  | .dtlsMessage (.client m) | .dtlsMessage (.server m) => [m]
  | .extmap e => e.url :: e.extensionAttributes.toList
  | .fmtp f => f.parameters.dtmfTones :: f.parameters.unknownTokens
  | .group g => g.tags
  | .iceOptions l => l
  | .icePwd s | .iceUfrag s | .identity s | .label s | .mid s => [s]
  | .msid m => m.id :: m.appdata.toList
  | .msidSemantic m => m.semantic :: m.msids
  | .rid r => r.id :: (r.params.unknown ++ r.depends)
  | .remoteCandidate c => c.address.strings
  | .rtpmap r => [r.codecName]
  | .rtcp r => r.unicastAddr.toList.flatMap TypedAddress.strings
  | .rtcpfb r => [r.parameter, r.extra]
  | .simulcast s => s.strings
  | .ssrc s => s.attr.toList ++ s.value.toList
  | .ssrcGroup _ l => l.flatMap fun s => s.attr.toList ++ s.value.toList
  | .bundleOnly | .endOfCandidates | .extmapAllowMixed | .fingerprint _ | .frameRate _ | .iceLite | .iceMismatch
  | .icePacing _ | .imageAttr _ | .inactive | .maxMessageSize _ | .maxPtime _ | .ptime _ | .recvonly | .rtcpMux
  | .rtcpMuxOnly | .rtcpRsize | .sctpmap _ | .sctpPort _ | .sendonly | .sendrecv | .setup _ => []

def ImageAttrSetList.list : ImageAttrSetList → List ImageAttrSet
  | .sets l => l
  | .wildcard => []

def Bandwidth.strings : Bandwidth → List Str
  | .unknown t _ => [t]
  | _ => []

def FormatList.texts : FormatList → List Str
  | .strings l => l
  | .integers _ => []

def Media.strings (m : Media) : List Str :=
  m.media.formats.texts ++ (m.bandwidth.flatMap Bandwidth.strings ++
    (m.connection.toList.flatMap (fun c => c.address.strings) ++ m.attrs.flatMap Attribute.strings))

def Session.strings (s : Session) : List Str :=
  s.origin.username :: (s.origin.unicastAddr.strings ++ (s.session.toList ++
    (s.bandwidth.flatMap Bandwidth.strings ++ (s.connection.toList.flatMap (fun c => c.address.strings) ++
      (s.attrs.flatMap Attribute.strings ++ s.media.flatMap Media.strings)))))

end Sdp
