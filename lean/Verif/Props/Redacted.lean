import Verif.Spec.Redacted
import Verif.Props.MaskHistory
import Verif.Props.Masked
import Verif.Lemmas.ReadableSession
/-!
# C123: an anonymized text is the text with its secrets replaced
-/

namespace Sdp

section
variable [Env]

private theorem Redacts.nil {σ : Secret → Secret} : Redacts σ [] [] [] := ⟨[], by simp, rfl, rfl, rfl⟩

private theorem Redacts.append {σ : Secret → Secret} {S S' : List Secret} {l l' m m' : List Str} (h : Redacts σ S l l')
    (h' : Redacts σ S' m m') : Redacts σ (S ++ S') (l ++ m) (l' ++ m') := by
  obtain ⟨ps, h1, h2, h3, h4⟩ := h
  obtain ⟨qs, k1, k2, k3, k4⟩ := h'
  refine ⟨ps ++ qs, ?_, by rw [List.flatMap_append, h2, k2], by rw [List.map_append, h3, k3], by rw [List.map_append, h4, k4]⟩
  intro p hp
  exact (List.mem_append.1 hp).elim (h1 p) (k1 p)

private theorem Redacts.one {σ : Secret → Secret} {S : List Secret} {l l' : Str} {p : List Piece} (h : SecretLine p)
    (hs : p.flatMap Piece.secrets = S) (h1 : l = written id p) (h2 : l' = written σ p) : Redacts σ S [l] [l'] :=
  ⟨[p], by simpa using h, by simpa using hs, by simp [h1], by simp [h2]⟩

private theorem Redacts.same {σ : Secret → Secret} (l : List Str) : Redacts σ [] l l := by
  induction l with
  | nil => exact .nil
  | cons t l ih => exact Redacts.append (.one (.none t) rfl (by simp [written, Piece.text]) (by simp [written, Piece.text])) ih

private theorem Redacts.flatMap {α : Type} {σ : Secret → Secret} {S : α → List Secret} {f g : α → List Str} {l : List α}
    (h : ∀ a ∈ l, Redacts σ (S a) (f a) (g a)) : Redacts σ (l.flatMap S) (l.flatMap f) (l.flatMap g) := by
  induction l with
  | nil => exact .nil
  | cons a l ih => exact (h a (by simp)).append (ih fun b hb => h b (by simp [hb]))

/-! ### Addresses -/

private def Address.secret : Address → Secret
  | .fqdn h => .host h
  | .ip a => .ip a

private theorem address_isAddress (a : Address) : a.secret.isAddress := by cases a <;> rfl

private theorem address_secrets' (a : Address) : a.secrets = [a.secret] := by cases a <;> rfl

private theorem address_text (a : Address) : showAddress a = a.secret.text := by cases a <;> rfl

private theorem host_text {σ : Secret → Secret} (hσ : KindPreserving σ) (h : Str) : (σ (.host h)).text = (σ (.host h)).str := by
  have := hσ (.host h)
  rcases e : σ (.host h) with _ | (_ | _) | _ | _ | _ | _ | _ | _ <;> rw [e] at this <;> first | rfl | cases this

private theorem user_text {σ : Secret → Secret} (hσ : KindPreserving σ) (h : Str) :
    (σ (.originUser h)).text = (σ (.originUser h)).str := by
  have := hσ (.originUser h)
  rcases e : σ (.originUser h) with _ | (_ | _) | _ | _ | _ | _ | _ | _ <;> rw [e] at this <;> first | rfl | cases this

private theorem pwd_text {σ : Secret → Secret} (hσ : KindPreserving σ) (h : Str) :
    (σ (.icePassword h)).text = (σ (.icePassword h)).str := by
  have := hσ (.icePassword h)
  rcases e : σ (.icePassword h) with _ | (_ | _) | _ | _ | _ | _ | _ | _ <;> rw [e] at this <;> first | rfl | cases this

private theorem ufrag_text {σ : Secret → Secret} (hσ : KindPreserving σ) (h : Str) :
    (σ (.iceUser h)).text = (σ (.iceUser h)).str := by
  have := hσ (.iceUser h)
  rcases e : σ (.iceUser h) with _ | (_ | _) | _ | _ | _ | _ | _ | _ <;> rw [e] at this <;> first | rfl | cases this

private theorem cname_text {σ : Secret → Secret} (hσ : KindPreserving σ) (h : Str) :
    (σ (.cname h)).text = (σ (.cname h)).str := by
  have := hσ (.cname h)
  rcases e : σ (.cname h) with _ | (_ | _) | _ | _ | _ | _ | _ | _ <;> rw [e] at this <;> first | rfl | cases this

private theorem port_text {σ : Secret → Secret} (hσ : KindPreserving σ) (p : UInt32) :
    (σ (.port p)).text = showU32 (σ (.port p)).portNumber := by
  have := hσ (.port p)
  rcases e : σ (.port p) with _ | (_ | _) | _ | _ | _ | _ | _ | _ <;> rw [e] at this <;> first | rfl | cases this

private theorem fingerprint_text {σ : Secret → Secret} (hσ : KindPreserving σ) (b : List UInt8) :
    (σ (.fingerprint b)).text = joinS c%":" ((σ (.fingerprint b)).bytes.map showByteHex) := by
  have := hσ (.fingerprint b)
  rcases e : σ (.fingerprint b) with _ | (_ | _) | _ | _ | _ | _ | _ | _ <;> rw [e] at this <;> first | rfl | cases this

private theorem ip_text {σ : Secret → Secret} (hσ : KindPreserving σ) (a : IpAddr) :
    (σ (.ip a)).text = showIp (σ (.ip a)).addr ∧ ipAddressType (σ (.ip a)).addr = ipAddressType a := by
  have := hσ (.ip a)
  cases a <;> rcases e : σ (.ip _) with _ | (_ | _) | _ | _ | _ | _ | _ | _ <;> rw [e] at this <;>
    first | exact ⟨rfl, rfl⟩ | cases this

private theorem address_masked {σ : Secret → Secret} (hσ : KindPreserving σ) (a : Address) :
    showAddress (a.mapSecrets σ) = (σ a.secret).text := by
  cases a with
  | fqdn h => exact (host_text hσ h).symm
  | ip a => exact (ip_text hσ a).1.symm

private def TypedAddress.secret : TypedAddress → Secret
  | .fqdn _ h => .host h
  | .ip a => .ip a

private theorem typed_isAddress (a : TypedAddress) : a.secret.isAddress := by cases a <;> rfl

private theorem typed_secrets (a : TypedAddress) : a.secrets = [a.secret] := by cases a <;> rfl

private theorem typed_text (a : TypedAddress) :
    showTyped a = c%"IN " ++ (showAddressType a.addressType ++ c%" ") ++ a.secret.text := by
  cases a <;> simp [showTyped, TypedAddress.secret, Secret.text]

private theorem typed_masked {σ : Secret → Secret} (hσ : KindPreserving σ) (a : TypedAddress) :
    showTyped (a.mapSecrets σ) = c%"IN " ++ (showAddressType a.addressType ++ c%" ") ++ (σ a.secret).text := by
  cases a with
  | fqdn t h =>
    simp [showTyped, TypedAddress.mapSecrets, TypedAddress.secret, host_text hσ, TypedAddress.addressType]
  | ip a =>
    simp [showTyped, TypedAddress.mapSecrets, TypedAddress.secret, (ip_text hσ a).1, TypedAddress.addressType, (ip_text hσ a).2]

/-! ### Lines -/

private theorem origin_line {σ : Secret → Secret} (hσ : KindPreserving σ) (o : Origin) :
    Redacts σ o.secrets [c%"o=" ++ showOrigin o] [c%"o=" ++ showOrigin (o.mapSecrets σ)] := by
  refine .one (.origin o.username (c%" " ++ showU64 o.sessionId ++ c%" " ++ showU64 o.sessionVersion ++ c%" " ++
    (c%"IN " ++ (showAddressType o.unicastAddr.addressType ++ c%" "))) o.unicastAddr.secret (typed_isAddress _)) ?_ ?_ ?_
  · simp [Piece.secrets, Origin.secrets, typed_secrets]
  · simp [written, Piece.text, showOrigin, typed_text, Secret.text]
  · simp [written, Piece.text, showOrigin, Origin.mapSecrets, typed_masked hσ, user_text hσ]

private theorem connection_line {σ : Secret → Secret} (hσ : KindPreserving σ) (c : Connection) :
    Redacts σ c.address.secrets [c%"c=" ++ showConnection c] [c%"c=" ++ showConnection { c with address := c.address.mapSecrets σ }] := by
  refine .one (.connection (showAddressType c.address.addressType ++ c%" ") (optStr c%"/" showU8 c.ttl ++ optStr c%"/" showU32 c.amount)
    c.address.secret (typed_isAddress _)) ?_ ?_ ?_
  · simp [Piece.secrets, typed_secrets]
  · simp [written, Piece.text, showConnection, typed_text]
  · simp [written, Piece.text, showConnection, typed_masked hσ]

private theorem attr_empty {t : AttributeType} {s : Str} : attrToString t s = [] ↔ s = [] := by
  cases s with
  | nil => simp [attrToString]
  | cons c s => simp [attrToString]

private theorem attr_text {t : AttributeType} {s : Str} (h : s ≠ []) : attrToString t s = t.name ++ c%":" ++ s := by
  cases s with
  | nil => exact absurd rfl h
  | cons c s => simp [attrToString]

private theorem candidate_pieces (σ : Secret → Secret) (t t' t'' : Str) (a : Secret) (port : UInt32) (raddr : Option Secret)
    (rport : Option UInt32) :
    written σ ([.open (c%"a=candidate:" ++ t), .secret a, .open c%" ", .secret (.port port), .open (c%" typ " ++ t')] ++
        (raddr.elim [] fun b => [.open c%" raddr ", .secret b]) ++
        (rport.elim [] fun p => [.open c%" rport ", .secret (.port p)]) ++ [.open t'']) =
      c%"a=candidate:" ++ (t ++ ((σ a).text ++ (c%" " ++ ((σ (.port port)).text ++ (c%" typ " ++ (t' ++
        (optStr c%" raddr " (fun b => (σ b).text) raddr ++ (optStr c%" rport " (fun p => (σ (.port p)).text) rport ++ t'')))))))) := by
  cases raddr <;> cases rport <;>
    simp only [written, Piece.text, optStr, Option.elim_some, Option.elim_none, List.flatMap_append, List.flatMap_cons, List.flatMap_nil,
      List.append_assoc, List.append_nil, List.nil_append]

private theorem showCandidate_parts (c : Candidate) :
    showCandidate c = (c.foundation ++ c%" " ++ showU32 c.component ++ c%" " ++ showCandTransport c.transport ++ c%" "
      ++ showU64 c.priority ++ c%" ") ++ (showAddress c.address ++ (c%" " ++ (showU32 c.port ++ (c%" typ " ++ (showCandType c.cType ++
        (optStr c%" raddr " showAddress c.raddr ++ (optStr c%" rport " showU32 c.rport ++
      (optStr c%" tcptype " showCandTcpType c.tcpType ++ optStr c%" generation " showU32 c.generation ++ optStr c%" ufrag " id c.ufrag
        ++ optStr c%" network-cost " showU32 c.networkcost ++ showExts c.unknownExtensions)))))))) := by
  unfold showCandidate
  simp only [List.append_assoc]

private theorem candidate_line {σ : Secret → Secret} (hσ : KindPreserving σ) (c : Candidate) :
    Redacts σ c.secrets [c%"a=candidate:" ++ showCandidate c] [c%"a=candidate:" ++ showCandidate (c.mapSecrets σ)] := by
  rw [showCandidate_parts, showCandidate_parts]
  generalize hA : c.foundation ++ c%" " ++ showU32 c.component ++ c%" " ++ showCandTransport c.transport ++ c%" " ++ showU64 c.priority
    ++ c%" " = A
  generalize hC : optStr c%" tcptype " showCandTcpType c.tcpType ++ optStr c%" generation " showU32 c.generation
    ++ optStr c%" ufrag " id c.ufrag ++ optStr c%" network-cost " showU32 c.networkcost ++ showExts c.unknownExtensions = C
  refine .one (.candidate A (showCandType c.cType) C c.address.secret c.port (c.raddr.map Address.secret) c.rport (address_isAddress _) ?_) ?_
    (.trans ?_ (candidate_pieces _ _ _ _ _ _ _ _).symm) (.trans ?_ (candidate_pieces _ _ _ _ _ _ _ _).symm)
  · intro b hb
    obtain ⟨a, -, rfl⟩ := Option.map_eq_some_iff.1 hb
    exact address_isAddress _
  · obtain ⟨_, _, _, _, _, _, _, raddr, rport, _, _, _, _, _⟩ := c
    cases raddr <;> cases rport <;> simp [Piece.secrets, Candidate.secrets, address_secrets']
  · rw [address_text, show optStr c%" raddr " (fun b => (id b).text) (c.raddr.map Address.secret) = optStr c%" raddr " showAddress c.raddr by
      cases c.raddr <;> simp only [Option.map_some, Option.map_none, optStr, id, address_text]]
    rfl
  · rw [show optStr c%" raddr " (fun b => (σ b).text) (c.raddr.map Address.secret) = optStr c%" raddr " showAddress (c.mapSecrets σ).raddr by
        simp only [Candidate.mapSecrets]
        cases c.raddr <;> simp only [Option.map_some, Option.map_none, optStr, address_masked hσ],
      show optStr c%" rport " (fun p => (σ (.port p)).text) c.rport = optStr c%" rport " showU32 (c.mapSecrets σ).rport by
        simp only [Candidate.mapSecrets]
        cases c.rport <;> simp only [Option.map_some, Option.map_none, optStr, port_text hσ],
      ← address_masked hσ, port_text hσ, ← hA, ← hC]
    rfl

private theorem remote_line {σ : Secret → Secret} (hσ : KindPreserving σ) (c : RemoteCandidate) :
    Redacts σ (c.address.secrets ++ [.port c.port]) [c%"a=remote-candidates:" ++ showRemoteCandidate c]
      [c%"a=remote-candidates:" ++ showRemoteCandidate
        { c with address := c.address.mapSecrets σ, port := (σ (.port c.port)).portNumber }] := by
  refine .one (.remoteCandidate (showU32 c.component ++ c%" ") c.address.secret c.port (address_isAddress _)) ?_ ?_ ?_
  · simp [Piece.secrets, address_secrets']
  · simp [written, Piece.text, showRemoteCandidate, address_text, Secret.text]
  · simp [written, Piece.text, showRemoteCandidate, address_masked hσ, port_text hσ]

private theorem fingerprint_line {σ : Secret → Secret} (hσ : KindPreserving σ) (f : Fingerprint) :
    Redacts σ [.fingerprint f.fingerprint] [c%"a=fingerprint:" ++ showFingerprint f]
      [c%"a=fingerprint:" ++ showFingerprint { f with fingerprint := (σ (.fingerprint f.fingerprint)).bytes }] := by
  refine .one (.fingerprint (showHashType f.hashAlgorithm) f.fingerprint) ?_ ?_ ?_
  · simp [Piece.secrets]
  · simp [written, Piece.text, showFingerprint, Secret.text]
  · simp [written, Piece.text, showFingerprint, fingerprint_text hσ]

private theorem ssrc_line {σ : Secret → Secret} (hσ : KindPreserving σ) {x : Ssrc} (hx : ¬(Attribute.ssrc x).Odd) :
    Redacts σ x.secrets [c%"a=ssrc:" ++ showSsrc x] [c%"a=ssrc:" ++ showSsrc (x.mapSecrets σ)] := by
  obtain ⟨id, attr, value⟩ := x
  cases attr with
  | none =>
    have : value = none := by
      by_contra h
      exact hx ⟨rfl, h⟩
    subst this
    simpa [Ssrc.secrets, Ssrc.mapSecrets] using Redacts.same _
  | some a =>
    cases value with
    | none => simpa [Ssrc.secrets, Ssrc.mapSecrets] using Redacts.same _
    | some v =>
      by_cases h : lower a = "cname".toList
      · simp only [Ssrc.secrets, Ssrc.mapSecrets, h, ↓reduceIte]
        refine .one (.cname (showU32 id) a v h) ?_ ?_ ?_
        · simp [Piece.secrets]
        · simp [written, Piece.text, showSsrc, Secret.text, optStr]
        · simp [written, Piece.text, showSsrc, cname_text hσ, optStr]
      · simp only [Ssrc.secrets, Ssrc.mapSecrets, h, ↓reduceIte]
        exact Redacts.same _

private theorem mask_nonempty (xs : List Secret) (x : Secret) (h : x.kind = .icePassword ∨ x.kind = .iceUser) :
    (maskOf xs x).str ≠ [] := by
  rcases h with h | h <;> rw [maskOf, h] <;> simp [label, Secret.str, numbered]

/-- An attribute has a text before masking exactly if it has one after, and its line is the same but for secrets. -/
private theorem attribute_line {xs : List Secret} {a : Attribute} (h : ¬a.Odd) :
    (showAttribute a = [] ∧ showAttribute (a.mapSecrets (maskOf xs)) = [] ∧ a.secrets = []) ∨
    (showAttribute a ≠ [] ∧ showAttribute (a.mapSecrets (maskOf xs)) ≠ [] ∧
      Redacts (maskOf xs) a.secrets [c%"a=" ++ showAttribute a] [c%"a=" ++ showAttribute (a.mapSecrets (maskOf xs))]) := by
  have hσ := maskOf_kind xs
  have key : ∀ {t : AttributeType} {s s' : Str} {pre : Str}, c%"a=" ++ (t.name ++ c%":") = pre → s ≠ [] → s' ≠ [] →
      Redacts (maskOf xs) a.secrets [pre ++ s] [pre ++ s'] →
      attrToString t s ≠ [] ∧ attrToString t s' ≠ [] ∧
      Redacts (maskOf xs) a.secrets [c%"a=" ++ attrToString t s] [c%"a=" ++ attrToString t s'] := by
    intro t s s' pre hp h1 h2 hr
    refine ⟨mt attr_empty.1 h1, mt attr_empty.1 h2, ?_⟩
    rw [attr_text h1, attr_text h2, ← List.append_assoc (c%"a=") _ s, ← List.append_assoc (c%"a=") _ s', hp]
    exact hr
  have cne : ∀ c : Candidate, showCandidate c ≠ [] := by
    intro c e
    rw [showCandidate_parts] at e
    exact showNat_ne_nil _ (List.append_eq_nil_iff.1 (List.append_eq_nil_iff.1 (List.append_eq_nil_iff.1 (List.append_eq_nil_iff.1 e).2).2).2).1
  cases a with
  | candidate c =>
    exact .inr (key (t := .candidate) rfl (cne _) (cne _) (candidate_line hσ c))
  | fingerprint f =>
    exact .inr (key (t := .fingerprint) rfl (by simp [showFingerprint]) (by simp [showFingerprint]) (fingerprint_line hσ f))
  | icePwd p =>
    refine .inr (key (t := .icePwd) (pre := c%"a=ice-pwd:") rfl h (mask_nonempty xs (.icePassword p) (.inl rfl)) ?_)
    refine .one (.icePwd p) (by simp [Piece.secrets, Attribute.secrets]) (by simp [written, Piece.text, Secret.text]) ?_
    simp [written, Piece.text, pwd_text hσ]
  | iceUfrag p =>
    refine .inr (key (t := .iceUfrag) (pre := c%"a=ice-ufrag:") rfl h (mask_nonempty xs (.iceUser p) (.inr rfl)) ?_)
    refine .one (.iceUfrag p) (by simp [Piece.secrets, Attribute.secrets]) (by simp [written, Piece.text, Secret.text]) ?_
    simp [written, Piece.text, ufrag_text hσ]
  | remoteCandidate c =>
    exact .inr (key (t := .remoteCandidate) rfl (by simp [showRemoteCandidate]) (by simp [showRemoteCandidate]) (remote_line hσ c))
  | ssrc x =>
    have ne : ∀ y : Ssrc, showSsrc y ≠ [] := by
      intro y e
      have := (List.append_eq_nil_iff.1 (List.append_eq_nil_iff.1 e).1).1
      exact showNat_ne_nil _ this
    exact .inr (key (t := .ssrc) rfl (ne _) (ne _) (ssrc_line hσ h))
  | _ =>
    refine (em (showAttribute _ = [])).imp (fun e => ⟨e, e, rfl⟩) (fun e => ⟨e, e, Redacts.same _⟩)

private theorem attrs_lines {xs : List Secret} {as : List Attribute} (h : ∀ a ∈ as, ¬a.Odd) :
    Redacts (maskOf xs) (as.flatMap Attribute.secrets) (textLines c%"a=" (as.map showAttribute))
      (textLines c%"a=" ((as.map (Attribute.mapSecrets (maskOf xs))).map showAttribute)) := by
  by_cases h0 : as = []
  · subst h0; exact .nil
  · have hiff : (∀ t ∈ as.map showAttribute, t = []) ↔ ∀ t ∈ (as.map (Attribute.mapSecrets (maskOf xs))).map showAttribute, t = [] := by
      simp only [List.mem_map, forall_exists_index, and_imp, forall_apply_eq_imp_iff₂]
      constructor <;> intro k a ha <;> have k := k a ha <;> rcases attribute_line (xs := xs) (h a ha) with ⟨e1, e2, -⟩ | ⟨e1, e2, -⟩
      · exact e2
      · exact absurd k e1
      · exact e1
      · exact absurd k e2
    have n1 : as.map showAttribute ≠ [] := by simpa using h0
    have n2 : (as.map (Attribute.mapSecrets (maskOf xs))).map showAttribute ≠ [] := by simpa using h0
    by_cases hall : ∀ t ∈ as.map showAttribute, t = []
    · simp only [textLines, n1, n2, ↓reduceIte, if_pos hall, if_pos (hiff.1 hall)]
      have : as.flatMap Attribute.secrets = [] := by
        rw [List.flatMap_eq_nil_iff]
        intro a ha
        rcases attribute_line (xs := xs) (h a ha) with ⟨-, -, e⟩ | ⟨e1, -, -⟩
        · exact e
        · exact absurd (hall _ (List.mem_map_of_mem ha)) e1
      rw [this]
      exact Redacts.same _
    · simp only [textLines, n1, n2, ↓reduceIte, if_neg hall, if_neg (mt hiff.2 hall)]
      clear hiff n1 n2 hall h0
      induction as with
      | nil => exact .nil
      | cons a as ih =>
        have ih := ih fun b hb => h b (by simp [hb])
        rcases attribute_line (xs := xs) (h a (by simp)) with ⟨e1, e2, e3⟩ | ⟨e1, e2, e3⟩
        · simpa [e1, e2, e3] using ih
        · simpa [e1, e2] using e3.append ih

private theorem body_lines {xs : List Secret} {bs : List Bandwidth} {c : Option Connection} {as : List Attribute} (h : ∀ a ∈ as, ¬a.Odd) :
    Redacts (maskOf xs) (as.flatMap Attribute.secrets) (bodyLines bs c as) (bodyLines bs c (as.map (Attribute.mapSecrets (maskOf xs)))) := by
  have := (Redacts.same (σ := maskOf xs) (textLines c%"b=" (bs.map showBandwidth))).append
    ((Redacts.same (σ := maskOf xs) (c.toList.map (fun c => c%"c=" ++ showConnection c))).append (attrs_lines (xs := xs) h))
  simpa [bodyLines] using this

private theorem body_lines_masked {xs : List Secret} {bs : List Bandwidth} {c : Option Connection} {as : List Attribute}
    (h : ∀ a ∈ as, ¬a.Odd) :
    Redacts (maskOf xs) ((c.map fun c => c.address.secrets).getD [] ++ as.flatMap Attribute.secrets) (bodyLines bs c as)
      (bodyLines bs (c.map fun c => { c with address := c.address.mapSecrets (maskOf xs) }) (as.map (Attribute.mapSecrets (maskOf xs)))) := by
  cases c with
  | none => simpa using body_lines (xs := xs) (bs := bs) (c := none) h
  | some c =>
    have := (Redacts.same (σ := maskOf xs) (textLines c%"b=" (bs.map showBandwidth))).append
      ((connection_line (maskOf_kind xs) c).append (attrs_lines (xs := xs) h))
    simpa [bodyLines] using this

private theorem media_lines {xs : List Secret} {m : Media} (h : ∀ a ∈ m.attrs, ¬a.Odd) :
    Redacts (maskOf xs) (m.attrs.flatMap Attribute.secrets) m.lines
      { m with attrs := m.attrs.map (Attribute.mapSecrets (maskOf xs)) : Media }.lines := by
  have := (Redacts.same (σ := maskOf xs) [c%"m=" ++ showMediaLine m.media]).append
    (body_lines (xs := xs) (bs := m.bandwidth) (c := m.connection) h)
  simpa [Media.lines] using this

/-- **C123.** The text of an anonymized session is the text of the session with its secrets replaced by their masks on the spot, line by
line: in front of, between and behind the secrets nothing is changed, no line is added or lost, and there are secrets only in the
places of `SecretLine`. -/
theorem C123_session {x : Session} (cs : List MaskCall) (h : ∀ a ∈ x.attrs, ¬a.Odd) (hm : ∀ m ∈ x.media, ∀ a ∈ m.attrs, ¬a.Odd) :
    ∃ l l' : List Str, showSession x = crlf l ∧ showSession (x.anonymize (Anon.after cs)) = crlf l' ∧
      Redacts (maskOf (cs.map (·.secret) ++ x.allSecrets)) x.allSecrets l l' := by
  refine ⟨_, _, showSession_lines _, showSession_lines _, ?_⟩
  rw [C86_anonymize]
  generalize cs.map (·.secret) ++ x.allSecrets = xs
  have k := (Redacts.same (σ := maskOf xs) [c%"v=" ++ showU64 x.version]).append ((origin_line (maskOf_kind xs) x.origin).append
    ((Redacts.same (σ := maskOf xs) ([c%"s=" ++ x.session.getD c%" "] ++ x.timing.toList.map (fun t => c%"t=" ++ showTiming t))).append
      ((body_lines_masked (xs := xs) (bs := x.bandwidth) (c := x.connection) h).append
        (Redacts.flatMap fun m hm' => media_lines (xs := xs) (hm m hm')))))
  simpa [Session.lines, Session.allSecrets, Session.secrets, Session.mapSecrets, List.flatMap_map] using k

/-- **C123.** A media section that is masked on its own. -/
theorem C123_section {m : Media} (cs : List MaskCall) (h : ∀ a ∈ m.attrs, ¬a.Odd) :
    ∃ l l' : List Str, showMedia m = crlf l ∧ showMedia (m.maskedClone (Anon.after cs)).1 = crlf l' ∧
      Redacts (maskOf (cs.map (·.secret) ++ m.attrs.flatMap Attribute.secrets)) (m.attrs.flatMap Attribute.secrets) l l' := by
  refine ⟨_, _, showMedia_lines _, showMedia_lines _, ?_⟩
  have := ((masks_attrs m.attrs).map fun as => ({ m with attrs := as } : Media)) _ _ (knows_after cs)
  have := this.1 []
  simp only [List.append_nil] at this
  rw [show (m.maskedClone (Anon.after cs)).1 = _ from this]
  exact media_lines h

theorem readable_not_odd {a : Attribute} (h : a.Readable) : ¬a.Odd := by
  cases a with
  | icePwd p => rintro rfl; obtain ⟨c, t, e, -⟩ := (show Trimmed [] from h).1; cases e
  | iceUfrag p => rintro rfl; obtain ⟨c, t, e, -⟩ := (show Trimmed [] from h).1; cases e
  | ssrc s =>
    rintro ⟨e1, e2⟩
    obtain ⟨v, hv⟩ := Option.ne_none_iff_exists'.1 e2
    exact ((show s.WF from h).value v hv).1 e1
  | _ => exact id

/-- **C123.** A session that was parsed, or its copy read again. -/
theorem C123_parsed (L : Laws) {t : Str} {f : Bool} {x : Session} (h : parseSdp t f = .ok x) (cs : List MaskCall) :
    ∃ l l' : List Str, showSession x = crlf l ∧ showSession (x.anonymize (Anon.after cs)) = crlf l' ∧
      Redacts (maskOf (cs.map (·.secret) ++ x.allSecrets)) x.allSecrets l l' :=
  have r := parsed_readable L h
  C123_session cs (fun a ha => readable_not_odd (r.attrs a ha)) fun m hm a ha => readable_not_odd ((r.media m hm).attrs a ha)

end

section
attribute [local instance] sampleEnv

/-- Text read, with secrets in most places. -/
def redactedSample : Str := c%"v=0\r\no=bob 1 2 IN IP4 10.0.0.7\r\ns=-\r\nt=0 0\r\nc=IN IP4 10.0.0.7/9\r\nm=audio 9 UDP/TLS/RTP/SAVPF 0\r\nc=IN IP4 10.0.0.7\r\na=ice-pwd:abc\r\na=candidate:0 1 UDP 5 10.0.0.7 51 typ host raddr 10.0.0.8 rport 52\r\na=ssrc:1 CName:me\r\n"

/-- What is left of it, here after another call. -/
def redactedSampleMasked : Str := c%"v=0\r\no=origin-user-00000001 1 2 IN IP4 0.0.0.1\r\ns=-\r\nt=0 0\r\nc=IN IP4 0.0.0.1/9\r\nm=audio 9 UDP/TLS/RTP/SAVPF 0\r\nc=IN IP4 10.0.0.7\r\na=ice-pwd:ice-password-00000002\r\na=candidate:0 1 UDP 5 0.0.0.1 1 typ host raddr 0.0.0.2 rport 2\r\na=ssrc:1 CName:cname-00000001\r\n"

private theorem redactedSample_reads : (match parseSdp redactedSample true with
    | .ok x => some (showSession x, showSession (x.anonymize (Anon.after [.icePassword c%"zzz"])))
    | _ => none) = some (redactedSample, redactedSampleMasked) := by
  decide +kernel

/-- The hypotheses of `C123_parsed` are met. -/
example : ∃ x, parseSdp redactedSample true = .ok x ∧ showSession x = redactedSample ∧
    showSession (x.anonymize (Anon.after [.icePassword c%"zzz"])) = redactedSampleMasked := by
  have h := redactedSample_reads
  generalize redactedSample = t at h ⊢
  generalize redactedSampleMasked = u at h ⊢
  cases e : parseSdp t true with
  | ok x =>
    rw [e] at h
    cases Option.some.inj h
    exact ⟨x, rfl, rfl, rfl⟩
  | err _ => rw [e] at h; cases h
  | panic => rw [e] at h; cases h

/-- And with them those of `C123_session` and `C123_section`. -/
example : ∀ a ∈ [Attribute.icePwd c%"abc", .ssrc ⟨1, some c%"cname", some c%"me"⟩, .candidate maskedSample], ¬a.Odd := by
  simp [Attribute.Odd]

/-- **C123.** Odd attributes do not keep their line: an empty password gets one, a value without attribute is lost. -/
theorem C123_odd : showAttribute (.icePwd []) = [] ∧
    showAttribute ((Attribute.icePwd []).maskedClone Anon.new).1 = c%"ice-pwd:ice-password-00000001" ∧
    showAttribute (.ssrc ⟨1, none, some c%"x"⟩) = c%"ssrc:1:x" ∧
    showAttribute ((Attribute.ssrc ⟨1, none, some c%"x"⟩).maskedClone Anon.new).1 = c%"ssrc:1" := by
  decide +kernel

end

end Sdp
