import Verif.Props.Anon
import Verif.Spec.MaskHistory
import Verif.Props.RoundTrip
/-!
# C99: one anonymizer for many things
-/

namespace Sdp

section
variable [Env]

/-- Masking a thing. -/
def Thing.masked (s : Anon) : Thing → Thing × Anon
  | .call c => let (r, s) := s.call c; (.call r, s)
  | .candidate c => let (r, s) := c.maskedClone s; (.candidate r, s)
  | .remoteCandidate c => let (r, s) := c.maskedClone s; (.remoteCandidate r, s)
  | .fingerprint f => let (r, s) := f.maskedClone s; (.fingerprint r, s)
  | .ssrc x => let (r, s) := x.maskedClone s; (.ssrc r, s)
  | .attr a => let (r, s) := a.maskedClone s; (.attr r, s)
  | .connection c => let (r, s) := c.maskedClone s; (.connection r, s)
  | .origin o => let (r, s) := o.maskedClone s; (.origin r, s)
  | .media m => let (r, s) := m.maskedClone s; (.media r, s)
  | .session x => let (r, s) := x.maskedClone s; (.session r, s)

/-- Masking one thing after the other with the same anonymizer. -/
def maskedFrom (s : Anon) : List Thing → List Thing
  | [] => []
  | t :: ts => (t.masked s).1 :: maskedFrom (t.masked s).2 ts

/-- ... with a new one. -/
def maskedAll (ts : List Thing) : List Thing := maskedFrom Anon.new ts

private theorem kept_masked (σ : Secret → Secret) (a : Attribute) : a.kept.mapSecrets σ = a.mapSecrets σ ∧ a.kept.secrets = a.secrets := by
  cases a with
  | ssrc x =>
    obtain ⟨id, attr, value⟩ := x
    cases attr <;> exact ⟨rfl, rfl⟩
  | _ => exact ⟨rfl, rfl⟩

private theorem masked_kept (σ : Secret → Secret) (a : Attribute) : (a.mapSecrets σ).kept = a.mapSecrets σ := by
  cases a with
  | ssrc x =>
    obtain ⟨id, attr, value⟩ := x
    cases attr with
    | none => rfl
    | some a =>
      cases value with
      | none => rfl
      | some v =>
        simp only [Attribute.mapSecrets, Ssrc.mapSecrets]
        split <;> rfl
  | _ => rfl

private theorem masks_thing (t : Thing) : Masks (fun s => t.masked s) t.secrets (fun σ => (t.kept.mapSecrets σ)) := by
  cases t with
  | call c =>
    cases c with
    | host h => exact (masks_host h).map fun x => Thing.call (.host x)
    | ip h => exact (masks_ip h).map fun x => Thing.call (.ip x)
    | address h =>
      have := (masks_address h).map fun x => Thing.call (.address x)
      cases h <;> exact this
    | typedAddress h =>
      have := (masks_typedAddress h).map fun x => Thing.call (.typedAddress x)
      cases h <;> exact this
    | port h => exact (masks_port h).map fun x => Thing.call (.port x)
    | originUser h => exact (masks_originUser h).map fun x => Thing.call (.originUser x)
    | icePassword h => exact (masks_icePassword h).map fun x => Thing.call (.icePassword x)
    | iceUser h => exact (masks_iceUser h).map fun x => Thing.call (.iceUser x)
    | fingerprint h => exact (masks_fingerprint h).map fun x => Thing.call (.fingerprint x)
    | cname h => exact (masks_cname h).map fun x => Thing.call (.cname x)
  | candidate c => exact (masks_candidate c).map Thing.candidate
  | remoteCandidate c =>
    exact (masks_address c.address).pair (fun a p => Thing.remoteCandidate { c with address := a, port := p })
      (masks_port c.port)
  | fingerprint f =>
    exact (masks_fingerprint f.fingerprint).map fun b => Thing.fingerprint { f with fingerprint := b }
  | ssrc x =>
    have e : (fun σ => ((Thing.ssrc x).kept.mapSecrets σ)) = fun σ => .ssrc (x.mapSecrets σ) := by
      funext σ
      have := (kept_masked σ (.ssrc x)).1
      simp only [Attribute.kept, Attribute.mapSecrets, Attribute.ssrc.injEq] at this
      simp only [Thing.kept, Thing.mapSecrets, this]
    rw [e]
    exact (masks_ssrc x).map Thing.ssrc
  | attr a =>
    have e : (fun σ => ((Thing.attr a).kept.mapSecrets σ)) = fun σ => .attr (a.mapSecrets σ) := by
      funext σ
      simp only [Thing.kept, Thing.mapSecrets, (kept_masked σ a).1]
    rw [e]
    exact (masks_attribute a).map Thing.attr
  | connection c => exact (masks_connection c).map Thing.connection
  | origin o => exact (masks_origin o).map Thing.origin
  | media m =>
    have e : (fun σ => ((Thing.media m).kept.mapSecrets σ)) = fun σ => .media { m with attrs := m.attrs.map (Attribute.mapSecrets σ) } := by
      funext σ
      simp only [Thing.kept, Thing.mapSecrets, List.map_map]
      congr 2
      exact List.map_congr_left fun a _ => (kept_masked σ a).1
    rw [e]
    exact (masks_attrs m.attrs).map fun as => Thing.media { m with attrs := as }
  | session x =>
    have e : (fun σ => ((Thing.session x).kept.mapSecrets σ)) = fun σ => .session { x.mapSecrets σ with media := [], warnings := [] } := by
      funext σ
      simp only [Thing.kept, Thing.mapSecrets, Session.mapSecrets, List.map_map]
      congr 2
      exact List.map_congr_left fun a _ => (kept_masked σ a).1
    rw [e]
    exact (masks_session x).map Thing.session

private theorem masks_from (ts : List Thing) (s : Anon) (xs : List Secret) (h : Knows s xs) (zs : List Secret) :
    maskedFrom s ts = ts.map fun t => t.kept.mapSecrets (maskOf (xs ++ ts.flatMap Thing.secrets ++ zs)) := by
  induction ts generalizing s xs with
  | nil => rfl
  | cons t ts ih =>
    obtain ⟨h1, h2⟩ := masks_thing t s xs h
    rw [maskedFrom, ih _ _ h2, List.map_cons, List.flatMap_cons]
    simp only [List.append_assoc] at h1 ⊢
    rw [h1 (ts.flatMap Thing.secrets ++ zs)]

/-- **C99.** Whatever is masked with an anonymizer, in whatever order, each thing comes out as it was but for its secrets,
and each secret is replaced by its mask: the number that the secret has among the secrets of its kind that were masked
so far, in one thing or another. Media sections and warnings of sessions, and values of an ssrc that has no attribute, are
dropped. -/
theorem C99_history (ts : List Thing) :
    maskedAll ts = ts.map fun t => t.kept.mapSecrets (maskOf (ts.flatMap Thing.secrets)) := by
  have := masks_from ts Anon.new [] knows_new []
  simpa [maskedAll] using this

/-- The anonymizer after a sequence of things. -/
def anonAfter (s : Anon) : List Thing → Anon
  | [] => s
  | t :: ts => anonAfter (t.masked s).2 ts

/-- The state after masking secrets one by one. -/
private def run (s : Anon) (S : List Secret) : Anon := (s.calls (S.map plainCall)).2

omit [Env] in
private theorem run_nil (s : Anon) : run s [] = s := rfl

omit [Env] in
private theorem run_cons (s : Anon) (x : Secret) (S : List Secret) : run s (x :: S) = run (s.call (plainCall x)).2 S := rfl

omit [Env] in
private theorem run_append (s : Anon) (S T : List Secret) : run s (S ++ T) = run (run s S) T := by
  induction S generalizing s with
  | nil => rfl
  | cons x S ih => rw [List.cons_append, run_cons, run_cons, ih]

omit [Env] in
private theorem run_address (s : Anon) (a : Address) : (s.maskAddress a).2 = run s a.secrets := by cases a <;> rfl

omit [Env] in
private theorem run_typed (s : Anon) (a : TypedAddress) : (s.maskTypedAddress a).2 = run s a.secrets := by cases a <;> rfl

omit [Env] in
private theorem run_candidate (s : Anon) (c : Candidate) : (c.maskedClone s).2 = run s c.secrets := by
  have h1 : ∀ s (o : Option Address), (maskOpt Anon.maskAddress s o).2 = run s ((o.map Address.secrets).getD []) := by
    intro s o
    cases o
    · rfl
    · exact run_address _ _
  have h2 : ∀ s (o : Option UInt32), (maskOpt Anon.maskPort s o).2 = run s ((o.map fun p => [Secret.port p]).getD []) := by
    intro s o
    cases o <;> rfl
  simp only [Candidate.maskedClone, Candidate.secrets, run_append, h1, h2, run_address]
  rfl

private theorem run_ssrc (s : Anon) (x : Ssrc) : (x.maskedClone s).2 = run s x.secrets := by
  obtain ⟨id, attr, value⟩ := x
  cases attr with
  | none => rfl
  | some a =>
    cases value with
    | none => rfl
    | some v =>
      simp only [Ssrc.maskedClone, Ssrc.secrets]
      show (if lower a = "cname".toList then _ else _ : Ssrc × Anon).2 = _
      split <;> rfl

private theorem run_attribute (s : Anon) (a : Attribute) : (a.maskedClone s).2 = run s a.secrets := by
  cases a with
  | candidate c => exact run_candidate s c
  | ssrc x => exact run_ssrc s x
  | remoteCandidate c =>
    simp only [Attribute.maskedClone, RemoteCandidate.maskedClone, Attribute.secrets, run_append, run_address]
    rfl
  | _ => rfl

private theorem run_attrs (s : Anon) (as : List Attribute) : (maskAttrs as s).2 = run s (as.flatMap Attribute.secrets) := by
  induction as generalizing s with
  | nil => rfl
  | cons a as ih =>
    simp only [maskAttrs, List.flatMap_cons, run_append, ih, run_attribute]

omit [Env] in
private theorem run_origin (s : Anon) (o : Origin) : (o.maskedClone s).2 = run s o.secrets := by
  simp only [Origin.maskedClone, Origin.secrets, run_typed, run_cons]
  rfl

omit [Env] in
private theorem strMask_twice (m : StrMap) (v : Str) : ((m.mask v).2.mask v).2 = (m.mask v).2 := by
  unfold StrMap.mask
  cases h : m.map.lookup v with
  | some s => simp only [h]
  | none => simp [List.lookup_append, h]

omit [Env] in
/-- A secret that was masked before changes nothing. -/
private theorem run_origin_twice (s : Anon) (o : Origin) : run (run s o.secrets) o.secrets = run s o.secrets := by
  obtain ⟨u, _, _, a⟩ := o
  cases a with
  | fqdn t h =>
    show ({ s with
      originUsers := ((s.originUsers.mask u).2.mask u).2, hostNames := ((s.hostNames.mask h).2.mask h).2 } : Anon) =
      { s with originUsers := (s.originUsers.mask u).2, hostNames := (s.hostNames.mask h).2 }
    rw [strMask_twice, strMask_twice]
  | ip i =>
    show ((({ (({ s with originUsers := (s.originUsers.mask u).2 } : Anon).maskIp i).2 with
      originUsers := ((({ s with originUsers := (s.originUsers.mask u).2 } : Anon).maskIp i).2.originUsers.mask u).2 } : Anon)).maskIp i).2 =
      (({ s with originUsers := (s.originUsers.mask u).2 } : Anon).maskIp i).2
    have e : ∀ s : Anon, (s.maskIp i).2.originUsers = s.originUsers := by
      intro s
      unfold Anon.maskIp
      split
      · rfl
      · cases i <;> rfl
    have e2 : ∀ s : Anon, ((s.maskIp i).2.maskIp i).2 = (s.maskIp i).2 := by
      intro s
      unfold Anon.maskIp
      cases h : s.ips.lookup i with
      | some r => simp only [h]
      | none => cases i <;> simp [List.lookup_append, h]
    rw [e]
    show ((({ (({ s with originUsers := (s.originUsers.mask u).2 } : Anon).maskIp i).2 with
      originUsers := ((s.originUsers.mask u).2.mask u).2 } : Anon)).maskIp i).2 = _
    rw [strMask_twice]
    refine Eq.trans ?_ (e2 _)
    congr 2
    have := e { s with originUsers := (s.originUsers.mask u).2 }
    generalize (({ s with originUsers := (s.originUsers.mask u).2 } : Anon).maskIp i).2 = r at this ⊢
    cases r
    simp only at this
    subst this
    rfl

private theorem run_thing (s : Anon) (t : Thing) : (t.masked s).2 = run s t.secrets := by
  cases t with
  | call c =>
    cases c with
    | address a => exact (run_address s a).trans (by cases a <;> rfl)
    | typedAddress a => exact (run_typed s a).trans (by cases a <;> rfl)
    | _ => rfl
  | candidate c => exact run_candidate s c
  | remoteCandidate c => exact run_attribute s (.remoteCandidate c)
  | fingerprint f => rfl
  | ssrc x => exact run_ssrc s x
  | attr a => exact run_attribute s a
  | connection c => exact run_typed s c.address
  | origin o => exact run_origin s o
  | media m => exact run_attrs s m.attrs
  | session x =>
    have h : ∀ s (o : Option Connection), (maskOpt (fun s (c : Connection) => c.maskedClone s) s o).2 =
        run s ((o.map fun c => c.address.secrets).getD []) := by
      intro s o
      cases o
      · rfl
      · exact run_typed s _
    simp only [Thing.masked, Session.maskedClone, Thing.secrets, Session.secrets, run_append, run_attrs, h, run_origin,
      run_origin_twice]

/-- **C99.** The anonymizer ends up in the very state in which it is after masking the secrets one by one with its own
calls: what holds of an anonymizer after any calls (C36-C41, C86) holds of it after any calls and clones. -/
theorem C99_state (ts : List Thing) :
    anonAfter Anon.new ts = Anon.after ((ts.flatMap Thing.secrets).map plainCall) := by
  have : ∀ s, anonAfter s ts = run s (ts.flatMap Thing.secrets) := by
    induction ts with
    | nil => intro s; rfl
    | cons t ts ih => intro s; rw [anonAfter, ih, List.flatMap_cons, run_append, run_thing]
  exact this _

private theorem attribute_id (a : Attribute) : a.mapSecrets id = a.kept := by
  have haddr (a : Address) : a.mapSecrets id = a := by cases a <;> rfl
  cases a with
  | candidate c =>
    obtain ⟨_, _, _, _, _, _, _, raddr, rport, _⟩ := c
    simp only [Attribute.mapSecrets, Candidate.mapSecrets, haddr, id, Secret.portNumber, Attribute.kept]
    congr 2
    · cases raddr <;> simp [haddr]
    · cases rport <;> simp
  | ssrc x =>
    obtain ⟨id, attr, value⟩ := x
    cases attr with
    | none => rfl
    | some a =>
      cases value with
      | none => rfl
      | some v =>
        simp only [Attribute.mapSecrets, Ssrc.mapSecrets, Attribute.kept, Ssrc.kept]
        split <;> rfl
  | remoteCandidate c => simp only [Attribute.mapSecrets, haddr]; rfl
  | _ => rfl

/-- What is needed of replacing secrets in things. -/
theorem thing_rename {σ : Secret → Secret} (hσ : KindPreserving σ) (t : Thing) :
    (t.mapSecrets σ).secrets = t.secrets.map σ ∧ ∀ τ, (t.mapSecrets σ).mapSecrets τ = t.mapSecrets (τ ∘ σ) := by
  cases t with
  | call c =>
    cases c with
    | host h => have := kind_host (hσ (.host h)); constructor <;> simp [Thing.mapSecrets, MaskCall.mapSecrets, Thing.secrets, MaskCall.secret, ← this]
    | ip h => have := kind_ip (hσ (.ip h)); constructor <;> simp [Thing.mapSecrets, MaskCall.mapSecrets, Thing.secrets, MaskCall.secret, ← this]
    | address h =>
      have e : ∀ a : Address, [(MaskCall.address a).secret] = a.secrets := by intro a; cases a <;> rfl
      exact ⟨by simp only [Thing.mapSecrets, MaskCall.mapSecrets, Thing.secrets, e, address_secrets hσ],
        fun τ => by simp only [Thing.mapSecrets, MaskCall.mapSecrets, address_comp hσ]⟩
    | typedAddress h =>
      have e : ∀ a : TypedAddress, [(MaskCall.typedAddress a).secret] = a.secrets := by intro a; cases a <;> rfl
      exact ⟨by simp only [Thing.mapSecrets, MaskCall.mapSecrets, Thing.secrets, e, typedAddress_secrets hσ],
        fun τ => by simp only [Thing.mapSecrets, MaskCall.mapSecrets, typedAddress_comp hσ]⟩
    | port h => have := kind_port (hσ (.port h)); constructor <;> simp [Thing.mapSecrets, MaskCall.mapSecrets, Thing.secrets, MaskCall.secret, ← this]
    | originUser h => have := kind_originUser (hσ (.originUser h)); constructor <;> simp [Thing.mapSecrets, MaskCall.mapSecrets, Thing.secrets, MaskCall.secret, ← this]
    | icePassword h => have := kind_icePassword (hσ (.icePassword h)); constructor <;> simp [Thing.mapSecrets, MaskCall.mapSecrets, Thing.secrets, MaskCall.secret, ← this]
    | iceUser h => have := kind_iceUser (hσ (.iceUser h)); constructor <;> simp [Thing.mapSecrets, MaskCall.mapSecrets, Thing.secrets, MaskCall.secret, ← this]
    | fingerprint h => have := kind_fingerprint (hσ (.fingerprint h)); constructor <;> simp [Thing.mapSecrets, MaskCall.mapSecrets, Thing.secrets, MaskCall.secret, ← this]
    | cname h => have := kind_cname (hσ (.cname h)); constructor <;> simp [Thing.mapSecrets, MaskCall.mapSecrets, Thing.secrets, MaskCall.secret, ← this]
  | candidate c =>
    obtain ⟨h1, h2⟩ := attribute_rename hσ (.candidate c)
    exact ⟨h1, fun τ => by
      have := h2 τ
      simp only [Attribute.mapSecrets, Attribute.candidate.injEq] at this
      simp only [Thing.mapSecrets, this]⟩
  | remoteCandidate c =>
    obtain ⟨h1, h2⟩ := attribute_rename hσ (.remoteCandidate c)
    exact ⟨h1, fun τ => by
      have := h2 τ
      simp only [Attribute.mapSecrets, Attribute.remoteCandidate.injEq] at this
      simp only [Thing.mapSecrets, this]⟩
  | fingerprint c =>
    obtain ⟨h1, h2⟩ := attribute_rename hσ (.fingerprint c)
    exact ⟨h1, fun τ => by
      have := h2 τ
      simp only [Attribute.mapSecrets, Attribute.fingerprint.injEq] at this
      simp only [Thing.mapSecrets, this]⟩
  | ssrc c =>
    obtain ⟨h1, h2⟩ := attribute_rename hσ (.ssrc c)
    exact ⟨h1, fun τ => by
      have := h2 τ
      simp only [Attribute.mapSecrets, Attribute.ssrc.injEq] at this
      simp only [Thing.mapSecrets, this]⟩
  | attr a =>
    obtain ⟨h1, h2⟩ := attribute_rename hσ a
    exact ⟨h1, fun τ => by simp only [Thing.mapSecrets, h2]⟩
  | connection c =>
    exact ⟨typedAddress_secrets hσ _, fun τ => by simp only [Thing.mapSecrets, typedAddress_comp hσ]⟩
  | origin o =>
    have hu := kind_originUser (hσ (.originUser o.username))
    constructor
    · simp only [Thing.mapSecrets, Thing.secrets, Origin.secrets, Origin.mapSecrets, ← hu, typedAddress_secrets hσ, List.map_cons]
    · intro τ
      simp only [Thing.mapSecrets, Origin.mapSecrets, ← hu, typedAddress_comp hσ, Function.comp]
  | media m =>
    constructor
    · simp only [Thing.mapSecrets, Thing.secrets, List.flatMap_map, List.map_flatMap]
      congr 1
      funext a
      exact (attribute_rename hσ a).1
    · intro τ
      simp only [Thing.mapSecrets, List.map_map]
      congr 2
      exact List.map_congr_left fun a _ => (attribute_rename hσ a).2 τ
  | session x =>
    obtain ⟨h1, h2⟩ := session_rename hσ x
    exact ⟨h1, fun τ => by simp only [Thing.mapSecrets, h2]⟩

theorem thing_congr {σ τ : Secret → Secret} (t : Thing) (h : ∀ z ∈ t.secrets, σ z = τ z) :
    t.mapSecrets σ = t.mapSecrets τ := by
  have haddr (a : Address) (h : ∀ z ∈ a.secrets, σ z = τ z) : a.mapSecrets σ = a.mapSecrets τ := by
    cases a <;> simp [Address.mapSecrets, Address.secrets] at h ⊢ <;> rw [h]
  have htyped (a : TypedAddress) (h : ∀ z ∈ a.secrets, σ z = τ z) : a.mapSecrets σ = a.mapSecrets τ := by
    cases a <;> simp [TypedAddress.mapSecrets, TypedAddress.secrets] at h ⊢ <;> rw [h]
  cases t with
  | call c =>
    have h : σ c.secret = τ c.secret := h _ (List.mem_singleton.2 rfl)
    cases c with
    | address a =>
      simp only [Thing.mapSecrets, MaskCall.mapSecrets]
      rw [haddr a]
      intro z hz
      cases a <;> simp only [Address.secrets, List.mem_singleton] at hz <;> subst hz <;> exact h
    | typedAddress a =>
      simp only [Thing.mapSecrets, MaskCall.mapSecrets]
      rw [htyped a]
      intro z hz
      cases a <;> simp only [TypedAddress.secrets, List.mem_singleton] at hz <;> subst hz <;> exact h
    | _ => simp only [MaskCall.secret] at h; simp only [Thing.mapSecrets, MaskCall.mapSecrets, h]
  | candidate c =>
    have := attribute_congr (.candidate c) h
    simp only [Attribute.mapSecrets, Attribute.candidate.injEq] at this
    simp only [Thing.mapSecrets, this]
  | remoteCandidate c =>
    have := attribute_congr (.remoteCandidate c) h
    simp only [Attribute.mapSecrets, Attribute.remoteCandidate.injEq] at this
    simp only [Thing.mapSecrets, this]
  | fingerprint c =>
    have := attribute_congr (.fingerprint c) h
    simp only [Attribute.mapSecrets, Attribute.fingerprint.injEq] at this
    simp only [Thing.mapSecrets, this]
  | ssrc c =>
    have := attribute_congr (.ssrc c) h
    simp only [Attribute.mapSecrets, Attribute.ssrc.injEq] at this
    simp only [Thing.mapSecrets, this]
  | attr a => simp only [Thing.mapSecrets, attribute_congr a h]
  | connection c => simp only [Thing.mapSecrets]; rw [htyped _ h]
  | origin o =>
    simp only [Thing.secrets, Origin.secrets, List.mem_cons] at h
    simp only [Thing.mapSecrets, Origin.mapSecrets]
    rw [htyped _ fun z hz => h z (.inr hz), h _ (.inl rfl)]
  | media m =>
    simp only [Thing.secrets, List.mem_flatMap] at h
    simp only [Thing.mapSecrets]
    congr 2
    exact List.map_congr_left fun a ha => attribute_congr a fun z hz => h z ⟨a, ha, hz⟩
  | session x => simp only [Thing.mapSecrets, session_congr x h]

theorem thing_kept_secrets (t : Thing) : t.kept.secrets = t.secrets := by
  cases t with
  | ssrc x => exact (kept_masked id (.ssrc x)).2
  | attr a => exact (kept_masked id a).2
  | media m =>
    simp only [Thing.kept, Thing.secrets, List.flatMap_map]
    congr 1
    funext a
    exact (kept_masked id a).2
  | session x =>
    simp only [Thing.kept, Thing.secrets, Session.secrets, List.flatMap_map]
    congr 3
    funext a
    exact (kept_masked id a).2
  | _ => rfl

theorem attribute_kept_kept (a : Attribute) : a.kept.kept = a.kept := by
  cases a with
  | ssrc x =>
    obtain ⟨id, attr, value⟩ := x
    cases attr <;> rfl
  | _ => rfl

theorem thing_id (t : Thing) : t.kept.mapSecrets id = t.kept := by
  have haddr (a : Address) : a.mapSecrets id = a := by cases a <;> rfl
  have htyped (a : TypedAddress) : a.mapSecrets id = a := by cases a <;> rfl
  cases t with
  | call c => cases c <;> simp only [Thing.kept, Thing.mapSecrets, MaskCall.mapSecrets, haddr, htyped] <;> rfl
  | candidate c =>
    have := attribute_id (.candidate c)
    simp only [Attribute.mapSecrets, Attribute.kept, Attribute.candidate.injEq] at this
    simp only [Thing.kept, Thing.mapSecrets, this]
  | remoteCandidate c => simp only [Thing.kept, Thing.mapSecrets, haddr]; rfl
  | fingerprint c => rfl
  | ssrc c =>
    have := attribute_id (Attribute.kept (.ssrc c))
    rw [attribute_kept_kept] at this
    simp only [Attribute.mapSecrets, Attribute.kept, Attribute.ssrc.injEq] at this
    simp only [Thing.kept, Thing.mapSecrets, this]
  | attr a => simp only [Thing.kept, Thing.mapSecrets, attribute_id, attribute_kept_kept]
  | connection c => simp only [Thing.kept, Thing.mapSecrets, htyped]
  | origin o => simp only [Thing.kept, Thing.mapSecrets, Origin.mapSecrets, htyped]; rfl
  | media m =>
    simp only [Thing.kept, Thing.mapSecrets, List.map_map]
    congr 2
    refine List.map_congr_left fun a _ => ?_
    simp only [Function.comp, attribute_id, attribute_kept_kept]
  | session x =>
    simp only [Thing.kept, Thing.mapSecrets, Session.mapSecrets, Origin.mapSecrets, htyped, List.map_map]
    congr 2
    · cases x.connection <;> simp [htyped]
    · refine List.map_congr_left fun a _ => ?_
      simp only [Function.comp, attribute_id, attribute_kept_kept]

theorem maskOf_kind (xs : List Secret) : KindPreserving (maskOf xs) := by
  intro z
  simp only [maskOf, kind_label]

theorem maskOf_inj {xs : List Secret} (hcap : ∀ k, (distinct k xs).length ≤ capacityOf k) {x y : Secret} (hx : x ∈ xs)
    (hy : y ∈ xs) (h : maskOf xs x = maskOf xs y) : x = y := by
  have hk : x.kind = y.kind := by
    have := congrArg Secret.kind h
    rwa [maskOf_kind, maskOf_kind] at this
  have e : capacityOf = capacity := by funext k; cases k <;> rfl
  have hlen := hcap y.kind
  rw [e] at hlen
  simp only [maskOf] at h
  rw [hk, label_inj] at h
  refine rank_inj hx hk ?_
  have a1 := rank_le hx
  have a2 := rank_le hy
  have a3 := rank_pos xs x
  have a4 := rank_pos xs y
  rw [hk] at a1
  generalize rank xs x = a at *
  generalize rank xs y = b at *
  have hpos : 0 < capacity y.kind := by cases y.kind <;> decide
  have ha : a ≤ capacity y.kind := Nat.le_trans a1 hlen
  have hb : b ≤ capacity y.kind := Nat.le_trans a2 hlen
  rcases Nat.lt_or_eq_of_le ha with ha | ha <;> rcases Nat.lt_or_eq_of_le hb with hb | hb
  · rwa [Nat.mod_eq_of_lt ha, Nat.mod_eq_of_lt hb] at h
  · rw [Nat.mod_eq_of_lt ha, hb, Nat.mod_self] at h; omega
  · rw [ha, Nat.mod_self, Nat.mod_eq_of_lt hb] at h; omega
  · omega

/-- **C99.** The same thing comes out the same each time it is masked, whatever is masked in between. -/
theorem C99_stable (ts : List Thing) {i j : Nat} {t u : Thing} (hi : ts[i]? = some t) (hj : ts[j]? = some u)
    (h : t.kept = u.kept) : (maskedAll ts)[i]? = (maskedAll ts)[j]? := by
  rw [C99_history, List.getElem?_map, List.getElem?_map, hi, hj]
  simp only [Option.map_some, h]

/-- **C99.** Things that come out the same are the same (but for what masking drops), as long as the masks do not run out:
there are 2^8 for fingerprints, 2^32 for ports and IPv4 addresses, 2^64 for names and passwords, 2^128 for IPv6 addresses. -/
theorem C99_faithful (ts : List Thing) (hcap : ∀ k, (distinct k (ts.flatMap Thing.secrets)).length ≤ capacityOf k)
    {i j : Nat} {t u : Thing} (hi : ts[i]? = some t) (hj : ts[j]? = some u)
    (h : (maskedAll ts)[i]? = (maskedAll ts)[j]?) : t.kept = u.kept := by
  rw [C99_history, List.getElem?_map, List.getElem?_map, hi, hj] at h
  simp only [Option.map_some, Option.some.injEq] at h
  generalize hS : ts.flatMap Thing.secrets = S at *
  have hsub {x : Thing} (hx : x ∈ ts) : ∀ z ∈ x.kept.secrets, z ∈ S := by
    intro z hz
    rw [thing_kept_secrets] at hz
    rw [← hS]
    exact List.mem_flatMap.2 ⟨x, hx, hz⟩
  obtain ⟨τ, hτ⟩ : ∃ τ : Secret → Secret, ∀ z ∈ S, τ (maskOf S z) = z := by
    classical
    refine ⟨fun y => if h : ∃ z ∈ S, maskOf S z = y then h.choose else y, fun z hz => ?_⟩
    have hex : ∃ w ∈ S, maskOf S w = maskOf S z := ⟨z, hz, rfl⟩
    simp only [dif_pos hex]
    exact maskOf_inj hcap hex.choose_spec.1 hz hex.choose_spec.2
  have h' := congrArg (Thing.mapSecrets τ) h
  rw [(thing_rename (maskOf_kind S) _).2, (thing_rename (maskOf_kind S) _).2,
    thing_congr (σ := τ ∘ maskOf S) (τ := id) t.kept fun z hz => hτ z (hsub (List.mem_of_getElem? hi) z hz),
    thing_congr (σ := τ ∘ maskOf S) (τ := id) u.kept fun z hz => hτ z (hsub (List.mem_of_getElem? hj) z hz), thing_id, thing_id] at h'
  exact h'

theorem thing_mapped_kept (σ : Secret → Secret) (t : Thing) : (t.mapSecrets σ).kept = t.kept.mapSecrets σ := by
  cases t with
  | ssrc x =>
    have h1 := masked_kept σ (.ssrc x)
    have h2 := (kept_masked σ (.ssrc x)).1
    simp only [Attribute.mapSecrets, Attribute.kept, Attribute.ssrc.injEq] at h1 h2
    simp only [Thing.mapSecrets, Thing.kept, h1, h2]
  | attr a => simp only [Thing.mapSecrets, Thing.kept, masked_kept, (kept_masked σ a).1]
  | media m =>
    simp only [Thing.mapSecrets, Thing.kept, List.map_map]
    congr 2
    exact List.map_congr_left fun a _ => (masked_kept σ a).trans (kept_masked σ a).1.symm
  | session x =>
    simp only [Thing.mapSecrets, Thing.kept, Session.mapSecrets, List.map_map]
    congr 2
    exact List.map_congr_left fun a _ => (masked_kept σ a).trans (kept_masked σ a).1.symm
  | _ => rfl

/-- **C99.** What comes out does not depend on the secrets: if they are replaced by others of the same kinds throughout the
history, different ones by different ones, all results stay the same. -/
theorem C99_hides (ts : List Thing) (σ : Secret → Secret) (hσ : ∀ z, (σ z).kind = z.kind)
    (hinj : ∀ z ∈ ts.flatMap Thing.secrets, ∀ w ∈ ts.flatMap Thing.secrets, σ z = σ w → z = w) :
    maskedAll (ts.map (Thing.mapSecrets σ)) = maskedAll ts := by
  have hk : ∀ z, (σ z).kind = z.kind := hσ
  rw [C99_history, C99_history, List.map_map, List.flatMap_map]
  have e : (ts.flatMap fun t => (t.mapSecrets σ).secrets) = (ts.flatMap Thing.secrets).map σ := by
    rw [List.map_flatMap]
    congr 1
    funext t
    exact (thing_rename hσ t).1
  rw [e]
  refine List.map_congr_left fun t ht => ?_
  have hkept : ∀ τ, (t.mapSecrets σ).kept.mapSecrets τ = t.kept.mapSecrets (τ ∘ σ) := by
    intro τ
    rw [thing_mapped_kept, (thing_rename hσ t.kept).2]
  simp only [Function.comp]
  rw [hkept]
  refine thing_congr _ fun z hz => ?_
  rw [thing_kept_secrets] at hz
  have hz' : z ∈ ts.flatMap Thing.secrets := List.mem_flatMap.2 ⟨t, ht, hz⟩
  simp only [Function.comp, maskOf, hk z, (rank_rename σ _ (fun x _ => hk x) hinj).2 z hz']

end

section
attribute [local instance] sampleEnv

private def history : List Thing :=
  [.session sampleSession, .call (.port 9), .attr (.iceUfrag c%"alice"), .call (.iceUser c%"bob"),
   .ssrc { id := 7, attr := some c%"CNAME", value := some c%"me" }, .attr (.iceUfrag c%"alice"),
   .remoteCandidate { component := 1, address := .fqdn c%"a.b", port := 9 }]

example : (maskedAll history).drop 1 =
    [.call (.port 1), .attr (.iceUfrag c%"ice-user-00000001"), .call (.iceUser c%"ice-user-00000002"),
     .ssrc { id := 7, attr := some c%"CNAME", value := some c%"cname-00000001" },
     .attr (.iceUfrag c%"ice-user-00000001"),
     .remoteCandidate { component := 1, address := .fqdn c%"fqdn-00000002", port := 1 }] := by decide +kernel

example : (∀ k, (distinct k (history.flatMap Thing.secrets)).length ≤ capacityOf k) ∧
    history[2]?.map Thing.kept = history[5]?.map Thing.kept ∧ history[2]?.map Thing.kept ≠ history[3]?.map Thing.kept := by
  refine ⟨fun k => ?_, by decide +kernel, by decide +kernel⟩
  cases k <;> decide +kernel

/-- Replacing every ICE user name by a longer one. -/
example : ∃ σ : Secret → Secret, (∀ z, (σ z).kind = z.kind) ∧ (∀ z w, σ z = σ w → z = w) ∧
    history.map (Thing.mapSecrets σ) ≠ history := by
  refine ⟨fun z => match z with | .iceUser u => .iceUser ('x' :: u) | z => z, ?_, ?_, by decide +kernel⟩
  · intro z
    cases z with
    | ip a => cases a <;> rfl
    | _ => rfl
  · intro z w h
    cases z <;> cases w <;> simp_all

end

end Sdp
