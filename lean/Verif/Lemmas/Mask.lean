import Verif.Model.Anon
import Verif.Spec.Mask
import Verif.Lemmas.Outcome
import Mathlib.Data.List.Induction
/-!
# The anonymizer refines "number the different secrets of each kind"
-/

namespace Sdp

/-- One call; the result has the shape of the argument. -/
def Anon.call (s : Anon) : MaskCall → MaskCall × Anon
  | .host h => let (r, s) := s.maskHost h; (.host r, s)
  | .ip a => let (r, s) := s.maskIp a; (.ip r, s)
  | .address a => let (r, s) := s.maskAddress a; (.address r, s)
  | .typedAddress a => let (r, s) := s.maskTypedAddress a; (.typedAddress r, s)
  | .port p => let (r, s) := s.maskPort p; (.port r, s)
  | .originUser u => let (r, s) := s.maskOriginUser u; (.originUser r, s)
  | .icePassword u => let (r, s) := s.maskIcePassword u; (.icePassword r, s)
  | .iceUser u => let (r, s) := s.maskIceUser u; (.iceUser r, s)
  | .fingerprint u => let (r, s) := s.maskCertFingerPrint u; (.fingerprint r, s)
  | .cname u => let (r, s) := s.maskCname u; (.cname r, s)

/-- A history of calls with their results. -/
def Anon.calls (s : Anon) : List MaskCall → List MaskCall × Anon
  | [] => ([], s)
  | c :: cs =>
    let (r, s) := s.call c
    let (rs, s) := s.calls cs
    (r :: rs, s)

/-- The call made for a secret alone. -/
def plainCall : Secret → MaskCall
  | .host h => .host h
  | .ip a => .ip a
  | .port p => .port p
  | .originUser u => .originUser u
  | .icePassword p => .icePassword p
  | .iceUser u => .iceUser u
  | .fingerprint b => .fingerprint b
  | .cname c => .cname c

theorem secret_plainCall (x : Secret) : (plainCall x).secret = x := by cases x <;> rfl

/-- What is stored for a secret. -/
def Anon.find (s : Anon) : Secret → Option Secret
  | .host h => (s.hostNames.map.lookup h).map .host
  | .ip a => (s.ips.lookup a).map .ip
  | .port p => (s.ports.lookup p).map .port
  | .originUser h => (s.originUsers.map.lookup h).map .originUser
  | .icePassword h => (s.icePasswords.map.lookup h).map .icePassword
  | .iceUser h => (s.iceUsers.map.lookup h).map .iceUser
  | .fingerprint h => (s.certFingerPrints.lookup h).map .fingerprint
  | .cname h => (s.cnames.map.lookup h).map .cname

/-- The counters of an anonymizer hold `n k` modulo their width, prefixes and paddings are those of `new`. -/
structure Counts (s : Anon) (n : Kind → Nat) : Prop where
  v4 : s.ipV4Inc = UInt32.ofNat (n .ipV4)
  v6 : s.ipV6Inc = BitVec.ofNat 128 (n .ipV6)
  port : s.portInc = UInt32.ofNat (n .port)
  fp : s.certFingerPrintInc = UInt64.ofNat (n .fingerprint)
  host : s.hostNames = ⟨s.hostNames.map, UInt64.ofNat (n .host), "fqdn-".toList, 8⟩
  user : s.originUsers = ⟨s.originUsers.map, UInt64.ofNat (n .originUser), "origin-user-".toList, 8⟩
  pwd : s.icePasswords = ⟨s.icePasswords.map, UInt64.ofNat (n .icePassword), "ice-password-".toList, 8⟩
  ufrag : s.iceUsers = ⟨s.iceUsers.map, UInt64.ofNat (n .iceUser), "ice-user-".toList, 8⟩
  cname : s.cnames = ⟨s.cnames.map, UInt64.ofNat (n .cname), "cname-".toList, 8⟩

theorem lookup_append_none {α β : Type} [BEq α] {l : List (α × β)} {k k' : α} {v : β} [LawfulBEq α] [DecidableEq α]
    (h : l.lookup k = none) :
    (l ++ [(k, v)]).lookup k' = if k' = k then some v else l.lookup k' := by
  rw [List.lookup_append]
  by_cases hk : k' = k
  · subst hk; simp [h]
  · simp [hk, List.lookup, beq_eq_false_iff_ne.2 hk]

theorem counter_succ64 (n : Nat) : UInt64.ofNat n + 1 = UInt64.ofNat (n + 1) := by
  rw [UInt64.ofNat_add]; rfl

theorem counter_succ32 (n : Nat) : UInt32.ofNat n + 1 = UInt32.ofNat (n + 1) := by
  rw [UInt32.ofNat_add]; rfl

theorem counter_succ128 (n : Nat) : BitVec.ofNat 128 n + 1 = BitVec.ofNat 128 (n + 1) := by
  rw [BitVec.ofNat_add]; rfl

theorem toByteVec_eq (n : Nat) : toByteVec (UInt64.ofNat n) = [0, 0, 0, 0, 0, 0, 0, UInt8.ofNat n] := by
  unfold toByteVec
  simp only [byteVecLoop, List.reverse_cons, List.reverse_nil, List.nil_append, List.cons_append]
  have h8 (v : UInt64) : UInt8.ofNat (v <<< 8).toNat = 0 := by
    apply UInt8.toNat_inj.1
    rw [UInt64.toNat_shiftLeft]
    simp [Nat.shiftLeft_eq]
  simp only [h8]
  congr 8
  apply UInt8.toNat_inj.1
  simp

/-- Looking up after inserting. -/
def upd (f : Secret → Option Secret) (x y : Secret) : Secret → Option Secret :=
  fun z => if z = x then some y else f z

/-- A string mask, unfolded. -/
theorem strMask_eq (m : StrMap) (n : Nat) (pre : Str) (h : m = ⟨m.map, UInt64.ofNat n, pre, 8⟩) (v : Str) :
    m.mask v = match m.map.lookup v with
      | some s => (s, m)
      | none => (numbered pre ((n + 1) % 2 ^ 64),
          ⟨m.map ++ [(v, numbered pre ((n + 1) % 2 ^ 64))], UInt64.ofNat (n + 1), pre, 8⟩) := by
  unfold StrMap.mask
  cases hl : m.map.lookup v with
  | some s => rfl
  | none =>
    have h1 : m.counter = UInt64.ofNat n := by rw [h]
    have h2 : m.pre = pre := by rw [h]
    have h3 : m.padding = 8 := by rw [h]
    simp only []
    rw [h1, h2, h3, counter_succ64]
    simp [numbered, padLeft, showNat]

/-- One call: a stored secret gives what is stored and changes nothing. -/
theorem call_found {s : Anon} {x y : Secret} (h : s.find x = some y) : s.call (plainCall x) = (plainCall y, s) := by
  cases x <;> simp only [Anon.find, Option.map_eq_some_iff] at h <;> obtain ⟨r, hr, rfl⟩ := h <;>
    simp [plainCall, Anon.call, Anon.maskHost, Anon.maskIp, Anon.maskPort, Anon.maskOriginUser,
      Anon.maskIcePassword, Anon.maskIceUser, Anon.maskCertFingerPrint, Anon.maskCname, StrMap.mask, hr]

/-- One call: a new secret gets the next mask of its kind, which is stored. -/
theorem call_new {s : Anon} {n : Kind → Nat} {x : Secret} (hc : Counts s n) (h : s.find x = none) :
    ∃ s', s.call (plainCall x) = (plainCall (label x.kind (n x.kind + 1)), s') ∧
      Counts s' (fun k => if k = x.kind then n k + 1 else n k) ∧
      s'.find = upd s.find x (label x.kind (n x.kind + 1)) := by
  cases x with
  | host v =>
    simp only [Anon.find, Option.map_eq_none_iff] at h
    refine ⟨{ s with hostNames := ⟨s.hostNames.map ++ [(v, numbered "fqdn-".toList ((n .host + 1) % 2 ^ 64))],
      UInt64.ofNat (n .host + 1), "fqdn-".toList, 8⟩ }, ?_, ?_, ?_⟩
    · simp only [plainCall, Anon.call, Anon.maskHost, strMask_eq _ _ _ hc.host, h]; rfl
    · exact { hc with host := rfl }
    · funext z
      cases z <;> simp [upd, Anon.find, lookup_append_none h, label, Secret.kind]
      split <;> rfl
  | originUser v =>
    simp only [Anon.find, Option.map_eq_none_iff] at h
    refine ⟨{ s with originUsers := ⟨s.originUsers.map ++ [(v, numbered "origin-user-".toList ((n .originUser + 1) % 2 ^ 64))],
      UInt64.ofNat (n .originUser + 1), "origin-user-".toList, 8⟩ }, ?_, ?_, ?_⟩
    · simp only [plainCall, Anon.call, Anon.maskOriginUser, strMask_eq _ _ _ hc.user, h]; rfl
    · exact { hc with user := rfl }
    · funext z
      cases z <;> simp [upd, Anon.find, lookup_append_none h, label, Secret.kind]
      split <;> rfl
  | icePassword v =>
    simp only [Anon.find, Option.map_eq_none_iff] at h
    refine ⟨{ s with icePasswords := ⟨s.icePasswords.map ++ [(v, numbered "ice-password-".toList ((n .icePassword + 1) % 2 ^ 64))],
      UInt64.ofNat (n .icePassword + 1), "ice-password-".toList, 8⟩ }, ?_, ?_, ?_⟩
    · simp only [plainCall, Anon.call, Anon.maskIcePassword, strMask_eq _ _ _ hc.pwd, h]; rfl
    · exact { hc with pwd := rfl }
    · funext z
      cases z <;> simp [upd, Anon.find, lookup_append_none h, label, Secret.kind]
      split <;> rfl
  | iceUser v =>
    simp only [Anon.find, Option.map_eq_none_iff] at h
    refine ⟨{ s with iceUsers := ⟨s.iceUsers.map ++ [(v, numbered "ice-user-".toList ((n .iceUser + 1) % 2 ^ 64))],
      UInt64.ofNat (n .iceUser + 1), "ice-user-".toList, 8⟩ }, ?_, ?_, ?_⟩
    · simp only [plainCall, Anon.call, Anon.maskIceUser, strMask_eq _ _ _ hc.ufrag, h]; rfl
    · exact { hc with ufrag := rfl }
    · funext z
      cases z <;> simp [upd, Anon.find, lookup_append_none h, label, Secret.kind]
      split <;> rfl
  | cname v =>
    simp only [Anon.find, Option.map_eq_none_iff] at h
    refine ⟨{ s with cnames := ⟨s.cnames.map ++ [(v, numbered "cname-".toList ((n .cname + 1) % 2 ^ 64))],
      UInt64.ofNat (n .cname + 1), "cname-".toList, 8⟩ }, ?_, ?_, ?_⟩
    · simp only [plainCall, Anon.call, Anon.maskCname, strMask_eq _ _ _ hc.cname, h]; rfl
    · exact { hc with cname := rfl }
    · funext z
      cases z <;> simp [upd, Anon.find, lookup_append_none h, label, Secret.kind]
      split <;> rfl
  | port v =>
    simp only [Anon.find, Option.map_eq_none_iff] at h
    refine ⟨{ s with portInc := UInt32.ofNat (n .port + 1), ports := s.ports ++ [(v, UInt32.ofNat (n .port + 1))] }, ?_, ?_, ?_⟩
    · simp only [plainCall, Anon.call, Anon.maskPort, hc.port, h, counter_succ32]; rfl
    · exact { hc with port := rfl }
    · funext z
      cases z <;> simp [upd, Anon.find, lookup_append_none h, label, Secret.kind]
      split <;> rfl
  | fingerprint v =>
    simp only [Anon.find, Option.map_eq_none_iff] at h
    refine ⟨{ s with certFingerPrintInc := UInt64.ofNat (n .fingerprint + 1), certFingerPrints := s.certFingerPrints ++ [(v, [0, 0, 0, 0, 0, 0, 0, UInt8.ofNat (n .fingerprint + 1)])] }, ?_, ?_, ?_⟩
    · simp only [plainCall, Anon.call, Anon.maskCertFingerPrint, hc.fp, h, counter_succ64, toByteVec_eq]; rfl
    · exact { hc with fp := rfl }
    · funext z
      cases z <;> simp [upd, Anon.find, lookup_append_none h, label, Secret.kind]
      split <;> rfl
  | ip a =>
    simp only [Anon.find, Option.map_eq_none_iff] at h
    cases a with
    | v4 v =>
      refine ⟨{ s with ipV4Inc := UInt32.ofNat (n .ipV4 + 1), ips := s.ips ++ [(.v4 v, .v4 (UInt32.ofNat (n .ipV4 + 1)))] }, ?_, ?_, ?_⟩
      · simp only [plainCall, Anon.call, Anon.maskIp, hc.v4, h, counter_succ32]; rfl
      · exact { hc with v4 := rfl }
      · funext z
        cases z <;> simp [upd, Anon.find, lookup_append_none h, label, Secret.kind]
        split <;> rfl
    | v6 v =>
      refine ⟨{ s with ipV6Inc := BitVec.ofNat 128 (n .ipV6 + 1), ips := s.ips ++ [(.v6 v, .v6 (BitVec.ofNat 128 (n .ipV6 + 1)))] }, ?_, ?_, ?_⟩
      · simp only [plainCall, Anon.call, Anon.maskIp, hc.v6, h, counter_succ128]; rfl
      · exact { hc with v6 := rfl }
      · funext z
        cases z <;> simp [upd, Anon.find, lookup_append_none h, label, Secret.kind]
        split <;> rfl

/-- The result of a call with the secret replaced. -/
def rewrap : MaskCall → Secret → MaskCall
  | .address _, .host h => .address (.fqdn h)
  | .address _, .ip a => .address (.ip a)
  | .typedAddress (.fqdn t _), .host h => .typedAddress (.fqdn t h)
  | .typedAddress _, .ip a => .typedAddress (.ip a)
  | _, x => plainCall x

theorem call_eq (s : Anon) (c : MaskCall) :
    s.call c = (rewrap c (s.call (plainCall c.secret)).1.secret, (s.call (plainCall c.secret)).2) := by
  cases c with
  | address a => cases a <;> rfl
  | typedAddress a => cases a <;> rfl
  | _ => rfl

theorem secret_rewrap (c : MaskCall) (n : Nat) : (rewrap c (label c.secret.kind n)).secret = label c.secret.kind n := by
  cases c with
  | address a =>
    cases a with
    | fqdn h => rfl
    | ip a => cases a <;> rfl
  | typedAddress a =>
    cases a with
    | fqdn t h => rfl
    | ip a => cases a <;> rfl
  | ip a => cases a <;> rfl
  | _ => rfl

theorem mem_distinct {k : Kind} {xs : List Secret} {x : Secret} : x ∈ distinct k xs ↔ x ∈ xs ∧ x.kind = k := by
  simp [distinct, List.mem_eraseDups]

theorem distinct_append (k : Kind) (xs : List Secret) (x : Secret) :
    distinct k (xs ++ [x]) = distinct k xs ++ (if x.kind = k ∧ x ∉ xs then [x] else []) := by
  unfold distinct
  rw [List.filter_append, List.eraseDups_append]
  congr 1
  by_cases hk : x.kind = k
  · by_cases hx : x ∈ xs
    · rw [if_neg (by simp [hx])]
      simp [hk, List.removeAll, hx]
    · rw [if_pos ⟨hk, hx⟩]
      simp [hk, List.removeAll, hx, List.eraseDups_cons]
  · simp [hk, List.removeAll]

theorem rank_append {xs : List Secret} {x z : Secret} (hz : z ∈ xs) : rank (xs ++ [x]) z = rank xs z := by
  unfold rank
  rw [distinct_append, List.idxOf_append_of_mem (mem_distinct.2 ⟨hz, rfl⟩)]

theorem rank_new {xs : List Secret} {x : Secret} (hx : x ∉ xs) :
    rank (xs ++ [x]) x = (distinct x.kind xs).length + 1 := by
  unfold rank
  rw [distinct_append, if_pos ⟨rfl, hx⟩, List.idxOf_append_of_notMem (fun h => hx (mem_distinct.1 h).1)]
  simp

/-- What the anonymizer knows after masking `xs`. -/
structure Knows (s : Anon) (xs : List Secret) : Prop where
  counts : Counts s fun k => (distinct k xs).length
  find : ∀ z, s.find z = if z ∈ xs then some (label z.kind (rank xs z)) else none

theorem knows_new : Knows Anon.new [] := by
  constructor
  · constructor <;> rfl
  · intro z; cases z <;> rfl

theorem knows_call {s : Anon} {xs : List Secret} (h : Knows s xs) (x : Secret) :
    ∃ s', s.call (plainCall x) = (plainCall (label x.kind (rank (xs ++ [x]) x)), s') ∧ Knows s' (xs ++ [x]) := by
  by_cases hx : x ∈ xs
  · have h1 := h.find x
    rw [if_pos hx] at h1
    refine ⟨s, by rw [call_found h1, rank_append hx], ?_, ?_⟩
    · have : (fun k => (distinct k (xs ++ [x])).length) = fun k => (distinct k xs).length := by
        funext k; rw [distinct_append]; simp [hx]
      rw [this]; exact h.counts
    · intro z
      rw [h.find z]
      by_cases hz : z ∈ xs
      · rw [if_pos hz, if_pos (by simp [hz]), rank_append hz]
      · rw [if_neg hz, if_neg (by simp [hz]; rintro rfl; exact hz hx)]
  · have h1 := h.find x
    rw [if_neg hx] at h1
    obtain ⟨s', h2, h3, h4⟩ := call_new h.counts h1
    refine ⟨s', by rw [h2, rank_new hx], ?_, ?_⟩
    · have : (fun k => (distinct k (xs ++ [x])).length) =
          fun k => if k = x.kind then (distinct k xs).length + 1 else (distinct k xs).length := by
        funext k; rw [distinct_append]
        by_cases hk : k = x.kind
        · simp [hk, hx]
        · have : ¬ x.kind = k := fun h => hk h.symm
          simp [hk, this]
      rw [this]; exact h3
    · intro z
      rw [h4]
      unfold upd
      by_cases hz : z = x
      · subst hz
        rw [if_pos rfl, if_pos (by simp), rank_new hx]
      · rw [if_neg hz, h.find z]
        by_cases hz' : z ∈ xs
        · rw [if_pos hz', if_pos (by simp [hz']), rank_append hz']
        · rw [if_neg hz', if_neg (by simp [hz', hz])]

theorem knows_calls {s : Anon} {xs : List Secret} (h : Knows s xs) (cs : List MaskCall) :
    (s.calls cs).1 = cs.map (fun c => rewrap c (label c.secret.kind (rank (xs ++ cs.map (·.secret)) c.secret))) ∧
    Knows (s.calls cs).2 (xs ++ cs.map (·.secret)) := by
  induction cs generalizing s xs with
  | nil => simpa [Anon.calls] using h
  | cons c cs ih =>
    obtain ⟨s', h1, h2⟩ := knows_call h c.secret
    have h3 := call_eq s c
    rw [h1] at h3
    simp only [secret_plainCall] at h3
    obtain ⟨h4, h5⟩ := ih h2
    have hstable (ys zs : List Secret) (x : Secret) (hx : x ∈ ys) : rank (ys ++ zs) x = rank ys x := by
      induction zs generalizing ys with
      | nil => simp
      | cons z zs ihz =>
        have := ihz (ys ++ [z]) (by simp [hx])
        rw [List.append_assoc] at this
        rw [show ys ++ z :: zs = ys ++ ([z] ++ zs) from rfl, this, rank_append hx]
    have hcalls : s.calls (c :: cs) = ((s.call c).1 :: ((s.call c).2.calls cs).1, ((s.call c).2.calls cs).2) := rfl
    rw [hcalls, h3]
    simp only [List.map_cons]
    rw [show xs ++ c.secret :: cs.map (·.secret) = xs ++ [c.secret] ++ cs.map (·.secret) by simp]
    refine ⟨?_, h5⟩
    rw [h4, hstable (xs ++ [c.secret]) (cs.map (·.secret)) c.secret (by simp)]

end Sdp

namespace Sdp

theorem rank_stable (ys zs : List Secret) (x : Secret) (hx : x ∈ ys) : rank (ys ++ zs) x = rank ys x := by
  induction zs generalizing ys with
  | nil => simp
  | cons z zs ihz =>
    have := ihz (ys ++ [z]) (by simp [hx])
    rw [List.append_assoc] at this
    rw [show ys ++ z :: zs = ys ++ ([z] ++ zs) from rfl, this, rank_append hx]

/-- `run` masks the secrets `S` and returns `val` of the masking. -/
def Masks {β : Type} (run : Anon → β × Anon) (S : List Secret) (val : (Secret → Secret) → β) : Prop :=
  ∀ s xs, Knows s xs → (∀ zs, (run s).1 = val (maskOf (xs ++ S ++ zs))) ∧ Knows (run s).2 (xs ++ S)

theorem Masks.pure {β : Type} (b : β) : Masks (fun s => (b, s)) [] (fun _ => b) := by
  intro s xs h
  refine ⟨fun _ => rfl, by simpa using h⟩

theorem Masks.pair {β γ δ : Type} {f : Anon → β × Anon} {g : Anon → γ × Anon} {S T v w} (mk : β → γ → δ)
    (hf : Masks f S v) (hg : Masks g T w) :
    Masks (fun s => (mk (f s).1 (g (f s).2).1, (g (f s).2).2)) (S ++ T) (fun σ => mk (v σ) (w σ)) := by
  intro s xs h
  obtain ⟨h1, h2⟩ := hf s xs h
  obtain ⟨h3, h4⟩ := hg _ _ h2
  refine ⟨fun zs => ?_, by simpa using h4⟩
  have a := h1 (T ++ zs)
  have b := h3 zs
  simp only [List.append_assoc] at a b ⊢
  rw [a, b]

theorem Masks.map {β γ : Type} {f : Anon → β × Anon} {S v} (mk : β → γ) (hf : Masks f S v) :
    Masks (fun s => (mk (f s).1, (f s).2)) S (fun σ => mk (v σ)) := by
  intro s xs h
  obtain ⟨h1, h2⟩ := hf s xs h
  exact ⟨fun zs => by simp only [h1 zs], h2⟩

/-- A primitive mask. -/
theorem Masks.prim (x : Secret) : Masks (fun s => ((s.call (plainCall x)).1.secret, (s.call (plainCall x)).2)) [x]
    (fun σ => σ x) := by
  intro s xs h
  obtain ⟨s', h1, h2⟩ := knows_call h x
  simp only [h1]
  refine ⟨fun zs => ?_, h2⟩
  simp only [secret_plainCall, maskOf]
  rw [rank_stable (xs ++ [x]) zs x (by simp)]

theorem masks_host (h : Str) : Masks (fun s => s.maskHost h) [.host h] (fun σ => (σ (.host h)).str) :=
  (Masks.prim (.host h)).map Secret.str

theorem masks_ip (a : IpAddr) : Masks (fun s => s.maskIp a) [.ip a] (fun σ => (σ (.ip a)).addr) :=
  (Masks.prim (.ip a)).map Secret.addr

theorem masks_port (a : UInt32) : Masks (fun s => s.maskPort a) [.port a] (fun σ => (σ (.port a)).portNumber) :=
  (Masks.prim (.port a)).map Secret.portNumber

theorem masks_originUser (a : Str) : Masks (fun s => s.maskOriginUser a) [.originUser a] (fun σ => (σ (.originUser a)).str) :=
  (Masks.prim (.originUser a)).map Secret.str

theorem masks_icePassword (a : Str) : Masks (fun s => s.maskIcePassword a) [.icePassword a] (fun σ => (σ (.icePassword a)).str) :=
  (Masks.prim (.icePassword a)).map Secret.str

theorem masks_iceUser (a : Str) : Masks (fun s => s.maskIceUser a) [.iceUser a] (fun σ => (σ (.iceUser a)).str) :=
  (Masks.prim (.iceUser a)).map Secret.str

theorem masks_cname (a : Str) : Masks (fun s => s.maskCname a) [.cname a] (fun σ => (σ (.cname a)).str) :=
  (Masks.prim (.cname a)).map Secret.str

theorem masks_fingerprint (a : List UInt8) :
    Masks (fun s => s.maskCertFingerPrint a) [.fingerprint a] (fun σ => (σ (.fingerprint a)).bytes) :=
  (Masks.prim (.fingerprint a)).map Secret.bytes

theorem masks_address (a : Address) : Masks (fun s => s.maskAddress a) a.secrets (fun σ => a.mapSecrets σ) := by
  cases a with
  | fqdn h => exact (masks_host h).map Address.fqdn
  | ip i => exact (masks_ip i).map Address.ip

theorem masks_typedAddress (a : TypedAddress) :
    Masks (fun s => s.maskTypedAddress a) a.secrets (fun σ => a.mapSecrets σ) := by
  cases a with
  | fqdn t h => exact (masks_host h).map (TypedAddress.fqdn t)
  | ip i => exact (masks_ip i).map TypedAddress.ip

theorem masks_opt {α : Type} {f : Anon → α → α × Anon} {S : α → List Secret} {v : α → (Secret → Secret) → α}
    (h : ∀ a, Masks (fun s => f s a) (S a) (v a)) (o : Option α) :
    Masks (fun s => maskOpt f s o) ((o.map S).getD []) (fun σ => o.map fun a => v a σ) := by
  cases o with
  | none => exact Masks.pure none
  | some a => exact (h a).map some

theorem masks_candidate (c : Candidate) : Masks (fun s => c.maskedClone s) c.secrets (fun σ => c.mapSecrets σ) :=
  (masks_address c.address).pair
    (fun address (x : UInt32 × Option Address × Option UInt32) =>
      ({ c with address, port := x.1, raddr := x.2.1, rport := x.2.2 } : Candidate))
    ((masks_port c.port).pair Prod.mk
      ((masks_opt (f := Anon.maskAddress) masks_address c.raddr).pair Prod.mk
        (masks_opt (f := Anon.maskPort) masks_port c.rport)))

section
variable [Env]

theorem masks_ssrc (x : Ssrc) : Masks (fun s => x.maskedClone s) x.secrets (fun σ => x.mapSecrets σ) := by
  obtain ⟨id, attr, value⟩ := x
  cases attr with
  | none => exact Masks.pure _
  | some a =>
    cases value with
    | none => exact Masks.pure _
    | some v =>
      by_cases h : lower a = "cname".toList
      · have h1 : (⟨id, some a, some v⟩ : Ssrc).secrets = [.cname v] := if_pos h
        have h2 : (fun σ => (⟨id, some a, some v⟩ : Ssrc).mapSecrets σ) =
            fun σ => ⟨id, some a, some (σ (.cname v)).str⟩ := by funext σ; exact if_pos h
        have h3 : (fun s => (⟨id, some a, some v⟩ : Ssrc).maskedClone s) =
            fun s => (⟨id, some a, some (s.maskCname v).1⟩, (s.maskCname v).2) := by funext s; exact if_pos h
        rw [h1, h2, h3]
        exact (masks_cname v).map fun r => (⟨id, some a, some r⟩ : Ssrc)
      · have h1 : (⟨id, some a, some v⟩ : Ssrc).secrets = [] := if_neg h
        have h2 : (fun σ => (⟨id, some a, some v⟩ : Ssrc).mapSecrets σ) =
            fun σ => ⟨id, some a, some v⟩ := by funext σ; exact if_neg h
        have h3 : (fun s => (⟨id, some a, some v⟩ : Ssrc).maskedClone s) =
            fun s => (⟨id, some a, some v⟩, s) := by funext s; exact if_neg h
        rw [h1, h2, h3]
        exact Masks.pure _

theorem masks_attribute (a : Attribute) : Masks (fun s => a.maskedClone s) a.secrets (fun σ => a.mapSecrets σ) := by
  cases a with
  | candidate c => exact (masks_candidate c).map Attribute.candidate
  | fingerprint f =>
    exact (masks_fingerprint f.fingerprint).map fun b => Attribute.fingerprint { f with fingerprint := b }
  | icePwd p => exact (masks_icePassword p).map Attribute.icePwd
  | iceUfrag p => exact (masks_iceUser p).map Attribute.iceUfrag
  | remoteCandidate c =>
    exact (masks_address c.address).pair (fun a p => Attribute.remoteCandidate { c with address := a, port := p })
      (masks_port c.port)
  | ssrc x => exact (masks_ssrc x).map Attribute.ssrc
  | _ => exact Masks.pure _

theorem masks_attrs (l : List Attribute) :
    Masks (fun s => maskAttrs l s) (l.flatMap Attribute.secrets) (fun σ => l.map (Attribute.mapSecrets σ)) := by
  induction l with
  | nil => exact Masks.pure _
  | cons a l ih =>
    rw [List.flatMap_cons]
    exact (masks_attribute a).pair List.cons ih

theorem masks_origin (o : Origin) : Masks (fun s => o.maskedClone s) o.secrets (fun σ => o.mapSecrets σ) :=
  (masks_originUser o.username).pair (fun u a => ({ o with username := u, unicastAddr := a } : Origin))
    (masks_typedAddress o.unicastAddr)

theorem masks_connection (c : Connection) :
    Masks (fun s => c.maskedClone s) c.address.secrets (fun σ => { c with address := c.address.mapSecrets σ }) :=
  (masks_typedAddress c.address).map fun a => ({ c with address := a } : Connection)

end

theorem distinct_dup (k : Kind) (xs ys zs : List Secret) :
    distinct k (xs ++ ys ++ ys ++ zs) = distinct k (xs ++ ys ++ zs) := by
  have h1 : distinct k (xs ++ ys ++ ys) = distinct k (xs ++ ys) := by
    generalize hx : xs ++ ys = us
    have : ∀ y ∈ ys, y ∈ us := fun y hy => by rw [← hx]; simp [hy]
    clear hx
    induction ys using List.reverseRecOn with
    | nil => simp
    | append_singleton ys y ih =>
      rw [← List.append_assoc, distinct_append, ih fun z hz => this z (by simp [hz]), if_neg]
      · simp
      · have := this y (by simp)
        simp [this]
  induction zs using List.reverseRecOn with
  | nil => simpa using h1
  | append_singleton zs z ih =>
    rw [← List.append_assoc, distinct_append, ih, ← List.append_assoc (xs ++ ys), distinct_append]
    simp [or_assoc, and_assoc]

theorem rank_dup (xs ys zs : List Secret) (x : Secret) :
    rank (xs ++ ys ++ ys ++ zs) x = rank (xs ++ ys ++ zs) x := by
  unfold rank; rw [distinct_dup]

theorem knows_dup {s : Anon} {xs ys : List Secret} (h : Knows s (xs ++ ys ++ ys)) : Knows s (xs ++ ys) := by
  have hd (k) := distinct_dup k xs ys []
  have hr (x) := rank_dup xs ys [] x
  simp only [List.append_nil] at hd hr
  constructor
  · have := h.counts
    simpa only [hd] using this
  · intro z
    rw [h.find z, hr]
    simp [or_assoc]

/-- Masking twice is masking once. -/
theorem Masks.twice {β : Type} {f : Anon → β × Anon} {S v} (hf : Masks f S v) :
    Masks (fun s => f (f s).2) S v := by
  intro s xs h
  obtain ⟨_, h2⟩ := hf s xs h
  obtain ⟨h3, h4⟩ := hf _ _ h2
  refine ⟨fun zs => ?_, knows_dup h4⟩
  rw [h3 zs]
  congr 1
  funext x
  simp only [maskOf, rank_dup]

theorem masks_session [Env] (x : Session) :
    Masks (fun s => x.maskedClone s) x.secrets
      (fun σ => { x.mapSecrets σ with media := [], warnings := [] }) :=
  (masks_origin x.origin).twice.pair
    (fun origin (y : Option Connection × List Attribute) =>
      ({ x with origin, connection := y.1, attrs := y.2, media := [], warnings := [] } : Session))
    ((masks_opt (f := fun s (c : Connection) => c.maskedClone s) masks_connection x.connection).pair Prod.mk
      (masks_attrs x.attrs))

end Sdp
