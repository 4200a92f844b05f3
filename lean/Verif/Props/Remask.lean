import Verif.Props.MaskHistory
import Verif.Props.Masked
/-!
# C105: masking what is masked
-/

namespace Sdp

section
variable [Env]

omit [Env] in
private theorem ranks_filled (xs : List Secret) (k : Kind) (r : Nat) (h1 : 1 ≤ r) (h2 : r ≤ (distinct k xs).length) :
    ∃ x ∈ xs, x.kind = k ∧ rank xs x = r := by
  have hr : r - 1 < (distinct k xs).length := by omega
  have hm := mem_distinct.1 (List.getElem_mem hr)
  refine ⟨(distinct k xs)[r - 1], hm.1, hm.2, ?_⟩
  unfold rank
  have hnd : (distinct k xs).Nodup := nodup_eraseDups _
  rw [hm.2, hnd.idxOf_getElem]
  omega

omit [Env] in
private theorem mask_append {ys : List Secret} {y z : Secret} (h : z ∈ ys) : maskOf (ys ++ [y]) z = maskOf ys z := by
  simp only [maskOf, rank_append h]

omit [Env] in
private theorem mask_kind (ys : List Secret) (z : Secret) : (maskOf ys z).kind = z.kind := by
  simp only [maskOf, kind_label]

omit [Env] in
private theorem mask_of_mask (xs : List Secret) :
    (∀ k, (distinct k (xs.map (maskOf xs))).length = min (distinct k xs).length (capacity k)) ∧
    ∀ x ∈ xs, maskOf (xs.map (maskOf xs)) (maskOf xs x) = maskOf xs x := by
  induction xs using List.reverseRecOn with
  | nil => simp [distinct]
  | append_singleton xs y ih =>
    obtain ⟨h1, h2⟩ := ih
    have hpos : 0 < capacity y.kind := by cases y.kind <;> decide
    have old : ∀ x ∈ xs, maskOf (xs ++ [y]) x = maskOf xs x := fun x hx => mask_append hx
    have hmap : (xs ++ [y]).map (maskOf (xs ++ [y])) = xs.map (maskOf xs) ++ [maskOf (xs ++ [y]) y] := by
      rw [List.map_append, List.map_singleton, List.map_congr_left old]
    have hky : (maskOf (xs ++ [y]) y).kind = y.kind := mask_kind _ _
    rw [hmap]
    by_cases hy : y ∈ xs
    · have hm : maskOf xs y ∈ xs.map (maskOf xs) := List.mem_map_of_mem hy
      constructor
      · intro k
        rw [distinct_append, distinct_append, old y hy]
        simp [hy, hm, h1 k]
      · intro x hx
        have hx : x ∈ xs := by
          rcases List.mem_append.1 hx with h | h
          · exact h
          · rw [List.mem_singleton.1 h]; exact hy
        rw [old x hx]
        rw [mask_append (List.mem_map_of_mem hx), h2 x hx]
    · have hyr : maskOf (xs ++ [y]) y = label y.kind ((distinct y.kind xs).length + 1) := by
        simp only [maskOf, rank_new hy]
      generalize hn : (distinct y.kind xs).length = n at *
      have hmem : maskOf (xs ++ [y]) y ∈ xs.map (maskOf xs) ↔ capacity y.kind ≤ n := by
        rw [hyr]
        constructor
        · intro h
          obtain ⟨x, hx, e⟩ := List.mem_map.1 h
          have hk : x.kind = y.kind := by
            have := congrArg Secret.kind e
            rwa [mask_kind, kind_label] at this
          simp only [maskOf, hk] at e
          rw [label_inj] at e
          have a1 := rank_le hx
          rw [hk, hn] at a1
          have a2 := rank_pos xs x
          by_contra hc
          rw [Nat.mod_eq_of_lt (by omega)] at e
          rcases Nat.lt_or_eq_of_le (show n + 1 ≤ capacity y.kind by omega) with h | h
          · rw [Nat.mod_eq_of_lt h] at e; omega
          · rw [h, Nat.mod_self] at e; omega
        · intro h
          have hlt := Nat.mod_lt n hpos
          obtain ⟨x, hx, hk, hr⟩ := ranks_filled xs y.kind (n % capacity y.kind + 1) (by omega) (by omega)
          refine List.mem_map.2 ⟨x, hx, ?_⟩
          simp only [maskOf, hk, hr]
          rw [label_inj, Nat.add_mod, Nat.mod_mod, ← Nat.add_mod]
      constructor
      · intro k
        rw [distinct_append, distinct_append, List.length_append, List.length_append, h1 k, hky]
        by_cases hk : y.kind = k
        · subst hk
          by_cases hc : capacity y.kind ≤ n
          · simp only [hmem, hc, hy, not_true_eq_false, and_false, if_false, not_false_eq_true, and_self, if_true, hn]
            simp; omega
          · simp only [hmem, hc, hy, not_false_eq_true, and_self, if_true, hn]
            simp; omega
        · simp [hk]
      · intro x hx
        rcases List.mem_append.1 hx with hx | hx
        · rw [old x hx]
          rw [mask_append (List.mem_map_of_mem hx), h2 x hx]
        · rw [List.mem_singleton.1 hx]
          by_cases hc : capacity y.kind ≤ n
          · obtain ⟨x, hx, e⟩ := List.mem_map.1 (hmem.2 hc)
            rw [← e, mask_append (List.mem_map_of_mem hx), h2 x hx]
          · have hnew : maskOf (xs ++ [y]) y ∉ xs.map (maskOf xs) := fun h => hc (hmem.1 h)
            have hu (ys : List Secret) (z : Secret) : maskOf ys z = label z.kind (rank ys z) := rfl
            rw [hu (_ ++ _), rank_new hnew, hky, h1, hn, hyr]
            congr 1
            omega

theorem thing_kept_kept (t : Thing) : t.kept.kept = t.kept := by
  cases t with
  | ssrc x =>
    have := attribute_kept_kept (.ssrc x)
    simp only [Attribute.kept, Attribute.ssrc.injEq] at this
    simp only [Thing.kept, this]
  | attr a => simp only [Thing.kept, attribute_kept_kept]
  | media m =>
    simp only [Thing.kept, List.map_map]
    congr 2
    exact List.map_congr_left fun a _ => attribute_kept_kept a
  | session x =>
    simp only [Thing.kept, List.map_map]
    congr 2
    exact List.map_congr_left fun a _ => attribute_kept_kept a
  | _ => rfl

/-- **C105.** What an anonymizer has masked is not changed when it is masked again with a new one, in the same order: for any
history of things, and any number of secrets in it. -/
theorem C105_again (ts : List Thing) : maskedAll (maskedAll ts) = maskedAll ts := by
  rw [C99_history (maskedAll ts), C99_history ts, List.flatMap_map, List.map_map]
  generalize hS : ts.flatMap Thing.secrets = S
  have e : (ts.flatMap fun t => (t.kept.mapSecrets (maskOf S)).secrets) = S.map (maskOf S) := by
    rw [← hS, List.map_flatMap, hS]
    congr 1
    funext t
    rw [(thing_rename (maskOf_kind S) t.kept).1, thing_kept_secrets]
  rw [e]
  refine List.map_congr_left fun t ht => ?_
  simp only [Function.comp]
  rw [thing_mapped_kept, thing_kept_kept, (thing_rename (maskOf_kind S) t.kept).2]
  refine thing_congr _ fun z hz => ?_
  rw [thing_kept_secrets] at hz
  refine (mask_of_mask S).2 z ?_
  rw [← hS]
  exact List.mem_flatMap.2 ⟨t, ht, hz⟩

/-- **C105.** So a description that was anonymized is not changed by anonymizing it again. -/
theorem C105_session (x : Session) :
    ((x.maskedClone Anon.new).1.maskedClone Anon.new).1 = (x.maskedClone Anon.new).1 := by
  have := C105_again [.session x]
  simpa [maskedAll, maskedFrom, Thing.masked] using this

/-- **C105.** ... and the same goes for an attribute and a media section by itself. -/
theorem C105_values (a : Attribute) (m : Media) :
    ((a.maskedClone Anon.new).1.maskedClone Anon.new).1 = (a.maskedClone Anon.new).1 ∧
    ((m.maskedClone Anon.new).1.maskedClone Anon.new).1 = (m.maskedClone Anon.new).1 := by
  have h1 := C105_again [.attr a]
  have h2 := C105_again [.media m]
  constructor
  · simpa [maskedAll, maskedFrom, Thing.masked] using h1
  · simpa [maskedAll, maskedFrom, Thing.masked] using h2

end

section
attribute [local instance] sampleEnv

/-- **C105.** With the anonymizer that made the masks it is not so: to it they are new secrets. -/
theorem C105_same_anonymizer :
    ((Attribute.iceUfrag c%"alice").maskedClone Anon.new).1 = .iceUfrag c%"ice-user-00000001" ∧
    (((Attribute.iceUfrag c%"alice").maskedClone Anon.new).1.maskedClone ((Attribute.iceUfrag c%"alice").maskedClone Anon.new).2).1 =
      .iceUfrag c%"ice-user-00000002" := by decide +kernel

/-- **C105.** And not in another order: the masks are numbered anew. -/
theorem C105_other_order :
    maskedAll [.call (.iceUser c%"alice"), .call (.iceUser c%"bob")] =
      [.call (.iceUser c%"ice-user-00000001"), .call (.iceUser c%"ice-user-00000002")] ∧
    maskedAll [.call (.iceUser c%"ice-user-00000002"), .call (.iceUser c%"ice-user-00000001")] =
      [.call (.iceUser c%"ice-user-00000001"), .call (.iceUser c%"ice-user-00000002")] := by decide +kernel

example : (sampleSession.maskedClone Anon.new).1 ≠ sampleSession ∧
    ((sampleSession.maskedClone Anon.new).1.maskedClone Anon.new).1 = (sampleSession.maskedClone Anon.new).1 := by decide +kernel

end

end Sdp
