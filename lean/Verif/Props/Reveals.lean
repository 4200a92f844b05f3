import Verif.Props.Remask
/-!
# C121: exactly what anonymized data reveals

C99 says that replacing the secrets one-to-one changes no result. Here is the converse: nothing else is hidden. Two
histories have the same results exactly if one comes from the other by replacing the secrets one-to-one.
-/

namespace Sdp

section
variable [Env]

/-- The second things are the first ones with their secrets replaced one-to-one by others of their kinds, apart from
what masking drops. -/
def Disguised (ts us : List Thing) : Prop :=
  ∃ σ : Secret → Secret, (∀ z, (σ z).kind = z.kind) ∧
    (∀ z ∈ ts.flatMap Thing.secrets, ∀ w ∈ ts.flatMap Thing.secrets, σ z = σ w → z = w) ∧
    us.map Thing.kept = ts.map fun t => t.kept.mapSecrets σ

private theorem kept_flat (ts : List Thing) : (ts.map Thing.kept).flatMap Thing.secrets = ts.flatMap Thing.secrets := by
  rw [List.flatMap_map]
  congr 1
  funext t
  exact thing_kept_secrets t

private theorem masked_kept_all (ts : List Thing) : maskedAll (ts.map Thing.kept) = maskedAll ts := by
  rw [C99_history, C99_history, kept_flat, List.map_map]
  refine List.map_congr_left fun t _ => ?_
  simp only [Function.comp, thing_kept_kept]

private theorem masked_secrets (ts : List Thing) :
    (maskedAll ts).flatMap Thing.secrets = (ts.flatMap Thing.secrets).map (maskOf (ts.flatMap Thing.secrets)) := by
  rw [C99_history, List.flatMap_map]
  generalize hS : maskOf (ts.flatMap Thing.secrets) = m
  have hm : KindPreserving m := hS ▸ maskOf_kind _
  rw [List.map_flatMap]
  congr 1
  funext t
  rw [(thing_rename hm t.kept).1, thing_kept_secrets]

private theorem unmask {S : List Secret} (hcap : ∀ k, (distinct k S).length ≤ capacityOf k) :
    ∃ τ : Secret → Secret, KindPreserving τ ∧ (∀ z ∈ S, τ (maskOf S z) = z) := by
  classical
  refine ⟨fun y => if h : ∃ z ∈ S, maskOf S z = y then h.choose else y, fun y => ?_, fun z hz => ?_⟩
  · by_cases h : ∃ z ∈ S, maskOf S z = y
    · simp only [dif_pos h]
      rw [← maskOf_kind S, h.choose_spec.2]
    · simp only [dif_neg h]
  · have hex : ∃ w ∈ S, maskOf S w = maskOf S z := ⟨z, hz, rfl⟩
    simp only [dif_pos hex]
    exact maskOf_inj hcap hex.choose_spec.1 hz hex.choose_spec.2

/-- **C121.** Two histories that do not run out of masks have the same results exactly if the second is the first in
disguise. So from the results one can tell everything but the secrets, and of the secrets their kinds and which of them
are equal, and nothing more. -/
theorem C121_reveals (ts us : List Thing) (ht : ∀ k, (distinct k (ts.flatMap Thing.secrets)).length ≤ capacityOf k)
    (hu : ∀ k, (distinct k (us.flatMap Thing.secrets)).length ≤ capacityOf k) :
    maskedAll ts = maskedAll us ↔ Disguised ts us := by
  constructor
  · intro h
    have hsec := masked_secrets us
    rw [← h, masked_secrets] at hsec
    have hT := C99_history ts
    have hU := C99_history us
    rw [← h] at hU
    obtain ⟨τ, hτ, hinv⟩ := unmask hu
    have hSu : ∀ u ∈ us, ∀ z ∈ u.kept.secrets, z ∈ us.flatMap Thing.secrets := fun u hu z hz =>
      List.mem_flatMap.2 ⟨u, hu, thing_kept_secrets u ▸ hz⟩
    unfold Disguised
    generalize ts.flatMap Thing.secrets = S at *
    generalize us.flatMap Thing.secrets = U at *
    refine ⟨τ ∘ maskOf S, fun z => (hτ _).trans (maskOf_kind S z), fun z hz w hw e => ?_, ?_⟩
    · have back : ∀ z ∈ S, maskOf U (τ (maskOf S z)) = maskOf S z := by
        intro z hz
        have : maskOf S z ∈ U.map (maskOf U) := hsec ▸ List.mem_map_of_mem hz
        obtain ⟨v, hv, e⟩ := List.mem_map.1 this
        rw [← e, hinv v hv]
      refine maskOf_inj ht hz hw ?_
      rw [← back z hz, ← back w hw]
      exact congrArg (maskOf U) e
    · have e1 : us.map Thing.kept = (maskedAll ts).map (Thing.mapSecrets τ) := by
        rw [hU, List.map_map]
        refine List.map_congr_left fun u hu => ?_
        simp only [Function.comp]
        rw [(thing_rename (maskOf_kind U) _).2,
          thing_congr (σ := τ ∘ maskOf U) (τ := id) u.kept fun z hz => hinv z (hSu u hu z hz), thing_id]
      rw [e1, hT, List.map_map]
      refine List.map_congr_left fun t _ => ?_
      exact (thing_rename (maskOf_kind S) _).2 τ
  · rintro ⟨σ, hσ, hinj, e⟩
    rw [← masked_kept_all us, e, ← masked_kept_all ts, ← C99_hides (ts.map Thing.kept) σ hσ (by rw [kept_flat]; exact hinj),
      List.map_map]
    rfl

/-- **C121.** Nothing is hidden by running out of masks that was not hidden before: in disguise, the results are the same
without any bound. -/
theorem C121_disguised (ts us : List Thing) (h : Disguised ts us) : maskedAll ts = maskedAll us := by
  obtain ⟨σ, hσ, hinj, e⟩ := h
  rw [← masked_kept_all us, e, ← masked_kept_all ts, ← C99_hides (ts.map Thing.kept) σ hσ (by rw [kept_flat]; exact hinj),
    List.map_map]
  rfl

/-- **C121.** For two descriptions: their anonymized clones are equal exactly if they are equal in everything that is not
dropped or secret, and their secrets correspond one-to-one. -/
theorem C121_session (x y : Session) (hx : ∀ k, (distinct k x.secrets).length ≤ capacityOf k)
    (hy : ∀ k, (distinct k y.secrets).length ≤ capacityOf k) :
    (x.maskedClone Anon.new).1 = (y.maskedClone Anon.new).1 ↔
      ∃ σ : Secret → Secret, (∀ z, (σ z).kind = z.kind) ∧ (∀ z ∈ x.secrets, ∀ w ∈ x.secrets, σ z = σ w → z = w) ∧
        (Thing.session y).kept = ((Thing.session x).kept).mapSecrets σ := by
  have := C121_reveals [.session x] [.session y] (by simpa [Thing.secrets] using hx) (by simpa [Thing.secrets] using hy)
  simpa [maskedAll, maskedFrom, Thing.masked, Disguised, Thing.secrets] using this

/-- **C121.** What an anonymizer has made is recognised by masking it again: exactly the histories that are not changed
are results. -/
theorem C121_recognised (ts : List Thing) : (∃ us, maskedAll us = ts) ↔ maskedAll ts = ts :=
  ⟨fun ⟨us, h⟩ => h ▸ C105_again us, fun h => ⟨ts, h⟩⟩

/-- **C121.** A fixed point is its own anonymous form: every history in disguise of it that does not run out of masks is
masked to it, so each class of indistinguishable histories has exactly one member that an anonymizer made. -/
theorem C121_one_result (ts us : List Thing) (ht : maskedAll ts = ts) (hu : maskedAll us = us) :
    Disguised ts us → ts = us := fun h => by rw [← ht, ← hu, C121_disguised ts us h]

end

section
attribute [local instance] sampleEnv

private def swap : Secret → Secret
  | .iceUser u => if u = c%"alice" then .iceUser c%"bob" else if u = c%"bob" then .iceUser c%"alice" else .iceUser u
  | z => z

/-- Swapping two users cannot be seen. -/
example : Disguised [.attr (.iceUfrag c%"alice"), .call (.iceUser c%"bob")] [.attr (.iceUfrag c%"bob"), .call (.iceUser c%"alice")] := by
  refine ⟨swap, ?_, by decide +kernel, by decide +kernel⟩
  intro z
  cases z <;> simp only [swap]
  split
  · rfl
  · split <;> rfl

/-- That they are different, or that there is a port, can. -/
example : ¬ Disguised [.attr (.iceUfrag c%"alice"), .call (.iceUser c%"bob")] [.attr (.iceUfrag c%"bob"), .call (.iceUser c%"bob")] :=
  fun h => absurd (C121_disguised _ _ h) (by decide +kernel)

/-- The connection of a media section is kept, so it is revealed. -/
example (m : Media) (c d : Connection) (h : c ≠ d) :
    maskedAll [.media { m with connection := some c }] ≠ maskedAll [.media { m with connection := some d }] := by
  simp [maskedAll, maskedFrom, Thing.masked, Media.maskedClone, h]

/-- The bound on the numbers is met. -/
example : ∀ k, (distinct k sampleSession.secrets).length ≤ capacityOf k := by
  intro k; cases k <;> decide +kernel

end

end Sdp
