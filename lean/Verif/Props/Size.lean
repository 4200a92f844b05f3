import Verif.Lemmas.Size
import Verif.Spec.Sample
/-!
# C94: a session is not bigger than its text

How big a session is, is counted in Verif/Spec/Size.lean: the characters of all texts in it, plus one
for each text and for each entry of a list. A host name is made by the host parser, which may make it
longer, so what it counts (`w`) is a parameter with a law: no more than the characters it was made from.
-/

namespace Sdp

section
variable [Env] {w : Str → Nat}

/-- C94: all that a session keeps of a text of `n` characters counts at most `n`. -/
theorem C94_session (hw : HostCost w) {s : Str} {f : Bool} {r : Session} (h : parseSdp s f = .ok r) :
    r.size w ≤ s.length := size_session hw h

/-- **C94.** For one attribute given as text. -/
theorem C94_attribute (hw : HostCost w) {v : Str} {a : Attribute} (h : attrFromStr v = .ok a) :
    a.size w ≤ v.length + 2 := by
  rcases v with _ | ⟨c, v⟩
  · cases h
  · exact size_attr hw (by simp) a h

/-- C94, without host names and in plain numbers: there are no more sections, attributes, bandwidths and
warnings in a session than characters in its text. -/
theorem C94_counts {s : Str} {f : Bool} {r : Session} (h : parseSdp s f = .ok r) :
    r.media.length + r.attrs.length + (r.media.map fun m => m.attrs.length).sum + r.bandwidth.length +
      (r.media.map fun m => m.bandwidth.length).sum + r.warnings.length ≤ s.length := by
  have h0 := C94_session (w := fun _ => 0) (fun _ _ _ => Nat.zero_le _) h
  have hw : r.warnings.length ≤ (r.warnings.map ParserError.size).sum := by
    obtain ⟨_, _, _, _, l0, l1, l2, rest, v, o, nm, h1, h2, h3, h4, h5, hg, hm, h6, _⟩ := parseSdp_spec.1 h
    have hu : ∀ e ∈ r.warnings, 1 ≤ e.size := by
      subst h6
      intro e he
      obtain ⟨p, hp, he⟩ := List.mem_filterMap.1 he
      split at he
      · cases he; simp [ParserError.size]
      · cases he
    clear * - hu
    generalize r.warnings = l at *
    induction l with
    | nil => simp
    | cons a l ih =>
      have h1 := hu a (by simp)
      have h2 := ih fun e he => hu e (by simp [he])
      simp only [List.length_cons, List.map_cons, List.sum_cons]; omega
  have hb (l : List Bandwidth) : l.length ≤ (l.map fun b => b.size + 1).sum := by
    induction l with
    | nil => simp
    | cons a l ih => simp only [List.length_cons, List.map_cons, List.sum_cons]; omega
  have ha (l : List Attribute) : l.length ≤ (l.map fun b => b.size (fun _ => 0) + 1).sum := by
    induction l with
    | nil => simp
    | cons a l ih => simp only [List.length_cons, List.map_cons, List.sum_cons]; omega
  have hm : r.media.length + (r.media.map fun m => m.attrs.length).sum + (r.media.map fun m => m.bandwidth.length).sum ≤
      (r.media.map fun m => m.size (fun _ => 0) + 1).sum := by
    clear h0 hw h
    induction r.media with
    | nil => simp
    | cons m l ih =>
      have h1 := hb m.bandwidth
      have h2 := ha m.attrs
      simp only [List.length_cons, List.map_cons, List.sum_cons, Media.size] at ih ⊢; omega
  have h1 := hb r.bandwidth
  have h2 := ha r.attrs
  simp only [Session.size] at h0
  omega

end

section
attribute [local instance] sampleEnv

/-- In the sample environment host names are kept as they are, so they may count all their characters. -/
theorem sampleEnv_hostCost : HostCost List.length := by
  intro h d hd
  change (if h.isEmpty then _ else if _ then _ else _ : HostRes) = _ at hd
  split at hd
  · cases hd
  · split at hd
    · cases hd; exact Nat.le_refl _
    · cases hd

example : (match parseSdp sampleText false with
    | .ok r => (r.size List.length, sampleText.length)
    | _ => (0, 0)) = (105, 478) := by
  decide +kernel
/-- The default tones of fmtp are longer than what was written, and are covered by the name. -/
example : (match attrFromStr c%"fmtp:1 x" with
    | .ok a => a.size List.length
    | _ => 0) = 5 := by
  decide +kernel

end

end Sdp
