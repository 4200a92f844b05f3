import Verif.Spec.Interleave
import Verif.Props.Build
import Verif.Props.History
import Verif.Spec.Sample
/-!
# C119: calls on different things can be made in any order
-/

namespace Sdp

section

/-- Calls of one kind can be made before all others, if they commute with them. -/
private theorem fold_first {α β : Type} (f : α → β → α) (p : β → Bool)
    (hc : ∀ a x y, p x = true → p y = false → f (f a x) y = f (f a y) x) (l : List β) (a : α) :
    l.foldl f a = (l.filter fun x => !p x).foldl f ((l.filter p).foldl f a) := by
  have move (l : List β) (hl : ∀ x ∈ l, p x = true) (a : α) (y : β) (hy : p y = false) :
      l.foldl f (f a y) = f (l.foldl f a) y := by
    induction l generalizing a with
    | nil => rfl
    | cons x l ih =>
      rw [List.foldl_cons, List.foldl_cons, ← hc a x y (hl x (by simp)) hy]
      exact ih (fun z hz => hl z (by simp [hz])) _
  induction l generalizing a with
  | nil => rfl
  | cons x l ih =>
    rw [List.foldl_cons, ih]
    cases hx : p x with
    | true => simp [hx]
    | false =>
      simp only [List.filter_cons, hx, Bool.not_false, if_true, Bool.false_eq_true, if_false, List.foldl_cons]
      rw [move _ (fun z hz => (List.mem_filter.1 hz).2) a x hx]

end

section
variable [Env]

private theorem media_eq {m n : Media} (h1 : m.media.media = n.media.media) (h2 : m.media.port = n.media.port)
    (h3 : m.media.portCount = n.media.portCount) (h4 : m.media.proto = n.media.proto) (h5 : m.media.formats = n.media.formats)
    (h6 : m.connection = n.connection) (h7 : m.bandwidth = n.bandwidth) (h8 : m.attrs = n.attrs) : m = n := by
  rcases m with ⟨⟨_, _, _, _, _⟩, _, _, _⟩
  rcases n with ⟨⟨_, _, _, _, _⟩, _, _, _⟩
  simp_all

private theorem simple_commutes (m : Media) (x y : MediaOp) (hx : x.part ≠ .content) (h : x.part ≠ y.part) :
    (m.apply x).apply y = (m.apply y).apply x := by
  obtain ⟨a1, a2, a3, a4, a5, a6⟩ := apply_fields m y
  obtain ⟨c1, c2, c3, c4, c5, c6⟩ := apply_fields (m.apply x) y
  have h2 := apply_attrs m y
  have h3 := apply_attrs (m.apply x) y
  have p2 := apply_proto m y
  have p3 := apply_proto (m.apply x) y
  cases x <;> simp only [MediaOp.part, ne_eq, not_true_eq_false] at hx
  all_goals
    simp only [Media.apply, Media.setPort, Media.setConnection, Media.addBandwidth] at c1 c2 c3 c4 c5 c6 h3 p3 ⊢
    apply media_eq
    · rw [c5]; exact a5.symm
    · rw [c1]; first | exact a1.symm | (cases y <;> first | rfl | exact absurd rfl h)
    · rw [c2]; exact a2.symm
    · rw [p3]; exact p2.symm
    · rw [c6]; exact a6.symm
    · rw [c3]; first | exact a3.symm | (cases y <;> first | rfl | exact absurd rfl h)
    · rw [c4]
      first
        | exact a4.symm
        | (refine Eq.trans ?_ (congrArg (fun l => l ++ [_]) a4.symm)
           cases y <;> first | exact absurd rfl h | simp)
    · rw [h3]; exact h2.symm

/-- Calls about different things commute. -/
private theorem parts_commute (m : Media) (x y : MediaOp) (h : x.part ≠ y.part) : (m.apply x).apply y = (m.apply y).apply x := by
  by_cases hx : x.part = .content
  · exact (simple_commutes m y x (fun hy => h (hx.trans hy.symm)) (Ne.symm h)).symm
  · exact simple_commutes m x y hx h

/-- **C119.** Calls on one section: port, connection, bandwidths and content (codecs, data channels, attributes) do not interfere. Two
histories that make the same calls of each of these kinds, in the same order, lead to the same section. -/
theorem C119_section (m : Media) {ops ops' : List MediaOp}
    (h : ∀ k : MediaPart, ops.filter (fun op => op.part = k) = ops'.filter (fun op => op.part = k)) :
    m.applyAll ops = m.applyAll ops' := by
  have step (k : MediaPart) (ops : List MediaOp) (m : Media) : m.applyAll ops =
      (m.applyAll (ops.filter fun op => op.part = k)).applyAll (ops.filter fun op => !decide (op.part = k)) := by
    refine fold_first Media.apply (fun op => decide (op.part = k)) ?_ ops m
    intro m x y hx hy
    refine parts_commute m x y ?_
    simp only [decide_eq_true_eq, decide_eq_false_iff_not] at hx hy
    rw [hx]; exact Ne.symm hy
  have norm (ops : List MediaOp) : m.applyAll ops = (((m.applyAll (ops.filter fun op => op.part = .port)).applyAll
      (ops.filter fun op => op.part = .connection)).applyAll (ops.filter fun op => op.part = .bandwidth)).applyAll
      (ops.filter fun op => op.part = .content) := by
    rw [step .port ops m, step .connection, step .bandwidth]
    simp only [List.filter_filter]
    congr 1
    · congr 1
      · congr 1
        refine List.filter_congr fun op _ => ?_
        cases h : op.part <;> simp
      · refine List.filter_congr fun op _ => ?_
        cases h : op.part <;> simp
    · refine List.filter_congr fun op _ => ?_
      cases h : op.part <;> simp
  rw [norm ops, norm ops', h, h, h, h]

/-- **C119.** Attributes of a type, after any history, depend only on the calls that remove or add attributes of this type: calls about
different types can be made in any order, as far as one looks at one type at a time. -/
theorem C119_attribute_types (m : Media) (ops : List MediaOp) (t : AttributeType) :
    (m.applyAll ops).getAttributesOfType t =
      (m.applyAll (ops.filter (MediaOp.touches (isSctp m.getProto) t))).getAttributesOfType t := by
  have one (m : Media) (op : MediaOp) : (m.apply op).getAttributesOfType t =
      (if (op.clears (isSctp m.media.proto)).contains t then [] else m.getAttributesOfType t) ++
        (op.adds (isSctp m.media.proto)).filter fun a => a.type == t := by
    unfold Media.getAttributesOfType
    rw [apply_attrs, List.filter_append, List.filter_filter]
    congr 1
    split
    · rename_i h
      rw [List.filter_eq_nil_iff]
      intro a _ ha
      simp only [Bool.and_eq_true, beq_iff_eq, Bool.not_eq_true'] at ha
      rw [ha.1, h] at ha
      cases ha.2
    · rename_i h
      refine List.filter_congr fun a _ => ?_
      by_cases ha : a.type = t
      · subst ha; simp at h ⊢; exact h
      · simp [ha]
  have key (ops : List MediaOp) (m n : Media) (hp : m.media.proto = n.media.proto)
      (h : m.getAttributesOfType t = n.getAttributesOfType t) : (m.applyAll ops).getAttributesOfType t =
        (n.applyAll (ops.filter (MediaOp.touches (isSctp n.getProto) t))).getAttributesOfType t := by
    induction ops generalizing m n with
    | nil => exact h
    | cons op ops ih =>
      by_cases ht : op.touches (isSctp n.getProto) t = true
      · rw [List.filter_cons_of_pos ht]
        have e : isSctp n.getProto = isSctp (n.apply op).getProto := by
          unfold Media.getProto; rw [apply_proto]
        have := ih (m.apply op) (n.apply op) (by rw [apply_proto, apply_proto, hp]) (by rw [one, one, hp, h])
        rw [← e] at this
        exact this
      · rw [List.filter_cons_of_neg ht]
        refine ih (m.apply op) n (by rw [apply_proto, hp]) ?_
        simp only [MediaOp.touches, Media.getProto, Bool.or_eq_true, not_or, Bool.not_eq_true, List.any_eq_false,
          decide_eq_true_eq] at ht
        rw [one, hp, ht.1, h]
        have : ((op.adds (isSctp n.media.proto)).filter fun a => a.type == t) = [] := by
          rw [List.filter_eq_nil_iff]
          intro a ha
          simpa using ht.2 a ha
        simp [this]
  exact key ops m m rfl rfl

private theorem applyAll_nil (m : Media) : m.applyAll [] = m := rfl

private theorem callsOn_nil {n : Nat} {ops : List BuildOp} (h : Within n ops) {i : Nat} (hi : n ≤ i) : callsOn i ops = [] := by
  unfold callsOn
  rw [List.filterMap_eq_nil_iff]
  intro op hop
  match op with
  | .session _ => rfl
  | .inSection j x =>
    have := h _ hop j x rfl
    simp; omega

private theorem fold_plus (s : Session) (ops : List SessionOp) :
    ops.foldl Session.apply s = s.plus (ops.flatMap SessionOp.given) (ops.flatMap SessionOp.sections) := by
  induction ops generalizing s with
  | nil => exact (plus_nil s).symm
  | cons op ops ih => rw [List.foldl_cons, ih, session_apply_plus, plus_plus]; rfl

/-- What a history leads to: the calls on the session act on the session, those on a section on the section. -/
private theorem fold_build (s : Session) (ops : List BuildOp) (h : Within s.media.length ops) :
    ops.foldl Session.build s = { (sessionCalls ops).foldl Session.apply s with
      media := ((sessionCalls ops).foldl Session.apply s).media.mapIdx fun i m => m.applyAll (callsOn i ops) } := by
  induction ops generalizing s with
  | nil =>
    have : s.media.mapIdx (fun _ m => m) = s.media := List.ext_getElem? fun i => by simp
    simp [sessionCalls, callsOn, applyAll_nil, this]
  | cons op ops ih =>
    have hops : Within s.media.length ops := fun op hop => h op (by simp [hop])
    rw [List.foldl_cons]
    cases op with
    | session x =>
      have hl : s.media.length ≤ (s.build (.session x)).media.length := by
        simp only [Session.build, session_apply_plus, Session.plus]
        simp
      rw [ih _ (fun op hop i y e => lt_of_lt_of_le (hops op hop i y e) hl)]
      rfl
    | inSection i x =>
      have hi : i < s.media.length := h _ (by simp) i x rfl
      have e : s.build (.inSection i x) = { s with media := s.media.modify i (fun m => m.apply x) } := rfl
      rw [ih _ (by rw [e]; simpa using hops), e]
      have hs : sessionCalls (.inSection i x :: ops) = sessionCalls ops := rfl
      rw [hs, fold_plus, fold_plus]
      have hm : ((s.media.modify i fun m => m.apply x) ++ (sessionCalls ops).flatMap SessionOp.sections).mapIdx
            (fun j m => m.applyAll (callsOn j ops)) =
          (s.media ++ (sessionCalls ops).flatMap SessionOp.sections).mapIdx
            (fun j m => m.applyAll (callsOn j (.inSection i x :: ops))) := by
        refine List.ext_getElem? fun j => ?_
        have hc : callsOn j (.inSection i x :: ops) = if i = j then x :: callsOn j ops else callsOn j ops := by
          unfold callsOn
          rw [List.filterMap_cons]
          by_cases h : i = j <;> simp [h]
        rw [List.getElem?_mapIdx, List.getElem?_mapIdx, hc]
        by_cases hj : j < s.media.length
        · rw [List.getElem?_append_left (by simpa using hj), List.getElem?_append_left hj, List.getElem?_modify]
          by_cases h : i = j
          · subst h; simp [hj]; rfl
          · simp [h]
        · rw [List.getElem?_append_right (by simpa using hj), List.getElem?_append_right (by omega), if_neg (by omega),
            List.length_modify]
      simp only [Session.plus, hm]

/-- **C119.** The calls on the session and those on each of its sections do not interfere: two histories that make the same calls on the
session, and the same calls on each section, lead to the same session, however they are mixed. -/
theorem C119_sections (s : Session) {ops ops' : List BuildOp} (h : Within s.media.length ops) (h' : Within s.media.length ops')
    (hs : sessionCalls ops = sessionCalls ops') (hm : ∀ i, callsOn i ops = callsOn i ops') :
    ops.foldl Session.build s = ops'.foldl Session.build s := by
  rw [fold_build s ops h, fold_build s ops' h', hs]
  simp only [hm]

/-- **C119.** Connection, timing, bandwidths, attributes and sections of a session do not interfere. -/
theorem C119_session (s : Session) {ops ops' : List SessionOp}
    (hc : connectionsIn (ops.flatMap SessionOp.given) = connectionsIn (ops'.flatMap SessionOp.given))
    (ht : timingsIn (ops.flatMap SessionOp.given) = timingsIn (ops'.flatMap SessionOp.given))
    (hb : bandwidthsIn (ops.flatMap SessionOp.given) = bandwidthsIn (ops'.flatMap SessionOp.given))
    (ha : attributesIn (ops.flatMap SessionOp.given) = attributesIn (ops'.flatMap SessionOp.given))
    (hm : ops.flatMap SessionOp.sections = ops'.flatMap SessionOp.sections) :
    ops.foldl Session.apply s = ops'.foldl Session.apply s := by
  rw [fold_plus, fold_plus]
  simp only [Session.plus, hc, ht, hb, ha, hm]

/-- **C119.** Whether a call succeeds, and the error it gives, does not depend on what was done before. -/
theorem C119_results (m n : Media) (s s' : Session) :
    (∀ a, (m.addAttribute a).2 = (n.addAttribute a).2) ∧ (∀ a, (m.setAttribute a).2 = (n.setAttribute a).2) ∧
    (∀ r, (m.addCodec r).2 = .ok ()) ∧ (∀ name p st sz, (m.addDatachannel name p st sz).2 = .ok ()) ∧
    (∀ a, (s.addAttribute a).2 = (s'.addAttribute a).2) ∧
    ∀ ty d p pr ad, (s.addMedia ty d p pr ad).2 = (s'.addMedia ty d p pr ad).2 := by
  have h (m n : Media) (a : Attribute) : (m.addAttribute a).2 = (n.addAttribute a).2 := by
    unfold Media.addAttribute; split <;> rfl
  refine ⟨h m n, fun a => h _ _ a, ?_, ?_, ?_, ?_⟩
  · intro r
    simp only [Media.addCodec]
    rfl
  · intro name p st sz
    rw [addDatachannel_eq]
  · intro a; unfold Session.addAttribute; split <;> rfl
  · intro ty d p pr ad
    unfold Session.addMedia
    simp only []
    split <;> rfl

end

/-! ## The hypotheses are met, and needed -/

section
attribute [local instance] sampleEnv

def mixSection (p : UInt32) : Media := ⟨⟨.audio, p, 0, .rtpAvp, .integers [0]⟩, none, [], []⟩

/-- Two sections, and calls on them and on the session. -/
def mixSession : Session := { Session.new 0 ⟨c%"-", 1, 2, .fqdn .ipV4 c%"a.b"⟩ c%"-" with media := [mixSection 1, mixSection 2] }
def mixA : List BuildOp := [.inSection 0 (.setPort 7), .session (.setTiming ⟨1, 2⟩), .inSection 1 (.addAttribute .sendrecv),
  .inSection 0 (.addAttribute (.mid c%"a")), .session (.addAttribute .iceLite), .inSection 1 (.setAttribute .recvonly)]
def mixB : List BuildOp := [.inSection 1 (.addAttribute .sendrecv), .inSection 1 (.setAttribute .recvonly), .session (.setTiming ⟨1, 2⟩),
  .inSection 0 (.setPort 7), .session (.addAttribute .iceLite), .inSection 0 (.addAttribute (.mid c%"a"))]

example : Within mixSession.media.length mixA ∧ Within mixSession.media.length mixB ∧ sessionCalls mixA = sessionCalls mixB ∧
    ∀ i, callsOn i mixA = callsOn i mixB := by
  refine ⟨?_, ?_, rfl, ?_⟩
  · intro op hop i x e
    simp only [mixA, List.mem_cons, List.not_mem_nil, or_false] at hop
    rcases hop with rfl | rfl | rfl | rfl | rfl | rfl <;> cases e <;> decide
  · intro op hop i x e
    simp only [mixB, List.mem_cons, List.not_mem_nil, or_false] at hop
    rcases hop with rfl | rfl | rfl | rfl | rfl | rfl <;> cases e <;> decide
  · rintro (_ | _ | i) <;> simp [callsOn, mixA, mixB]

example : ∀ k : MediaPart,
    [MediaOp.setPort 1, .addAttribute .sendrecv, .setPort 2, .addBandwidth (.as 1), .removeCodecs].filter (fun op => op.part = k) =
    [MediaOp.addAttribute .sendrecv, .addBandwidth (.as 1), .removeCodecs, .setPort 1, .setPort 2].filter (fun op => op.part = k) := by
  intro k; cases k <;> rfl

/-- Calls of one kind, attributes of different types as far as their order goes, and calls on a section that is not there yet cannot be exchanged. -/
theorem C119_needed :
    ((mixSection 1).applyAll [.setPort 3, .setPort 4]).getPort ≠ ((mixSection 1).applyAll [.setPort 4, .setPort 3]).getPort ∧
    ((mixSection 1).applyAll [.addAttribute .sendrecv, .addAttribute .rtcpMux]).getAttributes ≠
      ((mixSection 1).applyAll [.addAttribute .rtcpMux, .addAttribute .sendrecv]).getAttributes ∧
    ([BuildOp.inSection 2 (.setPort 4), .session (.extendMedia [mixSection 3])].foldl Session.build mixSession).media.map Media.getPort ≠
      ([BuildOp.session (.extendMedia [mixSection 3]), .inSection 2 (.setPort 4)].foldl Session.build mixSession).media.map Media.getPort := by
  refine ⟨by decide +kernel, ?_, by decide +kernel⟩
  intro h
  have := congrArg List.head? h
  revert this
  have e1 : ((mixSection 1).applyAll [.addAttribute .sendrecv, .addAttribute .rtcpMux]).getAttributes = [.sendrecv, .rtcpMux] := rfl
  have e2 : ((mixSection 1).applyAll [.addAttribute .rtcpMux, .addAttribute .sendrecv]).getAttributes = [.rtcpMux, .sendrecv] := rfl
  rw [e1, e2]
  simp

end

end Sdp
