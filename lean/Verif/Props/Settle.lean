import Verif.Lemmas.ShrinkSession
import Verif.Props.Parsed
/-!
# C90: parsing and printing in a loop settles

A gateway that parses and prints what it passes on may be one of several in a row. C55 and C88 say which sessions
are not changed by this. Here: what happens to the others. One round is not always enough, and no fixed number is,
but the text never grows, and it changes only by becoming shorter, so that the rounds come to an end.
-/

namespace Sdp

section
variable [Env]

/-- **C90.** An attribute that was read, printed and read again has the same text or a shorter one, and is of the
same type. -/
theorem C90_attribute (L : Laws) {l : Str} {a b : Attribute} (ha : attrFromStr l = .ok a)
    (hb : attrFromStr (showAttribute a) = .ok b) :
    b.type = a.type ∧ (showAttribute b = showAttribute a ∨ (showAttribute b).length < (showAttribute a).length) :=
  ⟨attr_reread_type L ha hb, attr_shrink L ha hb⟩

/-- **C90.** Unless it is a rid or simulcast attribute, it does not change any more after that. -/
theorem C90_one_round (L : Laws) {l : Str} {a b : Attribute} (ha : attrFromStr l = .ok a)
    (hb : attrFromStr (showAttribute a) = .ok b) (h1 : a.type ≠ .rid) (h2 : a.type ≠ .simulcast) :
    attrFromStr (showAttribute b) = .ok b :=
  (attr_round (attr_settled L ha hb h1 h2)).2

/-- **C90.** What a parsed session becomes when it is printed and parsed again: nothing changes but the attributes,
each of which becomes what its own text is read as, or is lost. -/
theorem C90_reread (L : Laws) {t : Str} {f g : Bool} {s s' : Session} (h : parseSdp t f = .ok s)
    (h' : parseSdp (showSession s) g = .ok s') :
    s' = { s with
      attrs := s.attrs.filterMap rereadAttr
      media := s.media.map fun m => { m with attrs := m.attrs.filterMap rereadAttr }
      warnings := s'.warnings } := by
  have e := session_reread L (parsed_frame L h) h'
  rw [e]
  simp only [Session.mk.injEq, true_and, and_true]
  refine ⟨readAttrs_eq _, ?_⟩
  refine List.map_congr_left fun m hm => ?_
  rw [readAttrs_eq, List.filter_eq_self.2]
  intro b hb
  obtain ⟨a, ha, hab⟩ := List.mem_filterMap.1 hb
  obtain ⟨v, -, hv⟩ := (parseSdp_parts h).mattrs m hm a ha
  have ht := rereadAttr_type L hv hab
  have hd : a.type ≠ .dtlsMessage := by
    have := (C09_levels h).2 m hm a ha
    intro hc
    rw [hc] at this
    exact this (by decide)
  cases b <;> first | rfl | (exact absurd ht.symm hd)

/-- **C90.** One round of parsing and printing leaves a printed session as it is or makes it shorter. -/
theorem C90_step (L : Laws) {t : Str} {f g : Bool} {s s' : Session} (h : parseSdp t f = .ok s)
    (h' : parseSdp (showSession s) g = .ok s') :
    showSession s' = showSession s ∨ (showSession s').length < (showSession s).length :=
  session_shrink L h h'

/-- **C90.** After as many rounds as the first printed text has characters, at the latest, nothing changes any
more: the text is rejected, or it is what it was the round before. -/
theorem C90_settles (L : Laws) {t u : Str} {f : Bool} (h : reprint f t = some u) (k : Nat) (hk : u.length ≤ k) :
    reprints f (k + 1) u = reprints f k u := by
  have key : ∀ n v, reprints f n u = some v →
      (∃ t, reprint f t = some v) ∧ (reprint f v = some v ∨ v.length + n ≤ u.length) := by
    intro n
    induction n with
    | zero => rintro v ⟨⟩; exact ⟨⟨t, h⟩, .inr (by simp)⟩
    | succ n ih =>
      intro v hv
      obtain ⟨w, hw, hv⟩ := Option.bind_eq_some_iff.1 hv
      obtain ⟨⟨x, hx⟩, hw'⟩ := ih w hw
      refine ⟨⟨w, hv⟩, ?_⟩
      have hs : v = w ∨ v.length < w.length := by
        unfold reprint at hx hv
        split at hx
        · rename_i s hs
          cases hx
          split at hv
          · rename_i s' hs'
            cases hv
            exact C90_step L hs hs'
          · cases hv
        · cases hx
      rcases hs with rfl | hs
      · exact .inl hv
      · rcases hw' with hw' | hw'
        · rw [hw'] at hv; cases hv; exact .inl hw'
        · exact .inr (by omega)
  show (reprints f k u).bind (reprint f) = reprints f k u
  cases hr : reprints f k u with
  | none => rfl
  | some v =>
    obtain ⟨-, hv | hv⟩ := key k v hr
    · exact hv
    · have h0 : v = [] := List.length_eq_zero_iff.1 (by omega)
      obtain ⟨⟨x, hx⟩, -⟩ := key k v hr
      unfold reprint at hx
      split at hx
      · rename_i s hs
        have : showSession s = [] := (Option.some.inj hx).trans h0
        rw [showSession_lines] at this
        cases this
      · cases hx

/-- **C90.** A text that does not change any more is that of a session that is read back. -/
theorem C90_settled (L : Laws) {u : Str} {f : Bool} (h : reprint f u = some u) :
    ∃ s, parseSdp u f = .ok s ∧ showSession s = u ∧ s.WF ∧ s.warnings = [] := by
  unfold reprint at h
  split at h
  · rename_i s hs
    have e : showSession s = u := Option.some.inj h
    have h2 : parseSdp (showSession s) f = .ok { s with warnings := s.warnings } := by rw [e]; exact hs
    obtain ⟨hw, -, hn⟩ := (session_back_iff L).1 h2
    exact ⟨s, hs, e, hw, hn⟩
  · cases h

/-- The text of a simulcast id that begins with `rid=` so many times. -/
def ridRun : Nat → Str
  | 0 => c%"x"
  | n + 1 => c%"rid=" ++ ridRun n

/-- The simulcast attribute with this id only. -/
def ridRunAttr (n : Nat) : Attribute := .simulcast ⟨[⟨[⟨ridRun n, false⟩]⟩], []⟩

/-- **C90.** No number of rounds is enough for every attribute: for every `n` there is one that was read from a text
and takes `n` rounds, each of which changes it, to become one that does not change. -/
theorem C90_no_bound :
    (∀ n, ∃ l, attrFromStr l = .ok (ridRunAttr n)) ∧
    (∀ n, attrFromStr (showAttribute (ridRunAttr (n + 1))) = .ok (ridRunAttr n)) ∧
    (∀ n m, ridRunAttr n = ridRunAttr m → n = m) ∧
    attrFromStr (showAttribute (ridRunAttr 0)) = .ok (ridRunAttr 0) := by
  have hrun : ∀ n, (∀ c ∈ ridRun n, c ∈ c%"rid=x") ∧ ridRun n ≠ [] ∧ (ridRun n).head? ≠ some '~' := by
    intro n
    induction n with
    | zero => exact ⟨fun c hc => by revert c; decide, by decide, by decide⟩
    | succ n ih =>
      refine ⟨fun c hc => ?_, by simp [ridRun], by simp [ridRun]⟩
      rcases List.mem_append.1 hc with hc | hc
      · exact (by decide : ∀ c ∈ c%"rid=", c ∈ c%"rid=x") c hc
      · exact ih.1 c hc
  have hnot {n : Nat} {c : Char} (h : c ∉ c%"rid=x") : c ∉ ridRun n := fun hc => h ((hrun n).1 c hc)
  have hws (n : Nat) : NoWs (ridRun n) := by
    intro c hc
    exact (by decide : ∀ c ∈ c%"rid=x", isWs c = false) c ((hrun n).1 c hc)
  have hmk (n : Nat) : makeVersionList (ridRun n) = [⟨[⟨ridRun n, false⟩]⟩] := by
    have hs : stripPrefix c%"~" (ridRun n) = none := by
      cases hs : stripPrefix c%"~" (ridRun n) with
      | none => rfl
      | some r =>
        have := stripPrefix_eq_some.1 hs
        exact absurd (by rw [this]; rfl) (hrun n).2.2
    unfold makeVersionList SimulcastVersion.new
    rw [splitC_of_not_mem (hnot (by decide))]
    simp only [List.map_cons, List.map_nil]
    rw [splitC_of_not_mem (hnot (by decide))]
    simp [SimulcastId.new, hs]
  have hshow (n : Nat) : showAttribute (ridRunAttr n) = AttributeType.simulcast.name ++ ':' :: (c%"send" ++ ' ' :: ridRun n) := by
    show attrToString .simulcast (showSimulcast _) = _
    rw [showSimulcast_eq]
    simp only [List.cons_ne_self, reduceCtorEq, if_false, if_true]
    have : versionsText [⟨[⟨ridRun n, false⟩]⟩] = ridRun n := by
      simp [versionsText, showSimulcastVersion, showSimulcastId, nonEmpty, joinS, (hrun n).2.1]
    rw [this]
    simp [attrToString]
  have hread (n : Nat) (l : List SimulcastVersion) (h : parseVersionList (ridRun n) = .ok l) :
      attrFromStr (AttributeType.simulcast.name ++ ':' :: (c%"send" ++ ' ' :: ridRun n)) = .ok (.simulcast ⟨l, []⟩) := by
    obtain ⟨h1, h2, -, -⟩ := AttributeType.simulcast.name_facts
    rw [attrFromStr_colon h1, h2, show isFlagName AttributeType.simulcast.name = false from rfl, attrTypeOfName_name]
    show parseSimulcast (trim _) = _
    unfold parseSimulcast
    have ns : NoWs c%"send" := fun c hc => by revert c; decide
    rw [splitWs_trim, splitWs_space ns (by decide), splitWs_single (hws n) (hrun n).2.1]
    have dsend : parseSingleDirection c%"send" = .ok .send := rfl
    simp [dsend, h, parseSecondVersionList]
  have hstep (n : Nat) : parseVersionList (ridRun (n + 1)) = .ok (makeVersionList (ridRun n)) := by
    unfold parseVersionList
    rw [if_pos (by simp [ridRun])]
    have : splitn 2 '=' (ridRun (n + 1)) = [c%"rid", ridRun n] :=
      splitn_two_append (a := c%"rid") (b := ridRun n) (by decide)
    rw [this]
    rfl
  have hback (n : Nat) : attrFromStr (showAttribute (ridRunAttr (n + 1))) = .ok (ridRunAttr n) := by
    rw [hshow, hread _ _ (hstep n), hmk]
    rfl
  refine ⟨fun n => ⟨_, hback n⟩, hback, ?_, ?_⟩
  · intro n m h
    have hlen : ∀ n, (ridRun n).length = 4 * n + 1 := by
      intro n
      induction n with
      | zero => rfl
      | succ n ih => simp [ridRun, ih]; omega
    simp only [ridRunAttr, Attribute.simulcast.injEq, Simulcast.mk.injEq, List.cons.injEq, SimulcastVersion.mk.injEq,
      SimulcastId.mk.injEq, and_true] at h
    have := congrArg List.length h
    rw [hlen, hlen] at this
    omega
  · have : parseVersionList (ridRun 0) = .ok (makeVersionList (ridRun 0)) := rfl
    rw [hshow, hread _ _ this, hmk]
    rfl

end

/-! ### The hypotheses are met -/

section Examples
attribute [local instance] sampleEnv

example : Laws := sampleLaws

/-- A simulcast attribute that loses one `rid=` in each round. -/
example :
    attrFromStr c%"simulcast:send rid=rid=rid=x" = .ok (ridRunAttr 2) ∧
    showAttribute (ridRunAttr 2) = c%"simulcast:send rid=rid=x" ∧
    attrFromStr c%"simulcast:send rid=rid=x" = .ok (ridRunAttr 1) ∧
    ridRunAttr 2 ≠ ridRunAttr 1 := by decide +kernel

/-- What the text of an attribute becomes in two rounds. -/
private def twice (l : Str) : Option Str × Option Str :=
  match attrFromStr l with
  | .ok a => (some (showAttribute a), (rereadAttr a).map showAttribute)
  | _ => (none, none)

/-- One round is not enough for a rid either, one is for an fmtp, and some texts are not read after one round. -/
example :
    twice c%"rid:1 send max-width=0;pt=096" = (some c%"rid:1 send pt=096", some c%"rid:1 send pt=96") ∧
    twice c%"fmtp:96 x=1;y=2" = (some c%"fmtp:96 x=1,y=2", some c%"fmtp:96 x=1,y=2") ∧
    twice c%"simulcast:send rid=1=2" = (some c%"simulcast:send 1=2", none) := by decide +kernel

private def settleText (v : Str) : Str :=
  c%"v=0\r\no=- 1 1 IN IP4 127.0.0.1\r\ns=-\r\nt=0 0\r\nm=video 9 UDP/TLS/RTP/SAVPF 96\r\nc=IN IP4 0.0.0.0\r\na=" ++
    v ++ c%"\r\n"

/-- A session that goes on changing for some rounds and then does not. -/
example :
    reprint false (settleText c%"rid:1 send max-width=0;pt=096") = some (settleText c%"rid:1 send pt=096") ∧
    reprint false (settleText c%"rid:1 send pt=096") = some (settleText c%"rid:1 send pt=96") ∧
    reprint false (settleText c%"rid:1 send pt=96") = some (settleText c%"rid:1 send pt=96") := by decide +kernel

end Examples

end Sdp
