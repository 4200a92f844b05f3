import Verif.Spec.Cut
import Verif.Props.InsertConn
/-!
# C101: a description that is cut off
-/

namespace Sdp
open Insert

section
variable [Env]

omit [Env] in
private theorem contentFrom_append (n : Nat) (a b : List Str) :
    contentFrom n (a ++ b) = contentFrom n a ++ contentFrom (n + a.length) b := by
  unfold contentFrom
  rw [List.zipIdx_append, List.filter_append]

private theorem warnings_cut {s s' : Str} {p q : List Str} {f : Bool} {r r' : Session} (hs : lines s = p ++ q) (hs' : lines s' = p)
    (hr : parseSdp s f = .ok r) (hr' : parseSdp s' f = .ok r') : r'.warnings <+: r.warnings := by
  rw [(parseSdp_lines.1 hr).2.2.2, (parseSdp_lines.1 hr').2.2.2]
  unfold contentLines
  rw [hs, hs', contentFrom_append]
  unfold unsupportedErrors
  rw [List.filterMap_append]
  exact List.prefix_append _ _

omit [Env] in
private theorem skip_three {l0 l1 l2 : SdpLine} {p : List SdpLine} {v : UInt64} {o : Origin} {nm : Str}
    (h0 : l0.sdpType = .version v) (h1 : l1.sdpType = .origin o) (h2 : l2.sdpType = .session nm) :
    connectionsOf (l0 :: l1 :: l2 :: p) = connectionsOf p ∧ timingsOf (l0 :: l1 :: l2 :: p) = timingsOf p ∧
    attrsOf (l0 :: l1 :: l2 :: p) = attrsOf p ∧ bandwidthsOf (l0 :: l1 :: l2 :: p) = bandwidthsOf p ∧
    sectionsOf (l0 :: l1 :: l2 :: p) = sectionsOf p := by
  obtain ⟨_, _, _⟩ := l0
  obtain ⟨_, _, _⟩ := l1
  obtain ⟨_, _, _⟩ := l2
  simp only at h0 h1 h2
  subst h0 h1 h2
  exact ⟨rfl, rfl, rfl, rfl, rfl⟩

omit [Env] in
private theorem goodSection_prefix {a b : List SdpLine} (h : GoodSection (a ++ b)) : GoodSection a := by
  obtain ⟨h1, h2, h3⟩ := h
  rw [connectionsOf_append, List.length_append] at h2
  rw [attrsOf_append] at h3
  exact ⟨fun l hl => h1 l (by simp [hl]), by omega, fun l hl => h3 l (by simp [hl])⟩

/-- **C101.** An accepted text is cut off after a line in front of its first m= line. It is accepted exactly if a t= line is left,
and then the session has what the lines that are left say, and no section. -/
theorem C101_cut_before_media {p q : List Str} {s s' : Str} {f : Bool} {r : Session} (hp : NoMediaLine p)
    (hs : lines s = p ++ q) (hs' : lines s' = p) (hb : 51 ≤ byteLen s') (hr : parseSdp s f = .ok r) :
    ((∃ r', parseSdp s' f = .ok r') ↔ timingsRead p ≠ []) ∧
    ∀ r', parseSdp s' f = .ok r' → r' = { r with
      connection := (connectionsRead p).getLast?, timing := (timingsRead p).getLast?, bandwidth := bandwidthsRead p
      attrs := attrsRead p, media := [], warnings := r'.warnings } ∧ r'.CutOf r := by
  obtain ⟨hfine, hd⟩ := describes_of hs hr
  have hfine' : ∀ x ∈ p, LineFine f x := fun x hx => hfine x (by simp [hx])
  have key (h3 : ∃ l0 l1 l2 p' v o nm, bareLines p = l0 :: l1 :: l2 :: p' ∧ l0.sdpType = .version v ∧ l1.sdpType = .origin o ∧
      l2.sdpType = .session nm) :
      (bareLines p ≠ [] ∧ attrsRead p <+: r.attrs ∧ bandwidthsRead p <+: r.bandwidth) ∧
      ∀ x, Describes (bareLines p) x ↔ x = { r with
        connection := (connectionsRead p).getLast?, timing := (timingsRead p).getLast?, bandwidth := bandwidthsRead p
        attrs := attrsRead p, media := [], warnings := [] } ∧ timingsRead p ≠ [] := by
    obtain ⟨l0, l1, l2, p', v, o, nm, e, h0, h1, h2⟩ := h3
    obtain ⟨e1, e2, e3, e4, -⟩ := skip_three (p := p') h0 h1 h2
    rw [← e] at e1 e2 e3 e4
    rw [connectionsOf_bareLines] at e1
    rw [timingsOf_bareLines] at e2
    rw [attrsOf_bareLines] at e3
    rw [bandwidthsOf_bareLines] at e4
    have hpm' : ∀ l ∈ p', notMedia l = true := fun l hl => bare_noMedia' hp l (by rw [e]; simp [hl])
    rw [bareLines_append, e] at hd
    simp only [List.cons_append] at hd
    obtain ⟨-, g1, -, -, g2, -⟩ := (describes_at h0 h1 h2 hpm').1 hd
    obtain ⟨w, rfl⟩ := of_bare g2
    refine ⟨⟨by rw [e]; simp, ?_, ?_⟩, fun x => ?_⟩
    · rw [e3]; exact List.prefix_append _ _
    · rw [e4]; exact List.prefix_append _ _
    · have := describes_at (q := []) (r := x) h0 h1 h2 hpm'
      rw [List.append_nil] at this
      rw [e, this]
      simp only [List.takeWhile_nil, connectionsOf, timingsOf, bandwidthsOf, attrsOf, List.filterMap_nil, List.append_nil] at e1 e2 e3 e4 ⊢
      rw [e1, e2, e3, e4]
      constructor
      · rintro ⟨-, -, -, -, rfl, hc⟩
        exact ⟨rfl, last_some.1 hc.timing⟩
      · rintro ⟨rfl, ht⟩
        refine ⟨?_, g1, ⟨by simp, by simp [attrsOf]⟩, by simp [sectionsOf], rfl, last_some.2 ht, .inr (by simp), by simp, by simp⟩
        rintro rfl
        exact ht rfl
  constructor
  · rw [accepts hs' hb hfine']
    constructor
    · rintro ⟨x, hx⟩
      have h3 : ∃ l0 l1 l2 p' v o nm, bareLines p = l0 :: l1 :: l2 :: p' ∧ l0.sdpType = .version v ∧ l1.sdpType = .origin o ∧
          l2.sdpType = .session nm := by
        obtain ⟨l0, l1, l2, rest, v, o, nm, g, -, g2, g3, g4, -⟩ := hx
        exact ⟨l0, l1, l2, rest, v, o, nm, g, g2, g3, g4⟩
      exact ((((key h3).2 x).1 hx)).2
    · intro ht
      have h3 : ∃ l0 l1 l2 p' v o nm, bareLines p = l0 :: l1 :: l2 :: p' ∧ l0.sdpType = .version v ∧ l1.sdpType = .origin o ∧
          l2.sdpType = .session nm := by
        obtain ⟨t, ht⟩ := List.exists_mem_of_ne_nil _ ht
        rw [← timingsOf_bareLines] at ht
        obtain ⟨x, hx, e⟩ := List.mem_filterMap.1 ht
        obtain ⟨a, b, hab⟩ := List.append_of_mem hx
        rw [bareLines_append, hab, List.append_assoc, List.cons_append] at hd
        obtain ⟨l0, l1, l2, p', v, o, nm, e1, h0, h1, h2⟩ := first_three hd (by
          intro v o n
          cases hx : x.sdpType <;> simp [hx] at e ⊢)
        exact ⟨l0, l1, l2, p' ++ x :: b, v, o, nm, by rw [hab, e1]; rfl, h0, h1, h2⟩
      exact ⟨_, ((key h3).2 _).2 ⟨rfl, ht⟩⟩
  · intro r' hr'
    have hd' := (describes_of hs' hr').2
    have h3 : ∃ l0 l1 l2 p' v o nm, bareLines p = l0 :: l1 :: l2 :: p' ∧ l0.sdpType = .version v ∧ l1.sdpType = .origin o ∧
        l2.sdpType = .session nm := by
      obtain ⟨l0, l1, l2, rest, v, o, nm, g, -, g2, g3, g4, -⟩ := hd'
      exact ⟨l0, l1, l2, rest, v, o, nm, g, g2, g3, g4⟩
    obtain ⟨⟨-, k1, k2⟩, k3⟩ := key h3
    have hw := warnings_cut hs hs' hr hr'
    obtain ⟨w, rfl⟩ := of_bare ((k3 _).1 hd').1
    exact ⟨rfl, rfl, rfl, rfl, k2, k1, hw, .inl rfl⟩

/-- **C101.** An accepted text is cut off after an m= line and some lines of its section. It is accepted exactly if the
session or each of the sections left has a connection, and if what is left of the section has an rtcp-mux should it have an
rtcp-mux-only, and the rids of its first simulcast. Then the sections before are left as they are, as is everything on the
session level, and the last section has what its lines that are left say. -/
theorem C101_cut_in_section {p1 p2 q : List Str} {m s s' : Str} {ml : MediaLine} {f : Bool} {r : Session}
    (hm : lineMeaning m = .ok (.media ml)) (hp : NoMediaLine p2)
    (hs : lines s = p1 ++ m :: (p2 ++ q)) (hs' : lines s' = p1 ++ m :: p2) (hb : 51 ≤ byteLen s') (hr : parseSdp s f = .ok r) :
    ∃ before sec after, r.media = before ++ sec :: after ∧ before.length = p1.countP isMediaLine ∧
      ((∃ r', parseSdp s' f = .ok r') ↔
        (r.connection ≠ none ∨ ∀ x ∈ before ++ [sectionRead ml p2], x.connection ≠ none) ∧
        (Attribute.rtcpMuxOnly ∈ (sectionRead ml p2).attrs → Attribute.rtcpMux ∈ (sectionRead ml p2).attrs) ∧
        ∀ sc, FirstSimulcast (sectionRead ml p2) sc → SimulcastDefined (sectionRead ml p2) sc) ∧
      ∀ r', parseSdp s' f = .ok r' →
        r' = { r with media := before ++ [sectionRead ml p2], warnings := r'.warnings } ∧ r'.CutOf r := by
  obtain ⟨hfine, hd⟩ := describes_of hs hr
  have hfine' : ∀ x ∈ p1 ++ m :: p2, LineFine f x := fun x hx => hfine x (by
    simp only [List.mem_append, List.mem_cons] at hx ⊢; tauto)
  have e0 : bareLines (p1 ++ m :: (p2 ++ q)) = bareLines p1 ++ ⟨0, .media ml, []⟩ :: (bareLines p2 ++ bareLines q) := by
    rw [bareLines_append, bare_cons hm, bareLines_append]
  have e0' : bareLines (p1 ++ m :: p2) = bareLines p1 ++ ⟨0, .media ml, []⟩ :: (bareLines p2 ++ []) := by
    rw [bareLines_append, bare_cons hm, List.append_nil]
  rw [e0] at hd
  obtain ⟨l0, l1, l2, p', v, o, nm, e, h0, h1, h2⟩ := first_three hd (by simp)
  obtain ⟨-, -, -, -, e5⟩ := skip_three (p := p') h0 h1 h2
  rw [← e] at e5
  have hpm : ∀ l ∈ bareLines p2, notMedia l = true := bare_noMedia' hp
  rw [e] at hd
  simp only [List.cons_append] at hd
  obtain ⟨g1, g2, g3, -, g4, hc⟩ := (describes_in h0 h1 h2 rfl hpm).1 hd
  have hsec : sectionMedia (ml, bareLines p2) = sectionRead ml p2 := by
    unfold sectionMedia sectionRead
    simp only [connectionsOf_bareLines, bandwidthsOf_bareLines, attrsOf_bareLines]
  have hd' (x : Session) : Describes (bareLines (p1 ++ m :: p2)) x ↔
      x = { assemble v o nm p' [] with media := (sectionsOf p').map sectionMedia ++ [sectionRead ml p2] } ∧ Consistent x := by
    rw [e0', e]
    simp only [List.cons_append]
    rw [describes_in h0 h1 h2 rfl hpm]
    simp only [List.takeWhile_nil, List.append_nil, sectionsOf, List.map_nil, hsec]
    exact ⟨fun ⟨_, _, _, _, h, h'⟩ => ⟨h, h'⟩, fun ⟨h, h'⟩ => ⟨g1, g2, goodSection_prefix g3, by simp, h, h'⟩⟩
  rw [g4] at hc
  obtain ⟨w, rfl⟩ := of_bare g4
  have hcut : (sectionRead ml p2).CutOf (sectionMedia (ml, bareLines p2 ++ (bareLines q).takeWhile notMedia)) := by
    rw [← hsec]
    unfold sectionMedia
    simp only [connectionsOf_append, bandwidthsOf_append, attrsOf_append, List.filter_append]
    refine ⟨rfl, ?_, List.prefix_append _ _, List.prefix_append _ _⟩
    simp only
    cases connectionsOf (bareLines p2) with
    | nil => exact .inl rfl
    | cons => exact .inr rfl
  refine ⟨(sectionsOf p').map sectionMedia, _, (sectionsOf (bareLines q)).map sectionMedia, rfl, ?_, ?_, ?_⟩
  · rw [List.length_map, ← e5, sectionsOf_count]
  · rw [accepts hs' hb hfine']
    constructor
    · rintro ⟨x, hx⟩
      obtain ⟨rfl, hx⟩ := (hd' x).1 hx
      have hlast := hx.media (sectionRead ml p2) (by simp)
      refine ⟨?_, hlast.mux, hlast.simulcast⟩
      rcases hx.connection with ⟨c, h⟩ | h
      · exact .inl (by simp only at h ⊢; rw [h]; simp)
      · refine .inr fun y hy => ?_
        obtain ⟨c, h⟩ := h y hy
        rw [h]; simp
    · rintro ⟨k1, k2, k3⟩
      refine ⟨_, (hd' _).2 ⟨rfl, hc.timing, ?_, ?_, ?_⟩⟩
      · rcases k1 with h | h
        · exact .inl (Option.ne_none_iff_exists'.1 h)
        · exact .inr fun y hy => Option.ne_none_iff_exists'.1 (h y hy)
      · rintro ⟨he, y, hy, e', he'⟩
        refine hc.extmap ⟨he, ?_⟩
        simp only [List.mem_append, List.mem_singleton] at hy
        rcases hy with hy | rfl
        · exact ⟨y, by simp [hy], e', he'⟩
        · exact ⟨_, by simp, e', hcut.attrs.subset he'⟩
      · intro y hy
        simp only [List.mem_append, List.mem_singleton] at hy
        rcases hy with hy | rfl
        · exact hc.media y (by simp [hy])
        · have hfull := hc.media (sectionMedia (ml, bareLines p2 ++ (bareLines q).takeWhile notMedia)) (by simp)
          exact ⟨k2, fun x hx => hfull.ridFormats x (hcut.attrs.subset hx), k3⟩
  · intro r' hr'
    have hw := warnings_cut (p := p1 ++ m :: p2) (q := q) (by rw [hs]; simp) hs' hr hr'
    obtain ⟨w', rfl⟩ := of_bare ((hd' _).1 (describes_of hs' hr').2).1
    exact ⟨rfl, rfl, rfl, rfl, List.prefix_refl _, List.prefix_refl _, hw,
      .inr ⟨rfl, rfl, rfl, rfl, _, _, _, _, rfl, rfl, hcut⟩⟩

/-- **C101.** Wherever an accepted text is cut off between lines: if what is left is accepted, then it gives what is left of
the session. -/
theorem C101_cut {p q : List Str} {s s' : Str} {f : Bool} {r r' : Session} (hs : lines s = p ++ q) (hs' : lines s' = p)
    (hr : parseSdp s f = .ok r) (hr' : parseSdp s' f = .ok r') : r'.CutOf r := by
  have hb := (parseSdp_lines.1 hr').1
  by_cases hp : NoMediaLine p
  · exact ((C101_cut_before_media hp hs hs' hb hr).2 r' hr').2
  · -- the last m= line
    obtain ⟨p1, m, p2, rfl, hm, hp2⟩ : ∃ p1 m p2, p = p1 ++ m :: p2 ∧ isMediaLine m = true ∧ NoMediaLine p2 := by
      clear hs hs' hr hr' hb
      induction p with
      | nil => exact absurd (by simp [NoMediaLine]) hp
      | cons a p ih =>
        by_cases h : NoMediaLine p
        · refine ⟨[], a, p, rfl, ?_, h⟩
          cases ha : isMediaLine a with
          | true => rfl
          | false =>
            refine absurd (fun l hl => ?_) hp
            rcases List.mem_cons.1 hl with rfl | hl
            · exact ha
            · exact h l hl
        · obtain ⟨p1, m, p2, rfl, hm, hp2⟩ := ih h
          exact ⟨a :: p1, m, p2, rfl, hm, hp2⟩
    unfold isMediaLine at hm
    split at hm
    · rename_i ml hml
      obtain ⟨_, _, _, -, -, -, h⟩ := C101_cut_in_section (q := q) hml hp2 (by rw [hs]; simp) hs' hb hr
      exact (h r' hr').2
    · cases hm

end

/-! ## The hypotheses are met -/

section
attribute [local instance] sampleEnv

private def ok {ε α : Type} : Outcome ε α → Bool
  | .ok _ => true
  | _ => false

def cutLines : List Str :=
  [c%"v=0", c%"o=- 1 2 IN IP4 127.0.0.1", c%"s=-", c%"t=0 0", c%"b=AS:5", c%"c=IN IP4 0.0.0.0", c%"a=x-unknown",
   c%"a=ice-lite", c%"m=audio 9 UDP/TLS/RTP/SAVPF 0", c%"a=rtcp-mux-only", c%"a=rtcp-mux", c%"a=mid:1",
   c%"m=video 9 UDP/TLS/RTP/SAVPF 96", c%"b=AS:7", c%"a=simulcast:send 1", c%"a=rid:1 send pt=96", c%"a=ptime:20"]

/-- Which of the cuts of the text above between lines are accepted: those after the t= line of at least 51 bytes, except
after the rtcp-mux-only without rtcp-mux and after the simulcast without rid. -/
theorem C101_cuts :
    (∀ n ∈ List.range 18, lines (crlf (cutLines.take n)) = cutLines.take n) ∧
    (List.range 18).filter (fun n => 51 ≤ byteLen (crlf (cutLines.take n))) = (List.range 18).drop 5 ∧
    (List.range 18).filter (fun n => ok (parseSdp (crlf (cutLines.take n)) false)) =
      [5, 6, 7, 8, 9, 11, 12, 13, 14, 16, 17] := by
  decide +kernel

/-- A text cut off inside a line: the whole text and the cut text are accepted, and the last value is another. -/
theorem C101_not_inside : ∃ s s' : Str, s' <+: s ∧ ∃ r r', parseSdp s true = .ok r ∧ parseSdp s' true = .ok r' ∧
    ¬ r'.CutOf r := by
  have h : ∃ r, parseSdp (crlf (connHead ++ [connLine, c%"b=AS:57"])) true = .ok r ∧ r.bandwidth = [.as 57] := by
    refine ⟨_, rfl, ?_⟩
    decide +kernel
  have h' : ∃ r, parseSdp (crlf (connHead ++ [connLine, c%"b=AS:57"])).dropLast.dropLast.dropLast true = .ok r ∧ r.bandwidth = [.as 5] := by
    refine ⟨_, rfl, ?_⟩
    decide +kernel
  obtain ⟨r, h1, h2⟩ := h
  obtain ⟨r', h1', h2'⟩ := h'
  refine ⟨_, _, ?_, r, r', h1, h1', fun h => ?_⟩
  · exact ((List.dropLast_prefix _).trans (List.dropLast_prefix _)).trans (List.dropLast_prefix _)
  · have := h.bandwidth
    rw [h2, h2'] at this
    exact absurd this (by decide)

end

end Sdp
