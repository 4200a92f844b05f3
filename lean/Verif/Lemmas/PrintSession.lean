import Verif.Lemmas.PrintLine
import Verif.Lemmas.Safe
import Verif.Lemmas.Erase
import Verif.Spec.Layout
import Verif.Props.Accepted
/-!
# The printed form of a whole session
-/

namespace Sdp

section layout

theorem crlf_append (a b : List Str) : crlf (a ++ b) = crlf a ++ crlf b := by simp [crlf]

theorem crlf_cons (a : Str) (b : List Str) : crlf (a :: b) = a ++ c%"\r\n" ++ crlf b := by simp [crlf]

theorem crlf_nil : crlf [] = [] := rfl

theorem crlf_flatMap {α : Type} (f : α → List Str) (l : List α) :
    crlf (l.flatMap f) = (l.map fun x => crlf (f x)).flatten := by
  induction l with
  | nil => rfl
  | cons x xs ih => rw [List.flatMap_cons, crlf_append, ih]; rfl

theorem join_crlf {p : Str} {t : Str} {ts : List Str} :
    p ++ joinS (c%"\r\n" ++ p) (t :: ts) ++ c%"\r\n" = crlf ((t :: ts).map (fun t => p ++ t)) := by
  induction ts generalizing t with
  | nil => simp [joinS, crlf]
  | cons u us ih =>
    rw [List.map_cons, crlf_cons, ← ih]
    simp [joinS]

theorem maybeVec_lines (p : Str) (ts : List Str) :
    maybeVec p c%"\r\n" (c%"\r\n" ++ p) ts = crlf (textLines p ts) := by
  unfold textLines
  cases ts with
  | nil => rfl
  | cons t ts =>
    have e : maybeVec p c%"\r\n" (c%"\r\n" ++ p) (t :: ts) =
      p ++ joinS (c%"\r\n" ++ p) ((t :: ts).filter (fun s => !s.isEmpty)) ++ c%"\r\n" := rfl
    have ef : (fun s : Str => !s.isEmpty) = (fun s => decide (s ≠ [])) := by
      funext s; cases s <;> simp
    rw [e, ef, if_neg (by simp)]
    split
    · rename_i h
      rw [List.filter_eq_nil_iff.2 (by simpa using h)]
      simp [joinS, crlf]
    · rename_i h
      cases hf : (t :: ts).filter (fun s => decide (s ≠ [])) with
      | nil => exact absurd (by simpa using List.filter_eq_nil_iff.1 hf) h
      | cons u us => exact join_crlf


theorem showMedia_lines (m : Media) : showMedia m = crlf m.lines := by
  unfold showMedia Media.lines bodyLines
  rw [crlf_cons, crlf_append, crlf_append, ← maybeVec_lines, ← maybeVec_lines]
  cases m.connection <;> simp [crlf]

theorem showSession_lines (s : Session) : showSession s = crlf s.lines := by
  unfold showSession Session.lines bodyLines Session.getSessionText
  rw [crlf_append, crlf_cons, crlf_cons, crlf_cons, crlf_append, crlf_append, crlf_append, crlf_append, crlf_flatMap,
    ← maybeVec_lines, ← maybeVec_lines, show showMedia = fun m => crlf m.lines from funext showMedia_lines]
  cases s.connection <;> cases s.session <;> cases s.timing <;> simp [crlf]

end layout

/-! ## What the lines are parsed to -/

/-- The types of the lines after the first three. -/
def bodyTypes (bs : List Bandwidth) (c : Option Connection) (as : List Attribute) : List SdpType :=
  bs.map .bandwidth ++ (c.toList.map .connection ++ as.map .attr)

def Media.types (m : Media) : List SdpType := .media m.media :: bodyTypes m.bandwidth m.connection m.attrs

def Session.restTypes (s : Session) : List SdpType :=
  s.timing.toList.map .timing ++ (bodyTypes s.bandwidth s.connection s.attrs ++ s.media.flatMap Media.types)

section
variable [Env]

/-- A list of lines is read as a list of types. -/
def ReadAs (ls : List Str) (ts : List SdpType) : Prop :=
  List.Forall₂ (fun l t => ¬ Blank l ∧ ∀ n, parseSdpLine l n = .ok ⟨n, t, l⟩) ls ts

theorem ReadAs.append {a b : List Str} {c d : List SdpType} (h : ReadAs a c) (h' : ReadAs b d) :
    ReadAs (a ++ b) (c ++ d) := by
  induction h with
  | nil => exact h'
  | cons h1 _ ih => exact .cons h1 ih

theorem ReadAs.map {α : Type} {f : α → Str} {g : α → SdpType} {l : List α}
    (h : ∀ x ∈ l, ¬ Blank (f x) ∧ ∀ n, parseSdpLine (f x) n = .ok ⟨n, g x, f x⟩) : ReadAs (l.map f) (l.map g) := by
  induction l with
  | nil => exact .nil
  | cons x xs ih => exact .cons (h x (by simp)) (ih fun y hy => h y (by simp [hy]))

theorem ReadAs.flatMap {α : Type} {f : α → List Str} {g : α → List SdpType} {l : List α}
    (h : ∀ x ∈ l, ReadAs (f x) (g x)) : ReadAs (l.flatMap f) (l.flatMap g) := by
  induction l with
  | nil => exact .nil
  | cons x xs ih => exact (h x (by simp)).append (ih fun y hy => h y (by simp [hy]))

theorem LinePrints.reads {x : Char} {v : Str} {t : SdpType} (h : LinePrints x v t) (hx : x ∈ lineLetters) :
    ¬ Blank (x :: '=' :: v) ∧ ∀ n, parseSdpLine (x :: '=' :: v) n = .ok ⟨n, t, x :: '=' :: v⟩ := by
  refine ⟨fun hb => ?_, h.line hx⟩
  have := hb '=' (by simp)
  revert this; decide

omit [Env] in
theorem textLines_eq {p : Str} {ts : List Str} (h : ∀ t ∈ ts, t ≠ []) : textLines p ts = ts.map (fun t => p ++ t) := by
  unfold textLines
  split
  · rename_i h; subst h; rfl
  · rename_i hn
    rw [if_neg]
    · rw [List.filter_eq_self.2]; intro t ht; simpa using h t ht
    · intro h'
      cases ts with
      | nil => exact hn rfl
      | cons t ts => exact h t (by simp) (h' t (by simp))

theorem bodyLines_reads {bs : List Bandwidth} {c : Option Connection} {as : List Attribute}
    (hb : ∀ b ∈ bs, b.WF) (hc : ∀ x, c = some x → x.WF) (ha : ∀ a ∈ as, a.WF) :
    ReadAs (bodyLines bs c as) (bodyTypes bs c as) := by
  unfold bodyLines bodyTypes
  rw [textLines_eq, textLines_eq, List.map_map, List.map_map]
  · refine ReadAs.append (.map fun b h => ?_) (ReadAs.append (.map fun c h => ?_) (.map fun a h => ?_))
    · exact (LinePrints.bandwidth (hb b h)).reads (by decide)
    · exact (LinePrints.connection (hc c (by simpa using h))).reads (by decide)
    · exact (LinePrints.attr (ha a h)).reads (by decide)
  · intro t ht
    obtain ⟨a, h, rfl⟩ := List.mem_map.1 ht
    exact (attr_round (ha a h)).1.1.ne
  · intro t ht
    obtain ⟨a, h, rfl⟩ := List.mem_map.1 ht
    exact (LinePrints.bandwidth (hb a h)).1.1.ne

theorem Media.WF.reads {m : Media} (h : m.WF) : ReadAs m.lines m.types :=
  .cons ((LinePrints.media h.media).reads (by decide)) (bodyLines_reads h.bandwidth h.connection h.attrs)

theorem sessionName_reads (t : Str) :
    ¬ Blank (c%"s=" ++ t) ∧ ∀ n, parseSdpLine (c%"s=" ++ t) n = .ok ⟨n, .session t, c%"s=" ++ t⟩ := by
  refine ⟨fun hb => ?_, fun n => ?_⟩
  · have := hb '=' (by simp)
    revert this; decide
  · exact parseSdpLine_letter (x := 's') (by decide) (.inr rfl) n

theorem Session.WF.reads {s : Session} (h : s.WF) :
    ReadAs s.lines (.version s.version :: .origin s.origin :: .session (s.session.getD c%" ") :: s.restTypes) := by
  refine .cons ((LinePrints.version h.version).reads (by decide)) (.cons ((LinePrints.origin h.origin).reads (by decide))
    (.cons (sessionName_reads _) ?_))
  show ReadAs (s.timing.toList.map (fun t => c%"t=" ++ showTiming t) ++
    (bodyLines s.bandwidth s.connection s.attrs ++ s.media.flatMap Media.lines)) s.restTypes
  refine ReadAs.append (.map fun t _ => (LinePrints.timing t).reads (by decide)) (ReadAs.append
    (bodyLines_reads h.bandwidth h.connection h.attrs) (.flatMap fun m hm => (h.media m hm).reads))

/-- What scanning a list of readable lines gives. -/
theorem ReadAs.scan {ls : List Str} {ts : List SdpType} (h : ReadAs ls ts) (n : Nat) :
    ∃ rs, acceptedLines (contentFrom n ls) = rs ∧ rs.map (fun l => l.sdpType) = ts ∧
      unsupportedErrors (contentFrom n ls) = [] ∧ hardErrors (contentFrom n ls) = [] ∧
      ∀ p ∈ contentFrom n ls, parseSdpLine p.1 p.2 ≠ .panic := by
  induction h generalizing n with
  | nil => exact ⟨[], rfl, rfl, rfl, rfl, by simp [contentFrom]⟩
  | @cons l t ls ts h1 _ ih =>
    obtain ⟨rs, e1, e2, e3, e4, e5⟩ := ih (n + 1)
    have ec : contentFrom n (l :: ls) = (l, n) :: contentFrom (n + 1) ls := by
      simp only [contentFrom, List.zipIdx_cons]
      rw [List.filter_cons_of_pos (by simpa using h1.1)]
    rw [ec]
    refine ⟨⟨n, t, l⟩ :: rs, ?_, ?_, ?_, ?_, ?_⟩
    · rw [← e1]; simp [acceptedLines, h1.2]
    · simp [e2]
    · rw [← e3]; simp [unsupportedErrors, h1.2]
    · rw [← e4]; simp [hardErrors, h1.2]
    · intro p hp
      rcases List.mem_cons.1 hp with rfl | hp
      · simp [h1.2]
      · exact e5 p hp

end

/-! ## Assembling from types -/

def isMediaType : SdpType → Bool
  | .media _ => true
  | _ => false

theorem notMedia_type (l : SdpLine) : notMedia l = !isMediaType l.sdpType := by
  unfold notMedia isMediaType; cases l.sdpType <;> rfl

def attrT : SdpType → Option Attribute
  | .attr a => some a
  | _ => none
def bandT : SdpType → Option Bandwidth
  | .bandwidth a => some a
  | _ => none
def connT : SdpType → Option Connection
  | .connection a => some a
  | _ => none
def timeT : SdpType → Option Timing
  | .timing a => some a
  | _ => none

theorem attrsOf_types (ls : List SdpLine) : attrsOf ls = (ls.map (fun l => l.sdpType)).filterMap attrT := by
  unfold attrsOf; rw [List.filterMap_map]; congr 1
theorem bandwidthsOf_types (ls : List SdpLine) : bandwidthsOf ls = (ls.map (fun l => l.sdpType)).filterMap bandT := by
  unfold bandwidthsOf; rw [List.filterMap_map]; congr 1
theorem connectionsOf_types (ls : List SdpLine) : connectionsOf ls = (ls.map (fun l => l.sdpType)).filterMap connT := by
  unfold connectionsOf; rw [List.filterMap_map]; congr 1
theorem timingsOf_types (ls : List SdpLine) : timingsOf ls = (ls.map (fun l => l.sdpType)).filterMap timeT := by
  unfold timingsOf; rw [List.filterMap_map]; congr 1

theorem takeWhile_types (ls : List SdpLine) : (ls.takeWhile notMedia).map (fun l => l.sdpType) =
    (ls.map (fun l => l.sdpType)).takeWhile (fun t => !isMediaType t) := by
  rw [List.takeWhile_map, show notMedia = ((fun t => !isMediaType t) ∘ fun l : SdpLine => l.sdpType) from
    funext notMedia_type]

theorem body_noMedia (bs : List Bandwidth) (c : Option Connection) (as : List Attribute) :
    ∀ t ∈ bodyTypes bs c as, isMediaType t = false := by
  intro t ht
  simp only [bodyTypes, List.mem_append, List.mem_map] at ht
  rcases ht with ⟨_, _, rfl⟩ | ⟨_, _, rfl⟩ | ⟨_, _, rfl⟩ <;> rfl

theorem body_attrs (bs : List Bandwidth) (c : Option Connection) (as : List Attribute) :
    (bodyTypes bs c as).filterMap attrT = as := by
  simp only [bodyTypes, List.filterMap_append, List.filterMap_map]
  have h1 : bs.filterMap (attrT ∘ SdpType.bandwidth) = [] := by simp [attrT]
  have h2 : c.toList.filterMap (attrT ∘ SdpType.connection) = [] := by simp [attrT]
  have h3 : as.filterMap (attrT ∘ SdpType.attr) = as := by
    rw [show attrT ∘ SdpType.attr = some from rfl, List.filterMap_some]
  rw [h1, h2, h3]; rfl

theorem body_bands (bs : List Bandwidth) (c : Option Connection) (as : List Attribute) :
    (bodyTypes bs c as).filterMap bandT = bs := by
  simp only [bodyTypes, List.filterMap_append, List.filterMap_map]
  have h1 : bs.filterMap (bandT ∘ SdpType.bandwidth) = bs := by
    rw [show bandT ∘ SdpType.bandwidth = some from rfl, List.filterMap_some]
  have h2 : c.toList.filterMap (bandT ∘ SdpType.connection) = [] := by simp [bandT]
  have h3 : as.filterMap (bandT ∘ SdpType.attr) = [] := by simp [bandT]
  rw [h1, h2, h3]; simp

theorem body_conns (bs : List Bandwidth) (c : Option Connection) (as : List Attribute) :
    (bodyTypes bs c as).filterMap connT = c.toList := by
  simp only [bodyTypes, List.filterMap_append, List.filterMap_map]
  have h1 : bs.filterMap (connT ∘ SdpType.bandwidth) = [] := by simp [connT]
  have h2 : c.toList.filterMap (connT ∘ SdpType.connection) = c.toList := by
    rw [show connT ∘ SdpType.connection = some from rfl, List.filterMap_some]
  have h3 : as.filterMap (connT ∘ SdpType.attr) = [] := by simp [connT]
  rw [h1, h2, h3]; simp

theorem body_times (bs : List Bandwidth) (c : Option Connection) (as : List Attribute) :
    (bodyTypes bs c as).filterMap timeT = [] := by
  simp only [bodyTypes, List.filterMap_append, List.filterMap_map]
  have h1 : bs.filterMap (timeT ∘ SdpType.bandwidth) = [] := by simp [timeT]
  have h2 : c.toList.filterMap (timeT ∘ SdpType.connection) = [] := by simp [timeT]
  have h3 : as.filterMap (timeT ∘ SdpType.attr) = [] := by simp [timeT]
  rw [h1, h2, h3]; rfl

theorem takeWhile_media (ms : List Media) : (ms.flatMap Media.types).takeWhile (fun t => !isMediaType t) = [] := by
  cases ms with
  | nil => rfl
  | cons m ms => simp [Media.types, isMediaType]

theorem takeWhile_part {a : List SdpType} (h : ∀ t ∈ a, isMediaType t = false) (ms : List Media) :
    (a ++ ms.flatMap Media.types).takeWhile (fun t => !isMediaType t) = a := by
  rw [List.takeWhile_append_of_pos (by intro t ht; simp [h t ht]), takeWhile_media]; simp

/-- The sections of lines that are typed like sections followed by sections. -/
theorem sectionsOf_part {ls : List SdpLine} {a : List SdpType} (h : ∀ t ∈ a, isMediaType t = false) {ms : List Media}
    (e : ls.map (fun l => l.sdpType) = a ++ ms.flatMap Media.types) :
    List.Forall₂ (fun p m => p.1 = m.media ∧ p.2.map (fun l => l.sdpType) = bodyTypes m.bandwidth m.connection m.attrs)
      (sectionsOf ls) ms := by
  induction ms generalizing ls a with
  | nil =>
    have : ∀ l ∈ ls, isMediaType l.sdpType = false := by
      intro l hl
      have : l.sdpType ∈ ls.map (fun l => l.sdpType) := List.mem_map_of_mem hl
      rw [e] at this
      exact h _ (by simpa using this)
    have hs : sectionsOf ls = [] := by
      clear e
      induction ls with
      | nil => rfl
      | cons l ls ih =>
        have hl := this l (by simp)
        unfold sectionsOf
        split
        · rename_i m hm; rw [hm] at hl; cases hl
        · exact ih fun x hx => this x (by simp [hx])
    rw [hs]; exact .nil
  | cons m ms ih =>
    induction a generalizing ls with
    | nil =>
      cases ls with
      | nil => simp [Media.types] at e
      | cons l ls =>
        simp only [List.map_cons, List.nil_append, List.flatMap_cons, Media.types, List.cons_append,
          List.cons.injEq] at e
        unfold sectionsOf
        rw [e.1]
        refine .cons ⟨rfl, ?_⟩ (ih (body_noMedia _ _ _) e.2)
        rw [takeWhile_types, e.2]
        exact takeWhile_part (body_noMedia _ _ _) ms
    | cons t a iha =>
      cases ls with
      | nil => simp at e
      | cons l ls =>
        simp only [List.map_cons, List.cons_append, List.cons.injEq] at e
        have ht := h t (by simp)
        unfold sectionsOf
        split
        · rename_i m' hm; rw [← e.1, hm] at ht; cases ht
        · exact iha (fun x hx => h x (by simp [hx])) e.2

/-- Lines typed like the body of a section form a good section, and give the section back. -/
theorem goodSection_body {ls : List SdpLine} {bs : List Bandwidth} {c : Option Connection} {as : List Attribute}
    (e : ls.map (fun l => l.sdpType) = bodyTypes bs c as) (h : ∀ a ∈ as, a.type ∉ sessionOnly) : GoodSection ls := by
  refine ⟨?_, ?_, ?_⟩
  · intro l hl
    have : l.sdpType ∈ bodyTypes bs c as := e ▸ List.mem_map_of_mem hl
    unfold SectionLine
    simp only [bodyTypes, List.mem_append, List.mem_map] at this
    rcases this with ⟨_, _, h⟩ | ⟨_, _, h⟩ | ⟨_, _, h⟩ <;> rw [← h] <;> trivial
  · rw [connectionsOf_types, e, body_conns]; cases c <;> simp
  · rw [attrsOf_types, e, body_attrs]; exact fun a ha => .inr (h a ha)

theorem sectionMedia_body {p : MediaLine × List SdpLine} {m : Media} (h1 : p.1 = m.media)
    (h2 : p.2.map (fun l => l.sdpType) = bodyTypes m.bandwidth m.connection m.attrs)
    (h : ∀ a ∈ m.attrs, a.type ∉ sessionOnly) : sectionMedia p = m := by
  unfold sectionMedia
  rw [connectionsOf_types, bandwidthsOf_types, attrsOf_types, h2, body_conns, body_bands, body_attrs, h1,
    List.filter_eq_self.2]
  · obtain ⟨m, c, b, a⟩ := m
    cases c <;> rfl
  · intro a ha
    have := h a ha
    cases a <;> simp_all [isDtls, Attribute.type, sessionOnly]

variable [Env]

/-- What a text is parsed to whose accepted lines have the types of a session. -/
theorem Session.parse_of_scan {s : Session} {text : Str} {rs : List SdpLine} {ws : List ParserError}
    (e1 : acceptedLines (contentLines text) = rs)
    (e2 : rs.map (fun l => l.sdpType) =
      .version s.version :: .origin s.origin :: .session (s.session.getD c%" ") :: s.restTypes)
    (e3 : unsupportedErrors (contentLines text) = ws) (e4 : hardErrors (contentLines text) = [])
    (e5 : ∀ p ∈ contentLines text, parseSdpLine p.1 p.2 ≠ .panic)
    (hname : ∀ t, s.session = some t → Trimmed t) (hlevels : ∀ a ∈ s.attrs, a.type ∉ mediaOnly)
    (hmedia : ∀ m ∈ s.media, ∀ a ∈ m.attrs, a.type ∉ sessionOnly) (hcons : Consistent s)
    (hl : 51 ≤ byteLen text) {f : Bool} (hf : f = true → ws = []) :
    parseSdp text f = .ok { s with warnings := ws } := by
  have hr : ∃ l0 l1 l2 rest, rs = l0 :: l1 :: l2 :: rest ∧ l0.sdpType = .version s.version ∧
      l1.sdpType = .origin s.origin ∧ l2.sdpType = .session (s.session.getD c%" ") ∧
      rest.map (fun l => l.sdpType) = s.restTypes := by
    cases rs with
    | nil => simp at e2
    | cons l0 rs => cases rs with
      | nil => simp at e2
      | cons l1 rs => cases rs with
        | nil => simp at e2
        | cons l2 rest =>
          simp only [List.map_cons, List.cons.injEq] at e2
          exact ⟨l0, l1, l2, rest, rfl, e2.1, e2.2.1, e2.2.2.1, e2.2.2.2⟩
  obtain ⟨l0, l1, l2, rest, er, t0, t1, t2, et⟩ := hr
  obtain ⟨tm, htm⟩ := hcons.timing
  have hnm : ∀ t ∈ s.timing.toList.map SdpType.timing ++ bodyTypes s.bandwidth s.connection s.attrs,
      isMediaType t = false := by
    intro t ht
    rcases List.mem_append.1 ht with ht | ht
    · obtain ⟨_, _, rfl⟩ := List.mem_map.1 ht; rfl
    · exact body_noMedia _ _ _ t ht
  have et' : rest.map (fun l => l.sdpType) = (s.timing.toList.map SdpType.timing ++
      bodyTypes s.bandwidth s.connection s.attrs) ++ s.media.flatMap Media.types := by
    rw [et, Session.restTypes, List.append_assoc]
  have epart : (rest.takeWhile notMedia).map (fun l => l.sdpType) =
      s.timing.toList.map SdpType.timing ++ bodyTypes s.bandwidth s.connection s.attrs := by
    rw [takeWhile_types, et', takeWhile_part hnm]
  have htt : ∀ {β : Type} (g : SdpType → Option β), (∀ t, g (.timing t) = none) →
      (s.timing.toList.map SdpType.timing).filterMap g = [] := by
    intro β g hg
    rw [htm]; simp [hg]
  have esec := sectionsOf_part hnm et'
  have easm : assemble s.version s.origin (s.session.getD c%" ") rest ws = { s with warnings := ws } := by
    unfold assemble
    simp only
    have e6 : (sectionsOf rest).map sectionMedia = s.media := by
      have : ∀ m ∈ s.media, ∀ a ∈ m.attrs, a.type ∉ sessionOnly := hmedia
      clear et et'
      generalize sectionsOf rest = ps at esec
      generalize s.media = ms at esec this
      induction esec with
      | nil => rfl
      | cons hp _ ih =>
        rw [List.map_cons, sectionMedia_body hp.1 hp.2 (this _ (by simp)), ih fun m hm => this m (by simp [hm])]
    have k1 : connectionsOf (rest.takeWhile notMedia) = s.connection.toList := by
      rw [connectionsOf_types, epart, List.filterMap_append, htt _ (fun _ => rfl), body_conns]; rfl
    have k2 : bandwidthsOf (rest.takeWhile notMedia) = s.bandwidth := by
      rw [bandwidthsOf_types, epart, List.filterMap_append, htt _ (fun _ => rfl), body_bands]; rfl
    have k3 : attrsOf (rest.takeWhile notMedia) = s.attrs := by
      rw [attrsOf_types, epart, List.filterMap_append, htt _ (fun _ => rfl), body_attrs]; rfl
    have k4 : timingsOf (rest.takeWhile notMedia) = [tm] := by
      rw [timingsOf_types, epart, List.filterMap_append, body_times, htm]; rfl
    rw [e6, k1, k2, k3, k4]
    have hses : (if Blank (s.session.getD c%" ") then none else some (trim (s.session.getD c%" "))) = s.session := by
      cases hs : s.session with
      | none => simp [Blank]; decide
      | some t =>
        have ht := hname t hs
        have hb : ¬ Blank t := by
          obtain ⟨c, r, rfl, hc⟩ := ht.1
          intro hb; have := hb c (by simp); rw [hc] at this; cases this
        simp [hb, ht.trim]
    rw [hses]
    obtain ⟨v, o, n, c, b, t, a, m, w⟩ := s
    subst htm
    cases c <;> rfl
  refine parseSdp_spec.2 ⟨hl, ?_, e4, fun h => e3.trans (hf h), l0, l1, l2, rest, _, _, _, e1.trans er, ?_, t0, t1, t2, ?_, ?_, ?_, ?_⟩
  · first | exact e5 | (rintro ⟨p, hp, hp'⟩; exact e5 p hp hp')
  · intro hn
    rw [hn] at et; simp [Session.restTypes, htm] at et
  · refine ⟨?_, ?_⟩
    · intro l hl
      have : l.sdpType ∈ (rest.takeWhile notMedia).map (fun l => l.sdpType) := List.mem_map_of_mem hl
      rw [epart] at this
      unfold SessionLine
      simp only [bodyTypes, List.mem_append, List.mem_map] at this
      rcases this with ⟨_, _, h⟩ | ⟨_, _, h⟩ | ⟨_, _, h⟩ | ⟨_, _, h⟩ <;> rw [← h] <;> trivial
    · rw [attrsOf_types, epart, List.filterMap_append, htt _ (fun _ => rfl), body_attrs]
      exact hlevels
  · intro p hp
    obtain ⟨m, hm, hpm⟩ : ∃ m ∈ s.media, p.1 = m.media ∧
        p.2.map (fun l => l.sdpType) = bodyTypes m.bandwidth m.connection m.attrs := by
      clear easm et et'
      generalize sectionsOf rest = ps at esec hp
      generalize s.media = ms at esec
      induction esec with
      | nil => cases hp
      | cons h1 _ ih =>
        rcases List.mem_cons.1 hp with rfl | hp
        · exact ⟨_, by simp, h1⟩
        · obtain ⟨m, hm, h⟩ := ih hp; exact ⟨m, by simp [hm], h⟩
    exact goodSection_body hpm.2 (hmedia m hm)
  · rw [e3, easm]
  · exact ⟨hcons.timing, hcons.connection, hcons.extmap, hcons.media⟩

/-- What lines are parsed to that are read as the lines of a session. -/
theorem Session.parse_of_reads {s : Session} {ls : List Str}
    (hreads : ReadAs ls (.version s.version :: .origin s.origin :: .session (s.session.getD c%" ") :: s.restTypes))
    (hname : ∀ t, s.session = some t → Trimmed t) (hlevels : ∀ a ∈ s.attrs, a.type ∉ mediaOnly)
    (hmedia : ∀ m ∈ s.media, ∀ a ∈ m.attrs, a.type ∉ sessionOnly) (hcons : Consistent s)
    {text : Str} (hl : 51 ≤ byteLen text) (ec : contentLines text = contentFrom 0 ls) (f : Bool) :
    parseSdp text f = .ok { s with warnings := [] } := by
  obtain ⟨rs, e1, e2, e3, e4, e5⟩ := hreads.scan 0
  rw [← ec] at e1 e3 e4 e5
  exact Session.parse_of_scan e1 e2 e3 e4 e5 hname hlevels hmedia hcons hl fun _ => rfl

/-- What the lines of a well-formed session are parsed to. -/
theorem Session.WF.parse {s : Session} (h : s.WF) {text : Str} (hl : 51 ≤ byteLen text)
    (ht : Sdp.lines text = s.lines) (f : Bool) : parseSdp text f = .ok { s with warnings := [] } :=
  Session.parse_of_reads h.reads h.name h.levels (fun m hm => (h.media m hm).levels) h.consistent hl
    (by unfold contentLines; rw [ht]) f

/-! ## Line ends in the lines -/

section safe
variable {c : Char}

omit [Env] in
theorem Free.bandwidth (h : LineEnd c) {b : Bandwidth} (hb : ∀ t ∈ b.strings, c ∉ t) : Free c (showBandwidth b) := by
  cases b <;> simp only [showBandwidth] <;> free
  exact hb _ (by simp [Bandwidth.strings])

omit [Env] in
theorem Free.connection (h : LineEnd c) {x : Connection} (hx : ∀ t ∈ x.address.strings, c ∉ t) :
    Free c (showConnection x) := by
  have := Free.typed h hx
  unfold showConnection; free

omit [Env] in
theorem Free.mediaLine (h : LineEnd c) {m : MediaLine} (hm : ∀ t ∈ m.formats.texts, c ∉ t) :
    Free c (showMediaLine m) := by
  have h1 : Free c (showMediaValue m.media) := by cases m.media <;> exact Free.lit h (by decide) (by decide)
  have h2 : Free c (showProtocol m.proto) := by cases m.proto <;> exact Free.lit h (by decide) (by decide)
  have h3 : Free c (showFormatList m.formats) := by
    cases hf : m.formats with
    | integers l => exact Free.maybeVec Free.nil Free.nil (Free.lit h (by decide) (by decide)) (Free.map fun n _ => Free.u32 h n)
    | strings l => exact Free.joinS (Free.lit h (by decide) (by decide)) fun t ht => hm t (by rw [hf]; exact ht)
  unfold showMediaLine; free

omit [Env] in
theorem Free.textLines {p : Str} {ts : List Str} (hp : Free c p) (h : ∀ t ∈ ts, Free c t) :
    ∀ l ∈ Sdp.textLines p ts, Free c l := by
  intro l hl
  unfold Sdp.textLines at hl
  split at hl
  · cases hl
  · split at hl
    · simp at hl; subst hl; exact hp
    · obtain ⟨t, ht, rfl⟩ := List.mem_map.1 hl
      exact hp.append (h t (List.mem_filter.1 ht).1)

omit [Env] in
theorem Free.bodyLines (h : LineEnd c) {bs : List Bandwidth} {x : Option Connection} {as : List Attribute}
    (hb : ∀ b ∈ bs, ∀ t ∈ b.strings, c ∉ t) (hc : ∀ y, x = some y → ∀ t ∈ y.address.strings, c ∉ t)
    (ha : ∀ a ∈ as, ∀ t ∈ a.strings, c ∉ t) :
    ∀ l ∈ Sdp.bodyLines bs x as, Free c l := by
  intro l hl
  simp only [Sdp.bodyLines, List.mem_append] at hl
  rcases hl with hl | hl | hl
  · refine Free.textLines (Free.lit h (by decide) (by decide)) (Free.map fun b hb' => ?_) l hl
    exact Free.bandwidth h (hb b hb')
  · obtain ⟨y, hy, rfl⟩ := List.mem_map.1 hl
    exact Free.append (Free.lit h (by decide) (by decide)) (Free.connection h (hc y (by simpa using hy)))
  · refine Free.textLines (Free.lit h (by decide) (by decide)) (Free.map fun a ha' => ?_) l hl
    exact Free.attribute h (ha a ha')

omit [Env] in
theorem Free.sessionLines (h : LineEnd c) {s : Session} (hs : ∀ t ∈ s.strings, c ∉ t) :
    ∀ l ∈ s.lines, Free c l := by
  have k : ∀ {t}, t ∈ s.strings → Free c t := fun ht => hs _ ht
  simp only [Session.strings, List.mem_cons, List.mem_append, List.mem_flatMap] at hs
  intro l hl
  simp only [Session.lines, List.mem_append, List.mem_cons, List.not_mem_nil, or_false] at hl
  rcases hl with (rfl | rfl | rfl) | hl | hl | hl
  · free
  · have h1 := Free.typed h (a := s.origin.unicastAddr) fun t ht => hs t (.inr (.inl ht))
    have h2 : Free c s.origin.username := hs _ (.inl rfl)
    unfold showOrigin; free
  · have : Free c (s.session.getD c%" ") := by
      cases hn : s.session with
      | none => exact Free.lit h (by decide) (by decide)
      | some t => exact hs t (.inr (.inr (.inl (by simp [hn]))))
    free
  · obtain ⟨t, -, rfl⟩ := List.mem_map.1 hl
    unfold showTiming; free
  · refine Free.bodyLines h (fun b hb t ht => hs t ?_) (fun y hy t ht => hs t ?_) (fun a ha t ht => hs t ?_)
      l hl
    · exact .inr (.inr (.inr (.inl ⟨b, hb, ht⟩)))
    · exact .inr (.inr (.inr (.inr (.inl ⟨y, by simp [hy], ht⟩))))
    · exact .inr (.inr (.inr (.inr (.inr (.inl ⟨a, ha, ht⟩)))))
  · obtain ⟨m, hm, hl⟩ := List.mem_flatMap.1 hl
    have hm' : ∀ t ∈ m.strings, c ∉ t := fun t ht => hs t (.inr (.inr (.inr (.inr (.inr (.inr ⟨m, hm, ht⟩))))))
    simp only [Media.strings, List.mem_append, List.mem_flatMap] at hm'
    rcases List.mem_cons.1 hl with rfl | hl
    · exact Free.append (Free.lit h (by decide) (by decide)) (Free.mediaLine h fun t ht => hm' t (.inl ht))
    · refine Free.bodyLines h (fun b hb t ht => hm' t ?_) (fun y hy t ht => hm' t ?_) (fun a ha t ht => hm' t ?_)
        l hl
      · exact .inr (.inl ⟨b, hb, ht⟩)
      · exact .inr (.inr (.inl ⟨y, by simp [hy], ht⟩))
      · exact .inr (.inr (.inr ⟨a, ha, ht⟩))

omit [Env] in
theorem crlf_render (ls : List Str) : crlf ls = renderLines (ls.map fun l => (l, true)) := by
  induction ls with
  | nil => rfl
  | cons l ls ih => rw [crlf_cons, ih]; rfl

omit [Env] in
/-- The lines of lines with CR LF. -/
theorem lines_crlf {ls : List Str} (h : ∀ l ∈ ls, LineText l) : Sdp.lines (crlf ls) = ls := by
  rw [crlf_render, lines_renderLines]
  · rw [List.map_map]; exact List.map_id _
  · intro p hp
    obtain ⟨l, hl, rfl⟩ := List.mem_map.1 hp
    exact h l hl

theorem Trimmed.noCr {s : Str} (h : EndsClean s) (p : Str) : (p ++ s).getLast? ≠ some '\r' := by
  obtain ⟨r, d, rfl, hd⟩ := h
  rw [← List.append_assoc, List.getLast?_concat]
  rintro ⟨⟩; revert hd; decide

theorem bodyLines_ends' {bs : List Bandwidth} {c : Option Connection} {as : List Attribute}
    (hb : ∀ b ∈ bs, b.WF) (hc : ∀ x, c = some x → x.WF) (ha : ∀ a ∈ as, Trimmed (showAttribute a)) :
    ∀ l ∈ bodyLines bs c as, l.getLast? ≠ some '\r' := by
  intro l hl
  unfold bodyLines at hl
  rw [textLines_eq, textLines_eq] at hl
  · simp only [List.mem_append, List.mem_map] at hl
    rcases hl with ⟨_, ⟨b, h, rfl⟩, rfl⟩ | ⟨c, h, rfl⟩ | ⟨_, ⟨a, h, rfl⟩, rfl⟩
    · exact Trimmed.noCr (LinePrints.bandwidth (hb b h)).1.2 _
    · exact Trimmed.noCr (LinePrints.connection (hc c (by simpa using h))).1.2 _
    · exact Trimmed.noCr (ha a h).2 _
  · intro t ht
    obtain ⟨a, h, rfl⟩ := List.mem_map.1 ht
    exact (ha a h).1.ne
  · intro t ht
    obtain ⟨a, h, rfl⟩ := List.mem_map.1 ht
    exact (LinePrints.bandwidth (hb a h)).1.1.ne

theorem bodyLines_ends {bs : List Bandwidth} {c : Option Connection} {as : List Attribute}
    (hb : ∀ b ∈ bs, b.WF) (hc : ∀ x, c = some x → x.WF) (ha : ∀ a ∈ as, a.WF) :
    ∀ l ∈ bodyLines bs c as, l.getLast? ≠ some '\r' := bodyLines_ends' hb hc fun a h => (attr_round (ha a h)).1

theorem Session.WF.lineText {s : Session} (h : s.WF) : ∀ l ∈ s.lines, LineText l := by
  intro l hl
  refine ⟨Free.sessionLines (.inl rfl) h.lineFeeds l hl, ?_⟩
  simp only [Session.lines, List.mem_append, List.mem_cons, List.not_mem_nil, or_false] at hl
  rcases hl with (rfl | rfl | rfl) | hl | hl | hl
  · exact Trimmed.noCr (Token.u64 _).ends _
  · exact Trimmed.noCr (LinePrints.origin h.origin).1.2 _
  · cases hn : s.session with
    | none => simp
    | some t => exact Trimmed.noCr (h.name t hn).2 _
  · obtain ⟨t, -, rfl⟩ := List.mem_map.1 hl
    exact Trimmed.noCr (LinePrints.timing t).1.2 _
  · exact bodyLines_ends h.bandwidth h.connection h.attrs l hl
  · obtain ⟨m, hm, hl⟩ := List.mem_flatMap.1 hl
    have hm' := h.media m hm
    rcases List.mem_cons.1 hl with rfl | hl
    · exact Trimmed.noCr (LinePrints.media hm'.media).1.2 _
    · exact bodyLines_ends hm'.bandwidth hm'.connection hm'.attrs l hl

/-- The printed form of a well-formed session denotes it. -/
theorem session_round {s : Session} (h : s.WF) (hl : 51 ≤ byteLen (showSession s)) (f : Bool) :
    parseSdp (showSession s) f = .ok { s with warnings := [] } :=
  h.parse hl (by rw [showSession_lines]; exact lines_crlf h.lineText) f

omit [Env] in
theorem crlf_length (ls : List Str) : (crlf ls).length = (ls.map fun l => l.length + 2).sum := by
  induction ls with
  | nil => rfl
  | cons l ls ih => rw [crlf_cons]; simp [ih]; omega

omit [Env] in
theorem length_pos_of_ne {s : Str} (h : s ≠ []) : 1 ≤ s.length := List.length_pos_of_ne_nil h

/-- A well-formed session with a media section is never too short. -/
theorem Session.WF.length {s : Session} (h : s.WF) (hm : s.media ≠ []) : 51 ≤ byteLen (showSession s) := by
  refine Nat.le_trans ?_ (length_le_byteLen _)
  rw [showSession_lines, crlf_length]
  obtain ⟨t, ht⟩ := h.consistent.timing
  obtain ⟨m, ms, hms⟩ := List.exists_cons_of_ne_nil hm
  have hm' := h.media m (by rw [hms]; simp)
  unfold Session.lines
  rw [ht, hms]
  have hu : ∀ n : UInt64, 1 ≤ (showU64 n).length := fun n => length_pos_of_ne (Token.u64 n).ne
  have hu' : ∀ n : UInt32, 1 ≤ (showU32 n).length := fun n => length_pos_of_ne (Token.u32 n).ne
  have l0 := hu s.version
  have l1 : 14 ≤ (showOrigin s.origin).length := by
    have h1 := length_pos_of_ne h.origin.username.ne
    have h2 := hu s.origin.sessionId
    have h3 := hu s.origin.sessionVersion
    have h4 := length_pos_of_ne h.origin.address.token.ne
    have h5 : (showAddressType s.origin.unicastAddr.addressType).length = 3 := by
      cases s.origin.unicastAddr.addressType <;> rfl
    unfold showOrigin
    rw [showTyped_eq]
    simp
    omega
  have l2 : 1 ≤ (s.session.getD c%" ").length := by
    cases hn : s.session with
    | none => decide
    | some t => exact length_pos_of_ne (h.name t hn).1.ne
  have l3 : 3 ≤ (showTiming t).length := by
    have := hu t.start
    have := hu t.stop
    unfold showTiming; simp; omega
  have l4 : 16 ≤ (showMediaLine m.media).length := by
    have h1 : 5 ≤ (showMediaValue m.media.media).length := by cases m.media.media <;> decide
    have h2 : 7 ≤ (showProtocol m.media.proto).length := by cases m.media.proto <;> decide
    have h3 := hu' m.media.port
    unfold showMediaLine; simp; omega
  simp [Media.lines]
  omega

end safe

end Sdp
