import Verif.Lemmas.Canonical2
/-!
# What is printed is the canonical text: lines and sessions
-/

namespace Sdp

theorem Only.origin (o : Origin) : Only (originField o) (showOrigin o) :=
  (OnlyAll.cons (.word _) (.cons (.number _) (.two (.number _) (.typed _)))).spaced.of_eq
    (by simp [joinS, showOrigin, showU64])

theorem Only.connection (c : Connection) : Only (connectionField c) (showConnection c) := by
  have h1 := OnlyAll.opt (o := c.ttl) (fun n => .one (.number n.toNat))
  have h2 := OnlyAll.opt (o := c.amount) (fun n => .one (.number n.toNat))
  refine (OnlyAll.append (.cons (.typed _) h1) h2).separated.of_eq ?_
  unfold showConnection
  cases c.ttl <;> cases c.amount <;> simp [joinS, optPieces, optStr, showU8, showU32]

theorem Only.bandwidth (b : Bandwidth) : Only (bandwidthField b) (showBandwidth b) := by
  cases b <;> exact (OnlyAll.two (.word _) (.number _)).separated.of_eq (by simp [joinS, showBandwidth, showU32])

theorem Only.timing (t : Timing) : Only (timingField t) (showTiming t) :=
  (OnlyAll.two (.number _) (.number _)).spaced.of_eq (by simp [joinS, showTiming, showU64])

theorem nonEmpty_numbers (l : List UInt32) : nonEmpty (l.map showU32) = l.map showU32 := by
  unfold nonEmpty
  rw [List.filter_eq_self]
  intro t ht
  obtain ⟨n, -, rfl⟩ := List.mem_map.1 ht
  have : showU32 n ≠ [] := (number_show n.toNat).1
  cases h : showU32 n with
  | nil => exact absurd h this
  | cons => rfl

theorem Only.formats (l : FormatList) : Only (Spaced (formatFields l)) (showFormatList l) := by
  cases l with
  | integers l =>
    refine (OnlyAll.map (g := showU32) (fun n => .number n.toNat) l).spaced.of_eq ?_
    have h := nonEmpty_numbers l
    cases l with
    | nil => rfl
    | cons n l =>
      have hm : ∀ x xs, maybeVec [] [] c%" " (x :: xs) = joinS c%" " (nonEmpty (x :: xs)) := fun x xs => by simp [maybeVec, nonEmpty]
      rw [showFormatList, List.map_cons, hm, ← List.map_cons, h]
  | strings l => exact (OnlyAll.words l).spaced

theorem Only.mediaLine (m : MediaLine) : Only (mediaLineField m) (showMediaLine m) := by
  have hm : mediaText m.media = showMediaValue m.media := by cases m.media <;> rfl
  have hp : protocolText m.proto = showProtocol m.proto := by cases m.proto <;> rfl
  have hc : OnlyAll (if m.portCount = 0 then [] else [Sdp.number m.portCount.toNat])
      (if m.portCount = 0 then [] else [showU32 m.portCount]) := by
    split
    · exact .nil
    · exact .one (.number _)
  unfold mediaLineField
  rw [hm, hp]
  refine (OnlyAll.cons (.word _) (.cons (OnlyAll.separated (.cons (.number _) hc)) (.two (.word _) (.formats _)))).spaced.of_eq ?_
  unfold showMediaLine maybeParam
  by_cases h : m.portCount = 0
  · simp [h, joinS, showU32]
  · simp [h, joinS, showU32]

theorem each_only {α : Type} {f : α → Field} {g : α → Str} (h : ∀ a, Only (f a) (g a)) (l : List α) (ts : List Str) :
    Each f l ts ↔ ts = l.map g := by
  induction l generalizing ts with
  | nil => cases ts <;> simp [Each]
  | cons a l ih =>
    cases ts with
    | nil => simp [Each]
    | cons t ts => simp [Each, ih, h a t]

theorem each_lines {α : Type} {R : α → List Str → Prop} {g : α → List Str} (h : ∀ a t, R a t ↔ t = g a) (l : List α)
    (ts : List (List Str)) : Each R l ts ↔ ts = l.map g := by
  induction l generalizing ts with
  | nil => cases ts <;> simp [Each]
  | cons a l ih =>
    cases ts with
    | nil => simp [Each]
    | cons t ts => simp [Each, ih, h a t]

theorem Only.cause (e : InternalError) : Only (causeField e) (showInternalError e) := by
  have ha : ∀ a, addrTypeText a = showAddressType a := by intro a; cases a <;> rfl
  cases e with
  | unknownAddressType t | generic t | unsupported t | domain t =>
    exact (OnlyAll.two (.word _) (.word _)).sequence.of_eq (by simp [showInternalError])
  | addressTypeMismatch f e =>
    exact (OnlyAll.two (.word _) (OnlyAll.two (.word _) (.word _)).separated).sequence.of_eq
      (by simp [showInternalError, joinS, ha])
  | integer e => exact (OnlyAll.two (.word _) (.word _)).sequence.of_eq (by cases e <;> rfl)
  | float e => exact (OnlyAll.two (.word _) (.word _)).sequence.of_eq (by cases e <;> rfl)
  | ipAddress => exact .word _

theorem Only.place (n : Nat) : Only (placeField n) (c%"in line(" ++ showNat n ++ c%"): ") :=
  (OnlyAll.cons (.word _) (.two (.number n) (.word _))).sequence.of_eq (by simp)

theorem Only.error (e : ParserError) : Only (errorField e) (showParserError e) := by
  cases e with
  | line e t n | unsupported e t n =>
    exact (OnlyAll.cons (.word _) (.cons (.cause e) (.cons (.word _) (.two (.place n) (.word _))))).sequence.of_eq
      (by simp [showParserError])
  | sequence m n =>
    exact (OnlyAll.cons (.word _) (.two (.place n) (.word _))).sequence.of_eq (by simp [showParserError])

variable [Env]

theorem bodyWritten_iff (bs : List Bandwidth) (c : Option Connection) (as : List Attribute) (ls : List Str) :
    BodyWritten bs c as ls ↔ ls = bodyLines bs c as := by
  unfold BodyWritten bodyLines
  simp only [each_only Only.bandwidth, each_only Only.connection, each_only Only.attribute]
  constructor
  · rintro ⟨_, _, _, rfl, rfl, rfl, rfl⟩; simp [Function.comp_def]
  · intro h; exact ⟨_, _, _, rfl, rfl, rfl, by rw [h]; simp [Function.comp_def]⟩

theorem mediaWritten_iff (m : Media) (ls : List Str) : MediaWritten m ls ↔ ls = m.lines := by
  unfold MediaWritten Media.lines
  simp only [Only.mediaLine m.media _, bodyWritten_iff]
  constructor
  · rintro ⟨_, _, rfl, rfl, rfl⟩; rfl
  · intro h; exact ⟨_, _, rfl, rfl, h⟩

theorem sessionWritten_iff (s : Session) (t : Str) : SessionWritten s t ↔ t = showSession s := by
  rw [showSession_lines]
  unfold SessionWritten Session.lines
  simp only [numberField_iff, Only.origin s.origin _, each_only Only.timing, bodyWritten_iff, each_lines mediaWritten_iff]
  have : ∀ l : List Media, (l.map Media.lines).flatten = l.flatMap Media.lines := fun l => by simp [List.flatMap]
  constructor
  · rintro ⟨_, _, _, _, _, rfl, rfl, rfl, rfl, rfl, rfl⟩
    rw [this]; simp [Function.comp_def, showU64]
  · intro h
    refine ⟨_, _, _, _, _, rfl, rfl, rfl, rfl, rfl, ?_⟩
    rw [h, this]; simp [Function.comp_def, showU64]

end Sdp
