import Verif.Props.Grammar3
import Verif.Spec.Sample
/-!
# C82 to C84: floats as text

Frame rates are `f64`; the ratios and the preference of an imageattr are `f32`.
-/

namespace Sdp

/-- **C82.** Exactly the texts of the specification are read as floats, to the float the specification says: a
decimal number is rounded to the nearest float, half way to the even one. -/
theorem C82_reads (t : Str) :
    (∀ x, parseF32 t = .ok x ↔ F32Text t x) ∧ (∀ x, parseF64 t = .ok x ↔ F64Text t x) := by
  refine ⟨fun x => f32_iff, fun x => ?_⟩
  rw [← F64.ofText_iff]
  unfold parseF64
  cases h : F64.ofText t <;> simp

/-- **C82.** Every other text is an error, which is about an empty text only if the text is empty. -/
theorem C82_rejects (t : Str) (e : InternalError) :
    (parseF32 t = .err e ↔ (¬ ∃ x, F32Text t x) ∧ e = .float (if t = [] then .empty else .invalid)) ∧
    (parseF64 t = .err e ↔ (¬ ∃ x, F64Text t x) ∧ e = .float (if t = [] then .empty else .invalid)) := by
  constructor
  · simp only [← F32.ofText_iff]
    unfold parseF32
    cases h : F32.ofText t with
    | ok x => simp
    | error e' =>
      rw [F32.error_iff h]
      simp [eq_comm]
  · simp only [← F64.ofText_iff]
    unfold parseF64
    cases h : F64.ofText t with
    | ok x => simp
    | error e' =>
      rw [F64.error_iff h]
      simp [eq_comm]

/-- **C82.** Every decimal number is accepted, with either sign, however many digits it has and however great it
is: there is a nearest float, and no two. -/
theorem C82_decimals {t : Str} {x : ℚ} (h : DecimalText t x) :
    (∃ y, parseF32 t = .ok y ∧ FloatFormat.Rounds ⟨23, 8⟩ x y.bits.toNat ∧
      ∀ b, FloatFormat.Rounds ⟨23, 8⟩ x b → b = y.bits.toNat) ∧
    (∃ y, parseF64 t = .ok y ∧ FloatFormat.Rounds ⟨52, 11⟩ x y.bits.toNat ∧
      ∀ b, FloatFormat.Rounds ⟨52, 11⟩ x b → b = y.bits.toNat) ∧
    (∃ y, parseF32 ('-' :: t) = .ok y) ∧ (∃ y, parseF64 ('-' :: t) = .ok y) := by
  obtain ⟨d, e, -, hx⟩ := parseDecimal_iff.1 h
  have hx0 : 0 ≤ x := by rw [hx]; positivity
  have r32 := FloatFormat.ofDecimal_rounds FloatFormat.single_proper d e
  have r64 := FloatFormat.ofDecimal_rounds FloatFormat.double_proper d e
  rw [← hx] at r32 r64
  have b32 : FloatFormat.single.ofDecimal d e ≤ 0x7f800000 := r32.range
  have b64 : FloatFormat.double.ofDecimal d e ≤ 0x7ff0000000000000 := r64.range
  have e32 : ∀ n, n < 2 ^ 32 → (UInt32.ofNat n).toNat = n := fun n hn => Nat.mod_eq_of_lt hn
  have e64 : ∀ n, n < 2 ^ 64 → (UInt64.ofNat n).toNat = n := fun n hn => Nat.mod_eq_of_lt hn
  refine ⟨⟨⟨UInt32.ofNat (FloatFormat.single.ofDecimal d e)⟩, ((C82_reads t).1 _).2 (.inl (.inl ⟨x, h, ?_⟩)), ?_, ?_⟩,
    ⟨⟨UInt64.ofNat (FloatFormat.double.ofDecimal d e)⟩, ((C82_reads t).2 _).2 (.inl (.inl ⟨x, h, ?_⟩)), ?_, ?_⟩,
    ⟨⟨UInt32.ofNat (2 ^ 31 + FloatFormat.single.ofDecimal d e)⟩,
      ((C82_reads _).1 _).2 (.inr (.inr ⟨t, _, rfl, .inl ⟨x, h, r32⟩, ?_⟩))⟩,
    ⟨⟨UInt64.ofNat (2 ^ 63 + FloatFormat.double.ofDecimal d e)⟩,
      ((C82_reads _).2 _).2 (.inr (.inr ⟨t, _, rfl, .inl ⟨x, h, r64⟩, ?_⟩))⟩⟩
  · show FloatFormat.Rounds _ x (UInt32.ofNat _).toNat
    rw [e32 _ (by omega)]; exact r32
  · show FloatFormat.Rounds _ x (UInt32.ofNat _).toNat
    rw [e32 _ (by omega)]; exact r32
  · intro b hb
    show b = (UInt32.ofNat _).toNat
    rw [e32 _ (by omega)]; exact FloatFormat.Rounds.unique FloatFormat.single_proper hx0 hb r32
  · show FloatFormat.Rounds _ x (UInt64.ofNat _).toNat
    rw [e64 _ (by omega)]; exact r64
  · show FloatFormat.Rounds _ x (UInt64.ofNat _).toNat
    rw [e64 _ (by omega)]; exact r64
  · intro b hb
    show b = (UInt64.ofNat _).toNat
    rw [e64 _ (by omega)]; exact FloatFormat.Rounds.unique FloatFormat.double_proper hx0 hb r64
  · show (UInt32.ofNat _).toNat = _
    rw [e32 _ (by omega)]; rfl
  · show (UInt64.ofNat _).toNat = _
    rw [e64 _ (by omega)]; rfl

/-- The hypothesis of `C82_decimals` is met, and reading does round: `0.1` is the magnitude `0x3dcccccd`, and
`16777217` is half way between two floats. -/
example : DecimalText c%"0.1" (1 * 10 ^ (0 - 1 : ℤ)) :=
  ⟨c%"0", c%"1", [], 0, by decide, by decide, .inl ⟨rfl, rfl⟩, .inl rfl, by
    rw [show decValue (c%"0" ++ c%"1") = 1 by decide]; norm_num⟩
example : parseF32 c%"0.1" = .ok ⟨0x3dcccccd⟩ ∧ parseF32 c%"16777217" = .ok ⟨0x4b800000⟩ ∧
    parseF32 c%"1e39" = .ok ⟨0x7f800000⟩ ∧ parseF64 c%"-.5e1" = .ok ⟨0xc014000000000000⟩ ∧
    parseF64 c%"1e" = .err (.float .invalid) ∧ parseF64 [] = .err (.float .empty) := by decide +kernel

/-- **C83.** The text that is written for a float is the one of the specification: the fewest digits that are
read back as that float, and of these the closest to it; no exponent. -/
theorem C83_written (x : F32) (y : F64) (t : Str) :
    (x.text = t ↔ F32Written x t) ∧ (y.text = t ↔ F64Written y t) :=
  ⟨x.text_iff t, y.text_iff t⟩

/-- **C83.** What is written is read back as the same float, for every float that is no NaN, zeros with their
sign, subnormals and infinities included. -/
theorem C83_reads_back (x : F32) (y : F64) :
    (x.isNan = false → parseF32 x.text = .ok x) ∧ (y.isNan = false → parseF64 y.text = .ok y) := by
  constructor
  · intro h
    unfold parseF32
    rw [F32.ofText_text (by simp [h])]
  · intro h
    unfold parseF64
    rw [F64.ofText_text (by simp [h])]

/-- **C83.** Different floats have different texts, unless they are NaNs. -/
theorem C83_distinct :
    (∀ x y : F32, x.isNan = false → y.isNan = false → x.text = y.text → x = y) ∧
    (∀ x y : F64, x.isNan = false → y.isNan = false → x.text = y.text → x = y) := by
  constructor
  · intro x y hx hy h
    have h1 := (C83_reads_back x ⟨0⟩).1 hx
    rw [h, (C83_reads_back y ⟨0⟩).1 hy] at h1
    exact (Outcome.ok.inj h1).symm
  · intro x y hx hy h
    have h1 := (C83_reads_back ⟨0⟩ x).2 hx
    rw [h, (C83_reads_back ⟨0⟩ y).2 hy] at h1
    exact (Outcome.ok.inj h1).symm

example : F32.text ⟨0x3dcccccd⟩ = c%"0.1" ∧ F32.text ⟨0x00800000⟩ = c%"0.000000000000000000000000000000000000011754944" ∧
    F32.text ⟨0xc1480000⟩ = c%"-12.5" ∧ F64.text ⟨0x44b52d02c7e14af6⟩ = c%"100000000000000000000000" ∧
    F32.isNan ⟨0x3dcccccd⟩ = false ∧ F64.isNan ⟨0x44b52d02c7e14af6⟩ = false := by decide +kernel

/-- **C83.** NaNs are written without their sign, so a negative one is not read back. -/
theorem C83_not_negative_nan : F32.ofText (F32.text ⟨0xffc00000⟩) ≠ .ok ⟨0xffc00000⟩ ∧
    F32.ofText c%"-nan" = .ok ⟨0xffc00000⟩ := by decide +kernel

/-- **C84.** `f32`s are compared as the numbers they stand for; NaN is not comparable; both zeros are equal. -/
theorem C84_order (x y : F32) : x.ge y = true ↔ x.AtLeast y := x.ge_iff y

/-- **C84.** A ratio range is accepted exactly if it has two floats of which the first is not at least the
second. (A NaN bound is therefore accepted.) -/
theorem C84_ranges (t : Str) (mn mx : F32) : parsePsRange t = .ok (mn, mx) ↔ PsRangeText t mn mx := psRange_iff

/-- **C84.** A list of sar values is accepted exactly if it has at least two values, all of them floats, and none
is at least the next, starting with zero before the first: so 0 or a negative number cannot stand first. -/
theorem C84_lists [Env] (k k' : ImgKeys) {u : Str} (hc : ',' ∈ u) (hd : '-' ∉ u) :
    imageKey k (c%"sar=[" ++ u ++ c%"]") = .ok k' ↔
      ∃ fs xs, Fields ',' u fs ∧ Each F32Text fs xs ∧
        (∀ a x y b, F32.mk 0 :: xs = a ++ x :: y :: b → ¬ x.AtLeast y) ∧
        k' = { k with sar := some (.discrete xs) } := by
  have e : (c%"sar=[" ++ u ++ c%"]" : Str) = c%"sar=" ++ ('[' :: u ++ [']']) := rfl
  rw [e, sar_iff]
  constructor
  · rintro ⟨r, ⟨hh, -⟩ | ⟨u', hu, h⟩, rfl⟩
    · simp at hh
    · have hu : u = u' := by simpa using hu
      subst hu
      rcases h with ⟨h, -⟩ | ⟨-, -, fs, xs, h1, h2, h3, rfl⟩ | ⟨-, h, -⟩
      · exact absurd h hd
      · exact ⟨fs, xs, h1, h2, h3, by simp⟩
      · exact absurd hc h
  · rintro ⟨fs, xs, h1, h2, h3, rfl⟩
    exact ⟨_, .inr ⟨u, rfl, .inr (.inl ⟨hd, hc, fs, xs, h1, h2, h3, rfl⟩)⟩, by simp⟩

section
attribute [local instance] sampleEnv
example : (imageKey ⟨none, none, none⟩ c%"sar=[0.5,1,2]").isOk = true ∧
    (imageKey ⟨none, none, none⟩ c%"sar=[0.5,2,2]").isOk = false ∧
    (imageKey ⟨none, none, none⟩ c%"sar=[0,1]").isOk = false := by decide +kernel
end

example : parsePsRange c%"0.5-1.5" = .ok (⟨0x3f000000⟩, ⟨0x3fc00000⟩) ∧ (parsePsRange c%"1.5-1.50").isOk = false ∧
    parsePsRange c%"nan-1" = .ok (⟨0x7fc00000⟩, ⟨0x3f800000⟩) ∧ F32.ge ⟨0⟩ ⟨0x80000000⟩ = true ∧
    F32.ge ⟨0x80000000⟩ ⟨0⟩ = true ∧ F32.ge ⟨0xc0000000⟩ ⟨0xbf800000⟩ = false := by decide +kernel

end Sdp
