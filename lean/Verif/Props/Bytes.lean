import Verif.Spec.Sample
import Verif.Lemmas.Fault3
import Verif.Lemmas.Unsupported
/-!
# C104: what is counted in bytes, and which characters are letters and white space

The functions on texts that the parser takes from the standard library are compared with Lean's own.
-/

namespace Sdp

/-- The length of a text is the number of bytes of its UTF-8 encoding. -/
theorem C104_length (t : String) : byteLen t.toList = t.toUTF8.size := by
  have h : t.toUTF8 = t.toList.utf8Encode := by
    conv_lhs => rw [← String.ofList_toList (s := t)]
    exact String.toByteArray_ofList
  have hl (l : List UInt8) : l.toByteArray.size = l.length := by simp
  rw [h, List.utf8Encode, hl, List.length_flatMap]
  simp only [String.length_utf8EncodeChar]
  rfl

/-- Changing the case of an ASCII letter is what Lean's library does; other characters are left alone. -/
theorem C104_case (c : Char) : asciiLower c = c.toLower ∧ asciiUpper c = c.toUpper := by
  by_cases h : c.toNat < 128
  · have key : ∀ n < 128, asciiLower (Char.ofNat n) = (Char.ofNat n).toLower ∧
        asciiUpper (Char.ofNat n) = (Char.ofNat n).toUpper := by decide +kernel
    have := key c.toNat h
    rwa [Char.ofNat_toNat] at this
  · have hv (a : Char) : a.val.toNat = a.toNat := rfl
    have h1 : 'Z'.toNat = 90 := rfl
    have h2 : 'z'.toNat = 122 := rfl
    constructor
    · unfold asciiLower Char.toLower
      rw [if_neg (by simp; omega), dif_neg (by simp only [ge_iff_le, UInt32.le_iff_toNat_le, hv]; omega)]
    · unfold asciiUpper Char.toUpper
      rw [if_neg (by simp; omega), dif_neg (by simp only [ge_iff_le, UInt32.le_iff_toNat_le, hv]; omega)]

/-- The characters that count as white space. -/
def whiteSpace : List Nat :=
  [0x09, 0x0a, 0x0b, 0x0c, 0x0d, 0x20, 0x85, 0xa0, 0x1680, 0x2000, 0x2001, 0x2002, 0x2003, 0x2004, 0x2005, 0x2006,
   0x2007, 0x2008, 0x2009, 0x200a, 0x2028, 0x2029, 0x202f, 0x205f, 0x3000]

theorem C104_white_space (c : Char) : isWs c = true ↔ c.toNat ∈ whiteSpace := by
  simp only [isWs, whiteSpace, List.mem_cons, List.not_mem_nil, or_false, Bool.or_eq_true, Bool.and_eq_true,
    decide_eq_true_eq, beq_iff_eq]
  omega

section
variable [Env]

/-- C104: a text whose UTF-8 encoding has fewer than 51 bytes is rejected, however many characters it has. -/
theorem C104_short {t : String} {f : Bool} {r : Session} (h : parseSdp t.toList f = .ok r) : 51 ≤ t.toUTF8.size := by
  rw [← C104_length]
  unfold parseSdp at h
  split at h
  · cases h
  split at h
  · cases h
  · omega

/-- C104: the type of a line is one byte: a line that begins with a character outside of ASCII is wrong whatever
follows. -/
theorem C104_type {c : Char} (hc : 128 ≤ c.toNat) (hw : isWs c = false) (rest : Str) (n : Nat) :
    parseSdpLine (c :: '=' :: rest) n = .err (.line (.generic c%"type too long") (c :: '=' :: rest) n) := by
  have ne : c ≠ '=' := by rintro rfl; exact absurd hc (by decide)
  have hs : splitn 2 '=' (c :: '=' :: rest) = [[c], rest] := by
    rw [split_upTo (by simp)]
    simp [upTo, behind, ne]
  have ht : trim [c] = [c] := by simp [trim, trimStart, trimEnd, hw]
  have hb : byteLen [c] > 1 := by
    by_contra h
    have := isAscii_of_byteLen h
    simp [isAscii] at this
    omega
  unfold parseSdpLine
  simp only [hs, ht, hb, if_true]
  simp

end

example : 128 ≤ 'ä'.toNat ∧ isWs 'ä' = false := by decide

section Examples
attribute [local instance] sampleEnv

/-- 50 bytes are not enough, 51 are, even if they are only 50 characters. -/
theorem C104_boundary :
    (parseSdp c%"v=0\r\no=- 0 0 IN IP4 0.0.0.0\r\ns=abcdefghij\r\nt=0 0\r\n" false).isOk = false ∧
    (parseSdp c%"v=0\r\no=- 0 0 IN IP4 0.0.0.0\r\ns=abcdefghijk\r\nt=0 0\r\n" false).isOk = true ∧
    (parseSdp c%"v=0\r\no=- 0 0 IN IP4 0.0.0.0\r\ns=abcdefghiä\r\nt=0 0\r\n" false).isOk = true := by decide +kernel

end Examples

end Sdp
