import Verif.Spec.Fault
/-!
# How a word is quoted in an error message

As in Rust source text: what stands between the quotation marks is the body of a string literal.
-/

namespace Sdp

/-- The body of a string literal, and the text it stands for. -/
inductive Literal : Str → Str → Prop
  | nil : Literal [] []
  | plain {c : Char} {l s : Str} : c ≠ '"' → c ≠ '\\' → Literal l s → Literal (c :: l) (c :: s)
  | escape {e c : Char} {l s : Str} :
      (e, c) ∈ [('0', '\x00'), ('t', '\t'), ('r', '\r'), ('n', '\n'), ('\\', '\\'), ('"', '"')] → Literal l s →
      Literal ('\\' :: e :: l) (c :: s)
  | unicode {h : Str} {c : Char} {l s : Str} : h ≠ [] → (∀ d ∈ h, IsHexDigit d) → hexValue h = c.toNat → Literal l s →
      Literal (c%"\\u{" ++ h ++ '}' :: l) (c :: s)

end Sdp
