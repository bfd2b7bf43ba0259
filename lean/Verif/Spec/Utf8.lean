import Verif.Model.Files

/-!
# UTF-8 (RFC 3629)

Independently of encoder and decoder: which bytes stand for which code points.
-/

namespace NumberParser.Spec

open NumberParser NumberParser.Gen

/-- The bytes of one code point: one to four groups of bits, as short as possible; surrogates (U+D800 to U+DFFF) have none. -/
inductive Utf8Char : Nat → Bytes → Prop where
  | one {c : Nat} : c < 0x80 → Utf8Char c [c]
  | two {a b : Nat} : a < 32 → b < 64 → 0x80 ≤ a * 64 + b → Utf8Char (a * 64 + b) [0b11000000 + a, 0b10000000 + b]
  | three {a b c : Nat} : a < 16 → b < 64 → c < 64 → 0x800 ≤ (a * 64 + b) * 64 + c →
      ¬ (0xD800 ≤ (a * 64 + b) * 64 + c ∧ (a * 64 + b) * 64 + c ≤ 0xDFFF) →
      Utf8Char ((a * 64 + b) * 64 + c) [0b11100000 + a, 0b10000000 + b, 0b10000000 + c]
  | four {a b c d : Nat} : a < 8 → b < 64 → c < 64 → d < 64 → 0x10000 ≤ ((a * 64 + b) * 64 + c) * 64 + d →
      ((a * 64 + b) * 64 + c) * 64 + d ≤ 0x10FFFF →
      Utf8Char (((a * 64 + b) * 64 + c) * 64 + d) [0b11110000 + a, 0b10000000 + b, 0b10000000 + c, 0b10000000 + d]

/-- The bytes of a string -/
inductive Utf8 : PyStr → Bytes → Prop where
  | nil : Utf8 [] []
  | cons {c : Nat} {b : Bytes} {s : PyStr} {bs : Bytes} : Utf8Char c b → Utf8 s bs → Utf8 (c :: s) (b ++ bs)

end NumberParser.Spec
