import Verif.Spec.VocabularyText
import Verif.Spec.Package

/-!
# Specification: how much longer a text can become, with the vocabulary of any data module
-/

namespace NumberParser.Spec
open NumberParser

/-- The digits of the value of each word, and a space, are at most `F` times as long as the word in its comparison form; `F` is at least 2. -/
def DigitsWithin (F : Nat) (i : Info) : Prop :=
  2 ≤ F ∧ ∀ k f v, LastEntry (tableOf i k) f v → (decDigits v).length + 1 ≤ F * f.length

/-- The last number word of the tokens is one of the class `k`; after it there are only blank tokens and conjunctions. -/
def LastClass (i : Info) (k : Class) (ts : List PyStr) : Prop :=
  ∃ a t b v, ts = a ++ t :: b ∧ WordOf i k v t ∧ ∀ x ∈ b, BlankForm x ∨ SkipOf i x

/-- The text `s'` is the text `s` (a number for `parse_number` in the language `l`), then some blank tokens and conjunctions, and a further
word `w`. -/
structure ContinuedBy (l : PyStr) (i : Info) (s s' w : PyStr) (t : PyStr) (ts : List PyStr) : Prop where
  wordInput : WordInput s
  wordInput' : WordInput s'
  tokens : Tokens l (withoutApostrophes s) (t :: ts)
  tokens' : ∃ gap, (∀ x ∈ gap, BlankForm x ∨ SkipOf i x) ∧ Tokens l (withoutApostrophes s') (t :: ts ++ (gap ++ [w]))

end NumberParser.Spec
