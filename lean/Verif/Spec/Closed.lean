import Verif.Spec.Reading

/-!
# Specification: where a text can be cut

A text can be converted piece by piece, if the pieces end with a word that no number can run across: an ordinary word
(also a numeral or punctuation), or an ordinal.
-/

namespace NumberParser.Spec
open NumberParser

/-- A token that ends every run of number words: an ordinary word or an ordinal. -/
def Closing (l t : PyStr) : Prop := Ordinary l t ∨ ∃ k v, OrdinalWord l k v t

/-- The last token that is not blank, if there is one, is an ordinary word or an ordinal. -/
def EndsClosed (l : PyStr) (ts : List PyStr) : Prop :=
  (∀ x ∈ ts, BlankForm x) ∨ ∃ a t bl, ts = a ++ t :: bl ∧ Closing l t ∧ ∀ x ∈ bl, BlankForm x

/-- The last token that is not blank is a cardinal number word. -/
def EndsNumber (l : PyStr) (ts : List PyStr) : Prop :=
  ∃ a t bl, ts = a ++ t :: bl ∧ Cardinal l t ∧ ∀ x ∈ bl, BlankForm x

/-- The last token is a cardinal number word. -/
def LastIsNumber (l : PyStr) (ts : List PyStr) : Prop := ∃ a t, ts = a ++ [t] ∧ Cardinal l t

/-- The first token that is not empty is an ordinary word. -/
def BeginsOrdinary (l : PyStr) (ts : List PyStr) : Prop :=
  ∃ e t rest, ts = e ++ t :: rest ∧ (∀ x ∈ e, x = []) ∧ Ordinary l t

/-- The text begins with a character that is no white space. (Soft hyphens are ignored.) -/
def SolidStart (s : PyStr) : Prop := ∃ c y, withoutSoftHyphens s = c :: y ∧ isSpace c = false

/-- The text ends with a character that is no white space. (Soft hyphens are ignored.) -/
def SolidEnd (s : PyStr) : Prop := ∃ y c, withoutSoftHyphens s = y ++ [c] ∧ isSpace c = false

/-- Non-empty white space. -/
def WhiteSpace (g : PyStr) : Prop := g ≠ [] ∧ ∀ c ∈ g, isSpace c = true

/-- The text begins and ends with a cardinal number word, has no apostrophes, and is neither blank nor a digit string. -/
def NumberPhrase (l s : PyStr) : Prop :=
  ∃ w ts, Tokens l s (w :: ts) ∧ Cardinal l w ∧ EndsNumber l (w :: ts) ∧ (0x27 ∉ s ∧ 0x2019 ∉ s) ∧ SolidStart s ∧ SolidEnd s ∧ WordInput s

/-- `p` is punctuation in the language: neither a word character nor white space, no accent (nothing would be left of it in the
comparison form), no soft hyphen, and not the English hyphen, which is a conjunction. -/
def Punctuation (l : PyStr) (p : Nat) : Prop :=
  isWord p = false ∧ isSpace p = false ∧ form [p] ≠ [] ∧ p ≠ 0xad ∧ ¬ (l = u!"en" ∧ p = 0x2d)

end NumberParser.Spec
