import Verif.Spec.Closed
import Verif.Spec.VocabularyText

/-!
# Specification: where a text can be cut, with the vocabulary of any data module

The notions of Spec/Closed for an arbitrary data module.
-/

namespace NumberParser.Spec
open NumberParser

/-- A token that ends every run of number words: an ordinary word or an ordinal. -/
def ClosingOf (i : Info) (t : PyStr) : Prop := OrdinaryOf i t ∨ ∃ k v, OrdinalOf i k v t

/-- The last token that is not blank, if there is one, is an ordinary word or an ordinal. -/
def EndsClosedOf (i : Info) (ts : List PyStr) : Prop :=
  (∀ x ∈ ts, BlankForm x) ∨ ∃ a t bl, ts = a ++ t :: bl ∧ ClosingOf i t ∧ ∀ x ∈ bl, BlankForm x

/-- The last token that is not blank is a cardinal number word. -/
def EndsNumberOf (i : Info) (ts : List PyStr) : Prop :=
  ∃ a t bl, ts = a ++ t :: bl ∧ CardinalOf i t ∧ ∀ x ∈ bl, BlankForm x

/-- The first token that is not empty is an ordinary word. -/
def BeginsOrdinaryOf (i : Info) (ts : List PyStr) : Prop :=
  ∃ e t rest, ts = e ++ t :: rest ∧ (∀ x ∈ e, x = []) ∧ OrdinaryOf i t

end NumberParser.Spec
