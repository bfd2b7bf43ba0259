import Verif.Spec.VocabularyText

/-!
# Specification: the result of `parse` with the vocabulary of any data module

The notions of Spec/Words for the result of `parse`, for an arbitrary data module.
-/

namespace NumberParser.Spec
open NumberParser

/-- `t` is a number word, cardinal or ordinal. -/
def NumberWordOf (i : Info) (t : PyStr) : Prop := CardinalOf i t ∨ ∃ k v, OrdinalOf i k v t

/-- A data module that makes sense for results that are parsed again: besides, every word contains a word character and one that is no
numeric character, and every conjunction is in comparison form and is a hyphen or consists of word characters. -/
structure Neat (i : Info) : Prop extends Tidy i where
  wordLetter : ∀ f, Listed i f → ∃ c ∈ f, isWord c = true
  wordNotNumeric : ∀ f, Listed i f → ∃ c ∈ f, isNumericChar c = false
  conjunctionForm : ∀ f ∈ i.skipTokens, form f = f
  conjunctionToken : ∀ f ∈ i.skipTokens, f = u!"-" ∨ ∀ c ∈ f, isWord c = true

/-- `after` is `before` with some decimal numerals of numbers below `bound` inserted (see `WithNumerals` in Spec/Words). -/
inductive WithNumeralsBelow (bound : Nat) : List PyStr → List PyStr → Prop where
  | nil : WithNumeralsBelow bound [] []
  | keep {t : PyStr} {before after : List PyStr} :
      WithNumeralsBelow bound before after → WithNumeralsBelow bound (t :: before) (t :: after)
  | insert {n : Nat} {before after : List PyStr} : n < bound → WithNumeralsBelow bound before after →
      WithNumeralsBelow bound before (decDigits n :: after)

/-- No conjunction directly follows a cardinal number word (only blanks and other conjunctions between them; see Spec/Words). -/
def NoConjunctionAfterNumberOf (i : Info) (ts : List PyStr) : Prop :=
  ∀ a n b k c, ts = a ++ n :: (b ++ k :: c) → CardinalOf i n → (∀ t ∈ b, BlankForm t ∨ SkipOf i t) → ¬ SkipOf i k

end NumberParser.Spec
