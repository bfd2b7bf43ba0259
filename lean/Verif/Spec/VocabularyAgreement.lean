import Verif.Spec.VocabularyOrdinal

/-!
# Specification: agreement of the functions, with the vocabulary of any data module
-/

namespace NumberParser.Spec
open NumberParser

/-- Nothing of the module looks like an ordinal of something else: also as ordinals the number words stand for themselves, and the
conjunctions stay conjunctions.  (The irregular English ordinals, as "first", are replaced everywhere in a word, and an ending "…th" or "…ieth"
is taken for that of an ordinal.) -/
structure Faithful (i : Info) : Prop where
  words : ∀ f, Listed i f → StandsForOf i (irregular f) f
  conjunctions : ∀ f ∈ i.skipTokens, irregular f ∈ i.skipTokens

/-- The tokens of a text that begins with a number word (after white space) and has number words, conjunctions and blank tokens only. -/
structure NumberWordsOnly (i : Info) (lead : List PyStr) (w : PyStr) (rest : List PyStr) : Prop where
  lead : ∀ t ∈ lead, ∀ c ∈ t, isSpace c = true
  first : CardinalOf i w
  rest : ∀ t ∈ rest, CardinalOf i t ∨ SkipOf i t ∨ BlankForm t

end NumberParser.Spec
