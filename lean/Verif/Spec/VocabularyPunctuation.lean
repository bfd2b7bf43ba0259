import Verif.Spec.VocabularyPieces

/-!
# Specification: punctuation, with the vocabulary of any data module

The notions of Spec/Closed for an arbitrary data module.
-/

namespace NumberParser.Spec
open NumberParser

/-- The last token is a cardinal number word. -/
def LastIsNumberOf (i : Info) (ts : List PyStr) : Prop := ∃ a t, ts = a ++ [t] ∧ CardinalOf i t

/-- `p` is punctuation for the data module: neither a word character nor white space, no accent (nothing would be left of it in the
comparison form), no soft hyphen, and in its comparison form neither a conjunction nor a number word of the module, nor an ordinal. -/
def PunctuationOf (i : Info) (p : Nat) : Prop := isWord p = false ∧ isSpace p = false ∧ p ≠ 0xad ∧ OrdinaryOf i [p]

end NumberParser.Spec
