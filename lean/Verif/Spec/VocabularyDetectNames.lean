import Verif.Spec.VocabularyOrdinalNames
import Verif.Spec.Package

/-!
# Specification: names of numbers without a language argument, with any list of languages
-/

namespace NumberParser.Spec
open NumberParser

/-- The module `j` gives the words the classes and values that `i` gives them (and both are on the same scale). -/
def SameWords (i j : Info) (ws : List PyStr) : Prop :=
  limitOf j = limitOf i ∧ ∀ w ∈ ws, ∀ k v, WordOf i k v w → WordOf j k v w

end NumberParser.Spec
