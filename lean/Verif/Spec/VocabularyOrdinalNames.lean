import Verif.Spec.VocabularyNumeral
import Verif.Spec.VocabularyOrdinal
import Verif.Spec.Ordinals

/-!
# Specification: names of ordinals, with any vocabulary

The name of an ordinal is that of the cardinal, with ordinals for some of the words: usually for the last one ("twenty-first"), in some
languages for several.
-/

namespace NumberParser.Spec
open NumberParser

/-- The tokens are the words `ws` in this order, each as a cardinal (in any letters with the same comparison form) or as an ordinal of it,
with blank tokens, apostrophes and conjunctions between and behind them. -/
inductive OrdinallyWritten (i : Info) : List PyStr → List PyStr → Prop where
  | nil : OrdinallyWritten i [] []
  | cardinal {t w : PyStr} {ts ws : List PyStr} : form t = form w → OrdinallyWritten i ts ws → OrdinallyWritten i (t :: ts) (w :: ws)
  | ordinal {t w : PyStr} {ts ws : List PyStr} :
      StandsForOf i (irregular (form t)) (form w) → OrdinallyWritten i ts ws → OrdinallyWritten i (t :: ts) (w :: ws)
  | other {t : PyStr} {ts ws : List PyStr} :
      BlankForm t ∨ Apostrophe t ∨ irregular (form t) ∈ i.skipTokens → OrdinallyWritten i ts ws → OrdinallyWritten i (t :: ts) ws

/-- `w'` is an ordinal of the word `w`: no cardinal, and it stands for `w`. -/
def OrdinalWordOf (i : Info) (w w' : PyStr) : Prop := ¬ CardinalOf i w' ∧ StandsForOf i (irregular (form w')) (form w)

/-- The English words of an ordinal, from those of the cardinal: the last word becomes an ordinal. -/
def enOrdinalOf (ws : List PyStr) : List PyStr := ws.dropLast ++ [enOrdinal (ws.getLastD [])]

end NumberParser.Spec
