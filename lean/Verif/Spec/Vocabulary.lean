import Verif.Spec.Module
import Verif.Spec.Reading

/-!
# Specification: the vocabulary of any data module

The notions of Spec/Words and Spec/Reading for an arbitrary data module, not one of the five the parser knows.
-/

namespace NumberParser.Spec
open NumberParser

/-- The table of a class of number words. -/
def tableOf (i : Info) : Class → List (PyStr × Nat)
  | .unit => i.unitNumbers
  | .direct => i.directNumbers
  | .tens => i.tens
  | .hundreds => i.hundreds
  | .scale => i.bigPowersOfTen

/-- `t` is a number word of class `k` and value `v`: the last entry for it in the table says so. -/
def WordOf (i : Info) (k : Class) (v : Nat) (t : PyStr) : Prop := LastEntry (tableOf i k) (form t) v

/-- A data module that makes sense: no word is in two tables or also a conjunction, no word or conjunction is blank, and no
scale word is 0.  Nothing is said about the values otherwise. -/
structure Sensible (i : Info) : Prop where
  oneClass : ∀ k k' f, Lists (tableOf i k) f → Lists (tableOf i k') f → k = k'
  noConjunction : ∀ k f, Lists (tableOf i k) f → f ∉ i.skipTokens
  wordNotBlank : ∀ k f, Lists (tableOf i k) f → ∃ c ∈ f, isSpace c = false
  conjunctionNotBlank : ∀ f ∈ i.skipTokens, ∃ c ∈ f, isSpace c = false
  scaleNotZero : ∀ f, ¬ LastEntry i.bigPowersOfTen f 0

/-- The tokens are number words with the given classes and values, blank tokens and conjunctions. -/
inductive OnlyWordsOf (i : Info) : List PyStr → List (Class × Nat) → Prop where
  | nil : OnlyWordsOf i [] []
  | word {t : PyStr} {k : Class} {v : Nat} {ts : List PyStr} {ws : List (Class × Nat)} :
      WordOf i k v t → OnlyWordsOf i ts ws → OnlyWordsOf i (t :: ts) ((k, v) :: ws)
  | other {t : PyStr} {ts : List PyStr} {ws : List (Class × Nat)} :
      BlankForm t ∨ form t ∈ i.skipTokens → OnlyWordsOf i ts ws → OnlyWordsOf i (t :: ts) ws

/-- The words are read as the number `n` (by the rules of Spec/Reading; the limit of a group depends on the scale). -/
def ReadAs (i : Info) (ws : List (Class × Nat)) (n : Nat) : Prop :=
  ∃ c o q, Reading (if i.useLongScale then 10000 else 100) ws c o q ∧ n = c + o

end NumberParser.Spec
