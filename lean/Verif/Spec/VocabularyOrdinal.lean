import Verif.Spec.VocabularyText

/-!
# Specification: ordinals with the vocabulary of any data module

The notions of Spec/Reading for `parse_ordinal`, for an arbitrary data module.
-/

namespace NumberParser.Spec
open NumberParser

/-- An apostrophe -/
def Apostrophe (t : PyStr) : Prop := t = u!"'" ∨ t = u!"’"

/-- The tokens are cardinals and ordinals standing for listed words with the given classes and values, conjunctions, blank tokens and
apostrophes.  The irregular English ordinals are replaced in all of them. -/
inductive OnlyOrdinalsOf (i : Info) : List PyStr → List (Class × Nat) → Prop where
  | nil : OnlyOrdinalsOf i [] []
  | word {t c : PyStr} {k : Class} {v : Nat} {ts : List PyStr} {ws : List (Class × Nat)} :
      StandsForOf i (irregular (form t)) c → LastEntry (tableOf i k) c v → OnlyOrdinalsOf i ts ws → OnlyOrdinalsOf i (t :: ts) ((k, v) :: ws)
  | other {t : PyStr} {ts : List PyStr} {ws : List (Class × Nat)} :
      BlankForm t ∨ Apostrophe t ∨ irregular (form t) ∈ i.skipTokens → OnlyOrdinalsOf i ts ws → OnlyOrdinalsOf i (t :: ts) ws

/-- What `parse_ordinal` makes of a token: the number word it stands for, or else its comparison form with the irregular English ordinals
replaced. -/
def BecomesOf (i : Info) (t c : PyStr) : Prop :=
  StandsForOf i (irregular (form t)) c ∨ (∀ d, ¬ StandsForOf i (irregular (form t)) d) ∧ c = irregular (form t)

/-- Every token is replaced by what it becomes, and then the apostrophes are removed. -/
inductive ReplacedOf (i : Info) : List PyStr → List PyStr → Prop where
  | nil : ReplacedOf i [] []
  | cons {t c : PyStr} {ts us : List PyStr} :
      BecomesOf i t c → ReplacedOf i ts us → ReplacedOf i (t :: ts) (withoutApostrophes c :: us)

/-- Characters of ordinary writing: no marks that are reordered, and not the two length marks that are no word characters although they
occur in decomposed letters. -/
def PlainChar (c : Nat) : Prop := ccc c = 0 ∧ c ≠ 0xbd7 ∧ c ≠ 0x1b35

/-- A data module that makes sense for ordinals: besides, words and conjunctions are in ordinary writing, every word contains a word
character and one that is no numeric character, and every conjunction contains a word character or is a hyphen, and stands for no number
word. -/
structure Plain (i : Info) : Prop extends Tidy i where
  wordPlain : ∀ f, Listed i f → ∀ c ∈ f, PlainChar c
  conjunctionPlain : ∀ f ∈ i.skipTokens, ∀ c ∈ f, PlainChar c
  wordLetter : ∀ f, Listed i f → ∃ c ∈ f, isWord c = true
  conjunctionLetter : ∀ f ∈ i.skipTokens, f = u!"-" ∨ ∃ c ∈ f, isWord c = true
  conjunctionStands : ∀ f ∈ i.skipTokens, ∀ c, ¬ StandsForOf i f c
  wordNotNumeric : ∀ f, Listed i f → ∃ c ∈ f, isNumericChar c = false

end NumberParser.Spec
