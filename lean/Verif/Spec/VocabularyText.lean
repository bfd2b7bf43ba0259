import Verif.Spec.Vocabulary

/-!
# Specification: converting a text with the vocabulary of any data module

The notions of Spec/Reading for texts, for an arbitrary data module.
-/

namespace NumberParser.Spec
open NumberParser

/-- The module lists the word `f`. -/
def Listed (i : Info) (f : PyStr) : Prop := ∃ k, Lists (tableOf i k) f

/-- `t` is a cardinal number word. -/
def CardinalOf (i : Info) (t : PyStr) : Prop := Listed i (form t)

/-- `t` is a conjunction. -/
def SkipOf (i : Info) (t : PyStr) : Prop := form t ∈ i.skipTokens

/-- The cardinals for which a word may stand, in this order: for "…ieth" they are "…y", "…ie" and the word itself, for another "…th" the
word itself and "…", otherwise the word itself. -/
inductive Candidates : PyStr → List PyStr → Prop where
  | ieth (stem : PyStr) : Candidates (stem ++ u!"ieth") [stem ++ u!"y", stem ++ u!"ie", stem ++ u!"ieth"]
  | th (stem : PyStr) : (∀ u, stem ++ u!"th" ≠ u ++ u!"ieth") → Candidates (stem ++ u!"th") [stem ++ u!"th", stem]
  | other (g : PyStr) : (∀ u, g ≠ u ++ u!"th") → Candidates g [g]

/-- `g` stands for the listed word `c`: it is the first of the candidates that is listed. -/
def StandsForOf (i : Info) (g c : PyStr) : Prop :=
  ∃ a b, Candidates g (a ++ c :: b) ∧ Listed i c ∧ ∀ x ∈ a, ¬ Listed i x

/-- `t` is an ordinal number word for the cardinal of class `k` and value `v` (and not itself a cardinal): after replacing the irregular
English ordinals, its comparison form stands for that cardinal. -/
def OrdinalOf (i : Info) (k : Class) (v : Nat) (t : PyStr) : Prop :=
  ¬ CardinalOf i t ∧ ∃ c, LastEntry (tableOf i k) c v ∧ StandsForOf i (irregular (form t)) c

/-- `t` is neither blank nor a number word nor a conjunction. -/
def OrdinaryOf (i : Info) (t : PyStr) : Prop :=
  (∃ c ∈ form t, isSpace c = false) ∧ ¬ CardinalOf i t ∧ (¬ ∃ k v, OrdinalOf i k v t) ∧ ¬ SkipOf i t

/-- A data module that makes sense for texts: besides, no word contains a line break, no word or conjunction is a full stop or a comma,
and no conjunction stands for a number word. -/
structure Tidy (i : Info) : Prop extends Sensible i where
  wordOneLine : ∀ f, Listed i f → 10 ∉ f
  wordNoMark : ∀ f, Listed i f → f ≠ u!"." ∧ f ≠ u!","
  conjunctionNoMark : ∀ f ∈ i.skipTokens, f ≠ u!"." ∧ f ≠ u!","
  conjunctionNoNumber : ∀ f ∈ i.skipTokens, ∀ c, ¬ StandsForOf i (irregular f) c

/-- The values are moderate: scale words are powers of ten, not above 10^2000, the other number words are at most 900. -/
def Moderate (i : Info) : Prop :=
  ∀ k w v, (w, v) ∈ tableOf i k → if k = .scale then ∃ e, e ≤ 2000 ∧ v = 10 ^ e else v ≤ 900

/-! ## Cutting and converting -/

/-- The run is cut into numbers, as late as possible (see `Cut` in Spec/Reading). -/
inductive CutOf (i : Info) : List RunItem → List PyStr → Prop where
  | last {is : List RunItem} {n : Nat} : ReadAs i (runWords is) n → CutOf i is [decDigits n]
  | more {is rest : List RunItem} {cs : List PyStr} {n : Nat} {k : Class} {v : Nat} {xs : List PyStr} :
      ReadAs i (runWords is) n →
      (∃ is' k' v', is = is' ++ [.word k' v']) →
      (∀ m, ¬ ReadAs i (runWords is ++ [(k, v)]) m) →
      CutOf i (.word k v :: rest) xs →
      CutOf i (is ++ cs.map .conj ++ .word k v :: rest) (decDigits n :: cs ++ xs)

/-- The tokens of a run: number words, conjunctions and blank tokens. -/
inductive RunTokensOf (i : Info) : List PyStr → List RunItem → Prop where
  | nil : RunTokensOf i [] []
  | word {t : PyStr} {k : Class} {v : Nat} {ts : List PyStr} {is : List RunItem} :
      WordOf i k v t → RunTokensOf i ts is → RunTokensOf i (t :: ts) (.word k v :: is)
  | conj {t : PyStr} {ts : List PyStr} {is : List RunItem} :
      SkipOf i t → RunTokensOf i ts is → RunTokensOf i (t :: ts) (.conj (form t) :: is)
  | blank {t : PyStr} {ts : List PyStr} {is : List RunItem} : BlankForm t → RunTokensOf i ts is → RunTokensOf i (t :: ts) is

/-- A run begins with a number word. -/
def RunOf (i : Info) (ts : List PyStr) (is : List RunItem) : Prop :=
  RunTokensOf i ts is ∧ ∃ t ts', ts = t :: ts' ∧ CardinalOf i t

/-- The text with the tokens `ts` is converted to `out` (up to white space at the ends; see `Converted` in Spec/Reading). -/
inductive ConvertedOf (i : Info) : List PyStr → PyStr → Prop where
  | nil : ConvertedOf i [] []
  | keep {t : PyStr} {ts : List PyStr} {out : PyStr} :
      BlankForm t ∨ Mark t ∨ SkipOf i t ∨ OrdinaryOf i t → ConvertedOf i ts out → ConvertedOf i (t :: ts) (t ++ out)
  | ending {run : List PyStr} {is : List RunItem} {xs : List PyStr} :
      RunOf i run is → CutOf i is xs → ConvertedOf i run (withSpaces xs)
  | mark {run : List PyStr} {is : List RunItem} {xs : List PyStr} {t : PyStr} {ts : List PyStr} {out : PyStr} :
      RunOf i run is → CutOf i is xs → Mark t → EndsBlank run → ConvertedOf i ts out →
      ConvertedOf i (run ++ t :: ts) (withSpaces xs ++ t ++ out)
  | markTight {run : List PyStr} {is : List RunItem} {xs : List PyStr} {t : PyStr} {ts : List PyStr} {out : PyStr} :
      RunOf i run is → CutOf i is xs → Mark t → ¬ EndsBlank run → ConvertedOf i ts out →
      ConvertedOf i (run ++ t :: ts) (spaced xs ++ t ++ out)
  | word {run : List PyStr} {is : List RunItem} {xs : List PyStr} {t : PyStr} {ts : List PyStr} {out : PyStr} :
      RunOf i run is → (∃ is' k v, is = is' ++ [.word k v]) → CutOf i is xs → OrdinaryOf i t → ¬ Mark t → ConvertedOf i ts out →
      ConvertedOf i (run ++ t :: ts) (withSpaces xs ++ t ++ out)
  | conjWord {run : List PyStr} {is : List RunItem} {f : PyStr} {xs : List PyStr} {t : PyStr} {ts : List PyStr} {out : PyStr} :
      RunOf i run (is ++ [.conj f]) → CutOf i is xs → OrdinaryOf i t → ¬ Mark t → ConvertedOf i ts out →
      ConvertedOf i (run ++ t :: ts) (withSpaces xs ++ f ++ u!" " ++ t ++ out)
  | ordinal {run : List PyStr} {is : List RunItem} {xs : List PyStr} {t : PyStr} {k : Class} {v : Nat} {ts : List PyStr}
      {out : PyStr} : (run = [] ∧ is = [] ∨ RunOf i run is) → OrdinalOf i k v t → CutOf i (is ++ [.word k v]) xs →
      ConvertedOf i ts out → ConvertedOf i (run ++ t :: ts) (spaced xs ++ out)

end NumberParser.Spec
