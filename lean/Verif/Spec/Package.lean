import Verif.Spec.VocabularyText
import Verif.Model.Package

/-!
# Specification: the parser with any list of languages
-/

namespace NumberParser.Spec
open NumberParser

/-- The languages of the repository, in order, with their modules. -/
def repository : Package := supported.map (fun l => (l, file l))

/-- The token is recognised with the module: it stands for a number word, or it is a conjunction. -/
def RecognisedOf (i : Info) (t : PyStr) : Prop := (∃ c, StandsForOf i (irregular (form t)) c) ∨ SkipOf i t

open Classical in
/-- `k` tokens of the text are recognised in the language `e`. -/
def ScoreIn (e : PyStr × Info) (s : PyStr) (k : Nat) : Prop :=
  ∃ ts, Tokens e.1 s ts ∧ (ts.filter (fun t => RecognisedOf e.2 t)).length = k

/-- In `e` more tokens of the text are recognised than in `e'`. -/
def Better (s : PyStr) (e e' : PyStr × Info) : Prop := ∃ k k', ScoreIn e s k ∧ ScoreIn e' s k' ∧ k' < k

/-- The language of the text: the first of those in which the most tokens are recognised; English if no language recognises any. -/
def DetectedIn (p : Package) (s l : PyStr) : Prop :=
  (∃ before i after, p = before ++ (l, i) :: after ∧ ¬ ScoreIn (l, i) s 0 ∧ (∀ e ∈ before, Better s (l, i) e) ∧ (∀ e ∈ after, ¬ Better s e (l, i))) ∨
  (l = u!"en" ∧ ∀ e ∈ p, ScoreIn e s 0)

/-- The four functions give the same with the languages `p` and with the languages `q`. -/
def SameResults (p q : Package) (s : PyStr) (language : Option PyStr) : Prop :=
  parseIn p s language = parseIn q s language ∧ parseNumberIn p s language = parseNumberIn q s language ∧
  parseOrdinalIn p s language = parseOrdinalIn q s language ∧ parseFractionIn p s language = parseFractionIn q s language

/-- The languages have different names. -/
def Distinct (p : Package) : Prop := (p.map Prod.fst).Nodup

/-- The languages `p` and `q` do not differ about `l`: they have the same module for it, or both have none. -/
def Agree (p q : Package) (l : PyStr) : Prop := ∀ i, (l, i) ∈ p ↔ (l, i) ∈ q

end NumberParser.Spec
