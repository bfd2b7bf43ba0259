import Verif.Spec.VocabularyPieces
import Verif.Model.Package

/-!
# Specification: numbers one after another, with the vocabulary of any data module

Whether two numbers written one after another stay two numbers is said with `parse_number` alone: it must find no number in the first
text together with the first word of the second.
-/

namespace NumberParser.Spec
open NumberParser

/-- A text for a number, its first word, and the number. -/
structure NumberText where
  text : PyStr
  first : PyStr
  value : Nat

/-- With the languages `p`, the text is read as its value by `parse_number` in the language `l` (with the data module `i`).  It begins and
ends with a number word and has no apostrophes, and is neither blank nor a digit string. -/
structure IsNumberText (p : Package) (l : PyStr) (i : Info) (x : NumberText) : Prop where
  tokens : ∃ ts, Tokens l x.text (x.first :: ts) ∧ EndsNumberOf i (x.first :: ts)
  first : CardinalOf i x.first
  noApostrophe : 0x27 ∉ x.text ∧ 0x2019 ∉ x.text
  solidStart : SolidStart x.text
  solidEnd : SolidEnd x.text
  wordInput : WordInput x.text
  reads : parseNumberIn p x.text (some l) = .ok (some x.value)

/-- `c` is a conjunction (a single word, as "and", "y"). -/
def IsConjunction (l : PyStr) (i : Info) (c : PyStr) : Prop := Tokens l c [c] ∧ SkipOf i c

/-- What follows a number: conjunctions, each after some white space, then white space and the next number. -/
structure Link where
  conjunctions : List (PyStr × PyStr)
  gap : PyStr
  number : NumberText

/-- The white space and the conjunctions of a link are such, and its number is a number. -/
structure IsLink (p : Package) (l : PyStr) (i : Info) (e : Link) : Prop where
  conjunctions : ∀ c ∈ e.conjunctions, WhiteSpace c.1 ∧ IsConjunction l i c.2
  gap : WhiteSpace e.gap
  number : IsNumberText p l i e.number

/-- The text of a number and what follows. -/
def linkedText (x : NumberText) (es : List Link) : PyStr :=
  x.text ++ es.flatMap (fun e => e.conjunctions.flatMap (fun c => c.1 ++ c.2) ++ e.gap ++ e.number.text)

/-- No number is continued by the first word of the next one: together they are no number for `parse_number`. -/
def NotContinued (p : Package) (l : PyStr) : NumberText → List Link → Prop
  | _, [] => True
  | x, e :: es => parseNumberIn p (x.text ++ u!" " ++ e.number.first) (some l) = .ok none ∧ NotContinued p l e.number es

/-- The last word (before blank tokens) is one of the class `k`. -/
def LastOfClass (i : Info) (k : Class) (ts : List PyStr) : Prop :=
  ∃ a t bl v, ts = a ++ t :: bl ∧ WordOf i k v t ∧ ∀ x ∈ bl, BlankForm x

end NumberParser.Spec
