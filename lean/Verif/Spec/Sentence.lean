import Verif.Spec.Words
import Verif.Spec.Numerals
import Verif.Spec.Number

/-!
# Specification: sentences with spelled numbers

A sentence is a list of parts separated by single spaces: plain text, a spelled number, or a spelled number followed
directly by a full stop or comma.
-/

namespace NumberParser.Spec
open NumberParser

/-- A language with its spelling of numbers: code, style of writing, words of a number, and the bound up to which
numbers are spelled. -/
structure Lang where
  code : PyStr
  style : Style
  words : Nat → List PyStr
  bound : Nat

def english : Lang := ⟨u!"en", en, enWords, 10 ^ 24⟩
def spanish : Lang := ⟨u!"es", es, esWords, 10 ^ 60⟩
def hindi : Lang := ⟨u!"hi", hi, hiWords, 10 ^ 13⟩
def russian : Lang := ⟨u!"ru", ru, ruWords, 10 ^ 24⟩
def ukrainian : Lang := ⟨u!"uk", uk, ukWords, 10 ^ 18⟩

/-- The languages whose texts are split at every non-word character. -/
def wordLanguages : List Lang := [english, spanish, russian, ukrainian]

def languages : List Lang := [english, spanish, hindi, russian, ukrainian]

/-- The text does not end with white space. -/
def EndsSolid (t : PyStr) : Prop := ∀ c rest, t = rest ++ [c] → isSpace c = false

/-- The text does not start with white space. -/
def StartsSolid (t : PyStr) : Prop := ∀ c rest, t = c :: rest → isSpace c = false

/-- `ws` are the words of `n`, where each word may be replaced by another one listed in the same class with the same value: an
inflected form or a synonym. -/
def Lang.Form (L : Lang) (n : Nat) (ws : List PyStr) : Prop :=
  ∃ cs, Classified L.code (L.words n) cs ∧ Classified L.code ws cs

/-- `t` is a written-out form of the number `n`. -/
def Spells (L : Lang) (n : Nat) (t : PyStr) : Prop := n < L.bound ∧ (∃ ws, L.Form n ws ∧ Text L.style ws t) ∧ EndsSolid t

/-- The words `ws` with white space between them. -/
inductive Separated : List PyStr → PyStr → Prop where
  | one {w : PyStr} : Separated [w] w
  | cons {w g rest : PyStr} {ws : List PyStr} : g ≠ [] → (∀ c ∈ g, isSpace c = true) → Separated ws rest →
      Separated (w :: ws) (w ++ g ++ rest)

/-- The texts joined by a punctuation mark and a space. -/
def listed (mark : Nat) : List PyStr → PyStr
  | [] => []
  | [t] => t
  | t :: t' :: ts => t ++ [mark, 32] ++ listed mark (t' :: ts)

/-- The texts joined by a punctuation mark with a space on each side. -/
def listedApart (mark : Nat) : List PyStr → PyStr
  | [] => []
  | [t] => t
  | t :: t' :: ts => t ++ [32, mark, 32] ++ listedApart mark (t' :: ts)

inductive Part where
  | plain (t : PyStr)
  | number (n : Nat) (t : PyStr)
  | ended (n : Nat) (t : PyStr) (mark : Nat)

/-- The part in the text. -/
def Part.text : Part → PyStr
  | .plain t => t
  | .number _ t => t
  | .ended _ t mark => t ++ [mark]

/-- The part in the expected output. -/
def Part.result : Part → PyStr
  | .plain t => t
  | .number n _ => decDigits n
  | .ended n _ mark => decDigits n ++ [mark]

def Part.OK (L : Lang) : Part → Prop
  | .plain t => t ≠ [] ∧ StartsSolid t ∧ EndsSolid t ∧ 0xad ∉ t ∧ ∀ ts, Tokens L.code t ts → ∀ w ∈ ts, ¬ NumberWord L.code w
  | .number n t => Spells L n t
  | .ended n t mark => Spells L n t ∧ (mark = 0x2e ∨ mark = 0x2c)

/-- The first non-empty token of the text is an ordinary one. -/
def StartsOrdinary (l t : PyStr) : Prop :=
  ∃ w rest, Ordinary l w ∧ (Tokens l t (w :: rest) ∨ Tokens l t ([] :: w :: rest))

/-- What may follow a number without punctuation: ordinary text. -/
def Part.mayFollow (L : Lang) : Part → Part → Prop
  | .number _ _, .plain t => StartsOrdinary L.code t
  | .number _ _, _ => False
  | _, _ => True

def Sentence (L : Lang) : List Part → Prop
  | [] => True
  | [p] => p.OK L
  | p :: q :: ps => p.OK L ∧ p.mayFollow L q ∧ Sentence L (q :: ps)

end NumberParser.Spec
