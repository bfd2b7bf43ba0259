import Verif.Model.Unicode
import Verif.Model.Parser

/-!
# Specification: words, gaps and written-out texts

Nothing here refers to the tokeniser, the tables or the number builder of the model; only to the Python
built-ins (`lower`, `stripAccents`, `isSpace`, `isWord`).
-/

namespace NumberParser.Spec
open NumberParser

/-- The form in which words are compared: lower case, accents removed. -/
def form (t : PyStr) : PyStr := stripAccents (lower t)

/-- How texts of a language are written. -/
structure Style where
  /-- the characters words may be written with -/
  wordChar : Nat → Bool
  /-- the characters that may stand between two words of a number -/
  joiner : Nat → Bool
  /-- the words that may stand between two words of a number -/
  fillers : List PyStr

/-- Letters, digits and underscore. -/
def plainWordChar (c : Nat) : Bool := isWord c

/-- Hindi words contain vowel signs, which are no `\w` characters: anything except white space, apostrophes and
soft hyphens. -/
def hindiWordChar (c : Nat) : Bool := !isSpace c && c != 0xad && c != 0x27 && c != 0x2019

def en : Style := ⟨plainWordChar, fun c => isSpace c || c == 0x2d, [u!"and"]⟩
def es : Style := ⟨plainWordChar, isSpace, [u!"y"]⟩
def hi : Style := ⟨hindiWordChar, isSpace, []⟩
def ru : Style := ⟨plainWordChar, isSpace, []⟩
def uk : Style := ⟨plainWordChar, isSpace, []⟩

/-- `v` is a way to write the word `w`: same letters up to case and accents. -/
def Writes (σ : Style) (w v : PyStr) : Prop := (∀ c ∈ v, σ.wordChar c = true) ∧ form v = form w

/-- What may stand between two words of a number: separating characters, and filler words among them. -/
inductive Gap (σ : Style) : PyStr → Prop where
  | sep {g : PyStr} : g ≠ [] → (∀ c ∈ g, σ.joiner c = true) → Gap σ g
  | filler {g f v rest : PyStr} : g ≠ [] → (∀ c ∈ g, σ.joiner c = true) → f ∈ σ.fillers → Writes σ f v →
      Gap σ rest → Gap σ (g ++ v ++ rest)

/-- A text consisting of the given words, with gaps between them, and white space after the last one. -/
inductive Text (σ : Style) : List PyStr → PyStr → Prop where
  | last {w v trail : PyStr} : Writes σ w v → (∀ c ∈ trail, isSpace c = true) → Text σ [w] (v ++ trail)
  | cons {w v g rest : PyStr} {ws : List PyStr} : Writes σ w v → Gap σ g → Text σ ws rest →
      Text σ (w :: ws) (v ++ g ++ rest)

/-- `text` is a written-out form of the words `ws`: any case, any gaps, white space at both ends. -/
def Rendering (σ : Style) (ws : List PyStr) (text : PyStr) : Prop :=
  ∃ lead rest, (∀ c ∈ lead, isSpace c = true) ∧ Text σ ws rest ∧ text = lead ++ rest

/-- Words separated by single spaces. -/
def spaced : List PyStr → PyStr
  | [] => []
  | [w] => w
  | w :: w' :: ws => w ++ u!" " ++ spaced (w' :: ws)

end NumberParser.Spec
