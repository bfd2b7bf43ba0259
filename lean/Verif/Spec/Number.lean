import Verif.Spec.Words
import Verif.Spec.Digits

/-!
# Specification: the tokens `parse_number` looks at
-/

namespace NumberParser.Spec
open NumberParser

/-- The text without the apostrophes U+0027 and U+2019. -/
def withoutApostrophes (s : PyStr) : PyStr := s.filter (fun c => c != 0x27 && c != 0x2019)

/-- `t` is blank in comparison form. -/
def BlankForm (t : PyStr) : Prop := ∀ c ∈ form t, isSpace c = true

/-- `t` is the last token of the text, apart from blank ones and conjunctions (apostrophes are ignored). -/
def LastWord (l s t : PyStr) : Prop :=
  ∃ a b, Tokens l (withoutApostrophes s) (a ++ t :: b) ∧ ¬ BlankForm t ∧ ¬ Skip l t ∧ ∀ x ∈ b, BlankForm x ∨ Skip l x

/-- The text is neither blank nor a string of numeric characters. -/
def WordInput (s : PyStr) : Prop := ¬ Blank s ∧ ¬ NumericText s

/-- A word of the second class can follow one of the first class within a number. -/
def mayFollow : Class → Class → Bool
  | .scale, .scale => false
  | .scale, _ => true
  | .hundreds, .unit => true
  | .hundreds, .direct => true
  | .hundreds, .tens => true
  | .tens, .unit => true
  | _, _ => false

/-- The two texts differ in white space only: where one has white space, so has the other, except at the end. -/
inductive SameSpacing : PyStr → PyStr → Prop where
  | trail {a b : PyStr} : Blank a → Blank b → SameSpacing a b
  | char {c : Nat} {a b : PyStr} : SameSpacing a b → SameSpacing (c :: a) (c :: b)
  | gap {g g' a b : PyStr} : g ≠ [] → g' ≠ [] → Blank g → Blank g' → SameSpacing a b → SameSpacing (g ++ a) (g' ++ b)

/-- The small letter of a capital letter: of every character whose `str.lower()` is a single character (A-Z, À-Þ, А-Я, Ω, Ⅷ, ...),
with the exception of Σ, which has two small letters.  Other characters are left alone. -/
def letterLower (c : Nat) : Nat :=
  if c = 0x3a3 then c
  else match lowerChar c with
    | [d] => d
    | _ => c

/-- The two texts differ in the case of letters only. -/
def SameUpToCase (s s' : PyStr) : Prop := s.map letterLower = s'.map letterLower

/-- `ws` are number words with the given classes and values. -/
inductive Classified (l : PyStr) : List PyStr → List (Class × Nat) → Prop where
  | nil : Classified l [] []
  | cons {w : PyStr} {k : Class} {v : Nat} {ws : List PyStr} {cs : List (Class × Nat)} :
      Word l k v w → Classified l ws cs → Classified l (w :: ws) ((k, v) :: cs)

/-- `c` is the letter `b` with accents: the canonical decomposition of `c` is `b` followed by nonspacing marks. -/
def Accented (c b : Nat) : Prop :=
  isWord c = true ∧ isWord b = true ∧ ∃ m ms, nfd [c] = b :: m :: ms ∧ ∀ x ∈ m :: ms, isMn x = true

/-- The two texts differ only in that letters of one have accents which those of the other have not. -/
inductive SameUpToAccents : PyStr → PyStr → Prop where
  | nil : SameUpToAccents [] []
  | same {c : Nat} {a b : PyStr} : SameUpToAccents a b → SameUpToAccents (c :: a) (c :: b)
  | drop {c d : Nat} {a b : PyStr} : Accented c d → SameUpToAccents a b → SameUpToAccents (c :: a) (d :: b)
  | add {c d : Nat} {a b : PyStr} : Accented d c → SameUpToAccents a b → SameUpToAccents (c :: a) (d :: b)

end NumberParser.Spec
