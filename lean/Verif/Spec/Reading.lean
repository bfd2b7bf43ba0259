import Verif.Spec.Number

/-!
# Specification: how a sequence of number words is read, and how a text is converted

The complete meaning of `parse_number`, `parse_ordinal` and `parse` on texts: rules for reading number words as a
number, for cutting a sequence of number words into numbers, and for replacing the numbers in a text.
-/

namespace NumberParser.Spec
open NumberParser

/-! ## Reading number words as one number -/

/-- Scale words up to this value multiply the open group of a number only; greater ones close it.  (Languages with the
long scale count thousands of millions, so that "mil" belongs to a group.) -/
def groupLimit (l : PyStr) : Nat := if (file l).useLongScale then 10000 else 100

/-- A word of class `k` may come after the given words: anything may begin a number, afterwards it depends on the class
of the last word. -/
def MayContinue (ws : List (Class × Nat)) (k : Class) : Prop :=
  ws = [] ∨ ∃ ws' k' v', ws = ws' ++ [(k', v')] ∧ mayFollow k' k = true

/-- `Reading limit ws c o q`: the number words `ws` are read as the number `c + o`, where `c` is the value of the closed
groups and `o` that of the open group; `q` is the last scale word that closed a group.

* A word that is no scale word adds its value to the open group.
* A scale word `p` greater than everything so far (other than "hundred") multiplies everything.
* Another scale word `p` multiplies the open group (an empty one counts as 1), which must not exceed `p`, and must be
  smaller than the last closing scale word.  It closes the group if it is above the limit. -/
inductive Reading (limit : Nat) : List (Class × Nat) → Nat → Nat → Option Nat → Prop where
  | start : Reading limit [] 0 0 none
  | add {ws : List (Class × Nat)} {c o : Nat} {q : Option Nat} {k : Class} {d : Nat} :
      Reading limit ws c o q → k ≠ .scale → MayContinue ws k → Reading limit (ws ++ [(k, d)]) c (o + d) q
  | multiplyAll {ws : List (Class × Nat)} {c o : Nat} {q : Option Nat} {p : Nat} :
      Reading limit ws c o q → 0 < c + o → c + o < p → p ≠ 100 → Reading limit (ws ++ [(.scale, p)]) ((c + o) * p) 0 (some p)
  | multiplyGroup {ws : List (Class × Nat)} {c o : Nat} {q : Option Nat} {p : Nat} :
      Reading limit ws c o q → (c + o = 0 ∨ p ≤ c + o ∨ p = 100) → o ≤ p → (∀ q', q = some q' → p < q') → p ≤ limit →
      Reading limit (ws ++ [(.scale, p)]) c (max o 1 * p) q
  | closeGroup {ws : List (Class × Nat)} {c o : Nat} {q : Option Nat} {p : Nat} :
      Reading limit ws c o q → (c + o = 0 ∨ p ≤ c + o ∨ p = 100) → o ≤ p → (∀ q', q = some q' → p < q') → limit < p →
      Reading limit (ws ++ [(.scale, p)]) (c + max o 1 * p) 0 (some p)

/-- The words are read as the number `n`.  (No words at all: 0.) -/
def ReadsAs (l : PyStr) (ws : List (Class × Nat)) (n : Nat) : Prop := ∃ c o q, Reading (groupLimit l) ws c o q ∧ n = c + o

/-- The tokens are number words with the given classes and values, blank tokens and conjunctions. -/
inductive OnlyWords (l : PyStr) : List PyStr → List (Class × Nat) → Prop where
  | nil : OnlyWords l [] []
  | word {t : PyStr} {k : Class} {v : Nat} {ts : List PyStr} {ws : List (Class × Nat)} :
      Word l k v t → OnlyWords l ts ws → OnlyWords l (t :: ts) ((k, v) :: ws)
  | other {t : PyStr} {ts : List PyStr} {ws : List (Class × Nat)} :
      BlankForm t ∨ Skip l t → OnlyWords l ts ws → OnlyWords l (t :: ts) ws

/-! ## Ordinals -/

/-- `t` is an ordinal number word for the cardinal of class `k` and value `v` (and not itself a cardinal). -/
def OrdinalWord (l : PyStr) (k : Class) (v : Nat) (t : PyStr) : Prop :=
  ¬ Cardinal l t ∧ ∃ c, FormOf l k v c ∧
    (irregular (form t) = c ∨ irregular (form t) = c ++ u!"th" ∨
      ∃ stem, c = stem ++ u!"y" ∧ irregular (form t) = stem ++ u!"ieth")

/-- The tokens are cardinal or ordinal number words with the given classes and values, blank tokens and conjunctions.
Apostrophes are ignored in cardinals and conjunctions. -/
inductive OnlyNumbers (l : PyStr) : List PyStr → List (Class × Nat) → Prop where
  | nil : OnlyNumbers l [] []
  | word {t : PyStr} {k : Class} {v : Nat} {ts : List PyStr} {ws : List (Class × Nat)} :
      Word l k v (withoutApostrophes t) ∨ OrdinalWord l k v t → OnlyNumbers l ts ws → OnlyNumbers l (t :: ts) ((k, v) :: ws)
  | other {t : PyStr} {ts : List PyStr} {ws : List (Class × Nat)} :
      BlankForm (withoutApostrophes t) ∨ Skip l (withoutApostrophes t) → OnlyNumbers l ts ws → OnlyNumbers l (t :: ts) ws

/-- Exactly one token is not blank, and it consists of numeric characters. -/
def SingleNumeral (ts : List PyStr) : Prop :=
  ∃ a t b, ts = a ++ t :: b ∧ (∀ x ∈ a, BlankForm x) ∧ (∀ x ∈ b, BlankForm x) ∧ form t ≠ [] ∧ ∀ c ∈ form t, isNumericChar c = true

/-! ## Cutting a run of number words into numbers -/

/-- What a run of number words consists of, blank tokens left out: number words and conjunctions (in comparison form). -/
inductive RunItem where
  | word (k : Class) (v : Nat)
  | conj (f : PyStr)

/-- The number words of a run. -/
def runWords : List RunItem → List (Class × Nat)
  | [] => []
  | .word k v :: is => (k, v) :: runWords is
  | .conj _ :: is => runWords is

/-- `Cut l items texts`: the run is cut into numbers, as late as possible; `texts` are the numbers in digits, with the
conjunctions that stand directly in front of a cut between them.  All other conjunctions are lost. -/
inductive Cut (l : PyStr) : List RunItem → List PyStr → Prop where
  | last {is : List RunItem} {n : Nat} : ReadsAs l (runWords is) n → Cut l is [decDigits n]
  | more {is rest : List RunItem} {cs : List PyStr} {n : Nat} {k : Class} {v : Nat} {xs : List PyStr} :
      ReadsAs l (runWords is) n →                                    -- the words so far are a number
      (∃ is' k' v', is = is' ++ [.word k' v']) →
      (∀ m, ¬ ReadsAs l (runWords is ++ [(k, v)]) m) →               -- the next word does not continue it
      Cut l (.word k v :: rest) xs →
      Cut l (is ++ cs.map .conj ++ .word k v :: rest) (decDigits n :: cs ++ xs)

/-! ## Converting a text -/

/-- The tokens of a run: number words, conjunctions and blank tokens. -/
inductive RunTokens (l : PyStr) : List PyStr → List RunItem → Prop where
  | nil : RunTokens l [] []
  | word {t : PyStr} {k : Class} {v : Nat} {ts : List PyStr} {is : List RunItem} :
      Word l k v t → RunTokens l ts is → RunTokens l (t :: ts) (.word k v :: is)
  | conj {t : PyStr} {ts : List PyStr} {is : List RunItem} :
      Skip l t → RunTokens l ts is → RunTokens l (t :: ts) (.conj (form t) :: is)
  | blank {t : PyStr} {ts : List PyStr} {is : List RunItem} : BlankForm t → RunTokens l ts is → RunTokens l (t :: ts) is

/-- A run begins with a number word. -/
def Run (l : PyStr) (ts : List PyStr) (is : List RunItem) : Prop :=
  RunTokens l ts is ∧ ∃ t ts', ts = t :: ts' ∧ Cardinal l t

/-- A full stop or comma. -/
def Mark (t : PyStr) : Prop := form t = u!"." ∨ form t = u!","

/-- The texts, each followed by a space. -/
def withSpaces : List PyStr → PyStr
  | [] => []
  | x :: xs => x ++ u!" " ++ withSpaces xs

/-- The last token is blank. -/
def EndsBlank (ts : List PyStr) : Prop := ∃ ts' t, ts = ts' ++ [t] ∧ BlankForm t

/-- `Converted l ts out`: the text with the tokens `ts` is converted to `out` (up to white space at the ends). -/
inductive Converted (l : PyStr) : List PyStr → PyStr → Prop where
  | nil : Converted l [] []
  /-- Outside of runs everything but number words is kept as it is. -/
  | keep {t : PyStr} {ts : List PyStr} {out : PyStr} :
      BlankForm t ∨ Mark t ∨ Skip l t ∨ Ordinary l t → Converted l ts out → Converted l (t :: ts) (t ++ out)
  /-- A run at the end. -/
  | ending {run : List PyStr} {is : List RunItem} {xs : List PyStr} :
      Run l run is → Cut l is xs → Converted l run (withSpaces xs)
  /-- A run before a full stop or comma: a space stays only if there was white space. -/
  | mark {run : List PyStr} {is : List RunItem} {xs : List PyStr} {t : PyStr} {ts : List PyStr} {out : PyStr} :
      Run l run is → Cut l is xs → Mark t → EndsBlank run → Converted l ts out →
      Converted l (run ++ t :: ts) (withSpaces xs ++ t ++ out)
  | markTight {run : List PyStr} {is : List RunItem} {xs : List PyStr} {t : PyStr} {ts : List PyStr} {out : PyStr} :
      Run l run is → Cut l is xs → Mark t → ¬ EndsBlank run → Converted l ts out →
      Converted l (run ++ t :: ts) (spaced xs ++ t ++ out)
  /-- A run before an ordinary word: one space; the last conjunction, if the run ends with one, is kept. -/
  | word {run : List PyStr} {is : List RunItem} {xs : List PyStr} {t : PyStr} {ts : List PyStr} {out : PyStr} :
      Run l run is → (∃ is' k v, is = is' ++ [.word k v]) → Cut l is xs → Ordinary l t → ¬ Mark t → Converted l ts out →
      Converted l (run ++ t :: ts) (withSpaces xs ++ t ++ out)
  | conjWord {run : List PyStr} {is : List RunItem} {f : PyStr} {xs : List PyStr} {t : PyStr} {ts : List PyStr} {out : PyStr} :
      Run l run (is ++ [.conj f]) → Cut l is xs → Ordinary l t → ¬ Mark t → Converted l ts out →
      Converted l (run ++ t :: ts) (withSpaces xs ++ f ++ u!" " ++ t ++ out)
  /-- An ordinal ends a run, and belongs to it. -/
  | ordinal {run : List PyStr} {is : List RunItem} {xs : List PyStr} {t : PyStr} {k : Class} {v : Nat} {ts : List PyStr}
      {out : PyStr} : (run = [] ∧ is = [] ∨ Run l run is) → OrdinalWord l k v t → Cut l (is ++ [.word k v]) xs → Converted l ts out →
      Converted l (run ++ t :: ts) (spaced xs ++ out)

end NumberParser.Spec
