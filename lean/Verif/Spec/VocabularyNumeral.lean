import Verif.Spec.VocabularyText
import Verif.Spec.Numerals

/-!
# Specification: numerals, with any vocabulary

How languages build the names of numbers from units, tens, hundreds and scale words, and which number such a name denotes.  Words are
given by their classes and values.
-/

namespace NumberParser.Spec
open NumberParser

/-- A unit, a word of its own (ten to nineteen), tens, or tens and a unit. -/
inductive Small : List (Class × Nat) → Nat → Prop where
  | unit (v : Nat) : Small [(.unit, v)] v
  | direct (v : Nat) : Small [(.direct, v)] v
  | tens (v : Nat) : Small [(.tens, v)] v
  | tensUnit (t u : Nat) : Small [(.tens, t), (.unit, u)] (t + u)

/-- A small number, a word for some hundreds, or both. -/
inductive Simple : List (Class × Nat) → Nat → Prop where
  | small {ws : List (Class × Nat)} {v : Nat} : Small ws v → Simple ws v
  | hundreds (h : Nat) : Simple [(.hundreds, h)] h
  | hundredsSmall (h : Nat) {ws : List (Class × Nat)} {v : Nat} : Small ws v → Simple ((.hundreds, h) :: ws) (h + v)

/-- A simple number, or counted hundreds with or without a small number: "two hundred five", "nineteen hundred", "hundred one". -/
inductive Group : List (Class × Nat) → Nat → Prop where
  | simple {ws : List (Class × Nat)} {v : Nat} : Simple ws v → Group ws v
  | hundred {cs rs : List (Class × Nat)} {v r : Nat} : (cs = [] ∧ v = 1 ∨ Small cs v ∧ 0 < v ∧ v ≤ 100) → (rs = [] ∧ r = 0 ∨ Small rs r) →
      Group (cs ++ (.scale, 100) :: rs) (v * 100 + r)

/-- What stands between scale words above the `limit`: a group, or thousands (scale words up to the limit), counted by a group or not,
with or without a simple number. -/
inductive Block (limit : Nat) : List (Class × Nat) → Nat → Prop where
  | group {ws : List (Class × Nat)} {v : Nat} : Group ws v → Block limit ws v
  | thousands {cs rs : List (Class × Nat)} {v t r : Nat} : (cs = [] ∧ v = 1 ∨ Group cs v ∧ 0 < v ∧ v ≤ t) → 100 < t → t ≤ limit →
      (rs = [] ∧ r = 0 ∨ Simple rs r) → Block limit (cs ++ (.scale, t) :: rs) (v * t + r)

/-- What stands before the first scale word above the limit: a block, or counted thousands with a group ("two thousand two hundred five"; the
count is not missing here). -/
inductive Lead (limit : Nat) : List (Class × Nat) → Nat → Prop where
  | block {ws : List (Class × Nat)} {v : Nat} : Block limit ws v → Lead limit ws v
  | thousands {cs rs : List (Class × Nat)} {v t r : Nat} : Group cs v → 0 < v → v < t → 100 < t → t ≤ limit → Group rs r →
      Lead limit (cs ++ (.scale, t) :: rs) (v * t + r)

/-- Counted scale words above the limit, in falling order; `q` is the value of the last one. -/
inductive Scaled (limit : Nat) : List (Class × Nat) → Nat → Nat → Prop where
  | first {cs : List (Class × Nat)} {v p : Nat} : limit < p → (cs = [] ∧ v = 1 ∨ Lead limit cs v ∧ 0 < v ∧ v < p) →
      Scaled limit (cs ++ [(.scale, p)]) (v * p) p
  | next {ws cs : List (Class × Nat)} {n v p q : Nat} : Scaled limit ws n q → limit < p → p < q →
      (cs = [] ∧ v = 1 ∨ Block limit cs v ∧ 0 < v ∧ v ≤ p) → Scaled limit (ws ++ cs ++ [(.scale, p)]) (n + v * p) p

/-- The words are a name of the number `n`: a leading block, scaled blocks, or scaled blocks and a block.  The limit is 100, and 10000 on the long
scale. -/
inductive CardinalName (limit : Nat) : List (Class × Nat) → Nat → Prop where
  | block {ws : List (Class × Nat)} {v : Nat} : Lead limit ws v → CardinalName limit ws v
  | scaled {ws : List (Class × Nat)} {n q : Nat} : Scaled limit ws n q → CardinalName limit ws n
  | both {ws rs : List (Class × Nat)} {n q v : Nat} : Scaled limit ws n q → Block limit rs v → CardinalName limit (ws ++ rs) (n + v)

/-! ## Systematic names -/

/-- The words have the given classes and values. -/
inductive Valued (i : Info) : List PyStr → List (Class × Nat) → Prop where
  | nil : Valued i [] []
  | cons {w : PyStr} {k : Class} {v : Nat} {ws : List PyStr} {cs : List (Class × Nat)} :
      WordOf i k v w → Valued i ws cs → Valued i (w :: ws) ((k, v) :: cs)

/-- How a language names numbers: words for the small numbers, and for a count times a power ("two million"). -/
structure NumberNames where
  below : Nat → List PyStr
  counted : Nat → Nat → List PyStr

/-- The name of `n > 0` with the given powers (in falling order). -/
def NumberNames.parts (N : NumberNames) : List Nat → Nat → List PyStr
  | [], n => if n = 0 then [] else N.below n
  | p :: ps, n => (if n / p = 0 then [] else N.counted p (n / p)) ++ N.parts ps (n % p)

/-- The name of `n`: "two million three hundred thousand five" -/
def NumberNames.name (N : NumberNames) (powers : List Nat) (n : Nat) : List PyStr :=
  if n = 0 then N.below 0 else N.parts powers n

/-- The largest block: scale words up to this one multiply the words before them since the last larger scale word. -/
def limitOf (i : Info) : Nat := if i.useLongScale then 10000 else 100

/-- The data module lists the names of the numbers below `top`: those below the last power are blocks, and each count of a power is a
block and a scale word, where the count may be missing if it is 1.  The counts are below the power. -/
def Names (i : Info) (N : NumberNames) : Nat → List Nat → Prop
  | top, [] => ∀ n, n < top → ∃ cs, Valued i (N.below n) cs ∧ Block (limitOf i) cs n
  | top, p :: ps => limitOf i < p ∧ p < top ∧ top ≤ p * p ∧ Names i N p ps ∧
      ∀ g, 0 < g → g * p < top → ∃ cs, Valued i (N.counted p g) (cs ++ [(.scale, p)]) ∧ (cs = [] ∧ g = 1 ∨ Block (limitOf i) cs g)

/-- The tokens are the words `ws` in this order, in any letters with the same comparison form, with blank tokens and conjunctions between
and behind them. -/
inductive Written (i : Info) : List PyStr → List PyStr → Prop where
  | nil : Written i [] []
  | word {t w : PyStr} {ts ws : List PyStr} : form t = form w → Written i ts ws → Written i (t :: ts) (w :: ws)
  | other {t : PyStr} {ts ws : List PyStr} : BlankForm t ∨ SkipOf i t → Written i ts ws → Written i (t :: ts) ws

/-- A word in one piece: not empty, without white space, soft hyphens and apostrophes, and unless in Hindi, of word characters only. -/
def OnePiece (l w : PyStr) : Prop :=
  w ≠ [] ∧ ∀ c ∈ w, isSpace c = false ∧ c ≠ 0xad ∧ c ≠ 0x27 ∧ c ≠ 0x2019 ∧ (l ≠ u!"hi" → isWord c = true)

end NumberParser.Spec
