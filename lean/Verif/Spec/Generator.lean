import Verif.Model.Generator
import Verif.Spec.Digits
import Verif.Spec.Double

/-!
# Specification of the data generator (C46, C47)

What a rule of the rule files means for the generated tables, in terms of the characters of the rule.
-/

namespace NumberParser.Spec

open NumberParser Gen

/-- The five tables of a data module. -/
inductive TableName where
  | unit | direct | tens | hundreds | big
  deriving DecidableEq

/-- The table of that name. -/
def theTable {α : Type} (d : Tables α) : TableName → Table α
  | .unit => d.unit
  | .direct => d.direct
  | .tens => d.tens
  | .hundreds => d.hundreds
  | .big => d.big

/-- A rule set is used if its name contains "spellout-cardinal" or "spellout-numbering", and not "cents". -/
def UsedSet (name : PyStr) : Prop :=
  (u!"spellout-cardinal" <:+: name ∨ u!"spellout-numbering" <:+: name) ∧ ¬ u!"cents" <:+: name

/-- The text of a rule without semicolons and soft hyphens. -/
def ruleText (rule : PyStr) : PyStr := rule.filter (fun c => c != 59 && c != 0xad)

/-- `w` is the part of `s` before the first `c`, or all of `s` if there is no `c`. -/
def BeforeFirst (c : Nat) (s w : PyStr) : Prop := c ∉ w ∧ (w = s ∨ ∃ rest, s = w ++ c :: rest)

/-- `w` is the part of `s` after the last `c`, or all of `s` if there is no `c`. -/
def AfterLast (c : Nat) (s w : PyStr) : Prop := c ∉ w ∧ (w = s ∨ ∃ rest, s = rest ++ c :: w)

/-- `w` is `p` without the white space around it. -/
def Trimmed (p w : PyStr) : Prop :=
  ∃ a b, p = a ++ (w ++ b) ∧ Blank a ∧ Blank b ∧ (∀ c, w.head? = some c → isSpace c = false) ∧ (∀ c, w.getLast? = some c → isSpace c = false)

/-- `w` is the root word of a rule: what stands before the first `[`, or, if there is none, before the first `>`,
without white space around it. -/
def RootWord (s w : PyStr) : Prop :=
  (91 ∈ s → ∃ p, BeforeFirst 91 s p ∧ Trimmed p w) ∧ (91 ∉ s → ∃ p, BeforeFirst 62 s p ∧ Trimmed p w)

/-- Decimal digits (of any script), with single underscores between them, and their values -/
inductive IntegerDigits : PyStr → List Nat → Prop where
  | one {c d : Nat} : decimalValue c = some d → IntegerDigits [c] [d]
  | cons {c d : Nat} {t : PyStr} {ds : List Nat} : decimalValue c = some d → IntegerDigits t ds → IntegerDigits (c :: t) (d :: ds)
  | underscore {c d : Nat} {t : PyStr} {ds : List Nat} : decimalValue c = some d → IntegerDigits t ds → IntegerDigits (c :: 95 :: t) (d :: ds)

/-- The number with these digits -/
def digitsNumber (ds : List Nat) : Nat := ds.foldl (fun n d => 10 * n + d) 0

/-- The key of a rule is the integer `n`, as Python's `int` reads it: white space around, a sign, at most 4300 digits. -/
def IntegerText (key : PyStr) (n : Int) : Prop :=
  ∃ a sign t b ds, key = a ++ (sign ++ (t ++ b)) ∧ OrdinarySpace a ∧ OrdinarySpace b ∧ IntegerDigits t ds ∧ ds.length ≤ 4300 ∧
    (((sign = [] ∨ sign = [43]) ∧ n = (digitsNumber ds : Int)) ∨ (sign = [45] ∧ n = -(digitsNumber ds : Int)))

/-- Dividing `n` by ten as long as it is greater than 9 and ends with a zero is possible `k` times.  Quotients are doubles. -/
inductive Zeros : Int → Nat → Prop where
  | stop {n : Int} : n ≤ 9 ∨ n % 10 ≠ 0 → Zeros n 0
  | step {n : Int} {q k : Nat} : 9 < n → n % 10 = 0 → DoubleOf (n / 10).toNat 1 (.fin ⟨(q : Int), 0⟩) → Zeros (q : Int) k → Zeros n (k + 1)

/-- The first decimal digit of `n` is 1. -/
def StartsWithOne (n : Int) : Prop := ∃ k : Nat, (10 : Int) ^ k ≤ n ∧ n < 2 * 10 ^ k

/-- `s` begins with `{w}`, and `rest` follows; there is no `}` and no line feed in `w`. -/
def BracketAt (s w rest : PyStr) : Prop := s = 123 :: (w ++ 125 :: rest) ∧ 125 ∉ w ∧ 10 ∉ w

/-- The words in brackets, from left to right -/
inductive Brackets : PyStr → List PyStr → Prop where
  | nil : Brackets [] []
  | skip {c : Nat} {s : PyStr} {ws : List PyStr} : (¬ ∃ w rest, BracketAt (c :: s) w rest) → Brackets s ws → Brackets (c :: s) ws
  | word {s w rest : PyStr} {ws : List PyStr} : BracketAt s w rest → Brackets rest ws → Brackets s (w :: ws)

/-- A rule puts the word `w` with value `n` into a table. -/
def Contributes (key rule : PyStr) (table : TableName) (w : PyStr) (n : Int) : Prop :=
  ∃ number, IntegerText key number ∧ 61 ∉ ruleText rule ∧
    match table with
    | .unit => 62 ∉ ruleText rule ∧ 60 ∉ ruleText rule ∧ w = ruleText rule ∧ w ≠ [] ∧ w ≠ u!"ERROR" ∧ n = number ∧ number ≤ 9
    | .direct => 62 ∉ ruleText rule ∧ 60 ∉ ruleText rule ∧ w = ruleText rule ∧ w ≠ [] ∧ w ≠ u!"ERROR" ∧ n = number ∧
        10 ≤ number ∧ number ≤ 99
    | .tens => (ruleText rule).count 62 = 2 ∧ 60 ∉ ruleText rule ∧ RootWord (ruleText rule) w ∧ w ≠ [] ∧ n = number ∧
        Zeros number 1 ∧ ¬ StartsWithOne number
    | .hundreds => (ruleText rule).count 62 = 2 ∧ 60 ∉ ruleText rule ∧ RootWord (ruleText rule) w ∧ w ≠ [] ∧ n = number ∧
        Zeros number 2 ∧ ¬ StartsWithOne number
    | .big => (ruleText rule).count 62 = 2 ∧ (ruleText rule).count 60 = 2 ∧
        ∃ part k, AfterLast 60 (ruleText rule) (32 :: part) ∧ Zeros number k ∧ 2 ≤ k ∧ n = 10 ^ k ∧
          (36 ∈ part → ∃ ws, Brackets part ws ∧ w ∈ ws) ∧ (36 ∉ part → RootWord (32 :: part) w)

/-- `n` is the number `v` without its fraction: rounded towards zero. -/
def Truncated (v : JNum) (n : Int) : Prop :=
  (0 ≤ v.num → n * 2 ^ v.exp ≤ v.num ∧ v.num < (n + 1) * 2 ^ v.exp) ∧
  (v.num < 0 → (n - 1) * 2 ^ v.exp < v.num ∧ v.num ≤ n * 2 ^ v.exp)

/-- A multiple of ten whose tenth part is too large for a float. -/
def HugeNumber (n : Int) : Prop := n % 10 = 0 ∧ 10 * (2 ^ 1024 - 2 ^ 970) ≤ n

/-- A rule ends the generator with an exception: nothing stands after the last of two `<`, or the zeros of a huge number
would have to be counted. -/
def RuleFails (key rule : PyStr) : Prop :=
  ∃ number, IntegerText key number ∧ 61 ∉ ruleText rule ∧ (ruleText rule).count 62 = 2 ∧
    ((60 ∉ ruleText rule ∧ HugeNumber number) ∨
     ((ruleText rule).count 60 = 2 ∧
       (AfterLast 60 (ruleText rule) [] ∨ (HugeNumber number ∧ ∃ part, AfterLast 60 (ruleText rule) (32 :: part)))))

open Classical in
/-- The rules that are used, in the order of the file. -/
noncomputable def usedRules (sets : RuleSets) : List (PyStr × PyStr) :=
  (sets.filter (fun s => decide (UsedSet s.1))).flatMap (fun s => s.2)

end NumberParser.Spec
