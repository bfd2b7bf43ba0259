import Verif.Spec.Sentence

/-!
# Specification: numbers one after another

When is the spelling of `m`, followed by that of `n`, still understood as two numbers?  Only the last word of `m` and
the first word of `n` matter (with one exception, Spanish "mil"), which are given here by arithmetic.
-/

namespace NumberParser.Spec
open NumberParser

/-- The leading digit of `n` in base `b`: the group of digits that is spelled first. -/
def lead (b n : Nat) : Nat := if _h : n < b ∨ b < 2 then n else lead b (n / b)
termination_by n
decreasing_by exact Nat.div_lt_self (by omega) (by omega)

/-- English: `m` ends with a word for a number from 0 to 19 (not 0 of course if there are other words), or with a word
like "twenty" and `n` begins with a word for a number from 10 to 90. -/
def apartEn (m n : Nat) : Prop :=
  m = 0 ∨ m % 10 ≠ 0 ∨ m % 100 = 10 ∨ (m % 100 ≠ 0 ∧ 10 ≤ lead 1000 n ∧ lead 1000 n < 100)

/-- Hindi: `m` does not end with सौ or another scale word. -/
def apartHi (m : Nat) : Prop := m = 0 ∨ m % 100 ≠ 0

/-- Russian and Ukrainian: as English, but there are words for the hundreds: `n` may begin with such a word if `m` does
not end with a scale word. -/
def apartSlavic (m n : Nat) : Prop :=
  m = 0 ∨ m % 10 ≠ 0 ∨ m % 100 = 10 ∨ (m % 100 ≠ 0 ∧ 10 ≤ lead 1000 n) ∨ (m % 1000 ≠ 0 ∧ 100 ≤ lead 1000 n)

/-- Spanish: `n` begins with the word "mil" if its leading six digits are 1000 to 1999; this word continues `m` unless the
last six digits of `m` are greater than 1000.  Otherwise as in Russian, with 20 ("veinte") in place of 10 as well. -/
def apartEs (m n : Nat) : Prop :=
  if lead 1000000 n / 1000 = 1 then 1000 < m % 1000000
  else m = 0 ∨ m % 10 ≠ 0 ∨ m % 100 = 10 ∨ m % 100 = 20 ∨ (m % 100 ≠ 0 ∧ 10 ≤ lead 1000 (lead 1000000 n)) ∨
    (m % 1000 ≠ 0 ∧ 100 ≤ lead 1000 (lead 1000000 n))

/-- `m` followed by `n` is understood as two numbers. -/
def Apart (l : PyStr) (m n : Nat) : Prop :=
  if l = u!"en" then apartEn m n
  else if l = u!"es" then apartEs m n
  else if l = u!"hi" then apartHi m
  else apartSlavic m n

/-- Every number is apart from the next one. -/
def NeighboursApart (l : PyStr) : List Nat → Prop
  | [] => True
  | [_] => True
  | m :: n :: ns => Apart l m n ∧ NeighboursApart l (n :: ns)

end NumberParser.Spec
