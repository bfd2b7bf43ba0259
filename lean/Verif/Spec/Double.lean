import Verif.Model.Json

/-!
# Rounding to doubles (IEEE 754)

All doubles are multiples of `2 ^ -1074`, so they are described by natural numbers, in units of `2 ^ -1074`.
-/

namespace NumberParser.Spec

open NumberParser NumberParser.Gen

/-- Numbers with a significand of 53 bits (the exponent has no upper bound) -/
def Bits53 (u : Nat) : Prop := ∃ n k, n < 2 ^ 53 ∧ u = n * 2 ^ k

/-- Such a number whose last bit is zero, the significand having its full length (or the exponent being the smallest one) -/
def LastBitZero (u : Nat) : Prop := ∃ n k, n < 2 ^ 53 ∧ (2 ^ 52 ≤ n ∨ k = 0) ∧ n % 2 = 0 ∧ u = n * 2 ^ k

/-- Distance of two natural numbers -/
def distance (a b : Nat) : Nat := (a - b) + (b - a)

/-- `u` units are nearest to `p / q` among the numbers with 53 bits; of two that are equally near, the one whose last bit is
zero is taken. -/
def RoundsTo (p q u : Nat) : Prop :=
  Bits53 u ∧ ∀ u', Bits53 u' → distance (p * 2 ^ 1074) (u * q) ≤ distance (p * 2 ^ 1074) (u' * q) ∧
    (distance (p * 2 ^ 1074) (u * q) = distance (p * 2 ^ 1074) (u' * q) → u' ≠ u → LastBitZero u)

/-- `x` is the double for `p / q`: infinite if the rounded number is `2 ^ 1024` or more. -/
def DoubleOf (p q : Nat) (x : JFloat) : Prop :=
  ∃ u, RoundsTo p q u ∧
    ((u < 2 ^ 1024 * 2 ^ 1074 ∧ ∃ n e, x = .fin ⟨(n : Nat), e⟩ ∧ n * 2 ^ 1074 = u * 2 ^ e ∧ (e = 0 ∨ n % 2 = 1)) ∨
     (2 ^ 1024 * 2 ^ 1074 ≤ u ∧ x = .inf false))

end NumberParser.Spec
