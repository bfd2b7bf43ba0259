import Verif.Spec.Number

/-!
# Specification: what a data module says about a word
-/

namespace NumberParser.Spec
open NumberParser

/-- The table lists a word that is `f` when its accents are removed (not lower-cased: the words of the tables have to be in
small letters). -/
def Lists (t : List (PyStr × Nat)) (f : PyStr) : Prop := ∃ e ∈ t, stripAccents e.1 = f

/-- The last such entry has the value `v`. -/
def LastEntry (t : List (PyStr × Nat)) (f : PyStr) (v : Nat) : Prop :=
  ∃ a w b, t = a ++ (w, v) :: b ∧ stripAccents w = f ∧ ¬ Lists b f

/-- The value of `f` in a data module: the last entry of the first of the tables DIRECT_NUMBERS, UNIT_NUMBERS, TENS, HUNDREDS,
BIG_POWERS_OF_TEN that lists it. -/
def Means (i : Info) (f : PyStr) (v : Nat) : Prop :=
  ∃ earlier t later, [i.directNumbers, i.unitNumbers, i.tens, i.hundreds, i.bigPowersOfTen] = earlier ++ t :: later ∧
    LastEntry t f v ∧ ∀ t' ∈ earlier, ¬ Lists t' f

/-- No table of the module lists `f`. -/
def MeansNothing (i : Info) (f : PyStr) : Prop :=
  ∀ t ∈ [i.directNumbers, i.unitNumbers, i.tens, i.hundreds, i.bigPowersOfTen], ¬ Lists t f

end NumberParser.Spec
