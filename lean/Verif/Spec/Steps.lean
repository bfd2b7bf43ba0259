import Verif.Spec.Package

/-!
# Specification: how much work a call does

Work is counted in iterations of the loops in the source (Model/Steps).  It is compared with the length of the text in characters and
with the size of the data modules.
-/

namespace NumberParser.Spec
open NumberParser

/-- The size of a table: its entries, and four times the characters of its words. -/
def tableSize (d : Dict) : Nat := (d.map (fun e => 1 + 4 * e.1.length)).sum

/-- The size of a module: of the five tables of number words. -/
def moduleSize (i : Info) : Nat :=
  tableSize i.unitNumbers + tableSize i.directNumbers + tableSize i.tens + tableSize i.hundreds + tableSize i.bigPowersOfTen

/-- The size of all modules -/
def packageSize (p : Package) : Nat := (p.map (fun e => moduleSize e.2)).sum

/-- The most work that finding the language takes, for a text of `n` characters: none if the language is given. -/
def detectionWork (p : Package) (n : Nat) : Option PyStr → Nat
  | some _ => 0
  | none => packageSize p + p.length * (22 * n + 10)

end NumberParser.Spec
