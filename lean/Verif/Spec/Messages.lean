import Verif.Model.Messages
import Verif.Spec.Files

/-!
# Specification of the messages of the generator (C91)
-/

namespace NumberParser.Spec

open NumberParser NumberParser.Gen

/-- The message about a key -/
def keyText (key : PyStr) : PyStr := u!"The given key " ++ (key ++ u!" is not an integer")

/-- The key of a rule is an integer. -/
def IntegerKey (key : PyStr) : Prop := ∃ n, IntegerText key n

open Classical in
/-- One message for each rule whose key is not an integer, in the order of the rules -/
noncomputable def keyMessages (rules : List (PyStr × PyStr)) : List Message :=
  (rules.filter (fun r => decide (¬ IntegerKey r.1))).map (fun r => .printed (keyText r.1))

/-- The log entry for a source file without rules -/
def noRulesEntry (name : PyStr) : Message := .logged (u!"\"['rbnf']['rbnf']['SpelloutRules']\" doesn't exist in " ++ name)

/-- The log entry for a supplementary file without scale -/
def noScaleEntry (name : PyStr) : Message := .logged (u!"long_scale information missing in " ++ name)

/-- What is said about a language whose module is written, or which is left out -/
inductive Says : LangBytes → List Message → Prop where
  | special {f : LangBytes} : SpecialName f.name → Says f []
  | noRules {f : LangBytes} {data : Json} : ¬ SpecialName f.name → JsonFile f.source data → NoSpelloutRules data → Says f [noRulesEntry f.name]
  | scaled {f : LangBytes} {sets : RuleSets} {supp : Supplementary} {b : Bool} : ¬ SpecialName f.name → Holds f sets supp →
      supp.useLongScale = some b → Says f (keyMessages (usedRules sets))
  | unscaled {f : LangBytes} {sets : RuleSets} {supp : Supplementary} : ¬ SpecialName f.name → Holds f sets supp →
      supp.useLongScale = none → Says f (keyMessages (usedRules sets) ++ [noScaleEntry f.name])

/-- What is said about several languages, one after the other -/
inductive SaysAll : List LangBytes → List Message → Prop where
  | nil : SaysAll [] []
  | cons {f : LangBytes} {fs : List LangBytes} {m ms : List Message} : Says f m → SaysAll fs ms → SaysAll (f :: fs) (m ++ ms)

/-- Standard output takes the messages about all keys of a source file. -/
def Audible (c : Console) (f : LangBytes) : Prop :=
  ∀ data members name items key v, JsonFile f.source data → SpelloutRules data (.obj members) → (name, Json.obj items) ∈ members →
    UsedSet name → (key, v) ∈ items → ¬ IntegerKey key → c.takes (keyText key) = true

end NumberParser.Spec
