import Verif.Model.Files
import Verif.Spec.Json
import Verif.Spec.Utf8
import Verif.Spec.Emit

/-!
# Specification of the generator on the level of files (C64, C66, C67, C68)

What the bytes of the two JSON files of a language mean, and which bytes its module has.
-/

namespace NumberParser.Spec

open NumberParser NumberParser.Gen

/-- The bytes are a JSON text in UTF-8, with the given value. -/
def JsonFile (bytes : Bytes) (v : Json) : Prop := ∃ s, Utf8 s bytes ∧ JsonText s v

/-- `data` is an object whose first member with name `k` has the value `v`.  (Objects of JSON files have no two members with
the same name.) -/
def Entry (data : Json) (k : PyStr) (v : Json) : Prop :=
  ∃ before after, data = .obj (before ++ (k, v) :: after) ∧ ∀ e ∈ before, e.1 ≠ k

/-- `data` is an object without a member of name `k`. -/
def Lacks (data : Json) (k : PyStr) : Prop := ∃ members, data = .obj members ∧ ∀ e ∈ members, e.1 ≠ k

/-- `v` is `data["rbnf"]["rbnf"]["SpelloutRules"]`. -/
def SpelloutRules (data v : Json) : Prop :=
  ∃ a b, Entry data u!"rbnf" a ∧ Entry a u!"rbnf" b ∧ Entry b u!"SpelloutRules" v

/-- One of the three keys is missing. -/
def NoSpelloutRules (data : Json) : Prop :=
  Lacks data u!"rbnf" ∨ ∃ a, Entry data u!"rbnf" a ∧ (Lacks a u!"rbnf" ∨ ∃ b, Entry a u!"rbnf" b ∧ Lacks b u!"SpelloutRules")

/-- The members of `SpelloutRules` are these rule sets: the sets that are used are objects whose values are strings.  Other
sets may be anything. -/
inductive RuleSetsOf : List (PyStr × Json) → RuleSets → Prop where
  | nil : RuleSetsOf [] []
  | used {name : PyStr} {rules : List (PyStr × PyStr)} {t : List (PyStr × Json)} {sets : RuleSets} : UsedSet name → RuleSetsOf t sets →
      RuleSetsOf ((name, .obj (rules.map (fun r => (r.1, .str r.2)))) :: t) ((name, rules) :: sets)
  | unused {name : PyStr} {v : Json} {t : List (PyStr × Json)} {sets : RuleSets} : ¬ UsedSet name → RuleSetsOf t sets →
      RuleSetsOf ((name, v) :: t) ((name, []) :: sets)

/-- The number of a JSON value: integers, finite floats, and booleans as 0 and 1 -/
inductive NumberOf : Json → JNum → Prop where
  | int (n : Int) : NumberOf (.int n) ⟨n, 0⟩
  | float (x : JNum) : NumberOf (.float (.fin x)) x
  | true : NumberOf (.bool true) ⟨1, 0⟩
  | false : NumberOf (.bool false) ⟨0, 0⟩

/-- The members of an object, all with numbers -/
inductive NumbersOf : List (PyStr × Json) → Table JNum → Prop where
  | nil : NumbersOf [] []
  | cons {w : PyStr} {v : Json} {x : JNum} {t : List (PyStr × Json)} {t' : Table JNum} : NumberOf v x → NumbersOf t t' →
      NumbersOf ((w, v) :: t) ((w, x) :: t')

/-- A list of strings; also the characters of a string, and the names of an object -/
inductive TokensOf : Json → List PyStr → Prop where
  | list (ts : List PyStr) : TokensOf (.arr (ts.map .str)) ts
  | characters (s : PyStr) : TokensOf (.str s) (s.map (fun c => [c]))
  | names (t : List (PyStr × Json)) : TokensOf (.obj t) (t.map (fun e => e.1))

/-- The names of the five tables in a file -/
def tableKey : TableName → PyStr
  | .unit => u!"UNIT_NUMBERS"
  | .direct => u!"DIRECT_NUMBERS"
  | .tens => u!"TENS"
  | .hundreds => u!"HUNDREDS"
  | .big => u!"BIG_POWERS_OF_TEN"

/-- The supplementary data that a JSON value stands for -/
def SupplementaryOf (data : Json) (supp : Supplementary) : Prop :=
  (∀ t, ∃ members, Entry data (tableKey t) (.obj members) ∧ NumbersOf members (theTable supp.tables t)) ∧
  (∃ v, Entry data u!"SKIP_TOKENS" v ∧ TokensOf v supp.skipTokens) ∧
  (match supp.useLongScale with
    | some b => Entry data u!"USE_LONG_SCALE" (.bool b)
    | none => Lacks data u!"USE_LONG_SCALE")

/-- The values of the supplementary data are usual: the tables are not lists or strings, and no number is written as a string; the
skip tokens, if a list, are strings; the scale, if there, is a boolean.  (They may still be missing, or be wrong in other ways.)  With
unusual values Python may raise an exception or write some other module; nothing is said about that. -/
def UsualData (data : Json) : Prop :=
  (∀ t v, Entry data (tableKey t) v → (∀ l, v ≠ .arr l) ∧ (∀ s, v ≠ .str s) ∧
    ∀ members, v = .obj members → ∀ e ∈ members, ∀ s, e.2 ≠ .str s) ∧
  (∀ l, Entry data u!"SKIP_TOKENS" (.arr l) → ∀ x ∈ l, ∃ s, x = .str s) ∧
  (∀ v, Entry data u!"USE_LONG_SCALE" v → ∃ b, v = .bool b)

/-- The supplementary file of a language, if it is there and JSON, has usual values. -/
def Usual (f : LangBytes) : Prop := ∀ bytes data, f.supplementary = some bytes → JsonFile bytes data → UsualData data

/-- The name of the source file is one of the two that are passed over. -/
def SpecialName (name : PyStr) : Prop := name = u!"root.json" ∨ name = u!"es-419.json"

/-- The source file is left out: it has a special name, or its JSON value has no spellout rules. -/
def LeftOutBytes (f : LangBytes) : Prop := SpecialName f.name ∨ ∃ data, JsonFile f.source data ∧ NoSpelloutRules data

/-- The two files of a language hold these rule sets and this supplementary data. -/
def Holds (f : LangBytes) (sets : RuleSets) (supp : Supplementary) : Prop :=
  ∃ data members bytes data', JsonFile f.source data ∧ SpelloutRules data (.obj members) ∧ RuleSetsOf members sets ∧
    f.supplementary = some bytes ∧ JsonFile bytes data' ∧ SupplementaryOf data' supp

/-- `text` is the module of a language. -/
def ModuleOf (f : LangBytes) (text : PyStr) : Prop :=
  ¬ SpecialName f.name ∧ ∃ sets supp out, Holds f sets supp ∧ generate sets supp = .ok out ∧ text = emit out

/-- The text has no UTF-8 form: it has a lone surrogate. -/
def Unencodable (text : PyStr) : Prop := ¬ ∃ bytes, Utf8 text bytes

/-- `bytes` are the module of a language, in UTF-8. -/
def ModuleBytes (f : LangBytes) (bytes : Bytes) : Prop := ∃ text, ModuleOf f text ∧ Utf8 text bytes

/-- A source file ends the run: it is not left out, and there are no bytes for its module (something is missing, is not JSON, has
the wrong type, cannot be encoded, or a rule fails). -/
def FailsBytes (f : LangBytes) : Prop := ¬ LeftOutBytes f ∧ ¬ ∃ bytes, ModuleBytes f bytes

/-- No two source files have the same target. -/
def DistinctTargetsBytes (fs : List LangBytes) : Prop := (fs.map (fun f => moduleFile f.name)).Nodup

end NumberParser.Spec
