import Verif.Model.Parser
import Verif.Model.Emit

/-!
# Model of the parser on another data module

`Model/Parser` has the data modules of the repository built in.  Here the parser reads the module from its text, as
`import_module` does, so that the module can be one that the generator has just written.
-/

namespace NumberParser
open Gen

/-- `language_info[key]` for a table, parser.py:26-30; `none`: there is no such key (`KeyError`).
Simplification: also `none` if a value is negative (the tables of the model of the parser have natural numbers). -/
def infoTable (d : Table Val) (key : PyStr) : Option Dict :=
  match Table.get? d key with
  | some (.table t) => if t.all (fun e => decide (0 ≤ e.2)) then some (t.map (fun e => (e.1, e.2.toNat))) else none
  | _ => none

/-- The `info` dictionary of a module with this text, as far as `LanguageData.__init__` reads it, parser.py:25-41;
`none`: importing the module or one of the accesses `language_info[...]` raises an exception. -/
def moduleInfo (text : PyStr) : Option Info := do
  let d ← importText text
  let unit ← infoTable d u!"UNIT_NUMBERS"
  let direct ← infoTable d u!"DIRECT_NUMBERS"
  let tens ← infoTable d u!"TENS"
  let hundreds ← infoTable d u!"HUNDREDS"
  let big ← infoTable d u!"BIG_POWERS_OF_TEN"
  let skip ← match Table.get? d u!"SKIP_TOKENS" with | some (.list l) => some l | _ => none
  let long ← match Table.get? d u!"USE_LONG_SCALE" with | some (.flag b) => some b | _ => none
  return ⟨unit, direct, tens, hundreds, big, skip, long⟩

/-- `parse_number(input, language)` where `LanguageData(language)` is `ld`, parser.py:295-324 -/
def parseNumberWith (ld : LangData) (input language : PyStr) : Res (Option Nat) :=
  if blank input then .ok none
  else if isNumeric (strip input) then do
    let n ← pyInt input
    return some n
  else do
    let input := replace input u!"'" []
    let input := replace input u!"’" []
    let tokens := normalizeTokens (tokenize input language)
    if tokensOk ld 0 tokens then
      let built ← buildNumber ld tokens
      match built with
      | [s] => do
        let n ← pyInt s
        return some n
      | _ => return none
    else return none

/-- `parse_ordinal(input, language)` where `LanguageData(language)` is `ld`, parser.py:280-292 -/
def parseOrdinalWith (ld : LangData) (input language : PyStr) : Res (Option Nat) :=
  let tokens := normalizeTokens (tokenize input language)
  let processed := tokens.map (fun t => applyCardinalConversion t ld)
  parseNumberWith ld (join u!" " processed) language

/-- `parse(input, language)` where `LanguageData(language)` is `ld`, parser.py:356-426 -/
def parseWith (ld : LangData) (input language : PyStr) : Res PyStr := do
  let raw ← parseRaw ld (tokenize input language)
  return strip raw

end NumberParser
