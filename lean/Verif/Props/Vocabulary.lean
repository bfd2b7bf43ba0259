import Verif.Proofs.VocabularyModules
import Verif.Props.Pipeline

/-!
# C80: the reading rules for any vocabulary

The rules by which number words are read (Spec/Reading) do not depend on the five languages of the parser: they hold for every data
module in which no word is listed in two classes.  Specification: Verif/Spec/Vocabulary.lean.
-/

namespace NumberParser.Props
open NumberParser Gen Spec

/-- **C80** With any sensible data module, `parse_number` gives the number `n` for a text (neither blank nor numeric) exactly if its
first token is no conjunction, all tokens are number words of the module, conjunctions and blanks, the words are read as `n` by the
rules, and `n` has at most 4300 digits. -/
theorem c80_reads (i : Info) (hi : Sensible i) (l s t : PyStr) (ts : List PyStr) (n : Nat) (hs : WordInput s)
    (ht : Tokens l (withoutApostrophes s) (t :: ts)) :
    parseNumberWith (mkLangData i) s l = .ok (some n) ↔
      form t ∉ i.skipTokens ∧ n < 10 ^ 4300 ∧ ∃ ws, OnlyWordsOf i (t :: ts) ws ∧ ReadAs i ws n :=
  parseNumberWith_reads hi hs ht n

/-- **C80** The data modules of the five languages are sensible. -/
theorem c80_supported (l : PyStr) (hl : l ∈ supported) : Sensible (file l) :=
  (supported_plain l hl).1.toSensible

/-- **C80** So are those of the other languages in the repository that the parser could load (those with a scale flag, see C50), if they were enabled, except the Polish one. -/
theorem c80_shipped (name : PyStr) (rules : RuleSets) (supp : Supplementary) (module : Output) (long : Bool)
    (h : (name, rules, supp, module) ∈ otherLanguages) (hl : module.useLongScale = some long) (hn : name ≠ u!"pl") :
    Sensible (tablesOf module long) :=
  (shipped_plain name rules supp module long h hl hn).1.toSensible

/-- The Portuguese data is one of them. -/
def portuguese : Info := tablesOf Sources.ptModule false

set_option maxRecDepth 100000 in
theorem sensible_portuguese : Sensible portuguese := sensibleB_sound (by decide +kernel)

set_option maxRecDepth 100000 in
/-- With it numbers would be read, ... -/
theorem c80_portuguese : [u!"Dois milhões trezentos mil duzentas vinte um", u!"DUAS MILHOES trezentas mil, vinte", u!"vinte dez", u!"dois cento"].map
    (fun s => parseNumberWith (mkLangData portuguese) s u!"pt") = [.ok (some 2300221), .ok none, .ok none, .ok none] := by decide +kernel

set_option maxRecDepth 100000 in
/-- ... by the rules. -/
example : ∃ ws, OnlyWordsOf portuguese [u!"Dois", u!" ", u!"milhões", u!" ", u!"trezentos", u!" ", u!"mil"] ws ∧ ReadAs portuguese ws 2300000 :=
  ((c80_reads portuguese sensible_portuguese u!"pt" u!"Dois milhões trezentos mil" _ _ 2300000
    ((wordInput_iff _).mpr (by decide +kernel)) ((tokens_iff _ _ _).mpr (by decide +kernel))).mp (by decide +kernel)).2.2

set_option maxRecDepth 100000 in
theorem polish_entries : otherLanguages.any (fun e => e.1 == u!"pl" && e.2.2.2.useLongScale == some true &&
    e.2.2.2.tables.unit.elem (u!"dziesięć", 1) && e.2.2.2.tables.direct.elem (u!"dziesięć", 10)) = true := by decide +kernel

/-- **C80** The Polish data lists the word for ten both as 1 and as 10. -/
theorem c80_polish : ∃ rules supp module, (u!"pl", rules, supp, module) ∈ otherLanguages ∧ module.useLongScale = some true ∧
    (u!"dziesięć", 1) ∈ module.tables.unit ∧ (u!"dziesięć", 10) ∈ module.tables.direct ∧ ¬ Sensible (tablesOf module true) := by
  obtain ⟨⟨name, rules, supp, module⟩, hm, h⟩ := List.any_eq_true.mp polish_entries
  simp only [Bool.and_eq_true, beq_iff_eq, List.elem_iff] at h
  obtain ⟨⟨⟨rfl, hl⟩, h1⟩, h10⟩ := h
  refine ⟨rules, supp, module, hm, hl, h1, h10, fun hs => ?_⟩
  have := hs.oneClass .unit .direct (stripAccents u!"dziesięć") ⟨_, List.mem_map.mpr ⟨_, h1, rfl⟩, rfl⟩ ⟨_, List.mem_map.mpr ⟨_, h10, rfl⟩, rfl⟩
  cases this

end NumberParser.Props
