import Verif.Props.Vocabulary

/-!
# C81: how a text is converted, with any vocabulary

The rules by which `parse` converts a text (C55) do not depend on the five languages of the parser.  Specification:
Verif/Spec/VocabularyText.lean.
-/

namespace NumberParser.Props
open NumberParser Gen Spec

/-- **C81** With any tidy data module, whatever `parse` returns is the text converted by the rules, without white space at the ends. -/
theorem c81_converts (i : Info) (hi : Tidy i) (l s : PyStr) (ts : List PyStr) (hts : Tokens l s ts) (out : PyStr)
    (h : parseWith (mkLangData i) s l = .ok out) : ∃ raw, ConvertedOf i ts raw ∧ out = strip raw :=
  parseWith_of hi hts h

/-- **C81** It always returns, if the values are moderate. -/
theorem c81_exact (i : Info) (hi : Tidy i) (hm : Moderate i) (l s : PyStr) (ts : List PyStr) (hts : Tokens l s ts) (out : PyStr) :
    parseWith (mkLangData i) s l = .ok out ↔ ∃ raw, ConvertedOf i ts raw ∧ out = strip raw :=
  parseWith_moderate hi hm hts out

/-- **C81** The rules convert every text, in exactly one way. -/
theorem c81_total (i : Info) (hi : Tidy i) (ts : List PyStr) : ∃ raw, ConvertedOf i ts raw ∧ ∀ raw', ConvertedOf i ts raw' → raw' = raw := by
  obtain ⟨raw, h⟩ := converted_existsOf hi ts
  exact ⟨raw, h, fun raw' h' => converted_uniqueOf hi h' h⟩

/-- With the data of a supported language, this is `parse` itself. -/
theorem c81_repository (l : PyStr) (hl : l ∈ supported) (s : PyStr) : parse s (some l) = parseWith (mkLangData (file l)) s l := by
  unfold parse parseWith
  simp only [resolveLanguage, supported_data hl, bind, Except.bind, pure, Except.pure]

/-- **C81** The data modules of the five languages are tidy and moderate. -/
theorem c81_supported (l : PyStr) (hl : l ∈ supported) : Tidy (file l) ∧ Moderate (file l) :=
  ⟨(supported_plain l hl).1.toTidy, (supported_plain l hl).2⟩

/-- **C81** So are those of the other languages in the repository that the parser could load, except the Polish one. -/
theorem c81_shipped (name : PyStr) (rules : RuleSets) (supp : Supplementary) (module : Output) (long : Bool)
    (h : (name, rules, supp, module) ∈ otherLanguages) (hl : module.useLongScale = some long) (hn : name ≠ u!"pl") :
    Tidy (tablesOf module long) ∧ Moderate (tablesOf module long) :=
  ⟨(shipped_plain name rules supp module long h hl hn).1.toTidy, (shipped_plain name rules supp module long h hl hn).2⟩

set_option maxRecDepth 100000 in
theorem tidy_portuguese : Tidy portuguese ∧ Moderate portuguese := by
  have : (tidyB portuguese && moderateB portuguese) = true := by decide +kernel
  rw [Bool.and_eq_true] at this
  exact ⟨tidyB_sound this.1, moderateB_sound this.2⟩

set_option maxRecDepth 100000 in
/-- With the Portuguese data texts would be converted, ... -/
theorem c81_portuguese : parseWith (mkLangData portuguese) u!"Tenho dois mil trezentos livros, vinte dez. Três" u!"pt" =
    .ok u!"Tenho 2300 livros, 20 10. 3" := by decide +kernel

set_option maxRecDepth 100000 in
/-- ... by the rules. -/
example : ∃ raw, ConvertedOf portuguese [u!"Tenho", u!" ", u!"dois", u!" ", u!"mil", u!" ", u!"livros"] raw ∧ u!"Tenho 2000 livros" = strip raw :=
  (c81_exact portuguese tidy_portuguese.1 tidy_portuguese.2 u!"pt" u!"Tenho dois mil livros" _ ((tokens_iff _ _ _).mpr (by decide +kernel)) _).mp
    (by decide +kernel)

/-- A module with words ending in "th" and "ieth" -/
def thVocabulary : Info := ⟨[(u!"ba", 1), (u!"bath", 2), (u!"cy", 3), (u!"dieth", 4)], [], [], [], [], [u!"et"], false⟩

set_option maxRecDepth 100000 in
/-- It is tidy, and ordinals stand for the right cardinals. -/
example : Tidy thVocabulary ∧ Moderate thVocabulary ∧
    parseWith (mkLangData thVocabulary) u!"Ba; bath, bathth, cieth, dieth, DIETHTH et eth" u!"xx" = .ok u!"1 ; 2, 2, 3, 4, 4 et eth" :=
  ⟨tidyB_sound (by decide +kernel), moderateB_sound (by decide +kernel), by decide +kernel⟩

end NumberParser.Props
