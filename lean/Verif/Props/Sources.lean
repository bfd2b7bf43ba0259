import Verif.Proofs.SourceA
import Verif.Proofs.SourceB
import Verif.Proofs.SourceC
import Verif.Proofs.SourceD
import Verif.Proofs.SourceE
import Verif.Proofs.SourceF
/-!
# C50, for the languages that the parser does not enable

The repository has data for 83 languages, of which the parser enables five. `Props/Generator` proves C50 for those five; here are
the other 78: each data module in `number_parser/data` is what the generator makes of that language's rule file and supplementary
file. Together with `c50_ukrainian_drift`: of the 83 data modules only the Ukrainian one has been edited by hand.
-/

namespace NumberParser.Props
open NumberParser Gen Sources

/-- The languages with a rule file and a data module that are not enabled: the name, the rules, the supplementary file, the data
module (`number_parser_data/raw_cldr_translation_data`, `number_parser_data/supplementary_translation_data`,
`number_parser/data`) -/
def otherLanguages : List (PyStr × RuleSets × Supplementary × Output) := partA ++ partB ++ partC ++ partD ++ partE ++ partF

/-- **C50.** Regeneration is the identity on each of them. -/
theorem c50_other_languages (name : PyStr) (rules : RuleSets) (supp : Supplementary) (module : Output)
    (h : (name, rules, supp, module) ∈ otherLanguages) : generate rules supp = .ok module := by
  have key : ∀ l : List (PyStr × RuleSets × Supplementary × Output),
      l.all (fun e => decide (generate e.2.1 e.2.2.1 = .ok e.2.2.2)) = true → (name, rules, supp, module) ∈ l →
      generate rules supp = .ok module := fun l hl hm => by
    simpa using List.all_eq_true.mp hl _ hm
  simp only [otherLanguages, List.mem_append] at h
  rcases h with ((((h | h) | h) | h) | h) | h
  · exact key _ partA_generated h
  · exact key _ partB_generated h
  · exact key _ partC_generated h
  · exact key _ partD_generated h
  · exact key _ partE_generated h
  · exact key _ partF_generated h

set_option maxRecDepth 100000 in
/-- Which languages these are: 78 different names. -/
theorem c50_other_names : otherLanguages.map (·.1) = [
  u!"af", u!"ak", u!"am", u!"ar", u!"az", u!"be", u!"bg", u!"bs", u!"ca", u!"ccp", u!"chr", u!"cs", u!"cy", u!"da", u!"de",
  u!"de-CH", u!"ee", u!"el", u!"en-IN", u!"eo", u!"et", u!"fa", u!"fa-AF", u!"ff", u!"fi", u!"fil", u!"fo", u!"fr",
  u!"fr-BE", u!"fr-CH", u!"ga", u!"he", u!"hr", u!"hu", u!"hy", u!"id", u!"is", u!"it", u!"ja", u!"ka", u!"kl", u!"km",
  u!"ko", u!"ky", u!"lb", u!"lo", u!"lrc", u!"lt", u!"lv", u!"mk", u!"ms", u!"mt", u!"my", u!"nb", u!"nl", u!"nn", u!"pl",
  u!"pt", u!"pt-PT", u!"qu", u!"ro", u!"se", u!"sk", u!"sl", u!"sq", u!"sr", u!"sr-Latn", u!"su", u!"sv", u!"sw", u!"ta",
  u!"th", u!"tr", u!"vi", u!"yue", u!"yue-Hans", u!"zh", u!"zh-Hant"] ∧ otherLanguages.length = 78 := by
  decide +kernel

set_option maxRecDepth 100000 in
/-- The languages whose data module has no `USE_LONG_SCALE` entry. Constructing `LanguageData` for one of them would raise a
`KeyError`, so that they cannot be enabled by adding their name to the list of supported languages. -/
theorem c50_without_scale : (otherLanguages.filter (fun e => e.2.2.2.useLongScale.isNone)).map (·.1) = [
  u!"ccp", u!"el", u!"ja", u!"km", u!"lo", u!"ta", u!"th", u!"vi", u!"yue", u!"yue-Hans", u!"zh", u!"zh-Hant"] := by
  decide +kernel

end NumberParser.Props
