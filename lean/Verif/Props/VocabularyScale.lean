import Verif.Props.VocabularyWords
import Verif.Spec.VocabularyScale

/-!
# C103: the switch for the long scale

`USE_LONG_SCALE` matters only for texts with a scale word greater than 100 and up to 10000 (as "thousand").
Specification: Verif/Spec/VocabularyScale.lean.
-/

namespace NumberParser.Props
open NumberParser Spec

theorem switched_same {K : PyStr → Prop} {i : Info} (h : ∀ w, K w → ¬ Between i w) : SameAbout K i (switched i) where
  scale := Or.inr fun w v hw hv => by
    have := h w hw
    apply Classical.byContradiction
    intro hn
    exact this ⟨v, hv, by omega, by omega⟩
  words _ _ := ⟨fun k v => by cases k <;> exact Iff.rfl, Iff.rfl⟩

section
variable (p q : Package) (hp : Distinct p) (hq : Distinct q) (l : PyStr) (i : Info) (hi : (l, i) ∈ p) (hj : (l, switched i) ∈ q) (s : PyStr)
include hp hq hi hj

/-- **C103** `parse` gives the same with both settings, for a text that has no such scale word and no ordinal of one. -/
theorem c103_parse (h : ∀ w, CardinalIn l s w → ¬ Between i w) : parseIn p s (some l) = parseIn q s (some l) :=
  c102_parse p q hp hq l _ _ hi hj s (switched_same h)

/-- **C103** So does `parse_number`, for a text that has no such scale word. -/
theorem c103_number (h : ∀ w, WordIn l (withoutApostrophes s) w → ¬ Between i w) : parseNumberIn p s (some l) = parseNumberIn q s (some l) :=
  c102_number p q hp hq l _ _ hi hj s (switched_same h)

/-- **C103** So does `parse_ordinal`, if the text with cardinals for its ordinals has none, either. -/
theorem c103_ordinal (h : ∀ w, CardinalIn l s w → ¬ Between i w)
    (h' : ∀ u w, Rewritten l s u → WordIn l (withoutApostrophes u) w → ¬ Between i w) : parseOrdinalIn p s (some l) = parseOrdinalIn q s (some l) :=
  c102_ordinal p q hp hq l _ _ hi hj s (switched_same h) fun u hu => switched_same fun w => h' u w hu

/-- **C103** So does `parse_fraction`, if the two sides have none. -/
theorem c103_fraction (h : ∀ x y w, FractionParts s x y → WordIn l (withoutApostrophes x) w ∨ WordIn l (withoutApostrophes y) w → ¬ Between i w) :
    parseFractionIn p s (some l) = parseFractionIn q s (some l) :=
  c102_fraction p q hp hq l _ _ hi hj s fun x y hxy =>
    ⟨switched_same fun w hw => h x y w hxy (Or.inl hw), switched_same fun w hw => h x y w hxy (Or.inr hw)⟩

/-- **C103** If the module has no such scale word, the switch does not matter for any text. -/
theorem c103_no_word (h : ∀ w, ¬ Between i w) : SameResults p q s (some l) :=
  c102_named p q hp hq l _ _ hi hj s ⟨switched_same fun w _ => h w, switched_same fun w _ => h w, fun _ _ => switched_same fun w _ => h w,
    fun _ _ _ => ⟨switched_same fun w _ => h w, switched_same fun w _ => h w⟩⟩

end

/-- **C103** ... with or without a language argument, if this holds for the modules that are switched. -/
theorem c103_none (p q : Package) (hp : Distinct p) (hq : Distinct q) (hn : p.map Prod.fst = q.map Prod.fst) (s : PyStr)
    (h : ∀ l i j, (l, i) ∈ p → (l, j) ∈ q → j = i ∨ j = switched i ∧ ∀ w, ¬ Between i w) : SameResults p q s none := by
  refine c102_none p q hp hq hn s fun l i j hi hj => ?_
  rcases h l i j hi hj with rfl | ⟨rfl, h⟩
  · have all : ∀ K, SameAbout K j j := fun K => ⟨Or.inl rfl, fun w _ => ⟨fun k v => Iff.rfl, Iff.rfl⟩⟩
    exact ⟨all _, all _, fun _ _ => all _, fun _ _ _ => ⟨all _, all _⟩⟩
  · exact ⟨switched_same fun w _ => h w, switched_same fun w _ => h w, fun _ _ => switched_same fun w _ => h w,
      fun _ _ _ => ⟨switched_same fun w _ => h w, switched_same fun w _ => h w⟩⟩

/-- A word of a sentence is none of these words. -/
theorem not_between {l s : PyStr} {i : Info} (h : i.bigPowersOfTen.all (fun e => decide (e.2 ≤ 100 ∨ 10000 < e.2) ||
      (tokenize s l).all (fun t => [form t, irregular (form t), subEnd u!"ieth" u!"y" (irregular (form t)),
        subEnd u!"th" [] (irregular (form t))].all (fun x => x != stripAccents e.1))) = true) : ∀ w, CardinalIn l s w → ¬ Between i w := by
  rintro w hw ⟨v, ⟨a, e, b, he, hf, _⟩, h1, h2⟩
  have := List.all_eq_true.mp h (e, v) (by rw [show i.bigPowersOfTen = _ from he]; simp)
  rw [Bool.or_eq_true] at this
  rcases this with h3 | h3
  · have : v ≤ 100 ∨ 10000 < v := by simpa using h3
    omega
  · exact not_cardinalIn h3 (by rw [show stripAccents e = w from hf]; exact hw)

set_option maxRecDepth 100000 in
/-- For example, Spanish could use the short scale for this sentence, ... -/
example : parseIn [(u!"es", switched (file u!"es"))] u!"Dos millones trescientos veintidós gatos" (some u!"es") =
    parse u!"Dos millones trescientos veintidós gatos" (some u!"es") := by
  rw [← (c82_repository _ _).1]
  exact (c103_parse repository [(u!"es", switched (file u!"es"))] repository_distinct (by unfold Distinct; decide) u!"es" (file u!"es")
    (repository_mem (by decide +kernel)) (List.mem_singleton.mpr rfl) _ (not_between (by decide +kernel))).symm

set_option maxRecDepth 100000 in
/-- **C103** ... but not for these, nor English the long scale. -/
theorem c103_example :
    [u!"un billón dos mil millones", u!"mil mil", u!"mil dos"].map (fun s => (parse s (some u!"es"), parseIn [(u!"es", switched (file u!"es"))] s (some u!"es"))) =
      [(.ok u!"1002000000000", .ok u!"1000000002000 1000000"), (.ok u!"1000000", .ok u!"1000 1000"), (.ok u!"1002", .ok u!"1002")] ∧
    [u!"one million two thousand three hundred", u!"one million two thousand three"].map
        (fun s => (parse s (some u!"en"), parseIn [(u!"en", switched (file u!"en"))] s (some u!"en"))) =
      [(.ok u!"1002300", .ok u!"1002003 100"), (.ok u!"1002003", .ok u!"1002003")] := by
  constructor <;> decide +kernel

/-- **C103** Each of the five languages has such a word, so the condition on the text cannot be dropped. -/
theorem c103_supported (l : PyStr) (hl : l ∈ supported) : ∃ w, Between (file l) w := by
  have h : ∀ l ∈ supported, ∃ e ∈ (file l).bigPowersOfTen, 100 < e.2 ∧ e.2 ≤ 10000 ∧
      ((file l).bigPowersOfTen.map (fun e => stripAccents e.1)).Nodup := by decide +kernel
  obtain ⟨⟨w, v⟩, he, h1, h2, hn⟩ := h l hl
  exact ⟨_, v, (last_of_nodup hn _ _).mpr ⟨w, he, rfl⟩, h1, h2⟩

end NumberParser.Props
