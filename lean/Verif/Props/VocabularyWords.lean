import Verif.Proofs.VocabularyWords
import Verif.Props.VocabularyAgreement

/-!
# C102: changing single words of a language

What a call gives depends only on what the modules say about the words of the text, and about the cardinals the words of the text could be
the ordinals of; there is no condition on the modules.  Specification: Verif/Spec/VocabularyWords.lean.
-/

namespace NumberParser.Props
open NumberParser Spec

theorem reordered_read {i j : Info} (h : Reordered i j) (l s : PyStr) : SameAsRead l s i j := by
  have all : ∀ K, SameAbout K i j := fun K => ⟨Or.inl h.scale.symm, fun w _ => ⟨fun k v => by
    have hn : ((tableOf j k).map (fun e => stripAccents e.1)).Nodup := ((h.tables k).map _).nodup_iff.mp (h.once k)
    rw [last_of_nodup (h.once k), last_of_nodup hn]
    simp only [(h.tables k).mem_iff], h.skipTokens w⟩⟩
  exact ⟨all _, all _, fun _ _ => all _, fun _ _ _ => ⟨all _, all _⟩⟩

section
variable (p q : Package) (hp : Distinct p) (hq : Distinct q) (l : PyStr) (i j : Info) (hi : (l, i) ∈ p) (hj : (l, j) ∈ q) (s : PyStr)
include hp hq hi hj

/-- **C102** `parse`: the modules may differ about all words that are no word of the text and no cardinal one of them could be the
ordinal of. -/
theorem c102_parse (h : SameAbout (CardinalIn l s) i j) : parseIn p s (some l) = parseIn q s (some l) :=
  parseIn_words (languageDataIn_mem hp hi) (languageDataIn_mem hq hj) s h

/-- **C102** `parse_number`: about all that are no words of the text. -/
theorem c102_number (h : SameAbout (WordIn l (withoutApostrophes s)) i j) : parseNumberIn p s (some l) = parseNumberIn q s (some l) :=
  parseNumberIn_words (languageDataIn_mem hp hi) (languageDataIn_mem hq hj) s h

/-- **C102** `parse_ordinal`: about all that are no words of the text with cardinals for its ordinals, either. -/
theorem c102_ordinal (h : SameAbout (CardinalIn l s) i j) (h' : ∀ u, Rewritten l s u → SameAbout (WordIn l (withoutApostrophes u)) i j) :
    parseOrdinalIn p s (some l) = parseOrdinalIn q s (some l) :=
  parseOrdinalIn_words (languageDataIn_mem hp hi) (languageDataIn_mem hq hj) s h h'

/-- **C102** `parse_fraction`: about all that are no words of the two sides. -/
theorem c102_fraction (h : ∀ x y, FractionParts s x y →
      SameAbout (WordIn l (withoutApostrophes x)) i j ∧ SameAbout (WordIn l (withoutApostrophes y)) i j) :
    parseFractionIn p s (some l) = parseFractionIn q s (some l) :=
  parseFractionIn_words (languageDataIn_mem hp hi) (languageDataIn_mem hq hj) s h

/-- **C102** All four, ... -/
theorem c102_named (h : SameAsRead l s i j) : SameResults p q s (some l) :=
  ⟨c102_parse p q hp hq l i j hi hj s h.text, c102_number p q hp hq l i j hi hj s h.number,
    c102_ordinal p q hp hq l i j hi hj s h.text h.ordinal, c102_fraction p q hp hq l i j hi hj s h.fraction⟩

/-- **C102** One more word does not matter for texts without it: `parse` ... -/
theorem c102_added (w : PyStr) (h : AddsWord i j w) (hs : ¬ CardinalIn l s w) : parseIn p s (some l) = parseIn q s (some l) := by
  refine c102_parse p q hp hq l i j hi hj s ⟨Or.inl h.scale.symm, fun f hf => ⟨fun k v => ?_, by rw [h.skipTokens]⟩⟩
  rcases h.tables k with e | ⟨e, he, ht⟩
  · rw [e]
  · rw [ht]
    refine (last_append (fun hw => hs ?_) v).symm
    rw [he] at hw
    rw [hw]; exact hf

/-- **C102** ... and `parse_number`. -/
theorem c102_added_number (w : PyStr) (h : AddsWord i j w) (hs : ¬ WordIn l (withoutApostrophes s) w) :
    parseNumberIn p s (some l) = parseNumberIn q s (some l) := by
  refine c102_number p q hp hq l i j hi hj s ⟨Or.inl h.scale.symm, fun f hf => ⟨fun k v => ?_, by rw [h.skipTokens]⟩⟩
  rcases h.tables k with e | ⟨e, he, ht⟩
  · rw [e]
  · rw [ht]
    refine (last_append (fun hw => hs ?_) v).symm
    rw [he] at hw
    rw [hw]; exact hf

/-- **C102** The order of the entries and of the conjunctions does not matter for any text. -/
theorem c102_order (h : Reordered i j) : SameResults p q s (some l) :=
  c102_named p q hp hq l i j hi hj s (reordered_read h l s)

end

/-- **C102** ... without a language argument, too, when this holds for all languages. -/
theorem c102_none (p q : Package) (hp : Distinct p) (hq : Distinct q) (hn : p.map Prod.fst = q.map Prod.fst) (s : PyStr)
    (h : ∀ l i j, (l, i) ∈ p → (l, j) ∈ q → SameAsRead l s i j) : SameResults p q s none := by
  have both : ∀ l ∈ p.map Prod.fst, ∃ i j, (l, i) ∈ p ∧ (l, j) ∈ q := by
    intro l hl
    obtain ⟨⟨l1, i⟩, h1, rfl⟩ := List.mem_map.mp hl
    rw [hn] at hl
    obtain ⟨⟨l2, j⟩, h2, e⟩ := List.mem_map.mp hl
    exact ⟨i, j, h1, by rw [← show l2 = l1 from e]; exact h2⟩
  have named : ∀ l, SameResults p q s (some l) := by
    intro l
    by_cases hl : l ∈ p.map Prod.fst
    · obtain ⟨i, j, h1, h2⟩ := both l hl
      exact c102_named p q hp hq l i j h1 h2 s (h l i j h1 h2)
    · exact same_of (by rw [languageDataIn_none hl, languageDataIn_none (hn ▸ hl)]) s
  have hd : validTokensByLanguageIn p s = validTokensByLanguageIn q s := by
    refine detected_same hn s fun l hl => ?_
    obtain ⟨i, j, h1, h2⟩ := both l hl
    exact countValidIn_words (languageDataIn_mem hp h1) (languageDataIn_mem hq h2) s (h l i j h1 h2).text
  have hr : resolveLanguageIn p s none = validTokensByLanguageIn p s := rfl
  have hr' : resolveLanguageIn q s none = validTokensByLanguageIn p s := hd.symm
  cases hv : validTokensByLanguageIn p s with
  | error e =>
    rw [hv] at hr hr'
    refine ⟨?_, ?_, ?_, ?_⟩
    · unfold parseIn; rw [hr, hr']; rfl
    · unfold parseNumberIn; rw [hr, hr']; rfl
    · unfold parseOrdinalIn; rw [hr, hr']; rfl
    · unfold parseFractionIn; rw [hr, hr']; rfl
  | ok d =>
    rw [hv] at hr hr'
    obtain ⟨e1, e2, e3, e4⟩ := named d
    refine ⟨?_, ?_, ?_, ?_⟩
    · unfold parseIn at e1 ⊢; rw [hr, hr']; exact e1
    · unfold parseNumberIn at e2 ⊢; rw [hr, hr']; exact e2
    · unfold parseOrdinalIn at e3 ⊢; rw [hr, hr']; exact e3
    · unfold parseFractionIn at e4 ⊢; rw [hr, hr']; exact e4

/-- **C102** The order of the entries does not matter without a language argument, either. -/
theorem c102_order_none (p q : Package) (hp : Distinct p) (hq : Distinct q) (hn : p.map Prod.fst = q.map Prod.fst) (s : PyStr)
    (h : ∀ l i j, (l, i) ∈ p → (l, j) ∈ q → Reordered i j) : SameResults p q s none :=
  c102_none p q hp hq hn s fun l i j hi hj => reordered_read (h l i j hi hj) l s

/-- English with the tables reversed -/
def reversed (i : Info) : Info :=
  ⟨i.unitNumbers.reverse, i.directNumbers.reverse, i.tens.reverse, i.hundreds.reverse, i.bigPowersOfTen.reverse, i.skipTokens.reverse, i.useLongScale⟩

theorem reversed_reordered (l : PyStr) (hl : l ∈ supported) : Reordered (file l) (reversed (file l)) where
  tables k := by cases k <;> exact (List.reverse_perm _).symm
  once k := by
    have h : ∀ l ∈ supported, ∀ k ∈ [Class.unit, .direct, .tens, .hundreds, .scale], ((tableOf (file l) k).map (fun e => stripAccents e.1)).Nodup := by
      decide +kernel
    exact h l hl k (by cases k <;> simp)
  skipTokens w := List.mem_reverse.symm
  scale := rfl

/-- **C102** For example, the tables of the five languages can be reversed. -/
theorem c102_reversed (s : PyStr) (l : Option PyStr) :
    SameResults repository (supported.map (fun l => (l, reversed (file l)))) s l := by
  have hn : repository.map Prod.fst = (supported.map (fun l => (l, reversed (file l)))).map Prod.fst := by
    rw [repository_names, List.map_map]; exact (List.map_id' supported).symm
  have hq : Distinct (supported.map (fun l => (l, reversed (file l)))) := by
    unfold Distinct; rw [← hn]; exact repository_distinct
  have hr : ∀ l i j, (l, i) ∈ repository → (l, j) ∈ supported.map (fun l => (l, reversed (file l))) → Reordered i j := by
    intro l i j hi hj
    obtain ⟨l1, h1, e1⟩ := List.mem_map.mp hi
    obtain ⟨l2, h2, e2⟩ := List.mem_map.mp hj
    cases e1; cases e2
    exact reversed_reordered _ h1
  cases l with
  | none => exact c102_order_none _ _ repository_distinct hq hn s hr
  | some l =>
    by_cases hl : l ∈ supported
    · exact c102_order _ _ repository_distinct hq l _ _ (repository_mem hl) (List.mem_map.mpr ⟨l, hl, rfl⟩) s (reversed_reordered l hl)
    · have h1 : l ∉ repository.map Prod.fst := by rw [repository_names]; exact hl
      exact same_of (by rw [languageDataIn_none h1, languageDataIn_none (hn ▸ h1)]) s

/-- English with one more word, "dozen" -/
def dozen : Info := { file u!"en" with directNumbers := (file u!"en").directNumbers ++ [(u!"dozen", 12)] }

theorem dozen_adds : AddsWord (file u!"en") dozen u!"dozen" where
  tables k := by
    cases k
    · exact Or.inl rfl
    · exact Or.inr ⟨(u!"dozen", 12), by decide +kernel, rfl⟩
    · exact Or.inl rfl
    · exact Or.inl rfl
    · exact Or.inl rfl
  skipTokens := rfl
  scale := rfl

set_option maxRecDepth 100000 in
/-- For example, "dozen" could be added to English: this sentence remains as it is now, ... -/
example : parseIn [(u!"en", dozen)] u!"Twenty-two dozing cats, twentieth" (some u!"en") = parse u!"Twenty-two dozing cats, twentieth" (some u!"en") := by
  rw [← (c82_repository _ _).1]
  refine (c102_added repository [(u!"en", dozen)] repository_distinct (by unfold Distinct; decide) u!"en" (file u!"en") dozen
    (repository_mem (by decide +kernel)) (List.mem_singleton.mpr rfl) _ u!"dozen" dozen_adds (not_cardinalIn ?_)).symm
  decide +kernel

set_option maxRecDepth 100000 in
/-- **C102** ... but it is not enough that the word is none of the text: "dozenth" is converted then, too. -/
theorem c102_ordinal_word : AddsWord (file u!"en") dozen u!"dozen" ∧ ¬ WordIn u!"en" u!"the dozenth egg" u!"dozen" ∧
    parse u!"the dozenth egg" (some u!"en") = .ok u!"the dozenth egg" ∧
    parseIn [(u!"en", dozen)] u!"the dozenth egg" (some u!"en") = .ok u!"the 12 egg" :=
  ⟨dozen_adds, not_wordIn (by decide +kernel), by decide +kernel, by decide +kernel⟩

end NumberParser.Props
