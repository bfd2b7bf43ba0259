import Verif.Proofs.Ordinals
import Verif.Proofs.Phrase
import Verif.Props.Invariance

/-!
# C06, C19: ordinals

`Spec.enOrdinalWords n` (Verif/Spec/Ordinals.lean): the words of the ordinal of `n`, i.e. those of the cardinal with
the last one turned into an ordinal.  `Spec.Rendering`: any case, gaps and fillers, as in C01.
-/

namespace NumberParser.Props
open NumberParser NumberParser.Spec

set_option maxRecDepth 100000

/-- The English number words. -/
def enVocabulary : List PyStr := enSmall ++ (enTens.drop 2 ++ (enScale ++ [u!"hundred"]))

theorem periods_mem {b : Nat} {word : Nat → Nat → List PyStr} {k n : Nat} {w : PyStr} (h : w ∈ periods b word k n) :
    ∃ j g, j < k ∧ g ≠ 0 ∧ w ∈ word j g ∧ (0 < b → g < b) := by
  induction k with
  | zero => cases h
  | succ k ih =>
    rw [periods] at h
    rcases List.mem_append.mp h with h | h
    · by_cases h0 : n / b ^ k % b = 0
      · rw [if_pos h0] at h; cases h
      · rw [if_neg h0] at h
        exact ⟨k, n / b ^ k % b, by omega, h0, h, fun hb => Nat.mod_lt _ hb⟩
    · obtain ⟨j, g, h1, h2⟩ := ih h
      exact ⟨j, g, by omega, h2⟩

theorem enVocabulary_mem {n : Nat} {w : PyStr} (h : w ∈ enWords n) : w ∈ enVocabulary := by
  have h1000 : ∀ g < 1000, (enBelow1000 g).all (fun w => enVocabulary.elem w) = true := by
    have h : (List.range 1000).all (fun g => (enBelow1000 g).all (fun w => enVocabulary.elem w)) = true := by decide +kernel
    intro g hg
    exact List.all_eq_true.mp h g (List.mem_range.mpr hg)
  have hb : ∀ g < 1000, ∀ w ∈ enBelow1000 g, w ∈ enVocabulary := fun g hg w hw =>
    List.elem_iff.mp (List.all_eq_true.mp (h1000 g hg) w hw)
  unfold enWords at h
  split at h
  · rw [List.mem_singleton] at h; subst h; decide
  · rcases List.mem_append.mp h with h | h
    · obtain ⟨j, g, hj, _, hw, hg⟩ := periods_mem h
      rcases List.mem_append.mp hw with hw | hw
      · exact hb g (hg (by omega)) w hw
      · rw [List.mem_singleton] at hw; subst hw
        have : ∀ j < 7, nth enScale j ∈ enVocabulary := by decide
        exact this j hj
    · split at h
      · cases h
      · exact hb _ (Nat.mod_lt _ (by omega)) w h

def ordinalCheck (w : PyStr) : Bool :=
  [w, enOrdinal w].all (fun v => !blank (norm v) && !isSkipToken (norm v) (mkLangData Data.en) &&
    applyCardinalConversion (norm v) (mkLangData Data.en) == norm w && v.all isWord) &&
  noApos (norm w)

theorem ordinal_check : enVocabulary.all ordinalCheck = true := by decide +kernel

theorem enOrdinalWords_facts {n : Nat} (hn : n < 10 ^ 24) : ∃ ws last, enWords n = ws ++ [last] ∧ enOrdinalWords n = ws ++ [enOrdinal last] ∧
    (∀ w ∈ ws ++ [last], ordinalCheck w = true) := by
  have hne := enWords_ne_nil hn
  refine ⟨(enWords n).dropLast, (enWords n).getLast hne, (List.dropLast_concat_getLast hne).symm, ?_, ?_⟩
  · unfold enOrdinalWords
    rw [List.getLastD_eq_getLast?, List.getLast?_eq_some_getLast hne]; rfl
  · rw [List.dropLast_concat_getLast hne]
    intro w hw
    exact List.all_eq_true.mp ordinal_check w (enVocabulary_mem hw)

/-- **C06**: every rendering of the English ordinal of `n < 10^24` is read as `n`. -/
theorem c06_english_ordinals (n : Nat) (hn : n < 10 ^ 24) (text : PyStr) (h : Rendering Spec.en (enOrdinalWords n) text) :
    parseOrdinal text (some u!"en") = .ok (some n) := by
  obtain ⟨ws, last, e1, e2, hc⟩ := enOrdinalWords_facts hn
  have hall := AllNum.mem wf_en (en_words hn).2
  have hv : ∀ w ∈ ws ++ [last], ∀ v ∈ [w, enOrdinal w], blank (norm v) = false ∧ isSkipToken (norm v) (mkLangData Data.en) = false ∧
      applyCardinalConversion (norm v) (mkLangData Data.en) = norm w ∧ noApos (norm w) = true := by
    intro w hw v hvm
    have := hc w hw
    unfold ordinalCheck at this
    rw [Bool.and_eq_true, List.all_eq_true] at this
    have h1 := this.1 v hvm
    simp only [Bool.and_eq_true, Bool.not_eq_true', beq_iff_eq] at h1
    exact ⟨h1.1.1.1, h1.1.1.2, h1.1.2, this.2⟩
  have hk : ∀ v ∈ enOrdinalWords n, ∃ w ∈ ws ++ [last], v ∈ [w, enOrdinal w] := by
    intro v hvm
    rw [e2] at hvm
    rcases List.mem_append.mp hvm with h1 | h1
    · exact ⟨v, List.mem_append_left _ h1, by simp⟩
    · rw [List.mem_singleton] at h1; subst h1; exact ⟨last, by simp, by simp⟩
  have key := parseOrdinal_rendering (l := u!"en") (by decide) (σ := Spec.en) style_en h (by
    intro v hvm
    obtain ⟨w, hw, hwv⟩ := hk v hvm
    obtain ⟨h1, h2, h3, h4⟩ := hv w hw v hwv
    refine ⟨h1, h2, ?_, ?_⟩
    · show (mkLangData Data.en).allNumbers.mem (applyCardinalConversion (norm v) (mkLangData Data.en)) = true
      rw [h3]; exact hall w (by rw [e1]; exact hw)
    · show noApos (applyCardinalConversion (norm v) (mkLangData Data.en)) = true
      rw [h3]; exact h4)
  rw [key]
  have hmap : (enOrdinalWords n).map (fun w => kindOf (mkLangData (file u!"en")) (applyCardinalConversion (norm w) (mkLangData (file u!"en")))) =
      wordKinds (mkLangData Data.en) (enWords n) := by
    rw [show file u!"en" = Data.en from rfl, e1, e2]
    generalize mkLangData Data.en = ld at hv ⊢
    unfold wordKinds
    rw [List.map_append, List.map_append]
    have h1 : ws.map (fun w => kindOf ld (applyCardinalConversion (norm w) ld)) = ws.map (fun w => kindOf ld (norm w)) := by
      apply List.map_congr_left
      intro w hw
      rw [(hv w (List.mem_append_left _ hw) w (by simp)).2.2.1]
    rw [h1]
    simp only [List.map_cons, List.map_nil]
    rw [(hv last (by simp) (enOrdinal last) (by simp)).2.2.1]
  rw [hmap]
  exact congrArg _ (en_words hn).1

theorem enOrdinalGap_ok (a b : PyStr) : Gap Spec.en (enOrdinalGap a b) := by
  unfold enOrdinalGap
  split
  · exact Gap.sep (by simp) (by decide)
  · split
    · exact Gap.filler (g := u!" ") (f := u!"and") (v := u!"and") (rest := u!" ") (by simp) (by decide) (by decide)
        ⟨by decide +kernel, rfl⟩ (gap_space (by decide))
    · exact enGap_ok a b

/-- **C06** for the usual text. -/
theorem c06_english_ordinal_text (n : Nat) (hn : n < 10 ^ 24) : parseOrdinal (enOrdinalText n) (some u!"en") = .ok (some n) := by
  obtain ⟨ws, last, e1, e2, hc⟩ := enOrdinalWords_facts hn
  refine c06_english_ordinals n hn _ (phrase_rendering enOrdinalGap_ok ?_ (by rw [e2]; simp))
  intro v hvm
  rw [e2] at hvm
  have : ∃ w ∈ ws ++ [last], v ∈ [w, enOrdinal w] := by
    rcases List.mem_append.mp hvm with h1 | h1
    · exact ⟨v, List.mem_append_left _ h1, by simp⟩
    · rw [List.mem_singleton] at h1; subst h1; exact ⟨last, by simp, by simp⟩
  obtain ⟨w, hw, hwv⟩ := this
  have := hc w hw
  unfold ordinalCheck at this
  rw [Bool.and_eq_true, List.all_eq_true] at this
  have h1 := this.1 v hwv
  simp only [Bool.and_eq_true] at h1
  exact List.all_eq_true.mp h1.2

example : enOrdinalText 1000120 = u!"one million one hundred and twentieth" ∧ enOrdinalText 121 = u!"one hundred and twenty-first" ∧
    enOrdinalText 5000 = u!"five thousandth" ∧ enOrdinalText 0 = u!"zeroth" ∧ enOrdinalText 12 = u!"twelfth" := by decide +kernel

/-! ## C19 -/

/-- **C19**: if `parse_number` finds a number in a text without apostrophes that has a token which is not blank in
comparison form, so does `parse_ordinal`. -/
theorem c19_ordinal_agrees (l : PyStr) (hl : l ∈ supported) (s : PyStr) (n : Nat) (h : parseNumber s (some l) = .ok (some n))
    (ha : withoutApostrophes s = s) (ts : List PyStr) (hts : Tokens l s ts) (hne : ∃ t ∈ ts, ¬ BlankForm t) :
    parseOrdinal s (some l) = .ok (some n) := by
  have ha' : noApos s = true := List.all_eq_true.mpr (List.filter_eq_self.mp ha)
  by_cases hn : NumericText s
  · rw [parseNumber_numeric hn] at h
    cases hp : pyInt s with
    | error e => rw [hp] at h; cases h
    | ok m =>
      rw [hp] at h
      have hm : m = n := by
        have : (Except.ok (some m) : Res (Option Nat)) = .ok (some n) := h
        injection this with this; injection this
      subst hm
      exact parseOrdinal_digits hl ((pyInt_iff s m).mp hp)
  · have hb : ¬ Blank s := by
      intro hb
      have := (c23_blank s hb (some l)).1
      rw [this] at h; cases h
    exact parseOrdinal_cardinal hl ⟨hb, hn⟩ ha' h hts hne

/-- Without the condition on the tokens: an accent alone. -/
example : parseNumber u!"\u0301" (some u!"en") = .ok (some 0) ∧ parseOrdinal u!"\u0301" (some u!"en") = .ok none := by decide +kernel

example : parseNumber u!"two thousand and five" (some u!"en") = .ok (some 2005) ∧
    parseOrdinal u!"two thousand and five" (some u!"en") = .ok (some 2005) := by decide +kernel

end NumberParser.Props
