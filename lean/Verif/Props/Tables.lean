import Verif.Proofs.Units
import Verif.Props.Errors

/-!
# C09, C42, C43, C48: the words of the tables

`Spec.entries l k`: the words of class `k` in the data file of language `l`, with their values (Verif/Spec/Words.lean).
-/

namespace NumberParser.Props
open NumberParser NumberParser.Spec

set_option maxRecDepth 100000

/-! ## C42 -/

/-- The values a class of words may have. -/
def InRange : Class → Nat → Prop
  | .unit, v => v ≤ 9
  | .direct, v => 10 ≤ v ∧ v ≤ 99
  | .tens, v => v % 10 = 0 ∧ 20 ≤ v ∧ v ≤ 90
  | .hundreds, v => v % 100 = 0 ∧ 100 ≤ v ∧ v ≤ 900
  | .scale, v => ∃ k, 2 ≤ k ∧ v = 10 ^ k

/-- **C42**: a comparison form belongs to at most one class with one value, the value is in the range of the class,
and number words are no conjunctions and not blank. -/
theorem c42_tables (l : PyStr) (hl : l ∈ supported) (k : Class) (v : Nat) (f : PyStr) (h : FormOf l k v f) :
    (∀ k' v', FormOf l k' v' f → k' = k ∧ v' = v) ∧ InRange k v ∧ f ∉ (file l).skipTokens ∧ (∃ c ∈ f, isSpace c = false) := by
  have hd := supported_data hl
  have hw := languageData_wf hd
  have hk := kindOf_word hl h
  have hm := (allNumbers_iff hl f).mpr ⟨k, v, h⟩
  refine ⟨?_, ?_, ?_, ?_⟩
  · intro k' v' h'
    have hk' := kindOf_word hl h'
    rw [hk] at hk'
    cases k <;> cases k' <;> simp at hk' <;> simp [hk']
  · have hg := (formOf_iff hl k v f).mp h
    cases k with
    | unit => exact hw.unit_val _ _ hg
    | direct => exact hw.direct_val _ _ hg
    | tens => exact hw.tens_val _ _ hg
    | hundreds => exact hw.hund_val _ _ hg
    | scale =>
      obtain ⟨j, h1, _, h3⟩ := hw.big_val _ _ hg
      exact ⟨j, h1, h3⟩
  · intro hs
    have := key_skip hw hm
    unfold isSkipToken at this
    exact absurd (List.elem_iff.mpr hs) (by rw [show (file l).skipTokens = (mkLangData (file l)).skipTokens from rfl, this]; simp)
  · have := key_blank hw hm
    rw [blank_eq, List.all_eq_false] at this
    obtain ⟨c, hc, hs⟩ := this
    exact ⟨c, hc, by simpa using hs⟩

example : FormOf u!"es" .direct 16 u!"dieciseis" := ⟨u!"dieciséis", by decide +kernel, by decide +kernel⟩

/-! ## C09 -/

theorem single_value {L : Lang} (hL : L ∈ languages) {k : Class} {v : Nat} {w : PyStr} (hw : FormOf L.code k v (form w))
    {text : PyStr} (h : Rendering L.style [w] text) : parseNumber text (some L.code) = .ok (some v) := by
  obtain ⟨hst, hsup⟩ := styleOK hL
  have hkey : ∀ x ∈ [w], (mkLangData (file L.code)).allNumbers.mem (norm x) = true := by
    intro x hx
    rw [List.mem_singleton] at hx; subst hx
    exact (allNumbers_iff hsup _).mpr ⟨k, v, hw⟩
  rw [parseNumber_rendering hst h hkey]
  have hk := kindOf_word hsup hw
  have e : wordKinds (mkLangData (file L.code)) [w] = [kindOf (mkLangData (file L.code)) (form w)] := rfl
  rw [e, hk]
  unfold kindsValue
  cases k with
  | scale =>
    simp only [runR, stepR, RState.init, largeK, validK, Nat.add_zero, ne_eq, not_true_eq_false, false_and, if_false]
    rw [if_pos trivial]
    by_cases hp : v > (mkLangData (file L.code)).maximumGroupValue
    · rw [if_pos hp]; simp [RState.value]
    · rw [if_neg hp]; simp [RState.value]
  | _ => simp [runR, stepR, RState.init, largeK, validK, RState.value]

/-- **C09**: a listed word, in any spelling with the same comparison form and with white space around, is parsed to the
number listed for it. -/
theorem c09_listed_words (L : Lang) (hL : L ∈ languages) (k : Class) (w : PyStr) (v : Nat) (hw : (w, v) ∈ entries L.code k)
    (text : PyStr) (h : Rendering L.style [w] text) : parseNumber text (some L.code) = .ok (some v) :=
  single_value hL ⟨w, hw, rfl⟩ h

/-- The words that are not single words of the style: three Ukrainian ones with an apostrophe. -/
def oddWords : List (PyStr × Nat) := [(u!"п'ятсот", 500), (u!"п'ятисот", 500), (u!"дев'ятсот", 900)]

def writableCheck (L : Lang) : Bool :=
  [Class.unit, .direct, .tens, .hundreds, .scale].all (fun k =>
    (entries L.code k).all (fun e => e.1.all L.style.wordChar || oddWords.elem e))

/-- **C09** for the words as they are listed. -/
theorem c09_as_listed (L : Lang) (hL : L ∈ languages) (k : Class) (w : PyStr) (v : Nat) (hw : (w, v) ∈ entries L.code k) :
    parseNumber w (some L.code) = .ok (some v) := by
  have hc : writableCheck L = true := by
    have h := hL
    simp only [languages, List.mem_cons, List.not_mem_nil, or_false] at h
    rcases h with rfl | rfl | rfl | rfl | rfl <;> decide +kernel
  have hk : k ∈ [Class.unit, .direct, .tens, .hundreds, .scale] := by cases k <;> decide
  have h1 := List.all_eq_true.mp (List.all_eq_true.mp hc k hk) (w, v) hw
  simp only [Bool.or_eq_true, List.all_eq_true, List.elem_iff] at h1
  rcases h1 with h1 | h1
  · exact c09_listed_words L hL k w v hw w ⟨[], w, by simp, by
      have := Text.last (σ := L.style) (trail := []) (w := w) (v := w) ⟨h1, rfl⟩ (by simp)
      simpa using this, rfl⟩
  · simp only [languages, List.mem_cons, List.not_mem_nil, or_false] at hL
    have huk : L.code = u!"uk" := by
      have hx : ∀ l ∈ [u!"en", u!"es", u!"hi", u!"ru"], ∀ k ∈ [Class.unit, .direct, .tens, .hundreds, .scale],
          ∀ e ∈ oddWords, e ∉ entries l k := by decide +kernel
      rcases hL with rfl | rfl | rfl | rfl | rfl
      · exact absurd hw (hx _ (by decide) k hk _ h1)
      · exact absurd hw (hx _ (by decide) k hk _ h1)
      · exact absurd hw (hx _ (by decide) k hk _ h1)
      · exact absurd hw (hx _ (by decide) k hk _ h1)
      · rfl
    rw [huk]
    have : ∀ e ∈ oddWords, parseNumber e.1 (some u!"uk") = .ok (some e.2) := by decide +kernel
    exact this _ h1

example : parseNumber u!" DIECISEIS\n" (some u!"es") = .ok (some 16) := by decide +kernel

/-! ## C43 -/

/-- **C43** is false: "decillón" is listed as 10^60 but "decillones" as 10^66. -/
theorem c43_refuted : (u!"decillón", 10 ^ 60) ∈ entries u!"es" .scale ∧ (u!"decillones", 10 ^ 66) ∈ entries u!"es" .scale ∧
    parseNumber u!"un decillón" (some u!"es") = .ok (some (10 ^ 60)) ∧
    parseNumber u!"dos decillones" (some u!"es") = .ok (some (2 * 10 ^ 66)) := by decide +kernel

/-- **C43**: "millón", ..., "nonillón" and their plurals. -/
theorem c43_scale_plurals : ∀ i < 9,
    (nth esScale1 i, 10 ^ (6 * (i + 1))) ∈ entries u!"es" .scale ∧ (nth esScale i, 10 ^ (6 * (i + 1))) ∈ entries u!"es" .scale := by
  decide +kernel

/-- The entries with the given singular and plural, except for "deci". -/
def pluralCheck (es : List (PyStr × Nat)) (sing : PyStr) : Bool :=
  es.all (fun e => es.all (fun e' =>
    let w := e.1.take (e.1.length - sing.length)
    !(e.1 == w ++ sing && e'.1 == w ++ u!"llones") || e.2 == e'.2 || w == u!"deci"))

theorem plural_check : pluralCheck (entries u!"es" .scale) u!"llón" = true ∧ pluralCheck (entries u!"es" .scale) u!"llon" = true := by
  decide +kernel

/-- **C43**: whenever "...llón" (or "...llon") and "...llones" are both listed, they have the same value, with the single
exception of "decillón". -/
theorem c43_agree (w sing : PyStr) (hs : sing = u!"llón" ∨ sing = u!"llon") (v v' : Nat) (h : (w ++ sing, v) ∈ entries u!"es" .scale)
    (h' : (w ++ u!"llones", v') ∈ entries u!"es" .scale) : v = v' ∨ w = u!"deci" := by
  have hc : pluralCheck (entries u!"es" .scale) sing = true := by
    rcases hs with rfl | rfl
    · exact plural_check.1
    · exact plural_check.2
  have := List.all_eq_true.mp (List.all_eq_true.mp hc _ h) _ h'
  simp only [List.length_append, Nat.add_sub_cancel, List.take_left, beq_self_eq_true, Bool.and_true, Bool.not_true, Bool.false_or,
    Bool.or_eq_true, beq_iff_eq] at this
  exact this

end NumberParser.Props
