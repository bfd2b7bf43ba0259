import Verif.Proofs.Fraction
import Verif.Proofs.Units
import Verif.Spec.Number

/-! `parse_number` in terms of the tokens of the text. -/

set_option linter.unusedSimpArgs false

namespace NumberParser
open Spec

theorem dropApos_eq (s : PyStr) : dropApos s = withoutApostrophes s := by
  unfold dropApos withoutApostrophes
  rw [List.filter_filter]
  apply List.filter_congr
  intro c _
  exact Bool.and_comm _ _

theorem wordInput_iff (s : PyStr) : WordInput s ↔ blank s = false ∧ isNumeric (strip s) = false := by
  unfold WordInput
  rw [← blank_spec, numericText_iff]
  simp

/-- `parse_number` on word input. -/
theorem parseNumber_input {l s : PyStr} (hl : l ∈ supported) (h : WordInput s) :
    parseNumber s (some l) = .ok (if isSkipToken (norm (hd l (noShy (dropApos s)))) (mkLangData (file l)) then none
      else solidNumber (mkLangData (file l)) (solid l (dropApos s))) := by
  obtain ⟨hb, hn⟩ := (wordInput_iff s).mp h
  exact parseNumber_solid (supported_data hl) hb hn

theorem blankForm_iff (t : PyStr) : BlankForm t ↔ blank (norm t) = true := (blank_spec _).symm

theorem solid_tokens {l s : PyStr} {ts : List PyStr} (h : Tokens l s ts) : solid l s = (ts.map norm).filter (fun t => !blank t) := by
  rw [tokens_iff] at h; subst h; rfl

theorem mem_solid {l s : PyStr} {ts : List PyStr} (h : Tokens l s ts) (f : PyStr) :
    f ∈ solid l s ↔ ∃ t ∈ ts, norm t = f ∧ ¬ BlankForm t := by
  rw [solid_tokens h, List.mem_filter, List.mem_map]
  constructor
  · rintro ⟨⟨t, ht, rfl⟩, hb⟩
    exact ⟨t, ht, rfl, by rw [blankForm_iff]; simpa using hb⟩
  · rintro ⟨t, ht, rfl, hb⟩
    rw [blankForm_iff] at hb
    exact ⟨⟨t, ht, rfl⟩, by simpa using hb⟩

/-- A result on word input: the builder's run succeeds. -/
theorem parseNumber_some {l s : PyStr} {n : Nat} (hl : l ∈ supported) (h : WordInput s) :
    parseNumber s (some l) = .ok (some n) ↔
      isSkipToken (norm (hd l (noShy (dropApos s)))) (mkLangData (file l)) = false ∧
      (solid l (dropApos s)).all (numOrSkip (mkLangData (file l))) = true ∧
      ∃ r, runR (mkLangData (file l)).maximumGroupValue (kinds (mkLangData (file l)) (solid l (dropApos s))) RState.init = some r ∧
        r.value = n := by
  rw [parseNumber_input hl h, solidNumber_eq (languageData_wf (supported_data hl)).toDisjoint]
  cases h1 : isSkipToken (norm (hd l (noShy (dropApos s)))) (mkLangData (file l)) with
  | true => simp
  | false =>
    cases h2 : (solid l (dropApos s)).all (numOrSkip (mkLangData (file l))) with
    | false => simp
    | true => simp

/-- Appending white space and a word. -/
theorem append_word {l s g w : PyStr} (hne : g ≠ []) (hg : ∀ c ∈ g, isSpace c = true)
    (hw : ∀ c ∈ w, sepChar l c = false ∧ plainChar c = true) (hb : blank (norm w) = false) :
    hd l (noShy (dropApos (s ++ g ++ w))) = hd l (noShy (dropApos s)) ∧
    solid l (dropApos (s ++ g ++ w)) = solid l (dropApos s) ++ [norm w] := by
  have e1 : dropApos (s ++ g ++ w) = dropApos s ++ g ++ w := by
    have h1 := dropApos_plain (s := g) (fun c hc => space_plain (hg c hc))
    have h2 := dropApos_plain (s := w) (fun c hc => (hw c hc).2)
    unfold dropApos at *
    simp only [List.filter_append]
    rw [h1, h2]
  have e2 : noShy (dropApos s ++ g ++ w) = noShy (dropApos s) ++ g ++ w := by
    have h1 := noShy_plain (s := g) (fun c hc => space_plain (hg c hc))
    have h2 := noShy_plain (s := w) (fun c hc => (hw c hc).2)
    unfold noShy at *
    simp only [List.filter_append]
    rw [h1, h2]
  have hbw : blank w = false := by
    cases h : blank w with
    | false => rfl
    | true => rw [blank_norm h] at hb; cases hb
  constructor
  · rw [e1, e2]
    cases g with
    | nil => exact absurd rfl hne
    | cons c g =>
      rw [List.append_assoc, List.cons_append]
      exact hd_append_sep l _ _ (sepChar_of_space l (hg c (by simp)))
  · rw [solid_eq, solid_eq, e1, e2, sol_append_gap l _ _ hne hg, sol_word l (fun c hc => (hw c hc).1) hbw, List.map_append,
      List.filter_append]
    simp [hb]

/-! ### Numeric texts are single words of numeric characters -/

theorem hi_sep (c : Nat) : sepChar u!"hi" c = isSpace c := by
  unfold sepChar; rfl

theorem sol_ne_nil {l s : PyStr} (h : ¬ Blank s) : sol l s ≠ [] := by
  intro he
  have hall : ∀ t ∈ split l s, blank t = true := by
    intro t ht
    cases hb : blank t with
    | true => rfl
    | false =>
      have : t ∈ sol l s := List.mem_filter.mpr ⟨ht, by simp [hb]⟩
      rw [he] at this; cases this
  apply h
  intro c hc
  rw [← split_flatten l s] at hc
  obtain ⟨t, ht, hct⟩ := List.mem_flatten.mp hc
  exact (blank_spec t).mp (hall t ht) c hct

theorem numericText_sol (s : PyStr) : NumericText s ↔ ∃ t, sol u!"hi" s = [t] ∧ ∀ c ∈ t, isNumericChar c = true := by
  constructor
  · rintro ⟨a, t, b, rfl, ha, hb, hne, ht⟩
    refine ⟨t, ?_, ht⟩
    have hsp : ∀ c ∈ t, isSpace c = false := by
      intro c hc
      cases h : isSpace c with
      | false => rfl
      | true => have := space_not_numeric h; rw [ht c hc] at this; cases this
    have hbt : blank t = false := by
      cases t with
      | nil => exact absurd rfl hne
      | cons c cs => exact not_blank_of_mem (c := c) (by simp) (hsp c (by simp))
    rw [List.append_assoc, sol_spaces _ ha]
    by_cases hb0 : b = []
    · subst hb0; rw [List.append_nil]; exact sol_word _ (fun c hc => by rw [hi_sep]; exact hsp c hc) hbt
    · have := sol_append_gap u!"hi" t [] hb0 hb
      rw [List.append_nil, sol_nil, List.append_nil] at this
      rw [this]; exact sol_word _ (fun c hc => by rw [hi_sep]; exact hsp c hc) hbt
  · rintro ⟨t, hs, ht⟩
    have hflat := split_flatten u!"hi" s
    unfold sol at hs
    obtain ⟨u, v, h1, h2, h3, h4⟩ := List.filter_eq_cons_iff.mp hs
    refine ⟨u.flatten, t, v.flatten, ?_, ?_, ?_, ?_, ht⟩
    · rw [← hflat, h1]; simp
    · intro c hc
      obtain ⟨x, hx, hcx⟩ := List.mem_flatten.mp hc
      have := h2 x hx
      simp at this
      exact (blank_spec x).mp this c hcx
    · intro c hc
      obtain ⟨x, hx, hcx⟩ := List.mem_flatten.mp hc
      have := List.filter_eq_nil_iff.mp h4 x hx
      simp at this
      exact (blank_spec x).mp this c hcx
    · rintro rfl; simp at h3

theorem wordInput_append {s g w : PyStr} (h : ¬ Blank s) (hg : ∀ c ∈ g, isSpace c = true) (hne : g ≠ [])
    (hw : ¬ Blank w) : WordInput (s ++ g ++ w) := by
  constructor
  · intro hb; exact h (fun c hc => hb c (by simp [hc]))
  · intro hn
    obtain ⟨t, ht, _⟩ := (numericText_sol _).mp hn
    rw [sol_append_gap _ _ _ hne hg] at ht
    have h1 := sol_ne_nil (l := u!"hi") h
    have h2 := sol_ne_nil (l := u!"hi") hw
    have := congrArg List.length ht
    simp only [List.length_append, List.length_singleton] at this
    have := List.length_pos_iff.mpr h1
    have := List.length_pos_iff.mpr h2
    omega

end NumberParser
