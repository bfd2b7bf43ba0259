import Verif.Proofs.NumberText
import Verif.Proofs.Detect

/-! White space, soft hyphens and apostrophes (C29, C30, C32, C33). -/

set_option linter.unusedSimpArgs false

namespace NumberParser
open Spec

theorem sameSpacing_filter {p : Nat → Bool} (hp : ∀ c, isSpace c = true → p c = true) {a b : PyStr} (h : SameSpacing a b) :
    SameSpacing (a.filter p) (b.filter p) := by
  have hf : ∀ g : PyStr, Blank g → g.filter p = g := fun g hg => List.filter_eq_self.mpr (fun c hc => hp c (hg c hc))
  induction h with
  | trail ha hb => rw [hf _ ha, hf _ hb]; exact .trail ha hb
  | char _ ih =>
    rw [List.filter_cons, List.filter_cons]
    split
    · exact .char ih
    · exact ih
  | gap h1 h2 h3 h4 _ ih =>
    rw [List.filter_append, List.filter_append, hf _ h3, hf _ h4]
    exact .gap h1 h2 h3 h4 ih

theorem hd_blank {l a : PyStr} (h : Blank a) : hd l a = [] := by
  cases a with
  | nil => simp
  | cons c cs => rw [hd_cons, sepChar_of_space l (h c (by simp))]; rfl

theorem stl_blank {l a : PyStr} (h : Blank a) : stl l a = [] := by
  have := sol_blank l ((blank_spec a).mpr h)
  rw [sol_eq] at this
  exact (List.append_eq_nil_iff.mp this).2

theorem sameSpacing_tokens {l a b : PyStr} (h : SameSpacing a b) : hd l a = hd l b ∧ stl l a = stl l b := by
  induction h with
  | trail ha hb => exact ⟨by rw [hd_blank ha, hd_blank hb], by rw [stl_blank ha, stl_blank hb]⟩
  | char _ ih =>
    refine ⟨by rw [hd_cons, hd_cons, ih.1], ?_⟩
    rw [stl_cons, stl_cons, sol_eq, sol_eq, ih.1, ih.2]
  | @gap g g' a b h1 h2 h3 h4 _ ih =>
    cases g with
    | nil => exact absurd rfl h1
    | cons c g =>
      cases g' with
      | nil => exact absurd rfl h2
      | cons c' g' =>
        have hc := h3 c (by simp)
        have hc' := h4 c' (by simp)
        refine ⟨by rw [List.cons_append, List.cons_append, hd_cons, hd_cons, sepChar_of_space l hc, sepChar_of_space l hc']; rfl, ?_⟩
        rw [List.cons_append, List.cons_append, stl_cons, stl_cons, hc, hc']
        simp only [if_true]
        rw [sol_spaces l (fun d hd => h3 d (List.mem_cons_of_mem _ hd)), sol_spaces l (fun d hd => h4 d (List.mem_cons_of_mem _ hd)),
          sol_eq, sol_eq, ih.1, ih.2]

theorem sameSpacing_sol {l a b : PyStr} (h : SameSpacing a b) : sol l a = sol l b := by
  rw [sol_eq, sol_eq, (sameSpacing_tokens h).1, (sameSpacing_tokens h).2]

theorem sameSpacing_blank {a b : PyStr} (h : SameSpacing a b) : Blank a ↔ Blank b := by
  have key : ∀ s : PyStr, Blank s ↔ sol u!"hi" s = [] := by
    intro s
    constructor
    · intro hb; exact sol_blank _ ((blank_spec s).mpr hb)
    · intro hs; exact Classical.byContradiction (fun hn => sol_ne_nil hn hs)
  rw [key, key, sameSpacing_sol h]

theorem sameSpacing_numeric {a b : PyStr} (h : SameSpacing a b) : NumericText a ↔ NumericText b := by
  rw [numericText_sol, numericText_sol, sameSpacing_sol h]

theorem space_not_apos {c : Nat} (h : isSpace c = true) : (c != 39) = true ∧ (c != 0x2019) = true ∧ (c != 0xad) = true := by
  refine ⟨?_, ?_, ?_⟩ <;>
  · cases hc : (c != _) with
    | true => rfl
    | false =>
      rw [bne_eq_false_iff_eq] at hc; subst hc
      revert h; decide +kernel

theorem sameSpacing_dropApos {a b : PyStr} (h : SameSpacing a b) : SameSpacing (dropApos a) (dropApos b) := by
  rw [dropApos_eq, dropApos_eq]
  exact sameSpacing_filter (fun c hc => by rw [(space_not_apos hc).1, (space_not_apos hc).2.1]; rfl) h

theorem sameSpacing_noShy {a b : PyStr} (h : SameSpacing a b) : SameSpacing (noShy a) (noShy b) :=
  sameSpacing_filter (fun _ hc => (space_not_apos hc).2.2) h

theorem sameSpacing_solid {l a b : PyStr} (h : SameSpacing a b) : solid l a = solid l b := by
  rw [solid_eq, solid_eq, sameSpacing_sol (sameSpacing_noShy h)]

theorem parseNumber_sameSpacing {l a b : PyStr} (hl : l ∈ supported) (h : SameSpacing a b) (hn : ¬ NumericText a) :
    parseNumber a (some l) = parseNumber b (some l) := by
  by_cases hb : Blank a
  · have e1 := (blank_spec a).mpr hb
    have e2 := (blank_spec b).mpr ((sameSpacing_blank h).mp hb)
    unfold parseNumber; rw [if_pos e1, if_pos e2]
  · rw [parseNumber_input hl ⟨hb, hn⟩,
      parseNumber_input hl ⟨fun e => hb ((sameSpacing_blank h).mpr e), fun e => hn ((sameSpacing_numeric h).mpr e)⟩,
      (sameSpacing_tokens (sameSpacing_noShy (sameSpacing_dropApos h))).1, sameSpacing_solid (sameSpacing_dropApos h)]

/-! ### Language detection sees the non-blank tokens only -/

theorem score_solid {l : PyStr} (hl : l ∈ supported) (s : PyStr) : score s l =
    ((solid l s).filter (fun t => (isNumberToken t (mkLangData (file l))).isSome || isSkipToken t (mkLangData (file l)))).length := by
  unfold score solid
  rw [List.filter_filter]
  congr 1
  apply List.filter_congr
  intro t _
  cases hb : blank t with
  | false => simp
  | true =>
    obtain ⟨h1, h2⟩ := blank_not_number (supported_data hl) hb
    rw [h1, h2]; rfl

theorem detected_of_score {a b l : PyStr} (h : ∀ l ∈ supported, score a l = score b l) (hd : Detected a l) : Detected b l := by
  obtain ⟨x, y, hs, k, hk, h1, h2⟩ := hd
  have key : ∀ l' ∈ supported, ∀ k, Score a l' k → Score b l' k := by
    intro l' hl' k hk
    rw [score_iff hl'] at hk ⊢
    rw [← h l' hl']; exact hk
  have hm : ∀ l', l' ∈ x ++ l :: y → l' ∈ supported := by intro l' h'; rw [hs]; exact h'
  refine ⟨x, y, hs, k, key l (hm l (by simp)) k hk, ?_, ?_⟩
  · intro l' hl'
    obtain ⟨k', h3, h4⟩ := h1 l' hl'
    exact ⟨k', key l' (hm l' (by simp [hl'])) k' h3, h4⟩
  · intro l' hl'
    obtain ⟨k', h3, h4⟩ := h2 l' hl'
    exact ⟨k', key l' (hm l' (by simp [hl'])) k' h3, h4⟩

theorem sameSpacing_detected {a b l : PyStr} (h : SameSpacing a b) (hd : Detected a l) : Detected b l :=
  detected_of_score (fun l' hl' => by rw [score_solid hl', score_solid hl', sameSpacing_solid h]) hd

theorem parseNumber_detected {s l : PyStr} (h : Detected s l) : parseNumber s none = parseNumber s (some l) := by
  unfold parseNumber; rw [resolve_none h]; rfl

theorem parseNumber_sameSpacing' {lang : Option PyStr} (hl : ∀ l, lang = some l → l ∈ supported) {a b : PyStr} (h : SameSpacing a b)
    (hn : ¬ NumericText a) : parseNumber a lang = parseNumber b lang := by
  cases lang with
  | some l => exact parseNumber_sameSpacing (hl l rfl) h hn
  | none =>
    obtain ⟨l, _, hd⟩ := detected_model a
    rw [parseNumber_detected hd, parseNumber_detected (sameSpacing_detected h hd)]
    exact parseNumber_sameSpacing (Detected.mem hd) h hn

/-! ### Leading white space -/

theorem pyInt_space {g : PyStr} (hg : OrdinarySpace g) (s : PyStr) : pyInt (g ++ s) = pyInt s := by
  unfold pyInt
  have : (g ++ s).dropWhile isIntSpace = s.dropWhile isIntSpace := by
    induction g with
    | nil => rfl
    | cons c g ih =>
      have hc := hg c (by simp)
      have : isIntSpace c = true := by
        unfold isIntSpace
        rw [hc.1]
        have h2 := hc.2
        simp only [Bool.true_and, Bool.not_eq_true', Bool.and_eq_false_iff, decide_eq_false_iff_not]
        omega
      rw [List.cons_append, List.dropWhile_cons, this]
      exact ih (fun d hd => hg d (List.mem_cons_of_mem _ hd))
  rw [this]

theorem numericText_space {g : PyStr} (hg : Blank g) (s : PyStr) : NumericText (g ++ s) ↔ NumericText s := by
  rw [numericText_sol, numericText_sol, sol_spaces _ hg]

end NumberParser
