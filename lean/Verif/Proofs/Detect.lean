import Verif.Proofs.Numeric
import Verif.Spec.Detect

/-! Language detection. -/

set_option linter.unusedSimpArgs false

namespace NumberParser
open Spec

/-- The score of a text as the model computes it. -/
def score (s l : PyStr) : Nat :=
  ((normalizeTokens (tokenize s l)).filter
    (fun t => (isNumberToken t (mkLangData (file l))).isSome || isSkipToken t (mkLangData (file l)))).length

theorem countValid_eq {l : PyStr} (h : l ∈ supported) (s : PyStr) : countValid s l = .ok (score s l) := by
  unfold countValid
  rw [supported_data h]
  rfl

theorem score_iff {l : PyStr} (h : l ∈ supported) (s : PyStr) (k : Nat) : Score s l k ↔ score s l = k := by
  unfold Score
  constructor
  · rintro ⟨ts, hts, hk⟩
    rw [tokens_iff] at hts; subst hts
    rw [← hk]
    unfold score normalizeTokens
    rw [List.filter_map, List.length_map]
    congr 1
    apply List.filter_congr
    intro t _
    rw [Bool.eq_iff_iff]
    simp only [Function.comp, Bool.or_eq_true, decide_eq_true_eq]
    rw [numberWord_iff h, skip_iff]
    exact Iff.rfl
  · intro hk
    refine ⟨tokenize s l, tokens_tokenize l s, ?_⟩
    rw [← hk]
    unfold score normalizeTokens
    rw [List.filter_map, List.length_map]
    congr 1
    apply List.filter_congr
    intro t _
    rw [Bool.eq_iff_iff]
    simp only [Function.comp, Bool.or_eq_true, decide_eq_true_eq]
    rw [numberWord_iff h, skip_iff]
    exact Iff.rfl

theorem validTokens_eq (s : PyStr) : validTokensByLanguage s =
    .ok (if (maxKey (supported.map (fun l => (l, score s l)))).2 = 0 then u!"en" else (maxKey (supported.map (fun l => (l, score s l)))).1) := by
  unfold validTokensByLanguage
  have : SUPPORTED_LANGUAGES.mapM (fun l => (do return (l, ← countValid s l) : Res (PyStr × Nat))) =
      .ok (supported.map (fun l => (l, score s l))) := by
    show supported.mapM _ = _
    have key : ∀ ls : List PyStr, (∀ l ∈ ls, l ∈ supported) →
        ls.mapM (fun l => (do return (l, ← countValid s l) : Res (PyStr × Nat))) = .ok (ls.map (fun l => (l, score s l))) := by
      intro ls
      induction ls with
      | nil => intro _; rfl
      | cons l ls ih =>
        intro h
        rw [List.mapM_cons, countValid_eq (h l (by simp)), ih (fun x hx => h x (List.mem_cons_of_mem _ hx))]
        rfl
    exact key supported (fun _ h => h)
  rw [this]
  simp only [bind, Except.bind, pure, Except.pure]
  split <;> rfl

/-- The first entry with the largest value. -/
theorem maxKey_spec (d : Dict) (hne : d ≠ []) : ∃ a b, d = a ++ maxKey d :: b ∧ (∀ e ∈ a, e.2 < (maxKey d).2) ∧ (∀ e ∈ b, e.2 ≤ (maxKey d).2) := by
  induction d with
  | nil => exact absurd rfl hne
  | cons e d ih =>
    cases d with
    | nil => exact ⟨[], [], rfl, by simp, by simp⟩
    | cons e' d =>
      obtain ⟨a, b, h1, h2, h3⟩ := ih (by simp)
      have hm : maxKey (e :: e' :: d) = if (maxKey (e' :: d)).2 > e.2 then maxKey (e' :: d) else e := rfl
      by_cases h : (maxKey (e' :: d)).2 > e.2
      · rw [hm, if_pos h]
        refine ⟨e :: a, b, by rw [List.cons_append, ← h1], ?_, h3⟩
        intro x hx
        rcases List.mem_cons.mp hx with rfl | hx
        · exact h
        · exact h2 x hx
      · rw [hm, if_neg h]
        refine ⟨[], e' :: d, rfl, by simp, ?_⟩
        intro x hx
        rw [h1] at hx
        have hle : (maxKey (e' :: d)).2 ≤ e.2 := by omega
        rcases List.mem_append.mp hx with hx | hx
        · have := h2 x hx; omega
        · rcases List.mem_cons.mp hx with rfl | hx
          · exact hle
          · have := h3 x hx; omega

theorem detected_model (s : PyStr) : ∃ l, validTokensByLanguage s = .ok l ∧ Detected s l := by
  obtain ⟨a, b, h1, h2, h3⟩ := maxKey_spec (supported.map (fun l => (l, score s l))) (by simp [supported])
  rw [validTokens_eq]
  generalize hm : maxKey (supported.map (fun l => (l, score s l))) = m at *
  obtain ⟨a', rest, hs, rfl, hr⟩ := List.map_eq_append_iff.mp h1
  obtain ⟨l, b', rfl, hl, rfl⟩ := List.map_eq_cons_iff.mp hr
  have hmem : ∀ x, x ∈ a' ++ l :: b' → x ∈ supported := by intro x hx; rw [hs]; exact hx
  have hdet : Detected s l := by
    refine ⟨a', b', hs, score s l, (score_iff (hmem l (by simp)) s _).mpr rfl, ?_, ?_⟩
    · intro x hx
      refine ⟨score s x, (score_iff (hmem x (by simp [hx])) s _).mpr rfl, ?_⟩
      have := h2 (x, score s x) (List.mem_map.mpr ⟨x, hx, rfl⟩)
      rw [← hl] at this; exact this
    · intro x hx
      refine ⟨score s x, (score_iff (hmem x (by simp [hx])) s _).mpr rfl, ?_⟩
      have := h3 (x, score s x) (List.mem_map.mpr ⟨x, hx, rfl⟩)
      rw [← hl] at this; exact this
  refine ⟨_, rfl, ?_⟩
  split
  · rename_i h0
    -- everything scores 0, so the first language is the best
    have ha : a' = [] := by
      cases a' with
      | nil => rfl
      | cons x xs =>
        have := h2 (x, score s x) (by simp)
        omega
    subst ha
    have : l = u!"en" := by
      simp only [List.nil_append, supported, List.cons.injEq] at hs
      exact hs.1.symm
    rw [← this]; exact hdet
  · rw [← hl]; exact hdet

theorem detected_unique {s l l' : PyStr} (h : Detected s l) (h' : Detected s l') : l = l' := by
  obtain ⟨a, b, hs, k, hk, h1, h2⟩ := h
  obtain ⟨a', b', hs', k', hk', h1', h2'⟩ := h'
  have hl : l ∈ supported := by rw [hs]; simp
  have hl' : l' ∈ supported := by rw [hs']; simp
  rw [score_iff hl] at hk
  rw [score_iff hl'] at hk'
  have e : a ++ l :: b = a' ++ l' :: b' := by rw [← hs, ← hs']
  rcases List.append_eq_append_iff.mp e with ⟨c, hc1, hc2⟩ | ⟨c, hc1, hc2⟩
  · cases c with
    | nil => simp at hc2; exact hc2.1
    | cons x c =>
      simp only [List.cons_append, List.cons.injEq] at hc2
      obtain ⟨rfl, hb⟩ := hc2
      obtain ⟨k1, hk1, hlt⟩ := h1' l (by rw [hc1]; simp)
      rw [score_iff hl] at hk1
      obtain ⟨k2, hk2, hle⟩ := h2 l' (by rw [hb]; simp)
      rw [score_iff hl'] at hk2
      omega
  · cases c with
    | nil => simp at hc2; exact hc2.1.symm
    | cons x c =>
      simp only [List.cons_append, List.cons.injEq] at hc2
      obtain ⟨rfl, hb⟩ := hc2
      obtain ⟨k1, hk1, hlt⟩ := h1 l' (by rw [hc1]; simp)
      rw [score_iff hl'] at hk1
      obtain ⟨k2, hk2, hle⟩ := h2' l (by rw [hb]; simp)
      rw [score_iff hl] at hk2
      omega

theorem validTokens_iff (s l : PyStr) : validTokensByLanguage s = .ok l ↔ Detected s l := by
  obtain ⟨l', h1, h2⟩ := detected_model s
  rw [h1]
  constructor
  · intro h; injection h with h; rw [← h]; exact h2
  · intro h; rw [detected_unique h2 h]

theorem Detected.mem {s l : PyStr} (h : Detected s l) : l ∈ supported := by
  obtain ⟨a, b, hs, _⟩ := h
  rw [hs]; simp

theorem resolve_none {s l : PyStr} (h : Detected s l) : resolveLanguage s none = .ok l := (validTokens_iff s l).mpr h

end NumberParser
