import Verif.Proofs.Package
import Verif.Proofs.Accents
import Verif.Proofs.Case
import Verif.Props.Invariance

/-! Invariances of the functions with any list of languages. -/

set_option linter.unusedSimpArgs false

namespace NumberParser
open Spec Props

/-! ### Case -/

theorem resolveIn_congr {p : Package} {s s' : PyStr} (h : ∀ l, countValidIn p s l = countValidIn p s' l) (lang : Option PyStr) :
    resolveLanguageIn p s lang = resolveLanguageIn p s' lang := by
  cases lang with
  | some l => rfl
  | none =>
    show validTokensByLanguageIn p s = validTokensByLanguageIn p s'
    unfold validTokensByLanguageIn
    simp only [h]

theorem resolveIn_tokens {p : Package} {s s' : PyStr} (h : ∀ l, normalizeTokens (tokenize s l) = normalizeTokens (tokenize s' l)) (lang : Option PyStr) :
    resolveLanguageIn p s lang = resolveLanguageIn p s' lang :=
  resolveIn_congr (fun l => by unfold countValidIn; rw [h l]) lang

theorem parseNumberIn_al (p : Package) (s : PyStr) (lang : Option PyStr) : parseNumberIn p (al s) lang = parseNumberIn p s lang := by
  unfold parseNumberIn
  rw [blank_al, isNumeric_al, resolveIn_tokens (fun l => tokens_al l s)]
  simp only [replace_apos, dropApos_al, tokens_al, pyInt_al]

theorem parseOrdinalIn_al (p : Package) (s : PyStr) (lang : Option PyStr) : parseOrdinalIn p (al s) lang = parseOrdinalIn p s lang := by
  unfold parseOrdinalIn
  simp only [resolveIn_tokens (s := al s) (s' := s) (fun l => tokens_al l s), tokens_al]

/-! ### Spacing -/

theorem tokensOk_solid {i : Info} (hi : Sensible i) {l a b : PyStr} (h1 : isSkipToken (norm (hd l (noShy a))) (mkLangData i) = isSkipToken (norm (hd l (noShy b))) (mkLangData i))
    (h2 : solid l a = solid l b) :
    tokensOk (mkLangData i) 0 (normalizeTokens (tokenize a l)) = tokensOk (mkLangData i) 0 (normalizeTokens (tokenize b l)) := by
  have key : ∀ s, tokensOk (mkLangData i) 0 (normalizeTokens (tokenize s l)) =
      (!isSkipToken (norm (hd l (noShy s))) (mkLangData i) && (solid l s).all (numOrSkip (mkLangData i))) := by
    intro s
    have e : normalizeTokens (tokenize s l) = norm (hd l (noShy s)) :: ((split l (noShy s)).tail).map norm := by
      rw [tokenize_eq, split_cons]; rfl
    rw [show solid l s = (normalizeTokens (tokenize s l)).filter (fun t => !blank t) from rfl, e, tokensOk_first hi, all_tokOkB]
  rw [key, key, h1, h2]

theorem buildNumber_solid {i : Info} (hi : Sensible i) {l a b : PyStr} (h2 : solid l a = solid l b) :
    buildNumber (mkLangData i) (normalizeTokens (tokenize a l)) = buildNumber (mkLangData i) (normalizeTokens (tokenize b l)) := by
  have h2 : (normalizeTokens (tokenize a l)).filter (fun t => !blank t) = (normalizeTokens (tokenize b l)).filter (fun t => !blank t) := h2
  unfold buildNumber
  rw [buildItems_filter (sensible_disjoint hi), h2, ← buildItems_filter (sensible_disjoint hi)]

theorem languageDataIn_ok {p : Package} {l : PyStr} {ld : LangData} (h : languageDataIn p l = .ok ld) : ∃ i, (l, i) ∈ p ∧ ld = mkLangData i := by
  unfold languageDataIn at h
  split at h
  · rename_i e he
    have h1 := List.find?_some he
    have h2 := List.mem_of_find?_eq_some he
    cases h
    obtain ⟨l', i⟩ := e
    simp only [beq_iff_eq] at h1
    subst h1
    exact ⟨i, h2, rfl⟩
  · cases h

theorem countValidIn_solid {p : Package} (ht : ∀ e ∈ p, Tidy e.2) {l a b : PyStr} (h : solid l a = solid l b) :
    countValidIn p a l = countValidIn p b l := by
  unfold countValidIn
  cases hd : languageDataIn p l with
  | error e => rfl
  | ok ld =>
    obtain ⟨i, hm, rfl⟩ := languageDataIn_ok hd
    have hi := ht _ hm
    have key : ∀ s, (normalizeTokens (tokenize s l)).filter (fun t => (isNumberToken t (mkLangData i)).isSome || isSkipToken t (mkLangData i)) =
        (solid l s).filter (fun t => (isNumberToken t (mkLangData i)).isSome || isSkipToken t (mkLangData i)) := by
      intro s
      unfold solid
      rw [List.filter_filter]
      apply List.filter_congr
      intro t _
      cases hb : blank t with
      | false => simp
      | true =>
        have hs : isSkipToken t (mkLangData i) = false := by
          cases hk : isSkipToken t (mkLangData i) with
          | false => rfl
          | true => rw [skip_blankOf hi (skip_mem.mp hk)] at hb; cases hb
        rw [blank_noNumber hi hb, hs]; rfl
    show Except.ok _ = Except.ok _
    rw [key, key, h]

theorem parseNumberIn_solid {p : Package} (ht : ∀ e ∈ p, Tidy e.2) {a b : PyStr} (ha : WordInput a) (hb : WordInput b) (lang : Option PyStr)
    (hr : resolveLanguageIn p a lang = resolveLanguageIn p b lang)
    (h1 : ∀ l i, resolveLanguageIn p a lang = .ok l → (l, i) ∈ p → isSkipToken (norm (hd l (noShy (dropApos a)))) (mkLangData i) = isSkipToken (norm (hd l (noShy (dropApos b)))) (mkLangData i))
    (h2 : ∀ l, solid l (dropApos a) = solid l (dropApos b)) : parseNumberIn p a lang = parseNumberIn p b lang := by
  obtain ⟨a1, a2⟩ := (wordInput_iff a).mp ha
  obtain ⟨b1, b2⟩ := (wordInput_iff b).mp hb
  unfold parseNumberIn
  simp only [a1, a2, b1, b2, Bool.false_eq_true, if_false, replace_apos, ← hr]
  cases hl : resolveLanguageIn p a lang with
  | error e => rfl
  | ok l =>
    simp only [bind, Except.bind]
    cases hd : languageDataIn p l with
    | error e => rfl
    | ok ld =>
      obtain ⟨i, hm, rfl⟩ := languageDataIn_ok hd
      have hi := (ht _ hm).toSensible
      simp only [tokensOk_solid hi (h1 l i hl hm) (h2 l), buildNumber_solid hi (h2 l)]

theorem parseNumberIn_sameSpacing {p : Package} (ht : ∀ e ∈ p, Tidy e.2) {a b : PyStr} (h : SameSpacing a b) (hn : ¬ NumericText a)
    (lang : Option PyStr) : parseNumberIn p a lang = parseNumberIn p b lang := by
  by_cases hb : Blank a
  · have e1 := (blank_spec a).mpr hb
    have e2 := (blank_spec b).mpr ((sameSpacing_blank h).mp hb)
    unfold parseNumberIn; rw [if_pos e1, if_pos e2]
  · refine parseNumberIn_solid ht ⟨hb, hn⟩ ⟨fun e => hb ((sameSpacing_blank h).mpr e), fun e => hn ((sameSpacing_numeric h).mpr e)⟩ lang ?_ ?_ ?_
    · exact resolveIn_congr (fun l => countValidIn_solid ht (sameSpacing_solid h)) lang
    · intro l i _ _
      rw [(sameSpacing_tokens (l := l) (sameSpacing_noShy (sameSpacing_dropApos h))).1]
    · exact fun l => sameSpacing_solid (sameSpacing_dropApos h)

theorem parseNumberIn_leading {p : Package} (ht : ∀ e ∈ p, Tidy e.2) {g s : PyStr} (hg : OrdinarySpace g) (lang : Option PyStr)
    (hs : ∀ l i, resolveLanguageIn p s lang = .ok l → (l, i) ∈ p → isSkipToken (norm (hd l (noShy (dropApos s)))) (mkLangData i) = false) :
    parseNumberIn p (g ++ s) lang = parseNumberIn p s lang := by
  have hg' : Blank g := fun c hc => (hg c hc).1
  by_cases hn : NumericText s
  · have hn' := (numericText_space hg' s).mpr hn
    have b1 := numericText_not_blank hn
    have b2 := (numericText_iff s).mp hn
    have b3 := numericText_not_blank hn'
    have b4 := (numericText_iff _).mp hn'
    unfold parseNumberIn
    simp only [b1, b2, b3, b4, Bool.false_eq_true, if_false, if_true, pyInt_space hg]
  by_cases hb : Blank s
  · have e1 := (blank_spec s).mpr hb
    have e2 := (blank_spec (g ++ s)).mpr (by
      intro c hc
      rcases List.mem_append.mp hc with hc | hc
      · exact hg' c hc
      · exact hb c hc)
    unfold parseNumberIn; rw [if_pos e1, if_pos e2]
  have hb' : ¬ Blank (g ++ s) := fun h => hb (fun c hc => h c (List.mem_append.mpr (Or.inr hc)))
  have e3 : noShy (g ++ s) = g ++ noShy s := by
    unfold noShy
    rw [List.filter_append, List.filter_eq_self.mpr (fun d hd => (space_not_apos (hg' d hd)).2.2)]
  have hres : resolveLanguageIn p (g ++ s) lang = resolveLanguageIn p s lang :=
    resolveIn_congr (fun l => countValidIn_solid ht (by rw [solid_eq, solid_eq, e3, sol_spaces l hg'])) lang
  cases g with
  | nil => rfl
  | cons c g =>
    have hf : ∀ p : Nat → Bool, (∀ c, isSpace c = true → p c = true) → (c :: g ++ s).filter p = c :: g ++ s.filter p := by
      intro p hp
      rw [List.filter_append, List.filter_eq_self.mpr (fun d hd => hp d (hg' d hd))]
    have e1 : dropApos (c :: g ++ s) = c :: g ++ dropApos s := by
      rw [dropApos_eq, dropApos_eq]
      exact hf _ (fun c hc => by rw [(space_not_apos hc).1, (space_not_apos hc).2.1]; rfl)
    have e2 : noShy (c :: g ++ dropApos s) = c :: g ++ noShy (dropApos s) := by
      unfold noShy
      rw [List.filter_append, List.filter_eq_self.mpr (fun d hd => (space_not_apos (hg' d hd)).2.2)]
    refine parseNumberIn_solid ht ⟨hb', fun h => hn ((numericText_space hg' s).mp h)⟩ ⟨hb, hn⟩ lang hres ?_ ?_
    · intro l i hl hm
      have h1 : hd l (noShy (dropApos (c :: g ++ s))) = [] := by
        rw [e1, e2, List.cons_append, hd_cons, sepChar_of_space l (hg' c (by simp))]; rfl
      rw [hs l i (hres ▸ hl) hm, h1]
      cases hk : isSkipToken (norm []) (mkLangData i) with
      | false => rfl
      | true =>
        have := skip_blankOf (ht _ hm) (skip_mem.mp hk)
        rw [blank_norm (t := []) rfl] at this; cases this
    · intro l
      rw [solid_eq, solid_eq, e1, e2, sol_spaces l hg']

/-! ### Accents -/

theorem resolveIn_pairs {p : Package} {ps : List (Nat × Nat)} (h : Pairs ps) (lang : Option PyStr) :
    resolveLanguageIn p (ps.map Prod.fst) lang = resolveLanguageIn p (ps.map Prod.snd) lang :=
  resolveIn_tokens (fun l => tokens_pairs_any l h) lang

end NumberParser
