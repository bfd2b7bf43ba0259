import Verif.Proofs.PackageInvariance
import Verif.Props.VocabularyOutput

/-!
# C86: what does not matter for the result, with any list of languages

The invariances of C28-C30 and C32-C34 do not depend on the five languages of the parser.
-/

namespace NumberParser.Props
open NumberParser Gen Spec

/-- **C86** With any list of languages and any data modules, the case of letters matters neither for `parse_number` and `parse_ordinal` nor
for the detected language. -/
theorem c86_case (p : Package) (s s' : PyStr) (h : SameUpToCase s s') (lang : Option PyStr) :
    parseNumberIn p s lang = parseNumberIn p s' lang ∧ parseOrdinalIn p s lang = parseOrdinalIn p s' lang ∧
    validTokensByLanguageIn p s = validTokensByLanguageIn p s' := by
  have e : al s = al s' := h
  refine ⟨?_, ?_, ?_⟩
  · rw [← parseNumberIn_al p s, ← parseNumberIn_al p s', e]
  · rw [← parseOrdinalIn_al p s, ← parseOrdinalIn_al p s', e]
  · have k : ∀ x, validTokensByLanguageIn p (al x) = validTokensByLanguageIn p x := fun x => resolveIn_tokens (fun l => tokens_al l x) none
    rw [← k s, ← k s', e]

/-- **C86** Nor do accents of letters. -/
theorem c86_accents (p : Package) (s s' : PyStr) (h : SameUpToAccents s s') (lang : Option PyStr) :
    parseNumberIn p s lang = parseNumberIn p s' lang ∧ parseOrdinalIn p s lang = parseOrdinalIn p s' lang ∧
    validTokensByLanguageIn p s = validTokensByLanguageIn p s' := by
  obtain ⟨ps, hp, rfl, rfl⟩ := same_pairs h
  refine ⟨?_, ?_, resolveIn_pairs hp none⟩
  · by_cases hn : NumericText (ps.map Prod.fst) ∨ NumericText (ps.map Prod.snd)
    · rw [pairs_numeric hp hn]
    have hb : blank (ps.map Prod.fst) = blank (ps.map Prod.snd) :=
      Bool.eq_iff_iff.mpr ((blank_spec _).trans ((pairs_blank hp).trans (blank_spec _).symm))
    obtain ⟨qs, hq, hm, e1, e2⟩ := pairs_apos hp
    unfold parseNumberIn
    rw [hb, resolveIn_pairs hp]
    cases hb' : blank (ps.map Prod.snd) with
    | true => rfl
    | false =>
      have hnb : ∀ s, blank s = false → ¬ Blank s := fun s h h' => by rw [(blank_spec _).mpr h'] at h; cases h
      have h1 := ((wordInput_iff _).mp ⟨hnb _ (hb.trans hb'), fun h => hn (Or.inl h)⟩).2
      have h2 := ((wordInput_iff _).mp ⟨hnb _ hb', fun h => hn (Or.inr h)⟩).2
      rw [h1, h2]
      simp only [replace_apos, dropApos_eq, e1, e2, tokens_pairs_any _ hq, Bool.false_eq_true, if_false]
  · unfold parseOrdinalIn
    simp only [resolveIn_pairs hp, tokens_pairs_any _ hp]

/-- **C86** Nor do soft hyphens, for `parse`, for `parse_ordinal`, for the detected language and, in a text that is neither blank nor numeric
without them, for `parse_number`. -/
theorem c86_soft_hyphens (p : Package) (s : PyStr) (lang : Option PyStr) :
    parseIn p (withoutSoftHyphens s) lang = parseIn p s lang ∧
    parseOrdinalIn p (withoutSoftHyphens s) lang = parseOrdinalIn p s lang ∧
    validTokensByLanguageIn p (withoutSoftHyphens s) = validTokensByLanguageIn p s ∧
    (WordInput (withoutSoftHyphens s) → parseNumberIn p (withoutSoftHyphens s) lang = parseNumberIn p s lang) := by
  have hr : ∀ lang, resolveLanguageIn p (withoutSoftHyphens s) lang = resolveLanguageIn p s lang :=
    resolveIn_tokens (fun l => by rw [tokenize_noShy])
  refine ⟨?_, ?_, hr none, ?_⟩
  · unfold parseIn; simp only [hr, tokenize_noShy]
  · unfold parseOrdinalIn; simp only [hr, tokenize_noShy]
  · intro h
    obtain ⟨h1, h2⟩ := (wordInput_iff _).mp h
    obtain ⟨h3, h4⟩ := (wordInput_iff _).mp (wordInput_noShy h)
    have hd : ∀ l, tokenize (dropApos (withoutSoftHyphens s)) l = tokenize (dropApos s) l := by
      intro l
      have : dropApos (withoutSoftHyphens s) = withoutSoftHyphens (dropApos s) := by
        unfold dropApos withoutSoftHyphens
        simp only [List.filter_filter]
        apply List.filter_congr
        intro c _
        cases (c != 39) <;> cases (c != 8217) <;> cases (c != 173) <;> rfl
      rw [this, tokenize_noShy]
    unfold parseNumberIn
    simp only [h1, h2, h3, h4, Bool.false_eq_true, if_false, hr, replace_apos, hd]

/-- **C86** Nor do apostrophes for `parse_number` with a named language. -/
theorem c86_apostrophes (p : Package) (s l : PyStr) (h : WordInput (withoutApostrophes s)) :
    parseNumberIn p s (some l) = parseNumberIn p (withoutApostrophes s) (some l) := by
  have hi : dropApos (withoutApostrophes s) = dropApos s := by
    rw [dropApos_eq, dropApos_eq]
    unfold withoutApostrophes; rw [List.filter_filter]; simp
  obtain ⟨h1, h2⟩ := (wordInput_iff _).mp h
  obtain ⟨h3, h4⟩ := (wordInput_iff _).mp (wordInput_noApostrophes h)
  unfold parseNumberIn
  simp only [h1, h2, h3, h4, Bool.false_eq_true, if_false, replace_apos, hi, resolveLanguageIn]

/-- **C86** With tidy data modules, the kind and amount of white space between the words and at the end does not matter for `parse_number`
of a text that is no digit string, with any language argument. -/
theorem c86_spacing (p : Package) (ht : ∀ e ∈ p, Tidy e.2) (a b : PyStr) (h : SameSpacing a b) (hn : ¬ NumericText a) (lang : Option PyStr) :
    parseNumberIn p a lang = parseNumberIn p b lang ∧ validTokensByLanguageIn p a = validTokensByLanguageIn p b :=
  ⟨parseNumberIn_sameSpacing ht h hn lang, resolveIn_congr (fun _ => countValidIn_solid ht (sameSpacing_solid h)) none⟩

/-- **C86** Nor does leading white space, if the text does not start with a conjunction. -/
theorem c86_leading_space (p : Package) (hp : Distinct p) (ht : ∀ e ∈ p, Tidy e.2) (l : PyStr) (i : Info) (h : (l, i) ∈ p) (g s : PyStr)
    (hg : OrdinarySpace g) (t : PyStr) (ts : List PyStr) (hts : Tokens l (withoutApostrophes s) (t :: ts)) (hs : ¬ SkipOf i t) :
    parseNumberIn p (g ++ s) (some l) = parseNumberIn p s (some l) ∧
    (DetectedIn p s l → parseNumberIn p (g ++ s) none = parseNumberIn p s none) := by
  have key : ∀ i', (l, i') ∈ p → isSkipToken (norm (hd l (noShy (dropApos s)))) (mkLangData i') = false := by
    intro i' hm
    have e1 := languageDataIn_mem hp hm
    have e2 := languageDataIn_mem hp h
    rw [e1] at e2
    injection e2 with e2
    rw [e2]
    rw [tokens_iff, tokenize_eq, split_cons] at hts
    injection hts with hts _
    rw [dropApos_eq, ← hts]
    cases hk : isSkipToken (norm t) (mkLangData i) with
    | false => rfl
    | true => exact absurd (skip_mem.mp hk) hs
  refine ⟨parseNumberIn_leading ht hg (some l) ?_, fun hd => parseNumberIn_leading ht hg none ?_⟩
  · intro l' i' hl hm
    injection hl with hl; subst hl
    exact key i' hm
  · intro l' i' hl hm
    have hne : p ≠ [] := by rintro rfl; cases h
    rw [resolveIn_none hp hne ht hd] at hl
    injection hl with hl; subst hl
    exact key i' hm

/-- The list of languages of `c85_example` -/
theorem tidy_example : ∀ e ∈ [(u!"xx", ordinalVocabulary), (u!"pt", portuguese)], Tidy e.2 := by
  intro e he
  simp only [List.mem_cons, List.not_mem_nil, or_false] at he
  rcases he with rfl | rfl
  · exact plain_ordinalVocabulary.1.toTidy
  · exact tidy_portuguese.1

set_option maxRecDepth 100000 in
/-- Without a language, white space, case, soft hyphens and accents aside -/
theorem c86_example : [u!"ky-cy", u!"KY\u00ad-cy\n", u!"ky - \t çy", u!"  k'y-cy"].map (fun s => parseNumberIn [(u!"xx", ordinalVocabulary), (u!"pt", portuguese)] s none) =
    [.ok (some 33), .ok (some 33), .ok (some 33), .ok (some 33)] := by decide +kernel

end NumberParser.Props
