import Verif.Proofs.Spacing

/-! `parse_ordinal`: re-joining and re-tokenising the converted tokens (C06, C19). -/

set_option linter.unusedSimpArgs false

namespace NumberParser
open Spec

set_option maxRecDepth 100000

theorem dropApos_append (a b : PyStr) : dropApos (a ++ b) = dropApos a ++ dropApos b := by
  unfold dropApos; rw [List.filter_append, List.filter_append]

theorem clean_join (a b : PyStr) :
    noShy (dropApos (a ++ u!" " ++ b)) = noShy (dropApos a) ++ 0x20 :: noShy (dropApos b) := by
  rw [dropApos_append, dropApos_append, noShy_append, noShy_append, List.append_assoc]
  rfl

theorem solid_join (l : PyStr) (cs : List PyStr) :
    solid l (dropApos (join u!" " cs)) = cs.flatMap (fun t => solid l (dropApos t)) := by
  induction cs with
  | nil => simp [join, solid_eq, dropApos, noShy]
  | cons a cs ih =>
    cases cs with
    | nil => simp [join]
    | cons b cs =>
      rw [List.flatMap_cons, ← ih]
      show solid l (dropApos (a ++ u!" " ++ join u!" " (b :: cs))) = _
      rw [solid_eq, clean_join, sol_append_space l _ _ (by decide), List.map_append, List.filter_append, ← solid_eq, ← solid_eq]

theorem hd_join (l a : PyStr) (cs : List PyStr) :
    hd l (noShy (dropApos (join u!" " (a :: cs)))) = hd l (noShy (dropApos a)) := by
  cases cs with
  | nil => rfl
  | cons b cs =>
    show hd l (noShy (dropApos (a ++ u!" " ++ join u!" " (b :: cs)))) = _
    rw [clean_join, hd_append_sep l _ _ (sepChar_of_space l (by decide))]

theorem mem_join' {t : PyStr} {ts : List PyStr} (h : t ∈ ts) {c : Nat} (hc : c ∈ t) : c ∈ join u!" " ts := by
  induction ts with
  | nil => cases h
  | cons x xs ih =>
    cases xs with
    | nil => rw [List.mem_singleton] at h; subst h; exact hc
    | cons y ys =>
      simp only [join, List.mem_append]
      rcases List.mem_cons.mp h with rfl | h
      · exact Or.inl (Or.inl hc)
      · exact Or.inr (ih h)

/-- A listed word contains a character that is neither numeric nor white space. -/
def wordyCheck (ld : LangData) : Bool :=
  ld.allNumbers.all (fun e => e.1.any (fun c => !isNumericChar c && !isSpace c)) &&
  ld.skipTokens.all (fun t => t.any (fun c => !isNumericChar c && !isSpace c))

theorem wordy {l : PyStr} {ld : LangData} (h : languageData l = .ok ld) : wordyCheck ld = true := by
  rcases (languageData_ok_iff l ld).mp h with ⟨_, rfl⟩ | ⟨_, rfl⟩ | ⟨_, rfl⟩ | ⟨_, rfl⟩ | ⟨_, rfl⟩ <;> decide +kernel

theorem numOrSkip_wordy {l : PyStr} {ld : LangData} (h : languageData l = .ok ld) {t : PyStr} (ht : numOrSkip ld t = true) :
    ∃ c ∈ t, isNumericChar c = false ∧ isSpace c = false := by
  have hk := wordy h
  unfold wordyCheck at hk
  rw [Bool.and_eq_true] at hk
  unfold numOrSkip at ht
  rw [Bool.or_eq_true] at ht
  rcases ht with ht | ht
  · have := dictAllKey_sound (p := fun t => t.any (fun c => !isNumericChar c && !isSpace c)) hk.1 ht
    simpa using this
  · have := List.all_eq_true.mp hk.2 _ (List.elem_iff.mp ht)
    simpa using this

/-- No apostrophe. -/
def noApos (t : PyStr) : Bool := t.all (fun c => c != 0x27 && c != 0x2019)

/-- Number words and conjunctions without apostrophe are not changed by conversion and tokenised as they are. -/
def stableCheck (l : PyStr) (ld : LangData) : Bool :=
  ld.allNumbers.all (fun e => !noApos e.1 || (solid l (dropApos e.1) == [e.1] && hd l (noShy (dropApos e.1)) == e.1 &&
    norm e.1 == e.1 && applyCardinalConversion e.1 ld == e.1)) &&
  ld.skipTokens.all (fun t => noApos t && solid l (dropApos t) == [t] && applyCardinalConversion t ld == t)

theorem st_en : stableCheck u!"en" (mkLangData Data.en) = true := by decide +kernel
theorem st_es : stableCheck u!"es" (mkLangData Data.es) = true := by decide +kernel
theorem st_hi : stableCheck u!"hi" (mkLangData Data.hi) = true := by decide +kernel
theorem st_ru : stableCheck u!"ru" (mkLangData Data.ru) = true := by decide +kernel
theorem st_uk : stableCheck u!"uk" (mkLangData Data.uk) = true := by decide +kernel

theorem stable {l : PyStr} {ld : LangData} (h : languageData l = .ok ld) : stableCheck l ld = true := by
  rcases (languageData_ok_iff l ld).mp h with ⟨rfl, rfl⟩ | ⟨rfl, rfl⟩ | ⟨rfl, rfl⟩ | ⟨rfl, rfl⟩ | ⟨rfl, rfl⟩
  · exact st_en
  · exact st_es
  · exact st_hi
  · exact st_ru
  · exact st_uk

theorem stable_key {l : PyStr} {ld : LangData} (h : languageData l = .ok ld) {t : PyStr} (ht : ld.allNumbers.mem t = true)
    (ha : noApos t = true) : solid l (dropApos t) = [t] ∧ hd l (noShy (dropApos t)) = t ∧ norm t = t ∧ applyCardinalConversion t ld = t := by
  have := stable h
  unfold stableCheck at this
  rw [Bool.and_eq_true] at this
  have := dictAllKey_sound (p := fun t => !noApos t || (solid l (dropApos t) == [t] && hd l (noShy (dropApos t)) == t &&
    norm t == t && applyCardinalConversion t ld == t)) this.1 ht
  simp only [ha, Bool.not_true, Bool.false_or, Bool.and_eq_true, beq_iff_eq] at this
  exact ⟨this.1.1.1, this.1.1.2, this.1.2, this.2⟩

theorem stable_skip {l : PyStr} {ld : LangData} (h : languageData l = .ok ld) {t : PyStr} (ht : isSkipToken t ld = true) :
    noApos t = true ∧ solid l (dropApos t) = [t] ∧ applyCardinalConversion t ld = t := by
  have := stable h
  unfold stableCheck at this
  rw [Bool.and_eq_true] at this
  have := List.all_eq_true.mp this.2 t (List.elem_iff.mp ht)
  simp only [Bool.and_eq_true, beq_iff_eq] at this
  exact ⟨this.1.1, this.1.2, this.2⟩

theorem conv_blank (ld : LangData) {t : PyStr} (h : blank t = true) : applyCardinalConversion t ld = t := by
  apply conv_noletters
  intro c hc
  cases ha : isAz c with
  | false => rfl
  | true =>
    have := List.all_eq_true.mp ((blank_iff t).mp h) c hc
    rw [word_not_space (az_word ha)] at this; cases this

theorem solid_blank {l t : PyStr} (h : blank t = true) : solid l (dropApos t) = [] := by
  have hb : blank (noShy (dropApos t)) = true := by
    rw [blank_spec] at h ⊢
    intro c hc
    rw [dropApos_eq] at hc
    exact h c (List.mem_filter.mp (List.mem_filter.mp hc).1).1
  rw [solid_eq, sol_blank l hb]; rfl

/-- `parse_ordinal` if all converted tokens are number words (without apostrophe), conjunctions or blank. -/
theorem parseOrdinal_words {l s : PyStr} (hl : l ∈ supported) {c0 : PyStr} {cs : List PyStr}
    (hc : (normalizeTokens (tokenize s l)).map (fun t => applyCardinalConversion t (mkLangData (file l))) = c0 :: cs)
    (hall : ∀ c ∈ c0 :: cs, blank c = true ∨ (numOrSkip (mkLangData (file l)) c = true ∧ noApos c = true))
    (h0 : isSkipToken c0 (mkLangData (file l)) = false) (hne : ∃ c ∈ c0 :: cs, blank c = false) :
    parseOrdinal s (some l) = .ok (solidNumber (mkLangData (file l)) ((c0 :: cs).filter (fun t => !blank t))) := by
  have hd := supported_data hl
  have hw := languageData_wf hd
  unfold parseOrdinal
  simp only [resolveLanguage, hd, bind, Except.bind, hc]
  -- the joined text is word input
  have hwi : WordInput (join u!" " (c0 :: cs)) := by
    obtain ⟨c, hc, hb⟩ := hne
    have hns := (hall c hc).resolve_left (by rw [hb]; simp)
    obtain ⟨x, hx, h1, h2⟩ := numOrSkip_wordy hd hns.1
    rw [wordInput_iff]
    exact ⟨not_blank_of_mem (mem_join' hc hx) h2, not_numeric_of_mem (mem_join' hc hx) h2 h1⟩
  rw [parseNumber_input hl hwi, hd_join, solid_join]
  have hhd : isSkipToken (norm (NumberParser.hd l (noShy (dropApos c0)))) (mkLangData (file l)) = false := by
    rcases hall c0 (by simp) with hb | ⟨h1, h2⟩
    · have hbl : Blank (noShy (dropApos c0)) := by
        rw [blank_spec] at hb
        intro c hc
        rw [dropApos_eq] at hc
        exact hb c (List.mem_filter.mp (List.mem_filter.mp hc).1).1
      rw [hd_blank hbl]
      exact (blank_not_number hd (blank_norm (t := []) rfl)).2
    · unfold numOrSkip at h1
      rw [h0, Bool.or_false] at h1
      obtain ⟨_, e1, e2, _⟩ := stable_key hd h1 h2
      rw [e1, e2]; exact h0
  rw [hhd]
  have hfl : ∀ ds : List PyStr, (∀ c ∈ ds, blank c = true ∨ (numOrSkip (mkLangData (file l)) c = true ∧ noApos c = true)) →
      ds.flatMap (fun t => solid l (dropApos t)) = ds.filter (fun t => !blank t) := by
    intro ds
    induction ds with
    | nil => intro _; rfl
    | cons x xs ih =>
      intro h
      rw [List.flatMap_cons, ih (fun c hc => h c (List.mem_cons_of_mem _ hc)), List.filter_cons]
      rcases h x (by simp) with hb | ⟨h1, h2⟩
      · rw [solid_blank hb, hb]; rfl
      · have hb := numOrSkip_blank hw h1
        have hsol : solid l (dropApos x) = [x] := by
          unfold numOrSkip at h1
          rw [Bool.or_eq_true] at h1
          rcases h1 with h1 | h1
          · exact (stable_key hd h1 h2).1
          · exact (stable_skip hd h1).2.1
        rw [hsol, hb]; rfl
  rw [hfl _ hall]; rfl

end NumberParser
