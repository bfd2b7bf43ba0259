import Verif.Proofs.Accents
import Verif.Proofs.Spacing
import Verif.Proofs.Case
import Verif.Props.Numbers

/-!
# C28-C30, C32-C34: what does not matter for the result

`Spec.SameUpToCase`, `Spec.SameSpacing`, `Spec.withoutApostrophes`, `Spec.WordInput`: Verif/Spec/Number.lean.
`Spec.withoutSoftHyphens`, `Spec.Tokens`, `Spec.form`: Verif/Spec/Words.lean and Text.lean.
-/

namespace NumberParser.Props
open NumberParser NumberParser.Spec

set_option maxRecDepth 100000

/-! ## C28 -/

/-- **C28**: the case of letters (of all scripts; of Σ and İ see below) matters neither for `parse_number` and `parse_ordinal`, in any language, nor for
the detected language. -/
theorem c28_case (s s' : PyStr) (h : SameUpToCase s s') (lang : Option PyStr) :
    parseNumber s lang = parseNumber s' lang ∧ parseOrdinal s lang = parseOrdinal s' lang ∧
    validTokensByLanguage s = validTokensByLanguage s' := by
  have e : al s = al s' := h
  refine ⟨?_, ?_, ?_⟩
  · rw [← parseNumber_al s, ← parseNumber_al s', e]
  · rw [← parseOrdinal_al s, ← parseOrdinal_al s', e]
  · rw [← validTokens_al s, ← validTokens_al s', e]

example : SameUpToCase u!"TWENTY-twO" u!"Twenty-Two" ∧ SameUpToCase u!"П'ЯТДЕСЯТ Тисяч" u!"п'ятдесят тисяч" := by unfold SameUpToCase; decide

/-- **C28** for `s.lower()`: texts without Σ and İ may be lower-cased. -/
theorem c28_lower (s : PyStr) (h : ∀ c ∈ s, c ≠ 0x3a3 ∧ c ≠ 0x130) (lang : Option PyStr) :
    parseNumber (lower s) lang = parseNumber s lang ∧ parseOrdinal (lower s) lang = parseOrdinal s lang ∧
    validTokensByLanguage (lower s) = validTokensByLanguage s :=
  c28_case _ _ (lower_sameUpToCase h) lang

example : (∀ c ∈ u!"ＴＷＥＮＴＹ ÎⅧ Two", c ≠ 0x3a3 ∧ c ≠ 0x130) ∧ lower u!"ＴＷＥＮＴＹ ÎⅧ Two" = u!"ｔｗｅｎｔｙ îⅷ two" ∧
    SameUpToCase u!"\u212aÖLN Ⅷ" u!"kölN ⅷ" := by unfold SameUpToCase; decide +kernel

/-- Refuted for İ, whose small letter is i with a separate dot, which splits the word. -/
theorem c28_refuted : parseNumber u!"sİx" (some u!"en") = .ok (some 6) ∧ parseNumber (lower u!"sİx") (some u!"en") = .ok none := by
  decide +kernel

/-! ## C29 -/

/-- **C29**: the kind and amount of white space between the words and at the end does not matter (text other than digit
strings; any supported language or none given). -/
theorem c29_spacing (a b : PyStr) (h : SameSpacing a b) (hn : ¬ NumericText a) (lang : Option PyStr)
    (hl : ∀ l, lang = some l → l ∈ supported) : parseNumber a lang = parseNumber b lang :=
  parseNumber_sameSpacing' hl h hn

/-- ... nor does it for the detected language. -/
theorem c29_detected (a b : PyStr) (h : SameSpacing a b) (l : PyStr) : Detected a l → Detected b l := sameSpacing_detected h

example : SameSpacing u!"two \t hundred  " u!"two\nhundred" :=
  .char (.char (.char (.gap (g := u!" \t ") (g' := u!"\n") (by decide) (by decide) (by unfold Blank; decide)
    (by unfold Blank; decide) (.char (.char (.char (.char (.char (.char (.char
      (.trail (a := u!"  ") (b := []) (by unfold Blank; decide) (by unfold Blank; decide)))))))))))) 

/-! ## C30 -/

/-- **C30** is false: white space in front of a conjunction makes a number out of a text that is none. -/
theorem c30_refuted : parseNumber u!"and two" (some u!"en") = .ok none ∧
    parseNumber u!" and two" (some u!"en") = .ok (some 2) := by decide +kernel

/-- **C30** Leading white space does not matter for a text that does not start with a
conjunction. -/
theorem c30_leading_space (g s l : PyStr) (hl : l ∈ supported) (hg : OrdinarySpace g) (t : PyStr) (ts : List PyStr)
    (hts : Tokens l (withoutApostrophes s) (t :: ts)) (ht : ¬ Skip l t) :
    parseNumber (g ++ s) (some l) = parseNumber s (some l) := by
  have hg' : Blank g := fun c hc => (hg c hc).1
  by_cases hn : NumericText s
  · rw [parseNumber_numeric hn, parseNumber_numeric ((numericText_space hg' s).mpr hn), pyInt_space hg]
  by_cases hb : Blank s
  · have e1 := (blank_spec s).mpr hb
    have e2 := (blank_spec (g ++ s)).mpr (by
      intro c hc
      rcases List.mem_append.mp hc with hc | hc
      · exact hg' c hc
      · exact hb c hc)
    unfold parseNumber; rw [if_pos e1, if_pos e2]
  have hb' : ¬ Blank (g ++ s) := fun h => hb (fun c hc => h c (List.mem_append.mpr (Or.inr hc)))
  rw [parseNumber_input hl ⟨hb, hn⟩, parseNumber_input hl ⟨hb', fun h => hn ((numericText_space hg' s).mp h)⟩]
  cases g with
  | nil => rfl
  | cons c g =>
    have hf : ∀ p : Nat → Bool, (∀ c, isSpace c = true → p c = true) → (c :: g ++ s).filter p = c :: g ++ s.filter p := by
      intro p hp
      rw [List.filter_append, List.filter_eq_self.mpr (fun d hd => hp d (hg' d hd))]
    have e1 : dropApos (c :: g ++ s) = c :: g ++ dropApos s := by
      rw [dropApos_eq, dropApos_eq]
      exact hf _ (fun c hc => by rw [(space_not_apos hc).1, (space_not_apos hc).2.1]; rfl)
    have e2 : noShy (c :: g ++ dropApos s) = c :: g ++ noShy (dropApos s) := by
      unfold noShy
      rw [List.filter_append, List.filter_eq_self.mpr (fun d hd => (space_not_apos (hg' d hd)).2.2)]
    have h1 : hd l (noShy (dropApos (c :: g ++ s))) = [] := by
      rw [e1, e2, List.cons_append, hd_cons, sepChar_of_space l (hg' c (by simp))]; rfl
    have h2 : isSkipToken (norm []) (mkLangData (file l)) = false :=
      (blank_not_number (supported_data hl) (blank_norm (t := []) rfl)).2
    have h3 : isSkipToken (norm (hd l (noShy (dropApos s)))) (mkLangData (file l)) = false := by
      rw [tokens_iff, tokenize_eq, split_cons] at hts
      injection hts with hts _
      rw [dropApos_eq, ← hts]
      rw [skip_iff] at ht
      simpa using ht
    rw [h1, h2, h3, solid_eq, solid_eq, e1, e2, sol_spaces l hg']

/-- **C30**: leading white space does not matter for the detected language. -/
theorem c30_detected (g s l : PyStr) (hg : OrdinarySpace g) : Detected (g ++ s) l ↔ Detected s l := by
  have hg' : Blank g := fun c hc => (hg c hc).1
  have key : ∀ l' ∈ supported, score (g ++ s) l' = score s l' := by
    intro l' hl'
    have e2 : noShy (g ++ s) = g ++ noShy s := by
      unfold noShy
      rw [List.filter_append, List.filter_eq_self.mpr (fun d hd => (space_not_apos (hg' d hd)).2.2)]
    rw [score_solid hl', score_solid hl', solid_eq, solid_eq, e2, sol_spaces l' hg']
  exact ⟨detected_of_score key, detected_of_score (fun l' hl' => (key l' hl').symm)⟩

/-- **C30**: the same if no language is given (`l` is the detected language). -/
theorem c30_leading_space_none (g s l : PyStr) (hd : Detected s l) (hg : OrdinarySpace g) (t : PyStr) (ts : List PyStr)
    (hts : Tokens l (withoutApostrophes s) (t :: ts)) (ht : ¬ Skip l t) : parseNumber (g ++ s) none = parseNumber s none := by
  rw [parseNumber_detected hd, parseNumber_detected ((c30_detected g s l hg).mpr hd)]
  exact c30_leading_space g s l (Detected.mem hd) hg t ts hts ht

example : Tokens u!"en" (withoutApostrophes u!"two and one") (u!"two" :: [u!" ", u!"and", u!" ", u!"one"]) ∧
    ¬ Skip u!"en" u!"two" :=
  ⟨(c44_tokens _ _ _).mp (by decide +kernel), by rw [skip_iff]; decide +kernel⟩

/-! ## C32 -/

theorem noShy_idem (s : PyStr) : noShy (noShy s) = noShy s := by
  unfold noShy; rw [List.filter_filter]; simp

theorem tokenize_noShy (s l : PyStr) : tokenize (withoutSoftHyphens s) l = tokenize s l := by
  rw [tokenize_eq, tokenize_eq]
  show split l (noShy (noShy s)) = _
  rw [noShy_idem]

theorem resolve_noShy (s : PyStr) (lang : Option PyStr) : resolveLanguage (withoutSoftHyphens s) lang = resolveLanguage s lang := by
  cases lang with
  | some l => rfl
  | none =>
    show validTokensByLanguage _ = validTokensByLanguage _
    unfold validTokensByLanguage countValid
    simp only [tokenize_noShy]

theorem wordInput_noShy {s : PyStr} (h : WordInput (withoutSoftHyphens s)) : WordInput s := by
  constructor
  · intro hb; exact h.1 (fun c hc => hb c (List.mem_filter.mp hc).1)
  · intro hn
    apply h.2
    have : withoutSoftHyphens s = s := by
      obtain ⟨a, t, b, rfl, ha, hb, _, ht⟩ := hn
      apply List.filter_eq_self.mpr
      intro c hc
      simp only [List.mem_append] at hc
      rcases hc with (hc | hc) | hc
      · exact (space_not_apos (ha c hc)).2.2
      · cases he : (c != 0xad) with
        | true => rfl
        | false =>
          rw [bne_eq_false_iff_eq] at he; subst he
          have := ht _ hc
          revert this; decide +kernel
      · exact (space_not_apos (hb c hc)).2.2
    rw [this]; exact hn

/-- **C32**: soft hyphens do not matter: `parse` and `parse_ordinal` on any text and `parse_number` on word input, with
any language argument. -/
theorem c32_soft_hyphens (s : PyStr) (lang : Option PyStr) :
    parse (withoutSoftHyphens s) lang = parse s lang ∧
    parseOrdinal (withoutSoftHyphens s) lang = parseOrdinal s lang ∧
    (WordInput (withoutSoftHyphens s) → parseNumber (withoutSoftHyphens s) lang = parseNumber s lang) := by
  refine ⟨?_, ?_, ?_⟩
  · unfold parse; simp only [resolve_noShy, tokenize_noShy]
  · unfold parseOrdinal; simp only [resolve_noShy, tokenize_noShy]
  · intro h
    obtain ⟨h1, h2⟩ := (wordInput_iff _).mp h
    obtain ⟨h3, h4⟩ := (wordInput_iff _).mp (wordInput_noShy h)
    have hd : ∀ l, tokenize (dropApos (withoutSoftHyphens s)) l = tokenize (dropApos s) l := by
      intro l
      have : dropApos (withoutSoftHyphens s) = withoutSoftHyphens (dropApos s) := by
        unfold dropApos withoutSoftHyphens
        simp only [List.filter_filter]
        apply List.filter_congr
        intro c _
        cases (c != 39) <;> cases (c != 8217) <;> cases (c != 173) <;> rfl
      rw [this, tokenize_noShy]
    unfold parseNumber
    simp only [h1, h2, h3, h4, Bool.false_eq_true, if_false, resolve_noShy, replace_apos, hd]

/-- On a digit string a soft hyphen does matter (it is no digit and no white space). -/
example : parseNumber u!"4\u00ad2" (some u!"en") = .ok none ∧ parseNumber u!"42" (some u!"en") = .ok (some 42) ∧
    parseNumber u!"se\u00adven" (some u!"en") = .ok (some 7) := by decide +kernel

/-! ## C33 -/

theorem wordInput_noApostrophes {s : PyStr} (h : WordInput (withoutApostrophes s)) : WordInput s := by
  constructor
  · intro hb; exact h.1 (fun c hc => hb c (List.mem_filter.mp hc).1)
  · intro hn
    apply h.2
    have : withoutApostrophes s = s := by
      obtain ⟨a, t, b, rfl, ha, hb, _, ht⟩ := hn
      apply List.filter_eq_self.mpr
      intro c hc
      simp only [List.mem_append] at hc
      rcases hc with (hc | hc) | hc
      · rw [(space_not_apos (ha c hc)).1, (space_not_apos (ha c hc)).2.1]; rfl
      · have hnum := ht c hc
        have h1 : (c != 0x27) = true := by
          cases he : (c != 0x27) with
          | true => rfl
          | false => rw [bne_eq_false_iff_eq] at he; subst he; revert hnum; decide +kernel
        have h2 : (c != 0x2019) = true := by
          cases he : (c != 0x2019) with
          | true => rfl
          | false => rw [bne_eq_false_iff_eq] at he; subst he; revert hnum; decide +kernel
        rw [h1, h2]; rfl
      · rw [(space_not_apos (hb c hc)).1, (space_not_apos (hb c hc)).2.1]; rfl
    rw [this]; exact hn

/-- **C33**: apostrophes do not matter for `parse_number` on word input, in any language. -/
theorem c33_apostrophes (s l : PyStr) (h : WordInput (withoutApostrophes s)) :
    parseNumber s (some l) = parseNumber (withoutApostrophes s) (some l) := by
  have hi : dropApos (withoutApostrophes s) = dropApos s := by
    rw [dropApos_eq, dropApos_eq]
    unfold withoutApostrophes; rw [List.filter_filter]; simp
  have hs := wordInput_noApostrophes h
  obtain ⟨h1, h2⟩ := (wordInput_iff _).mp h
  obtain ⟨h3, h4⟩ := (wordInput_iff _).mp hs
  unfold parseNumber
  simp only [h1, h2, h3, h4, Bool.false_eq_true, if_false, replace_apos, hi, resolveLanguage]

example : WordInput (withoutApostrophes u!"п'ять") := by rw [wordInput_iff]; decide +kernel
example : parseNumber u!"п'ять" (some u!"uk") = .ok (some 5) := by decide +kernel

/-! ## C34 -/

/-- **C34** is false: the decomposed spelling of a word is not recognised, the composed one is. -/
theorem c34_refuted : nfd u!"veintitrés" = u!"veintitre\u0301s" ∧
    parseNumber u!"veintitrés" (some u!"es") = .ok (some 23) ∧
    parseNumber u!"veintitre\u0301s" (some u!"es") = .ok none := by decide +kernel

/-- **C34**: texts whose tokens have the same comparison forms (that is, are equal up to case and
accents) give the same result. -/
theorem c34_accents (l : PyStr) (hl : l ∈ supported) (s s' : PyStr) (hs : WordInput s) (hs' : WordInput s')
    (ts ts' : List PyStr) (hts : Tokens l (withoutApostrophes s) ts) (hts' : Tokens l (withoutApostrophes s') ts')
    (h : ts.map form = ts'.map form) : parseNumber s (some l) = parseNumber s' (some l) := by
  rw [parseNumber_input hl hs, parseNumber_input hl hs', dropApos_eq, dropApos_eq, solid_tokens hts, solid_tokens hts']
  have e : ts.map norm = ts'.map norm := h
  rw [e]
  rw [tokens_iff, tokenize_eq, split_cons] at hts hts'
  rw [hts, hts', List.map_cons, List.map_cons] at e
  injection e with e _
  rw [e]

/-- **C34** for `parse_ordinal`. -/
theorem c34_accents_ordinal (l s s' : PyStr) (ts ts' : List PyStr) (hts : Tokens l s ts) (hts' : Tokens l s' ts')
    (h : ts.map form = ts'.map form) : parseOrdinal s (some l) = parseOrdinal s' (some l) := by
  rw [tokens_iff] at hts hts'
  subst hts hts'
  have e : normalizeTokens (tokenize s l) = normalizeTokens (tokenize s' l) := h
  unfold parseOrdinal
  simp only [resolveLanguage, bind, Except.bind, e]

example : [u!"veintitrés", u!" ", u!"mil"].map form = [u!"VEINTITRES", u!" ", u!"míl"].map form := by decide +kernel

/-- **C34**: dropping or adding accents of letters (veintitrés, veintitres) does not change the result of
`parse_number`, whatever the language (`lang` is `none` if it is not given). -/
theorem c34_accented_letters (s s' : PyStr) (h : SameUpToAccents s s') (lang : Option PyStr) : parseNumber s lang = parseNumber s' lang := by
  obtain ⟨ps, hp, rfl, rfl⟩ := same_pairs h
  by_cases hn : NumericText (ps.map Prod.fst) ∨ NumericText (ps.map Prod.snd)
  · rw [pairs_numeric hp hn]
  have hb : blank (ps.map Prod.fst) = blank (ps.map Prod.snd) :=
    Bool.eq_iff_iff.mpr ((blank_spec _).trans ((pairs_blank hp).trans (blank_spec _).symm))
  obtain ⟨qs, hq, hm, e1, e2⟩ := pairs_apos hp
  unfold parseNumber
  rw [hb, resolve_pairs hp]
  cases hb' : blank (ps.map Prod.snd) with
  | true => rfl
  | false =>
    have hnb : ∀ s, blank s = false → ¬ Blank s := fun s h h' => by rw [(blank_spec _).mpr h'] at h; cases h
    have h1 := ((wordInput_iff _).mp ⟨hnb _ (hb.trans hb'), fun h => hn (Or.inl h)⟩).2
    have h2 := ((wordInput_iff _).mp ⟨hnb _ hb', fun h => hn (Or.inr h)⟩).2
    rw [h1, h2]
    simp only [replace_apos, dropApos_eq, e1, e2, tokens_pairs_any _ hq, Bool.false_eq_true, if_false]

/-- **C34** for `parse_ordinal`. -/
theorem c34_accented_letters_ordinal (s s' : PyStr) (h : SameUpToAccents s s') (lang : Option PyStr) : parseOrdinal s lang = parseOrdinal s' lang := by
  obtain ⟨ps, hp, rfl, rfl⟩ := same_pairs h
  unfold parseOrdinal
  simp only [resolve_pairs hp, tokens_pairs_any _ hp]

example : SameUpToAccents u!"veintitrés" u!"véintitres" := by
  refine .same (.add ?_ (.same (.same (.same (.same (.same (.same (.drop ?_ (.same .nil)))))))))
  · exact ⟨by decide +kernel, by decide +kernel, 0x301, [], by decide +kernel, by decide +kernel⟩
  · exact ⟨by decide +kernel, by decide +kernel, 0x301, [], by decide +kernel, by decide +kernel⟩

example : parseNumber u!"veintitrés" (some u!"es") = .ok (some 23) ∧ parseNumber u!"veintitres" (some u!"es") = .ok (some 23) ∧
    parseNumber u!"тринадцятьтриста" (some u!"uk") = .ok none := by decide +kernel

end NumberParser.Props
