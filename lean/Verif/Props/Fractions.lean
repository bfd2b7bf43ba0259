import Verif.Proofs.Occurs

/-!
# C07: fractions of spelled numbers
-/

namespace NumberParser.Props
open NumberParser NumberParser.Spec

/-- The words of `L.words n` are number words and stand for `n`. -/
theorem lang_words {L : Lang} (h : L ∈ languages) {n : Nat} (hn : n < L.bound) :
    (∀ w ∈ L.words n, (mkLangData (file L.code)).allNumbers.mem (norm w) = true) ∧
    kindsValue (mkLangData (file L.code)).maximumGroupValue (wordKinds (mkLangData (file L.code)) (L.words n)) = some n := by
  simp only [languages, List.mem_cons, List.not_mem_nil, or_false] at h
  rcases h with rfl | rfl | rfl | rfl | rfl
  · exact ⟨AllNum.mem wf_en (en_words hn).2, (en_words hn).1⟩
  · exact ⟨AllNum.mem wf_es (es_words hn).2, (es_words hn).1⟩
  · exact ⟨AllNum.mem wf_hi (hi_words hn).2, (hi_words hn).1⟩
  · exact ⟨AllNum.mem wf_ru (ru_words hn).2, (ru_words hn).1⟩
  · exact ⟨AllNum.mem wf_uk (uk_words hn).2, (uk_words hn).1⟩

/-- The usual words are a form of the number. -/
theorem lang_form {L : Lang} (h : L ∈ languages) {n : Nat} (hn : n < L.bound) : L.Form n (L.words n) :=
  form_of (styleOK h).2 (lang_words h hn).1 (lang_words h hn).1 rfl

theorem lang_form_value {L : Lang} (h : L ∈ languages) {n : Nat} (hn : n < L.bound) {ws : List PyStr} (hw : L.Form n ws) :
    (∀ w ∈ ws, (mkLangData (file L.code)).allNumbers.mem (norm w) = true) ∧
    kindsValue (mkLangData (file L.code)).maximumGroupValue (wordKinds (mkLangData (file L.code)) ws) = some n := by
  have := form_kinds (styleOK h).2 hw
  exact ⟨this.2, by rw [this.1]; exact (lang_words h hn).2⟩

/-- **C07**, for each of the five languages: every rendering of `a`, a separator and every rendering of `b` are
read as the fraction `a/b`, unreduced; the words may be inflected. -/
theorem c07_fractions (L : Lang) (hL : L ∈ languages) (a b : Nat) (ha : a < L.bound) (hb : b < L.bound) (us vs : List PyStr)
    (hu : L.Form a us) (hv : L.Form b vs) (A B : PyStr)
    (hA : Rendering L.style us A) (hB : Rendering L.style vs B) (sep : PyStr) (hsep : sep ∈ separators) :
    parseFraction (A ++ u!" " ++ sep ++ u!" " ++ B) (some L.code) = .ok (some (decDigits a ++ u!"/" ++ decDigits b)) := by
  obtain ⟨hst, hsup⟩ := styleOK hL
  obtain ⟨ka, va⟩ := lang_form_value hL ha hu
  obtain ⟨kb, vb⟩ := lang_form_value hL hb hv
  generalize mkLangData (file L.code) = ld at *
  have free : ∀ {ws : List PyStr} {T : PyStr}, Rendering L.style ws T → (∀ w ∈ ws, ld.allNumbers.mem (norm w) = true) →
      ∀ p ∈ sepWords, ¬ Occurs p T := by
    rintro ws T ⟨lead, rest, h1, h2, rfl⟩ hk p hp
    exact Frag.sepFree hst.lang (Frag.prepend_spaces (Text.frag hst h2 hk) h1) hp
  rw [parseFraction_parts (fractionParts_of_free (free hA ka) (free hB kb) hsep), fractionOf,
    parseNumber_rendering hst (rendering_space_after hA (g := u!" ") (by decide)) ka, va,
    parseNumber_rendering hst (rendering_space_before hB (g := u!" ") (by decide)) kb, vb]
  rfl

/-- **C07** for the usual English texts. -/
theorem c07_english_text (a b : Nat) (ha : a < 10 ^ 24) (hb : b < 10 ^ 24) (sep : PyStr) (hsep : sep ∈ separators) :
    parseFraction (enText a ++ u!" " ++ sep ++ u!" " ++ enText b) (some u!"en") =
      .ok (some (decDigits a ++ u!"/" ++ decDigits b)) :=
  c07_fractions english (by simp [languages]) a b ha hb _ _ (lang_form (by simp [languages]) ha)
    (lang_form (by simp [languages]) hb) _ _ (enText_rendering ha) (enText_rendering hb) sep hsep

example : enText 24 ++ u!" " ++ u!"divided by" ++ u!" " ++ enText 100000 = u!"twenty-four divided by one hundred thousand" ∧
    decDigits 24 ++ u!"/" ++ decDigits 100000 = u!"24/100000" := by decide +kernel

/-- Other languages, unreduced, denominator zero. -/
example : parseFraction (esText 42 ++ u!" " ++ u!"over" ++ u!" " ++ esText 0) (some u!"es") = .ok (some u!"42/0") :=
  c07_fractions spanish (by simp [languages]) 42 0 (by decide) (by decide) _ _ (lang_form (by simp [languages]) (by decide))
    (lang_form (by simp [languages]) (by decide)) _ _ (esText_rendering (n := 42) (by decide)) (esText_rendering (n := 0) (by decide))
    _ (by decide)

end NumberParser.Props
