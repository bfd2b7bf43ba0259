import Verif.Proofs.AutoText
import Verif.Props.Detection
import Verif.Props.Hindi
import Verif.Props.Meaning
import Verif.Props.Conjunctions

/-!
# C72: texts of one language without a language argument
-/

namespace NumberParser.Props
open NumberParser NumberParser.Spec

theorem recognisedOnlyIn_tokens {l s : PyStr} (h : RecognisedOnlyIn l s) : ∀ l' ∈ supported, ∀ t ∈ tokenize s l', Recognised l' t → Recognised l t :=
  fun l' hl' t ht hr => h l' hl' _ (tokens_tokenize l' s) t ht hr

theorem agree_ru_uk {s : PyStr} (hs : ∀ t ∈ tokenize s u!"uk", Recognised u!"ru" t ↔ Recognised u!"uk" t) :
    tokenize s u!"ru" = tokenize s u!"uk" ∧ (∀ t ∈ tokenize s u!"uk", Agree u!"ru" u!"uk" t) ∧ ∀ t ∈ tokenize s u!"uk", Agree u!"uk" u!"ru" t :=
  ⟨tokenize_same rfl s, fun t ht => agree_of (by simp [cyrillic]) (by simp [cyrillic]) (hs t ht),
    fun t ht => agree_of (by simp [cyrillic]) (by simp [cyrillic]) (hs t ht).symm⟩

theorem cyrillic_skip {a : PyStr} (ha : a ∈ cyrillic) (t : PyStr) : ¬ Skip a t := by
  unfold Skip; rw [(cyrillic_facts a ha).2.2]; simp

/-- **C72**: if no other language recognises a token that `l` does not recognise, `parse` gives without a language what it gives with `l`. -/
theorem c72_parse (l : PyStr) (hl : l ∈ supported) (s : PyStr) (h : RecognisedOnlyIn l s) : parse s none = parse s (some l) := by
  obtain ⟨d, hd, hds, _⟩ := c26_unique s
  rw [(c27_default_language s d hd).1]
  rcases detected_clean hl (recognisedOnlyIn_tokens h) hd with rfl | ⟨rfl, rfl, hs⟩ | hno
  · rfl
  · obtain ⟨e, hag, _⟩ := agree_ru_uk hs
    obtain ⟨raw, hraw, _⟩ := c55_total u!"ru" hds (tokenize s u!"ru")
    rw [(c55_parse u!"ru" hds s _ (tokens_tokenize _ s) _).mpr ⟨raw, hraw, rfl⟩]
    rw [e] at hraw
    exact ((c55_parse u!"uk" hl s _ (tokens_tokenize _ s) _).mpr ⟨raw, converted_agree (by decide) hraw hag, rfl⟩).symm
  · rw [c14_plain_text_unchanged l hl s _ (tokens_tokenize l s) (fun t ht hn => hno l hl t ht (Or.inl hn)),
      c14_plain_text_unchanged d hds s _ (tokens_tokenize d s) (fun t ht hn => hno d hds t ht (Or.inl hn))]

theorem sigma_solid {t : PyStr} (h : 0x3a3 ∈ t) : ∃ x ∈ norm t, isSpace x = false := by
  have key : ∀ (t rev : PyStr), 0x3a3 ∈ t → 0x3c2 ∈ lowerGo rev t ∨ 0x3c3 ∈ lowerGo rev t := by
    intro t
    induction t with
    | nil => intro rev h; cases h
    | cons c cs ih =>
      intro rev h
      simp only [lowerGo, List.mem_append]
      rcases List.mem_cons.mp h with rfl | h
      · rw [if_pos rfl]
        split
        · exact Or.inl (Or.inl (by simp))
        · exact Or.inr (Or.inl (by simp))
      · rcases ih (c :: rev) h with h | h
        · exact Or.inl (Or.inr h)
        · exact Or.inr (Or.inr h)
  rcases key t [] h with h | h
  · exact ⟨0x3c2, (mem_stripAccents _ _).mpr ⟨⟨0x3c2, h, by decide +kernel⟩, by decide +kernel⟩, by decide⟩
  · exact ⟨0x3c3, (mem_stripAccents _ _).mpr ⟨⟨0x3c3, h, by decide +kernel⟩, by decide +kernel⟩, by decide⟩

/-- Whether all tokens are blank depends on the characters of the text only. -/
theorem blankForm_tokens {l s : PyStr} {ts : List PyStr} (h : Tokens l s ts) :
    (∀ t ∈ ts, BlankForm t) ↔ ∀ c ∈ withoutSoftHyphens s, c ≠ 0x3a3 ∧ ∀ x ∈ normChars c, isSpace x = true := by
  rw [← h.1]
  constructor
  · intro hb c hc
    obtain ⟨t, ht, hct⟩ := List.mem_flatten.mp hc
    have hb := hb t ht
    have hne : c ≠ 0x3a3 := by
      rintro rfl
      obtain ⟨x, hx, hs⟩ := sigma_solid hct
      have := hb x hx
      rw [hs] at this; cases this
    exact ⟨hne, fun x hx => hb x (norm_mem hct hne hx)⟩
  · intro hb t ht x hx
    obtain ⟨c, hc, hxc⟩ := mem_norm (t := t) hx
    exact (hb c (List.mem_flatten.mpr ⟨t, ht, hc⟩)).2 x hxc

theorem cardinal_numberWord {l : PyStr} (hl : l ∈ supported) {t : PyStr} (h : Cardinal l t) : NumberWord l t := by
  have hm := (cardinal_iff hl t).mp h
  rw [numberWord_iff hl]
  unfold isNumberToken
  rw [key_conv (languageData_wf (supported_data hl)) hm]
  unfold isCardinalToken
  rw [if_pos hm]; rfl

/-- A text without recognised tokens is a number in one language exactly if it is in another. -/
theorem unrecognised_number {l d s : PyStr} (hl : l ∈ supported) (hd : d ∈ supported) (ha : withoutApostrophes s = s)
    (hno : ∀ l' ∈ supported, ∀ t ∈ tokenize s l', ¬ Recognised l' t) : parseNumber s (some d) = parseNumber s (some l) := by
  by_cases hw : WordInput s
  · have key : ∀ l' ∈ supported, ∀ n, parseNumber s (some l') = .ok (some n) ↔
        n = 0 ∧ ∀ c ∈ withoutSoftHyphens s, c ≠ 0x3a3 ∧ ∀ x ∈ normChars c, isSpace x = true := by
      intro l' hl' n
      obtain ⟨t, ts, ht⟩ := c54_first_token l' (withoutApostrophes s)
      have e := (tokens_iff _ _ _).mp ht
      rw [ha] at e
      have hno' : ∀ x ∈ t :: ts, ¬ Recognised l' x := fun x hx => hno l' hl' x (by rw [← e]; exact hx)
      have hcard : ∀ x ∈ t :: ts, ¬ Cardinal l' x := fun x hx hc => hno' x hx (Or.inl (cardinal_numberWord hl' hc))
      rw [c22_no_number_word l' hl' s hw t ts ht hcard n]
      rw [ha] at ht
      rw [← blankForm_tokens ht]
      constructor
      · rintro ⟨h1, _, h2⟩
        exact ⟨h1, fun x hx => (h2 x hx).resolve_right (fun hs => hno' x hx (Or.inr hs))⟩
      · rintro ⟨h1, h2⟩
        exact ⟨h1, fun hs => hno' t (by simp) (Or.inr hs), fun x hx => Or.inl (h2 x hx)⟩
    have ok : ∀ l' ∈ supported, ∃ r, parseNumber s (some l') = .ok r := by
      intro l' hl'
      cases h1 : parseNumber s (some l') with
      | error e => exact absurd ((c24_supported_number s l' hl' e).mp h1).2.1 hw.2
      | ok r => exact ⟨r, rfl⟩
    obtain ⟨r, hr⟩ := ok d hd
    obtain ⟨r', hr'⟩ := ok l hl
    rw [hr, hr']
    cases r with
    | some n => rw [(key l hl n).mpr ((key d hd n).mp hr)] at hr'; exact hr'
    | none =>
      cases r' with
      | none => rfl
      | some n => rw [(key d hd n).mpr ((key l hl n).mp hr')] at hr; cases hr
  · by_cases hb : Blank s
    · rw [(c23_blank s hb _).1, (c23_blank s hb _).1]
    · have hn : NumericText s := Classical.byContradiction fun hn => hw ⟨hb, hn⟩
      rw [parseNumber_numeric hn, parseNumber_numeric hn]

/-- **C72** for `parse_number`, on texts without apostrophes. -/
theorem c72_number (l : PyStr) (hl : l ∈ supported) (s : PyStr) (h : RecognisedOnlyIn l s) (ha : withoutApostrophes s = s) :
    parseNumber s none = parseNumber s (some l) := by
  obtain ⟨d, hd, hds, _⟩ := c26_unique s
  rw [(c27_default_language s d hd).2.1]
  rcases detected_clean hl (recognisedOnlyIn_tokens h) hd with rfl | ⟨rfl, rfl, hs⟩ | hno
  · rfl
  · by_cases hw : WordInput s
    · obtain ⟨e, hag, hag'⟩ := agree_ru_uk hs
      obtain ⟨t, ts, ht⟩ := c54_first_token u!"uk" (withoutApostrophes s)
      have ht' : Tokens u!"ru" (withoutApostrophes s) (t :: ts) := ht
      have hmem : ∀ x ∈ t :: ts, x ∈ tokenize s u!"uk" := by
        have := (tokens_iff _ _ _).mp ht
        rw [ha] at this
        intro x hx; rw [← this]; exact hx
      have key : ∀ n, parseNumber s (some u!"ru") = .ok (some n) ↔ parseNumber s (some u!"uk") = .ok (some n) := by
        intro n
        rw [c54_number u!"ru" hds s hw t ts ht' n, c54_number u!"uk" hl s hw t ts ht n]
        constructor
        · rintro ⟨_, ws, h1, h2⟩
          exact ⟨cyrillic_skip (by simp [cyrillic]) t, ws, onlyWords_agree h1 (fun t ht => hag t (hmem t ht)), (readsAs_agree (by decide)).mp h2⟩
        · rintro ⟨_, ws, h1, h2⟩
          exact ⟨cyrillic_skip (by simp [cyrillic]) t, ws, onlyWords_agree h1 (fun t ht => hag' t (hmem t ht)), (readsAs_agree (by decide)).mp h2⟩
      cases h1 : parseNumber s (some u!"uk") with
      | error e' => exact absurd ((c24_supported_number s u!"uk" hl e').mp h1).2.1 hw.2
      | ok r =>
        cases r with
        | some n => exact (key n).mpr h1
        | none =>
          cases h2 : parseNumber s (some u!"ru") with
          | error e' => exact absurd ((c24_supported_number s u!"ru" hds e').mp h2).2.1 hw.2
          | ok r' =>
            cases r' with
            | none => rfl
            | some n => rw [(key n).mp h2] at h1; cases h1
    · by_cases hb : Blank s
      · rw [(c23_blank s hb _).1, (c23_blank s hb _).1]
      · have hn : NumericText s := Classical.byContradiction fun hn => hw ⟨hb, hn⟩
        rw [parseNumber_numeric hn, parseNumber_numeric hn]
  · exact unrecognised_number hl hds ha hno

theorem withoutApostrophes_token {s t : PyStr} {l : PyStr} (ha : withoutApostrophes s = s) (ht : t ∈ tokenize s l) : withoutApostrophes t = t := by
  unfold withoutApostrophes at *
  rw [List.filter_eq_self] at *
  intro c hc
  exact ha c (tokenize_sub ht c hc)

theorem onlyNumbers_agree {a b : PyStr} {ts : List PyStr} {ws : List (Class × Nat)} (h : OnlyNumbers a ts ws) (hap : ∀ t ∈ ts, withoutApostrophes t = t)
    (hag : ∀ t ∈ ts, Agree a b t) : OnlyNumbers b ts ws := by
  induction h with
  | nil => exact .nil
  | @word t k v ts ws hw _ ih =>
    have e := hap t (by simp)
    refine .word ?_ (ih (fun t ht => hap t (by simp [ht])) (fun t ht => hag t (by simp [ht])))
    rw [e] at hw ⊢
    rcases hw with h | h
    · exact Or.inl ((hag _ (by simp)).word _ _ h)
    · exact Or.inr ((hag _ (by simp)).ordinal _ _ h)
  | @other t ts ws ho _ ih =>
    have e := hap t (by simp)
    refine .other ?_ (ih (fun t ht => hap t (by simp [ht])) (fun t ht => hag t (by simp [ht])))
    rw [e] at ho ⊢
    rcases ho with h | h
    · exact Or.inl h
    · exact Or.inr ((hag _ (by simp)).skip h)

/-- A text without recognised tokens, split in the same way by two languages, is the same for `parse_ordinal`. -/
theorem unrecognised_ordinal {l d s : PyStr} (hl : l ∈ supported) (hd : d ∈ supported) (ha : withoutApostrophes s = s)
    (hsame : RE_BUG_LANGUAGES.elem d = RE_BUG_LANGUAGES.elem l)
    (hno : ∀ l' ∈ supported, ∀ t ∈ tokenize s l', ¬ Recognised l' t) : parseOrdinal s (some d) = parseOrdinal s (some l) := by
  obtain ⟨t, ts, ht⟩ := c54_first_token l s
  have e := (tokens_iff _ _ _).mp ht
  have ht' : Tokens d s (t :: ts) := (tokens_iff _ _ _).mpr (e.trans (tokenize_same hsame s).symm)
  by_cases h2 : SingleNumeral (t :: ts)
  · have k1 := c56_numeral d hd s _ ht' h2
    have k2 := c56_numeral l hl s _ ht h2
    by_cases hn : ∃ n, DigitText (spaced ((t :: ts).map form)) n
    · obtain ⟨n, hn⟩ := hn
      rw [(k1.1 n).mpr hn, (k2.1 n).mpr hn]
    · have hn' : ∀ n, ¬ DigitText (spaced ((t :: ts).map form)) n := fun n h => hn ⟨n, h⟩
      rw [k1.2 hn', k2.2 hn']
  · by_cases h1 : ∃ x ∈ t :: ts, ¬ BlankForm x
    · have key : ∀ l' ∈ supported, Tokens l' s (t :: ts) → parseOrdinal s (some l') = .ok none := by
        intro l' hl' htl
        rw [c56_none l' hl' s t ts htl h1 h2]
        have el := (tokens_iff _ _ _).mp htl
        rintro ⟨n, ws, _, hon, _⟩
        obtain ⟨x, hx, hb⟩ := h1
        have gen : ∀ (us : List PyStr) (ws : List (Class × Nat)), OnlyNumbers l' us ws → (∀ u ∈ us, withoutApostrophes u = u) →
            (∀ u ∈ us, ¬ Recognised l' u) → ∀ u ∈ us, BlankForm u := by
          intro us ws h
          induction h with
          | nil => intro _ _ u hu; cases hu
          | @word t k v ts ws hw _ _ =>
            intro hap hr
            have e := hap t (by simp)
            rw [e] at hw
            rcases hw with h | ⟨_, c, hc⟩
            · exact absurd (Or.inl (cardinal_numberWord hl' ⟨k, v, h⟩)) (hr t (by simp))
            · exact absurd (Or.inl ⟨k, v, c, hc⟩) (hr t (by simp))
          | @other t ts ws ho _ ih =>
            intro hap hr u hu
            have e := hap t (by simp)
            rw [e] at ho
            rcases List.mem_cons.mp hu with rfl | hu
            · exact ho.resolve_right (fun h => hr u (by simp) (Or.inr h))
            · exact ih (fun u hu => hap u (by simp [hu])) (fun u hu => hr u (by simp [hu])) u hu
        exact hb (gen _ _ hon (fun u hu => withoutApostrophes_token ha (l := l') (by rw [← el]; exact hu))
          (fun u hu => hno l' hl' u (by rw [← el]; exact hu)) x hx)
      rw [key l hl ht, key d hd ht']
    · have h1' : ∀ x ∈ t :: ts, BlankForm x := fun x hx => Classical.byContradiction fun hb => h1 ⟨x, hx, hb⟩
      rw [c56_blank d hd s _ ht' h1', c56_blank l hl s _ ht h1']

/-- **C72** for `parse_ordinal`, on texts without apostrophes; for Hindi, only if some token is recognised. -/
theorem c72_ordinal (l : PyStr) (hl : l ∈ supported) (s : PyStr) (h : RecognisedOnlyIn l s) (ha : withoutApostrophes s = s)
    (hr : l = u!"hi" → ∃ ts t, Tokens l s ts ∧ t ∈ ts ∧ Recognised l t) : parseOrdinal s none = parseOrdinal s (some l) := by
  obtain ⟨d, hd, hds, _⟩ := c26_unique s
  rw [(c27_default_language s d hd).2.2.1]
  rcases detected_clean hl (recognisedOnlyIn_tokens h) hd with rfl | ⟨rfl, rfl, hs⟩ | hno
  · rfl
  · obtain ⟨_, hag, hag'⟩ := agree_ru_uk hs
    obtain ⟨t, ts, ht⟩ := c54_first_token u!"uk" s
    have ht' : Tokens u!"ru" s (t :: ts) := ht
    have e := (tokens_iff _ _ _).mp ht
    have hmem : ∀ x ∈ t :: ts, x ∈ tokenize s u!"uk" := by intro x hx; rw [← e]; exact hx
    have hap : ∀ x ∈ t :: ts, withoutApostrophes x = x := fun x hx => withoutApostrophes_token ha (hmem x hx)
    by_cases h2 : SingleNumeral (t :: ts)
    · have k1 := c56_numeral u!"ru" hds s _ ht' h2
      have k2 := c56_numeral u!"uk" hl s _ ht h2
      by_cases hn : ∃ n, DigitText (spaced ((t :: ts).map form)) n
      · obtain ⟨n, hn⟩ := hn
        rw [(k1.1 n).mpr hn, (k2.1 n).mpr hn]
      · have hn' : ∀ n, ¬ DigitText (spaced ((t :: ts).map form)) n := fun n h => hn ⟨n, h⟩
        rw [k1.2 hn', k2.2 hn']
    · by_cases h1 : ∃ x ∈ t :: ts, ¬ BlankForm x
      · have key : ∀ n, parseOrdinal s (some u!"ru") = .ok (some n) ↔ parseOrdinal s (some u!"uk") = .ok (some n) := by
          intro n
          rw [c56_ordinal u!"ru" hds s t ts ht' h1 h2 n, c56_ordinal u!"uk" hl s t ts ht h1 h2 n]
          constructor
          · rintro ⟨_, ws, h1, h2⟩
            exact ⟨cyrillic_skip (by simp [cyrillic]) _, ws, onlyNumbers_agree h1 hap (fun t ht => hag t (hmem t ht)), (readsAs_agree (by decide)).mp h2⟩
          · rintro ⟨_, ws, h1, h2⟩
            exact ⟨cyrillic_skip (by simp [cyrillic]) _, ws, onlyNumbers_agree h1 hap (fun t ht => hag' t (hmem t ht)), (readsAs_agree (by decide)).mp h2⟩
        by_cases hn : ∃ n ws, ¬ Skip u!"uk" (withoutApostrophes t) ∧ OnlyNumbers u!"uk" (t :: ts) ws ∧ ReadsAs u!"uk" ws n
        · obtain ⟨n, ws, hn⟩ := hn
          have := (c56_ordinal u!"uk" hl s t ts ht h1 h2 n).mpr ⟨hn.1, ws, hn.2⟩
          rw [this]; exact (key n).mpr this
        · rw [(c56_none u!"uk" hl s t ts ht h1 h2).mpr hn]
          apply (c56_none u!"ru" hds s t ts ht' h1 h2).mpr
          rintro ⟨n, ws, h3, h4⟩
          have := (key n).mp ((c56_ordinal u!"ru" hds s t ts ht' h1 h2 n).mpr ⟨h3, ws, h4⟩)
          obtain ⟨h5, ws', h6⟩ := (c56_ordinal u!"uk" hl s t ts ht h1 h2 n).mp this
          exact hn ⟨n, ws', h5, h6⟩
      · have h1' : ∀ x ∈ t :: ts, BlankForm x := fun x hx => Classical.byContradiction fun hb => h1 ⟨x, hx, hb⟩
        rw [c56_blank u!"ru" hds s _ ht' h1', c56_blank u!"uk" hl s _ ht h1']
  · by_cases hhi : l = u!"hi"
    · obtain ⟨ts, t0, ht0, htm, hr⟩ := hr hhi
      rw [tokens_iff] at ht0
      subst ht0
      exact absurd hr (hno l hl t0 htm)
    · have hen : d = u!"en" := by
        obtain ⟨l', hl', _, hu⟩ := c26_unique s
        have h1 := c26_default s (fun l hl => ⟨_, tokens_tokenize l s, by
          rw [List.length_eq_zero_iff, List.filter_eq_nil_iff]
          intro t ht hr
          exact hno l hl t ht (by simpa [Recognised] using hr)⟩)
        rw [hu d hd, ← hu u!"en" ((c26_detection s u!"en").mp h1)]
      subst hen
      refine unrecognised_ordinal hl hds ha ?_ hno
      simp [RE_BUG_LANGUAGES, hhi]

/-! ## Sentences -/

/-- What the detection counts, for comparison forms. -/
def validB (l f : PyStr) : Bool := (isNumberToken f (mkLangData (file l))).isSome || isSkipToken f (mkLangData (file l))

theorem recognised_valid {l : PyStr} (hl : l ∈ supported) (t : PyStr) : Recognised l t ↔ validB l (norm t) = true := by
  unfold Recognised validB
  rw [Bool.or_eq_true, numberWord_iff hl, skip_iff]

def Clean (l s : PyStr) : Prop := ∀ l' ∈ supported, ∀ f ∈ solid l' s, validB l' f = true → validB l f = true

theorem validB_solid {l f : PyStr} (hl : l ∈ supported) (h : validB l f = true) : blank f = false := by
  cases hb : blank f with
  | false => rfl
  | true =>
    obtain ⟨h1, h2⟩ := blank_not_number (supported_data hl) hb
    unfold validB at h
    rw [h1, h2] at h; cases h

theorem clean_iff {l : PyStr} (hl : l ∈ supported) (s : PyStr) : Clean l s ↔ RecognisedOnlyIn l s := by
  constructor
  · intro h l' hl' ts ht t htm hr
    rw [tokens_iff] at ht; subst ht
    rw [recognised_valid hl'] at hr
    rw [recognised_valid hl]
    refine h l' hl' (norm t) ?_ hr
    unfold solid
    exact List.mem_filter.mpr ⟨List.mem_map.mpr ⟨t, htm, rfl⟩, by rw [validB_solid hl' hr]; rfl⟩
  · intro h l' hl' f hf hv
    unfold solid at hf
    obtain ⟨t, ht, rfl⟩ := List.mem_map.mp (List.mem_filter.mp hf).1
    exact (recognised_valid hl t).mp (h l' hl' _ (tokens_tokenize l' s) t ht ((recognised_valid hl' t).mpr hv))

theorem clean_gap {l a g b : PyStr} (hg : WhiteSpace g) (ha : Clean l a) (hb : Clean l b) : Clean l (a ++ g ++ b) := by
  intro l' hl' f hf hv
  rw [solid_gap l' a b hg] at hf
  rcases List.mem_append.mp hf with hf | hf
  · exact ha l' hl' f hf hv
  · exact hb l' hl' f hf hv

/-- The characters of a spelled number of `L`, in comparison form, are in its script. -/
theorem frag_chars {l : PyStr} {ld : LangData} (h : languageData l = .ok ld) {s : PyStr} {ks : List Kind} (hf : Frag l ld s ks)
    {c : Nat} (hc : c ∈ s) : ∀ x ∈ normChars c, scriptOf x = langScript l ∨ scriptOf x = 3 := by
  intro x hx
  by_cases hsig : c = 0x3a3
  · subst hsig
    right
    rw [show normChars 0x3a3 = [0x3c2, 0x3c3] from by decide +kernel] at hx
    simp only [List.mem_cons, List.not_mem_nil, or_false] at hx
    rcases hx with rfl | rfl <;> decide +kernel
  · exact hf.script h (t := [c]) (by simpa using hc) x (norm_mem (by simp) hsig hx)

/-- A text of characters in the script of `l` (or none) has no recognised token in a language of another script. -/
theorem foreign_text {l l' s : PyStr} (hl' : l' ∈ supported) (hne : langScript l ≠ langScript l')
    (h : ∀ c ∈ s, ∀ x ∈ normChars c, scriptOf x = langScript l ∨ scriptOf x = 3) : ∀ f ∈ solid l' s, validB l' f = false := by
  intro f hf
  unfold solid at hf
  obtain ⟨t, ht, rfl⟩ := List.mem_map.mp (List.mem_filter.mp hf).1
  obtain ⟨h1, h2⟩ := foreign_not_valid (supported_data hl') (t := norm t) (by
    intro x hx
    obtain ⟨c, hc, hxc⟩ := mem_norm hx
    rcases h c (tokenize_sub ht c hc) x hxc with h | h
    · rw [h]; exact hne
    · rw [h]; have := langScript_lt l'; omega)
  show ((isNumberToken (norm t) _).isSome || isSkipToken (norm t) _) = false
  rw [h1, h2]; rfl

theorem spells_clean {L : Lang} (hL : L ∈ languages) {n : Nat} {t : PyStr} (h : Spells L n t) :
    (∃ ks, Frag L.code (mkLangData (file L.code)) t ks) ∧ Clean L.code t := by
  obtain ⟨h1, ⟨ws, hws, h2⟩, _⟩ := h
  have hl := (styleOK hL).2
  have hf := Text.frag (styleOK hL).1 h2 (lang_form_value hL h1 hws).1
  refine ⟨⟨_, hf⟩, ?_⟩
  intro l' hl' f hfm hv
  by_cases hs : langScript L.code = langScript l'
  · rw [← solid_same (script_tokens _ hl _ hl' hs), solid_of_frag (supported_data hl) hf] at hfm
    have := hf.ok f hfm
    unfold validB
    unfold numOrSkip at this
    rw [Bool.or_eq_true] at this ⊢
    rcases this with h | h
    · exact Or.inl (by rw [number_of_mem (languageData_wf (supported_data hl)) h]; rfl)
    · exact Or.inr h
  · rw [foreign_text hl' hs (fun c hc => frag_chars (supported_data hl) hf hc) f hfm] at hv; cases hv

theorem mark_not_valid : ∀ l ∈ supported, ∀ c ∈ [0x2e, 0x2c], validB l [c] = false := by
  intro l hl c hc
  obtain ⟨h1, h2⟩ := foreign_not_valid (supported_data hl) (t := [c]) (by
    intro x hx
    simp only [List.mem_cons, List.not_mem_nil, or_false] at hx hc
    have := langScript_lt l
    have h3 : scriptOf c = 3 := by rcases hc with rfl | rfl <;> decide
    rw [hx, h3]; omega)
  unfold validB
  rw [h1, h2]; rfl

theorem mark_chars : ∀ c ∈ [0x2e, 0x2c], ∀ x ∈ normChars c, scriptOf x = 3 := by decide +kernel

theorem sol_marks : ∀ l ∈ supported, l ≠ u!"hi" → ∀ c ∈ [0x2e, 0x2c], (sol l [c]).map norm = [[c]] := by decide +kernel

theorem ended_clean {L : Lang} (hL : L ∈ languages) (hne : L ≠ hindi) {n : Nat} {t : PyStr} (h : Spells L n t) {mark : Nat}
    (hm : mark = 0x2e ∨ mark = 0x2c) : Clean L.code (t ++ [mark]) := by
  obtain ⟨⟨ks, hf⟩, hc⟩ := spells_clean hL h
  have hl := (styleOK hL).2
  have hm' : mark ∈ [0x2e, 0x2c] := by simpa using hm
  intro l' hl' f hfm hv
  by_cases hs : langScript L.code = langScript l'
  · have hcode : L.code ≠ u!"hi" := by
      intro e
      simp only [languages, List.mem_cons, List.not_mem_nil, or_false] at hL
      rcases hL with rfl | rfl | rfl | rfl | rfl
      · revert e; decide
      · revert e; decide
      · exact hne rfl
      · revert e; decide
      · revert e; decide
    have hl'n : l' ≠ u!"hi" := by
      rintro rfl
      have := script_tokens _ hl _ hl' hs
      revert this hcode
      generalize L.code = k at hl
      revert k; decide
    have hshy : noShy (t ++ [mark]) = t ++ [mark] := by
      apply List.filter_eq_self.mpr
      intro c hc
      simp only [bne_iff_ne, ne_eq]
      rintro rfl
      rcases List.mem_append.mp hc with hc | hc
      · have := hf.plain _ hc; revert this; decide
      · simp only [List.mem_cons, List.not_mem_nil, or_false] at hc
        rw [← hc] at hm'; revert hm'; decide
    have hshy' : noShy t = t := noShy_plain hf.plain
    rw [solid_eq, hshy, sol_append_sep l' t [] (sep_mark hl'n hm)] at hfm
    have hmk := sol_marks l' hl' hl'n mark hm'
    rw [List.map_append, List.map_append, hmk, sol_nil, List.map_nil, List.append_nil, List.filter_append] at hfm
    rcases List.mem_append.mp hfm with hfm | hfm
    · refine hc l' hl' f ?_ hv
      rw [solid_eq, hshy']; exact hfm
    · have := (List.mem_filter.mp hfm).1
      simp only [List.mem_cons, List.not_mem_nil, or_false] at this
      rw [this, mark_not_valid l' hl' mark hm'] at hv; cases hv
  · rw [foreign_text hl' hs (fun c hc x hx => ?_) f hfm] at hv
    · cases hv
    · rcases List.mem_append.mp hc with hc | hc
      · exact frag_chars (supported_data hl) hf hc x hx
      · simp only [List.mem_cons, List.not_mem_nil, or_false] at hc
        subst hc
        exact Or.inr (mark_chars c hm' x hx)

/-- **C72**: sentences of ordinary words and spelled numbers (C45) are converted without a language argument too, if no language recognises a
token of the ordinary text that the language of the sentence does not recognise. -/
theorem c72_sentence (L : Lang) (hL : L ∈ languages) (ps : List Part) (h : Sentence L ps) (hhi : L = hindi → ∀ n t mark, Part.ended n t mark ∉ ps)
    (hplain : ∀ t, Part.plain t ∈ ps → RecognisedOnlyIn L.code t) :
    parse (spaced (ps.map Part.text)) none = .ok (spaced (ps.map Part.result)) := by
  have hl := (styleOK hL).2
  have hclean : Clean L.code (spaced (ps.map Part.text)) := by
    have hok := Sentence.ok h
    clear h
    induction ps with
    | nil => exact (clean_iff hl _).mpr (by
        intro l' hl' ts ht t htm hr
        rw [tokens_iff] at ht
        subst ht
        rw [recognised_valid hl'] at hr
        have hb := validB_solid hl' hr
        have : t = [] := List.eq_nil_iff_forall_not_mem.mpr (fun c hc => by cases tokenize_sub htm c hc)
        subst this
        exact absurd hb (by decide))
    | cons p ps ih =>
      have hp : Clean L.code p.text := by
        have := hok p (by simp)
        cases p with
        | plain t => exact (clean_iff hl t).mpr (hplain t (by simp))
        | number n t => exact (spells_clean hL this).2
        | ended n t mark => exact ended_clean hL (fun e => hhi e n t mark (by simp)) this.1 this.2
      by_cases hne : ps = []
      · subst hne; exact hp
      · have ih := ih (fun e n t mark hm => hhi e n t mark (by simp [hm])) (fun t ht => hplain t (by simp [ht])) (fun p hp => hok p (by simp [hp]))
        rw [List.map_cons, spaced_cons _ (by simpa using hne)]
        have := clean_gap (g := u!" ") ⟨by simp, by decide⟩ hp ih
        simpa using this
  rw [c72_parse L.code hl _ ((clean_iff hl _).mp hclean)]
  by_cases hh : L = hindi
  · subst hh; exact c45_hindi ps h (hhi rfl)
  · refine c45_sentence L ?_ ps h
    simp only [languages, wordLanguages, List.mem_cons, List.not_mem_nil, or_false] at hL ⊢
    rcases hL with h | h | h | h | h
    · exact Or.inl h
    · exact Or.inr (Or.inl h)
    · exact absurd h hh
    · exact Or.inr (Or.inr (Or.inl h))
    · exact Or.inr (Or.inr (Or.inr h))

theorem clean_check {l s : PyStr} (hl : l ∈ supported) (hs : ∀ c ∈ s, ∀ x ∈ normChars c, scriptOf x = langScript l ∨ scriptOf x = 3)
    (h : supported.all (fun l' => langScript l' != langScript l || l' == l || (solid l' s).all (fun f => !validB l' f || validB l f)) = true) :
    RecognisedOnlyIn l s := by
  refine (clean_iff hl s).mp ?_
  intro l' hl' f hf hv
  by_cases he : langScript l = langScript l'
  · by_cases hll : l' = l
    · subst hll; exact hv
    · have := List.all_eq_true.mp h l' hl'
      simp only [he, bne_self_eq_false, Bool.false_or, Bool.or_eq_true, beq_iff_eq, hll, false_or] at this
      have := List.all_eq_true.mp this f hf
      rw [hv] at this
      simpa using this
  · rw [foreign_text hl' he hs f hf] at hv; cases hv

/-- A Ukrainian sentence, for all numbers. Russian is detected if the number is written with words common to both languages. -/
example (n : Nat) (hn : n < 10 ^ 18) :
    parse (u!"вона має " ++ ukText n ++ u!" котів") none = .ok (u!"вона має " ++ decDigits n ++ u!" котів") := by
  have h := c72_sentence ukrainian (by simp [languages]) [.plain u!"вона має", .number n (ukText n), .plain u!"котів"] ?_ (by simp [hindi, ukrainian]) ?_
  · simpa [spaced, Part.text, Part.result] using h
  · have plain : ∀ t : PyStr, t ≠ [] → t.all (fun c => c != 0xad) = true → (∀ c, t.head? = some c → isSpace c = false) →
        (∀ c, t.getLast? = some c → isSpace c = false) →
        (tokenize t u!"uk").all (fun w => (isNumberToken (norm w) ldUk).isNone) = true → Part.OK ukrainian (.plain t) := by
      intro t h0 h1 h2 h3 h4
      refine ⟨h0, fun c rest e => h2 c (by rw [e]; rfl), fun c rest e => h3 c (by rw [e]; simp), ?_, ?_⟩
      · intro hm; have := List.all_eq_true.mp h1 _ hm; simp at this
      · intro ts hts w hw hn
        rw [tokens_iff] at hts; subst hts
        have h5 := List.all_eq_true.mp h4 w hw
        have h6 := (numberWord_iff (l := u!"uk") (by decide) w).mp hn
        change (isNumberToken (norm w) ldUk).isSome = true at h6
        simp at h5
        rw [h5] at h6; cases h6
    have hcats : StartsOrdinary u!"uk" u!"котів" := by
      refine ⟨u!"котів", [], ⟨⟨0x43a, by decide +kernel, by decide⟩, ?_, ?_⟩, Or.inl ((tokens_iff _ _ _).mpr (by decide +kernel))⟩
      · rw [numberWord_iff (by decide)]; decide +kernel
      · rw [skip_iff]; decide +kernel
    exact ⟨plain _ (by decide) (by decide) (by decide) (by decide) (by decide +kernel), trivial,
      spells_ukText n hn, hcats, plain _ (by decide) (by decide) (by decide) (by decide) (by decide +kernel)⟩
  · intro t ht
    simp only [List.mem_cons, Part.plain.injEq, reduceCtorEq, List.not_mem_nil, or_false, false_or] at ht
    rcases ht with rfl | rfl
    · exact clean_check (by decide) (by decide +kernel) (by decide +kernel)
    · exact clean_check (by decide) (by decide +kernel) (by decide +kernel)

set_option maxRecDepth 100000 in
/-- Why Hindi is excepted: a mark without letter or digit splits a text in English, the language of texts without recognised
tokens, but not in Hindi. -/
theorem c72_refuted : RecognisedOnlyIn u!"hi" u!"5\u03015" ∧ parseOrdinal u!"5\u03015" none = .ok none ∧ parseOrdinal u!"5\u03015" (some u!"hi") = .ok (some 55) := by
  refine ⟨?_, by decide +kernel, by decide +kernel⟩
  exact clean_check (by decide) (by decide +kernel) (by decide +kernel)

end NumberParser.Props
