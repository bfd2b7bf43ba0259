import Verif.Props.Api
import Verif.Proofs.Concat

/-!
# C24, C25, C31: exceptions and bounds
-/

namespace NumberParser.Props
open NumberParser NumberParser.Spec

set_option maxRecDepth 100000

/-! ## C24 -/

theorem c24_supported_number (s l : PyStr) (hl : l ∈ supported) (e : PyErr) :
    parseNumber s (some l) = .error e ↔ e = .badInt ∧ NumericText s ∧ ¬ ∃ n, DigitText s n := by
  by_cases hn : NumericText s
  · rw [parseNumber_numeric hn]
    constructor
    · intro h
      cases hp : pyInt s with
      | ok n => rw [hp] at h; cases h
      | error e' =>
        rw [hp] at h
        have he : e' = e := by simpa [Except.map] using h
        subst he
        refine ⟨pyInt_error hp, hn, ?_⟩
        rintro ⟨n, h⟩
        rw [(pyInt_iff s n).mpr h] at hp; cases hp
    · rintro ⟨rfl, _, h⟩
      cases hp : pyInt s with
      | ok n => exact absurd ⟨n, (pyInt_iff s n).mp hp⟩ h
      | error e' => rw [pyInt_error hp]; rfl
  · constructor
    · intro h
      by_cases hb : blank s = true
      · unfold parseNumber at h; rw [if_pos hb] at h; cases h
      · have h2 : isNumeric (strip s) = false := by
          cases hh : isNumeric (strip s) with
          | false => rfl
          | true => exact absurd ((numericText_iff s).mpr hh) hn
        rw [parseNumber_words (supported_data hl) (by simpa using hb) h2] at h
        cases h
    · rintro ⟨_, h, _⟩; exact absurd h hn

/-- **C24**: for a supported language, or without language argument, `parse_number` raises an exception exactly for
numeric text that is not a numeral of at most 4300 digits with ordinary white space around it. -/
theorem c24_parse_number (s : PyStr) (lang : Option PyStr) (hl : ∀ l, lang = some l → l ∈ supported) (e : PyErr) :
    parseNumber s lang = .error e ↔ e = .badInt ∧ NumericText s ∧ ¬ ∃ n, DigitText s n := by
  cases lang with
  | some l => exact c24_supported_number s l (hl l rfl) e
  | none =>
    obtain ⟨l, hdet, hl', _⟩ := c26_unique s
    rw [(c27_default_language s l hdet).2.1]
    exact c24_supported_number s l hl' e

/-- The exception does occur. -/
example : parseNumber u!"½" (some u!"en") = .error .badInt ∧ parseNumber u!"²" none = .error .badInt ∧
    parseNumber u!"\u001c3" (some u!"en") = .error .badInt := by decide +kernel

/-- **C24**: `parse` never raises an exception for a supported language or without language argument. -/
theorem c24_parse (s : PyStr) (lang : Option PyStr) (hl : ∀ l, lang = some l → l ∈ supported) :
    ∃ out, parse s lang = .ok out := by
  cases lang with
  | some l => exact ⟨_, parse_eq (supported_data (hl l rfl)) s⟩
  | none =>
    obtain ⟨l, hdet, hl', _⟩ := c26_unique s
    rw [(c27_default_language s l hdet).1]
    exact ⟨_, parse_eq (supported_data hl') s⟩

/-- A listed word contains a character that is neither numeric nor white space. -/
def solidKeyCheck (ld : LangData) : Bool :=
  ld.allNumbers.all (fun e => e.1.any (fun c => !isNumericChar c && !isSpace c)) &&
  ld.skipTokens.all (fun t => t.any (fun c => !isNumericChar c && !isSpace c))

theorem solidKey {l : PyStr} {ld : LangData} (h : languageData l = .ok ld) : solidKeyCheck ld = true := by
  rcases (languageData_ok_iff l ld).mp h with ⟨_, rfl⟩ | ⟨_, rfl⟩ | ⟨_, rfl⟩ | ⟨_, rfl⟩ | ⟨_, rfl⟩ <;> decide +kernel

theorem skipConv {l : PyStr} {ld : LangData} (h : languageData l = .ok ld) :
    ld.skipTokens.all (fun t => applyCardinalConversion t ld = t) = true := by
  rcases (languageData_ok_iff l ld).mp h with ⟨_, rfl⟩ | ⟨_, rfl⟩ | ⟨_, rfl⟩ | ⟨_, rfl⟩ | ⟨_, rfl⟩ <;> decide +kernel

theorem mem_join {sep t : PyStr} {ts : List PyStr} (h : t ∈ ts) {c : Nat} (hc : c ∈ t) : c ∈ join sep ts := by
  induction ts with
  | nil => cases h
  | cons x xs ih =>
    cases xs with
    | nil => rw [List.mem_singleton] at h; subst h; exact hc
    | cons y ys =>
      simp only [join, List.mem_append]
      rcases List.mem_cons.mp h with rfl | h
      · exact Or.inl (Or.inl hc)
      · exact Or.inr (ih h)

/-- **C24** for `parse_ordinal` and a supported language: an exception is raised at most for text without number
words and conjunctions. -/
theorem c24_parse_ordinal (s l : PyStr) (hl : l ∈ supported) (ts : List PyStr) (hts : Tokens l s ts) (t : PyStr) (ht : t ∈ ts)
    (hn : NumberWord l t ∨ Skip l t) : ∃ r, parseOrdinal s (some l) = .ok r := by
  rw [tokens_iff] at hts; subst hts
  have hd := supported_data hl
  have hw := languageData_wf hd
  have hk := solidKey hd
  unfold solidKeyCheck at hk
  rw [Bool.and_eq_true] at hk
  -- the converted token is a listed word
  have hc : ∃ c ∈ applyCardinalConversion (norm t) (mkLangData (file l)), isNumericChar c = false ∧ isSpace c = false := by
    rcases hn with hn | hn
    · rw [numberWord_iff hl] at hn
      unfold isNumberToken isCardinalToken at hn
      split at hn
      · rename_i hm
        have := dictAllKey_sound (p := fun t => t.any (fun c => !isNumericChar c && !isSpace c)) hk.1 hm
        simpa using this
      · cases hn
    · rw [skip_iff] at hn
      have h1 := skip_number hw hn
      have h2 := List.all_eq_true.mp hk.2 _ (List.elem_iff.mp hn)
      have h3 : applyCardinalConversion (norm t) (mkLangData (file l)) = norm t := by
        have := skipConv hd
        exact of_decide_eq_true (List.all_eq_true.mp this _ (List.elem_iff.mp hn))
      rw [h3]
      simpa using h2
  obtain ⟨c, hc1, hc2, hc3⟩ := hc
  unfold parseOrdinal
  simp only [resolveLanguage, hd, bind, Except.bind]
  have hmem : c ∈ join u!" " ((normalizeTokens (tokenize s l)).map (fun t => applyCardinalConversion t (mkLangData (file l)))) := by
    refine mem_join ?_ hc1
    exact List.mem_map.mpr ⟨norm t, List.mem_map.mpr ⟨t, ht, rfl⟩, rfl⟩
  generalize join u!" " ((normalizeTokens (tokenize s l)).map (fun t => applyCardinalConversion t (mkLangData (file l)))) = s' at hmem
  cases hp : parseNumber s' (some l) with
  | ok r => exact ⟨r, rfl⟩
  | error e =>
    obtain ⟨_, ⟨a, x, b, h1, h2, h3, _, h5⟩, _⟩ := (c24_supported_number s' l hl e).mp hp
    rw [h1] at hmem
    simp only [List.mem_append] at hmem
    rcases hmem with (hm | hm) | hm
    · rw [h2 c hm] at hc3; cases hc3
    · rw [h5 c hm] at hc2; cases hc2
    · rw [h3 c hm] at hc3; cases hc3

/-! ## C25 -/

theorem unsupported_data {l : PyStr} (h : l ∉ supported) : languageData l = .error .unsupportedLanguage := by
  unfold languageData
  have : SUPPORTED_LANGUAGES.elem l = false := by
    cases he : SUPPORTED_LANGUAGES.elem l with
    | false => rfl
    | true => exact absurd (List.elem_iff.mp he) h
  rw [this]; rfl

/-- **C25**: for an unsupported language `parse` and `parse_ordinal` raise an exception for every text. -/
theorem c25_unsupported (l : PyStr) (h : l ∉ supported) (s : PyStr) :
    parse s (some l) = .error .unsupportedLanguage ∧ parseOrdinal s (some l) = .error .unsupportedLanguage := by
  constructor
  · unfold parse; simp [resolveLanguage, unsupported_data h, bind, Except.bind]
  · unfold parseOrdinal; simp [resolveLanguage, unsupported_data h, bind, Except.bind]

/-- **C25**: `parse_number` complains about an unsupported language exactly for text that is neither blank nor
numeric. -/
theorem c25_unsupported_number (l : PyStr) (h : l ∉ supported) (s : PyStr) :
    parseNumber s (some l) = .error .unsupportedLanguage ↔ ¬ Blank s ∧ ¬ NumericText s := by
  rw [← blank_spec, numericText_iff]
  by_cases hb : blank s = true
  · unfold parseNumber; rw [if_pos hb]; simp [hb]
  · by_cases hn : isNumeric (strip s) = true
    · rw [parseNumber_numeric ((numericText_iff s).mpr hn)]
      simp only [hn, not_true_eq_false, and_false, iff_false]
      intro he
      cases hp : pyInt s with
      | ok n => rw [hp] at he; cases he
      | error e =>
        rw [hp, pyInt_error hp] at he
        cases he
    · unfold parseNumber
      simp [hb, hn, resolveLanguage, unsupported_data h, bind, Except.bind]

example : u!"xx" ∉ supported ∧ parseNumber u!"two" (some u!"xx") = .error .unsupportedLanguage := by decide +kernel

/-! ## C31 -/

/-- **C31**: a number that `parse_number` reads from words (for text of any length) is below 10^1300. -/
theorem c31_parse_number (s : PyStr) (lang : Option PyStr) (n : Nat) (hs : ¬ NumericText s)
    (h : parseNumber s lang = .ok (some n)) : n < 10 ^ 1300 := by
  have key : ∀ l, parseNumber s (some l) = .ok (some n) → n < 10 ^ 1300 := by
    intro l h
    by_cases hb : blank s = true
    · unfold parseNumber at h; rw [if_pos hb] at h; cases h
    have hn : ¬ isNumeric (strip s) = true := fun e => hs ((numericText_iff s).mpr e)
    cases hd : languageData l with
    | error e =>
      unfold parseNumber at h
      simp [hb, hn, resolveLanguage, hd, bind, Except.bind] at h
    | ok ld =>
      have hwf := languageData_wf hd
      rw [parseNumber_words hd (by simpa using hb) (by simpa using hn)] at h
      injection h with h
      unfold wordsNumber at h
      split at h
      · rename_i ht
        exact buildItems_bound hwf _ (tokensOk_all hwf _ ht) n (by rw [numberOfItems_some h]; simp)
      · cases h
  cases lang with
  | some l => exact key l h
  | none =>
    obtain ⟨l, hdet, _⟩ := c26_unique s
    rw [(c27_default_language s l hdet).2.1] at h
    exact key l h

theorem decDigits_inj {m n : Nat} (h : decDigits m = decDigits n) : m = n := by
  obtain ⟨_, ds, e1, e2, _⟩ := (numeral_iff _ _).mp (numeral_decDigits m)
  obtain ⟨_, ds', e3, e4, _⟩ := (numeral_iff _ _).mp (numeral_decDigits n)
  rw [h, e3] at e1; injection e1 with e1; subst e1
  rw [← e2, e4]

/-- **C31** for `parse`: a numeral in the output that was not in the text is that of a number below 10^1300. -/
theorem c31_parse (l : PyStr) (hl : l ∈ supported) (s out : PyStr) (h : parse s (some l) = .ok out)
    (ts ts' : List PyStr) (hts : Tokens l s ts) (hts' : Tokens l out ts') (n : Nat) (hn : decDigits n ∈ ts')
    (hnew : decDigits n ∉ ts) : n < 10 ^ 1300 := by
  have hw := c15_ordinary_words_kept l hl s out h ts ts' hts hts'
  have hd := supported_data hl
  have hord : Ordinary l (decDigits n) := by
    have hdig := decDigits_isDigit n
    have hnum : ∀ c ∈ decDigits n, isNumericChar c = true := fun c hc => digit_numeric (hdig.2 c hc)
    have hnn := norm_numeric hnum
    refine ⟨?_, ?_, ?_⟩
    · cases hx : decDigits n with
      | nil => exact absurd hx hdig.1
      | cons c cs =>
        rw [← hx]
        have hc : c ∈ decDigits n := by rw [hx]; simp
        have hr := hdig.2 c hc
        refine ⟨c, norm_mem hc (by omega) ?_, word_not_space (digit_word hr)⟩
        obtain ⟨h1, h2⟩ := hr
        have : c ∈ [48, 49, 50, 51, 52, 53, 54, 55, 56, 57] := by simp; omega
        revert this; clear h1 h2 hc hx; revert c; decide +kernel
    · exact c13_no_number_word_left l hl s out h ts' hts' _ hn
    · rw [skip_iff]
      intro hk
      obtain ⟨c, hc, hcn⟩ := numOrSkip_not_numeric hd (t := norm (decDigits n)) (by unfold numOrSkip; simp [hk])
      rw [hnn c hc] at hcn; cases hcn
  have key : ∀ a b : List PyStr, WithNumerals a b → decDigits n ∈ b → decDigits n ∉ a → n < 10 ^ 1300 := by
    intro a b hab
    induction hab with
    | nil => intro h; cases h
    | keep _ ih =>
      intro h1 h2
      rcases List.mem_cons.mp h1 with h1 | h1
      · exact absurd (by rw [h1]; exact List.mem_cons_self) h2
      · exact ih h1 (fun h => h2 (List.mem_cons_of_mem _ h))
    | @insert m _ _ hm _ ih =>
      intro h1 h2
      rcases List.mem_cons.mp h1 with h1 | h1
      · have : n = m := decDigits_inj h1
        rw [this]; exact hm
      · exact ih h1 h2
  refine key _ _ hw ?_ ?_
  · exact List.mem_filter.mpr ⟨hn, by simpa using hord⟩
  · intro hm; exact hnew (List.mem_filter.mp hm).1

example : parseNumber u!"hundred hundred" (some u!"en") = .ok (some 10000) := by decide +kernel

/-! ## C24, C25 for `parse_fraction` -/

/-- **C24** for `parse_fraction`: an exception is raised exactly if a side is numeric, but not a numeral of at most 4300 digits with
ordinary white space around it. -/
theorem c24_parse_fraction (s l : PyStr) (hl : l ∈ supported) (e : PyErr) :
    parseFraction s (some l) = .error e ↔ e = .badInt ∧ ∃ a b, FractionParts s a b ∧
      ((NumericText a ∧ ¬ ∃ n, DigitText a n) ∨ (NumericText b ∧ ¬ ∃ n, DigitText b n)) := by
  rcases parts_cases s with h | ⟨a, b, h⟩
  · rw [parseFraction_no_parts h]
    constructor
    · intro h'; cases h'
    · rintro ⟨_, a, b, ⟨hi, sep, lo, h1, _, h3⟩, _⟩
      exact absurd ⟨a, b, h3.1⟩ (h sep (by rw [h1]; simp))
  · have e1 := c24_supported_number a l hl
    have e2 := c24_supported_number b l hl
    rw [parseFraction_parts h]
    unfold fractionOf
    constructor
    · intro h'
      cases ha : parseNumber a (some l) with
      | error e' =>
        rw [ha] at h'; cases h'
        obtain ⟨h1, h2⟩ := (e1 e).mp ha
        exact ⟨h1, a, b, h, Or.inl h2⟩
      | ok x =>
        cases hb : parseNumber b (some l) with
        | error e' =>
          rw [ha, hb] at h'; cases h'
          obtain ⟨h1, h2⟩ := (e2 e).mp hb
          exact ⟨h1, a, b, h, Or.inr h2⟩
        | ok y => rw [ha, hb] at h'; cases x <;> cases y <;> cases h'
    · rintro ⟨rfl, a', b', h', hc⟩
      obtain ⟨rfl, rfl⟩ := parts_unique h' h
      cases ha : parseNumber a' (some l) with
      | error e' => rw [((e1 e').mp ha).1]; rfl
      | ok x =>
        rcases hc with hc | hc
        · rw [(e1 .badInt).mpr ⟨rfl, hc⟩] at ha; cases ha
        · rw [(e2 .badInt).mpr ⟨rfl, hc⟩]; rfl

/-- **C24** for `parse_fraction` without language argument. -/
theorem c24_parse_fraction_auto (s : PyStr) (e : PyErr) :
    parseFraction s none = .error e ↔ e = .badInt ∧ ∃ a b, FractionParts s a b ∧
      ((NumericText a ∧ ¬ ∃ n, DigitText a n) ∨ (NumericText b ∧ ¬ ∃ n, DigitText b n)) := by
  obtain ⟨l, hdet, hl', _⟩ := c26_unique s
  rw [(c27_default_language s l hdet).2.2.2]
  exact c24_parse_fraction s l hl' e

example : parseFraction u!"½ over 2" none = .error .badInt ∧ parseFraction u!"two over ½" (some u!"en") = .error .badInt ∧
    parseFraction u!"½" none = .ok none := by decide +kernel

/-- **C25** for `parse_fraction`: an unsupported language is complained about exactly if there is a separator, and the left side is neither
blank nor numeric, or it raises no exception and the right side is neither blank nor numeric. -/
theorem c25_unsupported_fraction (l : PyStr) (hl : l ∉ supported) (s : PyStr) :
    parseFraction s (some l) = .error .unsupportedLanguage ↔ ∃ a b, FractionParts s a b ∧
      ((¬ Blank a ∧ ¬ NumericText a) ∨ ((Blank a ∨ ∃ n, DigitText a n) ∧ ¬ Blank b ∧ ¬ NumericText b)) := by
  rcases parts_cases s with h | ⟨a, b, h⟩
  · rw [parseFraction_no_parts h]
    constructor
    · intro h'; cases h'
    · rintro ⟨a, b, ⟨hi, sep, lo, h1, _, h3⟩, _⟩
      exact absurd ⟨a, b, h3.1⟩ (h sep (by rw [h1]; simp))
  · have e1 := c25_unsupported_number l hl a
    have e2 := c25_unsupported_number l hl b
    have key : (∃ x, parseNumber a (some l) = .ok x) ↔ Blank a ∨ ∃ n, DigitText a n := by
      constructor
      · rintro ⟨x, hx⟩
        by_cases hb : Blank a
        · exact Or.inl hb
        · by_cases hn : NumericText a
          · rw [parseNumber_numeric hn] at hx
            cases hp : pyInt a with
            | error e => rw [hp] at hx; cases hx
            | ok n => exact Or.inr ⟨n, (pyInt_iff a n).mp hp⟩
          · rw [e1.mpr ⟨hb, hn⟩] at hx; cases hx
      · rintro (hb | ⟨n, hn⟩)
        · exact ⟨none, (c23_blank a hb (some l)).1⟩
        · exact ⟨some n, c08_digits a n hn (some l)⟩
    rw [parseFraction_parts h]
    unfold fractionOf
    constructor
    · intro h'
      refine ⟨a, b, h, ?_⟩
      cases ha : parseNumber a (some l) with
      | error e' => rw [ha] at h'; cases h'; exact Or.inl (e1.mp ha)
      | ok x =>
        cases hb : parseNumber b (some l) with
        | error e' => rw [ha, hb] at h'; cases h'; exact Or.inr ⟨key.mp ⟨x, ha⟩, e2.mp hb⟩
        | ok y => rw [ha, hb] at h'; cases x <;> cases y <;> cases h'
    · rintro ⟨a', b', h', hc⟩
      obtain ⟨rfl, rfl⟩ := parts_unique h' h
      rcases hc with hc | ⟨h1, h2⟩
      · rw [e1.mpr hc]; rfl
      · obtain ⟨x, hx⟩ := key.mpr h1
        rw [hx, e2.mpr h2]; rfl

/-- An unsupported language goes unnoticed, if there is no separator. -/
example : parseFraction u!"one two" (some u!"xx") = .ok none ∧ parseFraction u!"1/2" (some u!"xx") = .ok (some u!"1/2") ∧
    parseFraction u!"1 over two" (some u!"xx") = .error .unsupportedLanguage := by decide +kernel

end NumberParser.Props
