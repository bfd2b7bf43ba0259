import Verif.Proofs.Fraction
import Verif.Proofs.Shuffle
import Verif.Props.Text

/-!
# C08, C20, C23-C27, C31, C40: digit strings, errors, languages, fractions

`Spec.DigitText s n`: a numeral of value `n` (at most 4300 digits) surrounded by ordinary white space;
`Spec.NumericText`, `Spec.Blank` (Verif/Spec/Digits.lean).  `Spec.Detected s l`: `l` is the language that recognises most
tokens of `s` (Verif/Spec/Detect.lean).  `Spec.FractionParts` (Verif/Spec/Fraction.lean).
-/

namespace NumberParser.Props
open NumberParser NumberParser.Spec

set_option maxRecDepth 100000

/-! ## C08 -/

/-- **C08**: a numeral, with the decimal digits of any script and with white space around, is returned as its value;
the language argument does not matter. -/
theorem c08_digits (s : PyStr) (n : Nat) (h : DigitText s n) (lang : Option PyStr) :
    parseNumber s lang = .ok (some n) := by
  rw [parseNumber_numeric (digitText_numeric h), (pyInt_iff s n).mpr h]; rfl

/-- **C08** for `str(n)`. -/
theorem c08_str (n : Nat) (hn : n < 10 ^ 4300) (lang : Option PyStr) : parseNumber (decDigits n) lang = .ok (some n) := by
  refine c08_digits _ _ ⟨[], decDigits n, [], by simp, by simp [OrdinarySpace], by simp [OrdinarySpace], numeral_decDigits n,
    decDigits_length n 4300 (by decide) hn⟩ lang

/-- Devanagari digits, white space around, unsupported language. -/
example : DigitText u!" \t४२ " 42 :=
  ⟨u!" \t", u!"४२", u!" ", rfl, by unfold OrdinarySpace; decide, by unfold OrdinarySpace; decide,
    .snoc (s := u!"४") (n := 4) (d := 2) (.digit (by decide +kernel)) (by decide +kernel), by decide⟩

example : parseNumber u!" \t४२ " (some u!"xx") = .ok (some 42) := by decide +kernel

/-! ## C20, C40 -/

/-- **C20**: `parse_fraction` returns a fraction exactly if both sides of the first occurrence of the
highest-priority separator are numbers; it is these numbers in decimal, joined by "/". -/
theorem c20_fraction (s l r : PyStr) :
    parseFraction s (some l) = .ok (some r) ↔
      ∃ a b m n, FractionParts s a b ∧ parseNumber a (some l) = .ok (some m) ∧ parseNumber b (some l) = .ok (some n) ∧
        r = decDigits m ++ u!"/" ++ decDigits n := by
  rcases parts_cases s with h | ⟨a, b, h⟩
  · rw [parseFraction_no_parts h]
    constructor
    · intro e; cases e
    · rintro ⟨a, b, m, n, ⟨hi, x, lo, h1, _, h3⟩, _⟩
      exact absurd ⟨a, b, h3.1⟩ (h x (by rw [h1]; simp))
  · rw [parseFraction_parts h]
    constructor
    · intro e
      unfold fractionOf at e
      cases ha : parseNumber a (some l) with
      | error e' => rw [ha] at e; cases e
      | ok m =>
        cases hb : parseNumber b (some l) with
        | error e' => rw [ha, hb] at e; cases e
        | ok n =>
          rw [ha, hb] at e
          cases m with
          | none => cases e
          | some m =>
            cases n with
            | none => cases e
            | some n =>
              simp only [bind, Except.bind, pure, Except.pure, Except.ok.injEq, Option.some.injEq] at e
              exact ⟨a, b, m, n, h, ha, hb, e.symm⟩
    · rintro ⟨a', b', m, n, h', ha, hb, rfl⟩
      obtain ⟨rfl, rfl⟩ := parts_unique h h'
      unfold fractionOf
      rw [ha, hb]; rfl

/-- **C20**, text without separator: `None`, whatever the language argument. -/
theorem c20_no_separator (s l : PyStr) (h : ∀ x ∈ separators, ¬ Occurs x s) : parseFraction s (some l) = .ok none :=
  parseFraction_no_parts h

/-- **C20**, with a separator: an exception comes from one of the sides, and without exception the result is `None`
if one of the sides is no number. -/
theorem c20_none (s l a b : PyStr) (h : FractionParts s a b) :
    (parseFraction s (some l) = .ok none ↔
      (parseNumber a (some l) = .ok none ∧ ∃ y, parseNumber b (some l) = .ok y) ∨
      ((∃ x, parseNumber a (some l) = .ok x) ∧ parseNumber b (some l) = .ok none)) ∧
    ∀ e, parseFraction s (some l) = .error e → parseNumber a (some l) = .error e ∨ parseNumber b (some l) = .error e := by
  rw [parseFraction_parts h]
  unfold fractionOf
  cases ha : parseNumber a (some l) with
  | error e' => simp [bind, Except.bind]
  | ok m =>
    cases hb : parseNumber b (some l) with
    | error e' => simp [bind, Except.bind]
    | ok n => cases m <;> cases n <;> simp [bind, Except.bind, pure, Except.pure]

/-- Every text is of one of these two kinds, and the two sides are determined. -/
theorem c20_cases (s : PyStr) : (∀ x ∈ separators, ¬ Occurs x s) ∨ ∃ a b, FractionParts s a b ∧
    ∀ a' b', FractionParts s a' b' → a' = a ∧ b' = b := by
  rcases parts_cases s with h | ⟨a, b, h⟩
  · exact Or.inl h
  · exact Or.inr ⟨a, b, h, fun a' b' h' => parts_unique h' h⟩

example : FractionParts u!"one over two/3" u!"one " u!" two/3" := by
  refine ⟨[u!"divided by"], u!"over", [u!"by", u!"/"], rfl, ?_, ?_⟩
  · intro x hx
    rw [List.mem_singleton] at hx; subst hx
    exact (find_none (by decide) _).mp (by decide)
  · exact find_some (sub := u!"over") (i := 4) (by decide)

example : parseFraction u!"twenty-one over 3" (some u!"en") = .ok (some u!"21/3") := by decide +kernel

/-- **C40** is false: the denominator may be 0. -/
theorem c40_refuted : parseFraction u!"one over zero" (some u!"en") = .ok (some u!"1/0") := by decide +kernel

/-- The denominator is 0 only if the text after the separator is a number of value 0. -/
theorem c40_denominator (s l r : PyStr) (m : Nat) (h : parseFraction s (some l) = .ok (some r))
    (hr : r = decDigits m ++ u!"/" ++ decDigits 0) :
    ∃ a b, FractionParts s a b ∧ parseNumber b (some l) = .ok (some 0) := by
  obtain ⟨a, b, m', n, hp, _, hb, h1⟩ := (c20_fraction s l r).mp h
  refine ⟨a, b, hp, ?_⟩
  rw [h1, List.append_assoc, List.append_assoc] at hr
  have hd : ∀ n, ∀ c ∈ decDigits n, c ≠ 0x2f := by
    intro n c hc
    have := (decDigits_isDigit n).2 c hc
    omega
  -- the part before the slash is the same
  have : decDigits n = decDigits 0 := by
    have key : ∀ x y u v : PyStr, (∀ c ∈ x, c ≠ 0x2f) → (∀ c ∈ y, c ≠ 0x2f) → x ++ 0x2f :: u = y ++ 0x2f :: v → u = v := by
      intro x
      induction x with
      | nil =>
        intro y u v _ hy he
        cases y with
        | nil => simpa using he
        | cons c y => simp at he; exact absurd he.1.symm (hy c (by simp))
      | cons c x ih =>
        intro y u v hx hy he
        cases y with
        | nil => simp at he; exact absurd he.1 (hx c (by simp))
        | cons d y =>
          simp at he
          exact ih y u v (fun e h => hx e (List.mem_cons_of_mem _ h)) (fun e h => hy e (List.mem_cons_of_mem _ h)) he.2
    exact key _ _ _ _ (hd m') (hd m) hr
  have hn : n = 0 := by
    have h1 := (numeral_iff _ _).mp (numeral_decDigits n)
    have h2 := (numeral_iff _ _).mp (numeral_decDigits 0)
    rw [this] at h1
    obtain ⟨_, ds, e1, e2, _⟩ := h1
    obtain ⟨_, ds', e3, e4, _⟩ := h2
    rw [e1] at e3; injection e3 with e3; subst e3
    rw [← e2, e4]
  rw [hn] at hb; exact hb

/-- **C40**: `parse_fraction` returns a fraction with denominator 0 exactly if both sides of the separator are numbers and
the right one is 0. -/
theorem c40_zero_denominator (s l : PyStr) (m : Nat) :
    parseFraction s (some l) = .ok (some (decDigits m ++ u!"/" ++ decDigits 0)) ↔
      ∃ a b, FractionParts s a b ∧ parseNumber a (some l) = .ok (some m) ∧ parseNumber b (some l) = .ok (some 0) := by
  constructor
  · intro h
    obtain ⟨a, b, hp, hb⟩ := c40_denominator s l _ m h rfl
    obtain ⟨a', b', m', n', hp', ha', hb', hr⟩ := (c20_fraction s l _).mp h
    obtain ⟨rfl, rfl⟩ := parts_unique hp hp'
    rw [hb] at hb'; cases hb'
    have e : decDigits m = decDigits m' := List.append_cancel_right (List.append_cancel_right hr)
    have h1 := (numeral_iff _ _).mp (numeral_decDigits m)
    have h2 := (numeral_iff _ _).mp (numeral_decDigits m')
    rw [e] at h1
    obtain ⟨_, ds, e1, e2, _⟩ := h1
    obtain ⟨_, ds', e3, e4, _⟩ := h2
    rw [e1] at e3; injection e3 with e3; subst e3
    rw [e2] at e4; subst e4
    exact ⟨a, b, hp, ha', hb⟩
  · rintro ⟨a, b, hp, ha, hb⟩
    exact (c20_fraction s l _).mpr ⟨a, b, m, 0, hp, ha, hb, rfl⟩

/-! ## C26, C27 -/

/-- **C26**: the detected language is the supported language that recognises most tokens, the earliest one among equals
(so "en" if none is recognised). -/
theorem c26_detection (s l : PyStr) : validTokensByLanguage s = .ok l ↔ Detected s l := validTokens_iff s l

/-- There is always exactly one such language. -/
theorem c26_unique (s : PyStr) : ∃ l, Detected s l ∧ l ∈ supported ∧ ∀ l', Detected s l' → l' = l := by
  obtain ⟨l, _, h⟩ := detected_model s
  exact ⟨l, h, Detected.mem h, fun l' h' => detected_unique h' h⟩

/-- If no token is recognised in any language, "en" is chosen. -/
theorem c26_default (s : PyStr) (h : ∀ l ∈ supported, Score s l 0) : validTokensByLanguage s = .ok u!"en" := by
  rw [c26_detection]
  refine ⟨[], [u!"es", u!"hi", u!"ru", u!"uk"], rfl, 0, h _ (by decide), by simp, ?_⟩
  intro l hl
  exact ⟨0, h l (List.mem_cons_of_mem _ hl), Nat.le_refl 0⟩

example : Detected u!"treinta y dos dogs" u!"es" := (c26_detection _ _).mp (by decide +kernel)

/-- **C27**: without a language argument each function does what it does for the detected language. -/
theorem c27_default_language (s l : PyStr) (h : Detected s l) :
    parse s none = parse s (some l) ∧ parseNumber s none = parseNumber s (some l) ∧
    parseOrdinal s none = parseOrdinal s (some l) ∧ parseFraction s none = parseFraction s (some l) := by
  have hr := resolve_none h
  refine ⟨?_, ?_, ?_, ?_⟩
  · unfold parse; rw [hr]; rfl
  · unfold parseNumber; rw [hr]; rfl
  · unfold parseOrdinal; rw [hr]; rfl
  · unfold parseFraction; rw [hr]; rfl

/-! ## C23 -/

theorem tokens_blank {l s : PyStr} (h : Blank s) : ∀ t ∈ tokenize s l, blank t = true := by
  intro t ht
  rw [blank_spec]
  intro c hc
  have := token_chars ht c hc
  exact h c (List.mem_filter.mp this).1

/-- **C23**: blank text is no number, no ordinal, no fraction, and `parse` gives the empty string. -/
theorem c23_blank (s : PyStr) (h : Blank s) (lang : Option PyStr) :
    parseNumber s lang = .ok none ∧ parseFraction s lang = .ok none ∧
    ((∀ l, lang = some l → l ∈ supported) → parseOrdinal s lang = .ok none ∧ parse s lang = .ok []) := by
  have hb := (blank_spec s).mpr h
  refine ⟨by unfold parseNumber; rw [if_pos hb], by unfold parseFraction; rw [if_pos hb], ?_⟩
  intro hl
  have key : ∀ l ∈ supported, parseOrdinal s (some l) = .ok none ∧ parse s (some l) = .ok [] := by
    intro l hl
    have hd := supported_data hl
    constructor
    · unfold parseOrdinal
      simp only [resolveLanguage, hd, bind, Except.bind]
      have : blank (join u!" " ((normalizeTokens (tokenize s l)).map (fun t => applyCardinalConversion t (mkLangData (file l))))) = true := by
        have hall : ∀ t ∈ (normalizeTokens (tokenize s l)).map (fun t => applyCardinalConversion t (mkLangData (file l))), blank t = true := by
          intro t ht
          obtain ⟨t', ht', rfl⟩ := List.mem_map.mp ht
          obtain ⟨t'', ht'', rfl⟩ := List.mem_map.mp ht'
          have hn := blank_norm (tokens_blank h _ ht'')
          have hsp := List.all_eq_true.mp ((blank_iff _).mp hn)
          rw [show stripAccents (lower t'') = norm t'' from rfl, conv_noletters _ (fun c hc => by
            cases ha : isAz c with
            | false => rfl
            | true => have := az_word ha; rw [space_not_word (hsp c hc)] at this; cases this)]
          exact hn
        generalize (normalizeTokens (tokenize s l)).map (fun t => applyCardinalConversion t (mkLangData (file l))) = ts at hall ⊢
        induction ts with
        | nil => rfl
        | cons t ts ih =>
          cases ts with
          | nil => exact hall t (by simp)
          | cons t' ts =>
            simp only [join, blank_append, hall t (by simp), ih (fun x hx => hall x (List.mem_cons_of_mem _ hx))]
            decide
      unfold parseNumber
      rw [if_pos this]
    · have hs : withoutSoftHyphens s = s := by
        unfold withoutSoftHyphens
        rw [List.filter_eq_self]
        intro c hc
        have := h c hc
        simp only [bne_iff_ne, ne_eq]
        rintro rfl; revert this; decide
      rw [c14_plain_text_unchanged l hl s _ (tokens_tokenize l s), hs]
      · unfold blank at hb; rw [List.isEmpty_iff] at hb; rw [hb]
      · intro t ht hn
        rw [numberWord_iff hl, (blank_not_number hd (blank_norm (tokens_blank h t ht))).1] at hn
        cases hn
  cases lang with
  | some l => exact key l (hl l rfl)
  | none =>
    obtain ⟨l, hdet, hl', _⟩ := c26_unique s
    obtain ⟨h1, _, h3, _⟩ := c27_default_language s l hdet
    rw [h1, h3]
    exact key l hl'

example : Blank u!" \t\n\u00a0" := by unfold Blank; decide

end NumberParser.Props
