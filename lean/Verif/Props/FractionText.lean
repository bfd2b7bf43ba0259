import Verif.Props.Conversion
import Verif.Props.Fractions
import Verif.Props.Errors

/-!
# C69, C70: fractions and rewriting, normalising a text before reading it
-/

namespace NumberParser.Props
open NumberParser NumberParser.Spec

/-! ## C69 -/

/-- **C69**: `parse_fraction` depends only on the numbers that the two sides are read as. -/
theorem c69_sides (s s' a b a' b' l l' : PyStr) (h : FractionParts s a b) (h' : FractionParts s' a' b')
    (ha : parseNumber a (some l) = parseNumber a' (some l')) (hb : parseNumber b (some l) = parseNumber b' (some l')) :
    parseFraction s (some l) = parseFraction s' (some l') := by
  rw [parseFraction_parts h, parseFraction_parts h', fractionOf, fractionOf, ha, hb]

/-- **C69**: the case of letters on either side does not matter, whether a language is given or detected. -/
theorem c69_case (s s' a b a' b' : PyStr) (h : FractionParts s a b) (h' : FractionParts s' a' b') (hs : SameUpToCase s s')
    (ha : SameUpToCase a a') (hb : SameUpToCase b b') (lang : Option PyStr) :
    parseFraction s lang = parseFraction s' lang := by
  have key : ∀ l, parseFraction s (some l) = parseFraction s' (some l) := fun l =>
    c69_sides s s' a b a' b' l l h h' (c28_case a a' ha (some l)).1 (c28_case b b' hb (some l)).1
  cases lang with
  | some l => exact key l
  | none =>
    obtain ⟨l, hd, _⟩ := c26_unique s
    have hd' : Detected s' l := by
      rw [← c26_detection, ← (c28_case s s' hs none).2.2, c26_detection]; exact hd
    rw [(c27_default_language s l hd).2.2.2, (c27_default_language s' l hd').2.2.2]
    exact key l

/-- The amount and kind of white space on either side do not matter, if the sides are no digit strings. -/
theorem c69_spacing (s s' a b a' b' : PyStr) (h : FractionParts s a b) (h' : FractionParts s' a' b')
    (ha : SameSpacing a a') (hb : SameSpacing b b') (hna : ¬ NumericText a) (hnb : ¬ NumericText b) (l : PyStr) (hl : l ∈ supported) :
    parseFraction s (some l) = parseFraction s' (some l) :=
  c69_sides s s' a b a' b' l l h h' (c29_spacing a a' ha hna (some l) (by rintro _ ⟨⟩; exact hl))
    (c29_spacing b b' hb hnb (some l) (by rintro _ ⟨⟩; exact hl))

/-- The separators themselves are recognised in small letters only, so case does matter for them. -/
theorem c69_refuted : SameUpToCase u!"one OVER two" u!"one over two" ∧ parseFraction u!"one OVER two" (some u!"en") = .ok none ∧
    parseFraction u!"one over two" (some u!"en") = .ok (some u!"1/2") ∧
    parseFraction u!"ONE over Two" (some u!"en") = .ok (some u!"1/2") := by
  refine ⟨by unfold SameUpToCase; decide, by decide +kernel, by decide +kernel, by decide +kernel⟩

/-- A number that `parse_number` returns has at most 4300 digits. -/
theorem number_short {s : PyStr} {lang : Option PyStr} {n : Nat} (h : parseNumber s lang = .ok (some n)) : n < 10 ^ 4300 := by
  by_cases hn : NumericText s
  · rw [parseNumber_numeric hn] at h
    cases hp : pyInt s with
    | error e => rw [hp] at h; cases h
    | ok m =>
      rw [hp] at h
      cases h
      obtain ⟨_, t, _, _, _, _, ht, hlen⟩ := (pyInt_iff s n).mp hp
      have hlt : ∀ {t : PyStr} {n : Nat}, Numeral t n → n < 10 ^ t.length := by
        intro t n ht
        induction ht with
        | digit hd => have := (decimal_facts hd).2.2.2; simpa using this
        | snoc _ hd ih => have := (decimal_facts hd).2.2.2; rw [List.length_append, List.length_singleton, Nat.pow_succ]; omega
      exact Nat.lt_of_lt_of_le (hlt ht) (Nat.pow_le_pow_right (by decide) hlen)
  · exact Nat.lt_of_lt_of_le (c31_parse_number s lang n hn h) (Nat.pow_le_pow_right (by decide) (by decide))

theorem digits_parts (m n : Nat) : FractionParts (decDigits m ++ u!"/" ++ decDigits n) (decDigits m) (decDigits n) := by
  have hd : ∀ k, ∀ c ∈ decDigits k, 48 ≤ c ∧ c ≤ 57 := fun k => (decDigits_isDigit k).2
  refine ⟨[u!"divided by", u!"over", u!"by"], u!"/", [], rfl, ?_, rfl, ?_⟩
  · rintro x hx ⟨a, b, e⟩
    have : ∀ c ∈ x, 47 ≤ c ∧ c ≤ 57 := by
      intro c hc
      have : c ∈ decDigits m ++ u!"/" ++ decDigits n := by rw [e]; simp [hc]
      simp only [List.mem_append, List.mem_singleton] at this
      rcases this with (h | h) | h
      · have := hd m c h; omega
      · have h' : c = 47 := h
        omega
      · have := hd n c h; omega
    simp only [List.mem_cons, List.not_mem_nil, or_false] at hx
    rcases hx with rfl | rfl | rfl
    · have := this 100 (by decide); omega
    · have := this 111 (by decide); omega
    · have := this 98 (by decide); omega
  · intro a' b' e
    by_cases hl : (decDigits m).length ≤ a'.length
    · exact hl
    · exfalso
      have h1 := congrArg (fun s => s[a'.length]?) e
      simp only [List.append_assoc] at h1
      rw [List.getElem?_append_left (by omega), List.getElem?_append_right (Nat.le_refl _), Nat.sub_self] at h1
      have h2 : (47 : Nat) ∈ decDigits m := List.mem_of_getElem? h1
      have := hd m 47 h2
      omega

/-- **C69**: a result of `parse_fraction` is read as itself, in every language. -/
theorem c69_again (s r : PyStr) (lang lang' : Option PyStr) (h : parseFraction s lang = .ok (some r)) :
    parseFraction r lang' = .ok (some r) := by
  obtain ⟨l, hl⟩ : ∃ l, parseFraction s (some l) = .ok (some r) := by
    cases lang with
    | some l => exact ⟨l, h⟩
    | none =>
      obtain ⟨l, hd, _⟩ := c26_unique s
      exact ⟨l, by rw [← (c27_default_language s l hd).2.2.2]; exact h⟩
  obtain ⟨a, b, m, n, _, ha, hb, rfl⟩ := (c20_fraction s l r).mp hl
  have hm := number_short ha
  have hn := number_short hb
  have key : ∀ l', parseFraction (decDigits m ++ u!"/" ++ decDigits n) (some l') = .ok (some (decDigits m ++ u!"/" ++ decDigits n)) := fun l' =>
    (c20_fraction _ l' _).mpr ⟨_, _, m, n, digits_parts m n, c08_str m hm _, c08_str n hn _, rfl⟩
  cases lang' with
  | some l' => exact key l'
  | none =>
    obtain ⟨l', hd, _⟩ := c26_unique (decDigits m ++ u!"/" ++ decDigits n)
    rw [(c27_default_language _ l' hd).2.2.2]
    exact key l'

example : parseFraction u!"Twenty-one divided by zero" none = .ok (some u!"21/0") ∧ parseFraction u!"21/0" none = .ok (some u!"21/0") := by
  decide +kernel

/-- Two texts that meet the hypotheses of `c69_case`. -/
example : FractionParts u!"ONE over Two" u!"ONE " u!" Two" ∧ SameUpToCase u!" Two" u!" two" := by
  refine ⟨?_, by unfold SameUpToCase; decide⟩
  exact fractionParts_of_free (A := u!"ONE") (B := u!"Two") (sep := u!"over") (by
      intro p hp; rw [← occursB_iff]; revert p; decide) (by
      intro p hp; rw [← occursB_iff]; revert p; decide) (by decide)

/-! ## C70 -/

/-- **C70**: a text without apostrophes, whose first token that is not white space is a cardinal word, and that is read as a
number, is read as the same number (in every language) after `parse` has normalised it. -/
theorem c70_number (l : PyStr) (hl : l ∈ supported) (s : PyStr) (lead rest : List PyStr) (w : PyStr)
    (ht : Tokens l s (lead ++ w :: rest)) (hlead : ∀ t ∈ lead, ∀ c ∈ t, isSpace c = true) (hw : Cardinal l w)
    (ha : 0x27 ∉ s ∧ 0x2019 ∉ s) (n : Nat) (hn : parseNumber s (some l) = .ok (some n)) (out : PyStr)
    (hout : parse s (some l) = .ok out) (lang : Option PyStr) : parseNumber out lang = .ok (some n) := by
  rw [c18_parse_agrees l hl s lead rest w ht hlead hw ha n hn] at hout
  cases hout
  exact c08_str n (number_short hn) lang

/-- Without these conditions `parse` can make a number of a text that is none, and the other way round. -/
theorem c70_refuted : parseNumber u!"second" (some u!"en") = .ok none ∧ parse u!"second" (some u!"en") = .ok u!"2" ∧
    parseNumber u!"-two" (some u!"en") = .ok (some 2) ∧ parse u!"-two" (some u!"en") = .ok u!"-2" ∧
    parseNumber u!"-2" (some u!"en") = .ok none ∧
    parseNumber u!"п'ять" (some u!"uk") = .ok (some 5) ∧ parse u!"п'ять" (some u!"uk") = .ok u!"п'ять" := by decide +kernel

theorem withoutSoftHyphens_occurs {p s : PyStr} (hp : 0xad ∉ p) (h : Occurs p s) : Occurs p (withoutSoftHyphens s) := by
  obtain ⟨a, b, rfl⟩ := h
  refine ⟨withoutSoftHyphens a, withoutSoftHyphens b, ?_⟩
  unfold withoutSoftHyphens
  rw [List.filter_append, List.filter_append]
  congr 2
  apply List.filter_eq_self.mpr
  intro c hc
  simp only [bne_iff_ne, ne_eq]
  rintro rfl; exact hp hc

/-- The words of separators do not occur in a text that is read as a number. -/
theorem number_sepFree {l s : PyStr} (hl : l ∈ supported) (hs : WordInput s) (ha : 0x27 ∉ s ∧ 0x2019 ∉ s) {n : Nat}
    (h : parseNumber s (some l) = .ok (some n)) {p : PyStr} (hp : p ∈ sepWords) : ¬ Occurs p s := by
  intro ho
  have hd := supported_data hl
  obtain ⟨_, h2, _⟩ := (parseNumber_some hl hs).mp h
  have e : dropApos s = s := by
    unfold dropApos
    rw [List.filter_eq_self.mpr, List.filter_eq_self.mpr]
    · intro c hc; simp only [bne_iff_ne, ne_eq]; rintro rfl; exact ha.1 hc
    · intro c hc; simp only [bne_iff_ne, ne_eq]; rintro rfl; exact ha.2 (List.mem_filter.mp hc).1
  rw [e] at h2
  obtain ⟨f1, f2, f3⟩ := sepWords_facts p hp
  have hshy : 0xad ∉ p := by
    have : ∀ q ∈ sepWords, 0xad ∉ q := by decide
    exact this p hp
  obtain ⟨t, ht, ho⟩ := occurs_sol (l := l) f1 f2 (sepWords_split l p hp) (withoutSoftHyphens_occurs hshy ho)
  refine numOrSkip_sepFree hd (List.all_eq_true.mp h2 (norm t) ?_) hp (norm_occurs f1 f3 ho)
  rw [solid_eq]
  refine List.mem_filter.mpr ⟨List.mem_map.mpr ⟨t, ht, rfl⟩, ?_⟩
  obtain ⟨a, b, eo⟩ := norm_occurs f1 f3 ho
  cases hb : blank (norm t) with
  | false => rfl
  | true =>
    exfalso
    cases p with
    | nil => exact f1 rfl
    | cons c p =>
      have := (blank_spec _).mp hb c (by rw [eo]; simp)
      rw [f2 c (by simp)] at this
      cases this

theorem trailing_space (s : PyStr) : SameSpacing s (s ++ u!" ") := by
  induction s with
  | nil => exact .trail (by unfold Blank; decide) (by unfold Blank; decide)
  | cons c s ih => exact .char ih

theorem separator_ordinary {l : PyStr} (hl : l ∈ supported) {t : PyStr} (ht : t ∈ sepWords) : Ordinary l t := by
  have h1 : ∀ t ∈ sepWords, ∃ c ∈ form t, isSpace c = false := by decide +kernel
  have h2 : ∀ l ∈ supported, ∀ t ∈ sepWords, ¬ NumberWord l t := by
    intro l hl t ht
    rw [numberWord_iff hl]
    revert t
    simp only [supported, List.mem_cons, List.not_mem_nil, or_false] at hl
    rcases hl with rfl | rfl | rfl | rfl | rfl <;> decide +kernel
  have h3 : ∀ l ∈ supported, ∀ t ∈ sepWords, ¬ Skip l t := by
    intro l hl t ht
    rw [skip_iff]
    revert t
    simp only [supported, List.mem_cons, List.not_mem_nil, or_false] at hl
    rcases hl with rfl | rfl | rfl | rfl | rfl <;> decide +kernel
  exact ⟨h1 t ht, h2 l hl t ht, h3 l hl t ht⟩

/-- A separator on its own: tokens, conversion. -/
theorem separator_facts {l : PyStr} (hl : l ∈ supported) {sep : PyStr} (hsep : sep ∈ separators) :
    (∃ ts, Tokens l sep ts ∧ EndsClosed l ts ∧ BeginsOrdinary l ts) ∧ SolidStart sep ∧ SolidEnd sep ∧ parse sep (some l) = .ok sep := by
  have hp : ∀ l ∈ supported, ∀ sep ∈ separators, parse sep (some l) = .ok sep := by decide +kernel
  have ho := fun {t} (ht : t ∈ sepWords) => separator_ordinary hl ht
  have hns : ∀ {l : PyStr}, l ∈ supported → l ≠ u!"hi" → RE_BUG_LANGUAGES.elem l = false := by
    intro l hl; revert l; decide
  refine ⟨?_, ?_, ?_, hp l hl sep hsep⟩
  · simp only [separators, List.mem_cons, List.not_mem_nil, or_false] at hsep
    have tk : ∀ (x : PyStr) (ts ts' : List PyStr), splitNonWord (replace x u!"\u00ad" []) = ts → splitSpaces (replace x u!"\u00ad" []) = ts' →
        Tokens l x (if l = u!"hi" then ts' else ts) := by
      rintro x _ _ rfl rfl
      rw [tokens_iff]
      unfold tokenize
      by_cases h : l = u!"hi"
      · subst h; rfl
      · rw [if_neg h]; simp only [hns hl h]; rfl
    have both : ∀ ts ts' : List PyStr, (EndsClosed l ts ∧ BeginsOrdinary l ts) → (EndsClosed l ts' ∧ BeginsOrdinary l ts') →
        EndsClosed l (if l = u!"hi" then ts' else ts) ∧ BeginsOrdinary l (if l = u!"hi" then ts' else ts) := by
      intro ts ts' h h'; split
      · exact h'
      · exact h
    have one : ∀ t ∈ sepWords, EndsClosed l [t] ∧ BeginsOrdinary l [t] := fun t ht =>
      ⟨Or.inr ⟨[], t, [], rfl, Or.inl (ho ht), by simp⟩, [], t, [], rfl, by simp, ho ht⟩
    have dby : EndsClosed l [u!"divided", u!" ", u!"by"] ∧ BeginsOrdinary l [u!"divided", u!" ", u!"by"] :=
      ⟨Or.inr ⟨[u!"divided", u!" "], u!"by", [], rfl, Or.inl (ho (by decide)), by simp⟩,
        [], u!"divided", [u!" ", u!"by"], rfl, by simp, ho (by decide)⟩
    have slash : EndsClosed l [[], u!"/", []] ∧ BeginsOrdinary l [[], u!"/", []] :=
      ⟨Or.inr ⟨[[]], u!"/", [[]], rfl, Or.inl (ho (by decide)), by
          intro x hx; rw [List.mem_singleton] at hx; subst hx; exact blankForm_nil⟩,
        [[]], u!"/", [[]], rfl, by simp, ho (by decide)⟩
    rcases hsep with rfl | rfl | rfl | rfl
    · exact ⟨_, tk _ [u!"divided", u!" ", u!"by"] [u!"divided", u!" ", u!"by"] (by decide +kernel) (by decide +kernel), both _ _ dby dby⟩
    · exact ⟨_, tk _ [u!"over"] [u!"over"] (by decide +kernel) (by decide +kernel), both _ _ (one _ (by decide)) (one _ (by decide))⟩
    · exact ⟨_, tk _ [u!"by"] [u!"by"] (by decide +kernel) (by decide +kernel), both _ _ (one _ (by decide)) (one _ (by decide))⟩
    · exact ⟨_, tk _ [[], u!"/", []] [u!"/"] (by decide +kernel) (by decide +kernel), both _ _ slash (one _ (by decide))⟩
  · simp only [separators, List.mem_cons, List.not_mem_nil, or_false] at hsep
    rcases hsep with rfl | rfl | rfl | rfl
    · exact ⟨_, _, rfl, by decide +kernel⟩
    · exact ⟨_, _, rfl, by decide +kernel⟩
    · exact ⟨_, _, rfl, by decide +kernel⟩
    · exact ⟨_, _, rfl, by decide +kernel⟩
  · simp only [separators, List.mem_cons, List.not_mem_nil, or_false] at hsep
    rcases hsep with rfl | rfl | rfl | rfl
    · exact ⟨u!"divided b", 121, by decide, by decide +kernel⟩
    · exact ⟨u!"ove", 114, by decide, by decide +kernel⟩
    · exact ⟨u!"b", 121, by decide, by decide +kernel⟩
    · exact ⟨[], 47, by decide, by decide +kernel⟩

/-- **C70**: of a fraction of two numbers in words, `parse` makes the two numbers in digits with the same separator between
them; and `parse_fraction` returns the same for the text and for the normalised text. -/
theorem c70_fraction (l : PyStr) (hl : l ∈ supported) (A B sep : PyStr) (m n : Nat) (hA : NumberPhrase l A) (hB : NumberPhrase l B)
    (hm : parseNumber A (some l) = .ok (some m)) (hn : parseNumber B (some l) = .ok (some n)) (hsep : sep ∈ separators) :
    parse (A ++ u!" " ++ sep ++ u!" " ++ B) (some l) = .ok (decDigits m ++ u!" " ++ sep ++ u!" " ++ decDigits n) ∧
    parseFraction (A ++ u!" " ++ sep ++ u!" " ++ B) (some l) = .ok (some (decDigits m ++ u!"/" ++ decDigits n)) ∧
    ∀ l', parseFraction (decDigits m ++ u!" " ++ sep ++ u!" " ++ decDigits n) (some l') = .ok (some (decDigits m ++ u!"/" ++ decDigits n)) := by
  have hsp : WhiteSpace u!" " := ⟨by simp, by decide⟩
  obtain ⟨wA, rA, tA, cA, eA, apA, sA, seA, iA⟩ := hA
  obtain ⟨wB, rB, tB, cB, eB, apB, sB, seB, iB⟩ := hB
  obtain ⟨⟨ts, t1, t2, t3⟩, s1, s2, s3⟩ := separator_facts hl hsep
  refine ⟨?_, ?_, ?_⟩
  · have h1 := c62_end l hl B _ rB wB tB rfl cB apB n hn sB sep u!" " ts t1 t2 s2 hsp sep s3
    obtain ⟨mid, h2, _, _⟩ := tokens_gap t1 tB hsp.2 hsp.1 s2 (by
      obtain ⟨c, y, e, hc⟩ := sB
      intro d w he; rw [e] at he; injection he with h1 h2; rw [← h1]; exact hc)
    have h3 := c62_start l hl A _ rA wA tA rfl cA eA apA m hm seA u!" " _ _ hsp h2 (by
      obtain ⟨e, t, rest, rfl, h4, h5⟩ := t3
      exact ⟨e, t, rest ++ mid ++ (wB :: rB), by simp, h4, h5⟩) (by
      obtain ⟨c, y, e, hc⟩ := s1
      refine ⟨c, y ++ withoutSoftHyphens (u!" " ++ B), ?_, hc⟩
      unfold withoutSoftHyphens at e ⊢
      rw [List.append_assoc, List.filter_append, e]; rfl) _ h1
    simpa using h3
  · refine (c20_fraction _ l _).mpr ⟨_, _, m, n, fractionParts_of_free (fun p hp => number_sepFree hl iA apA hm hp)
      (fun p hp => number_sepFree hl iB apB hn hp) hsep, ?_, ?_, rfl⟩
    · rw [← c29_spacing A (A ++ u!" ") ?_ iA.2 (some l) (by rintro _ ⟨⟩; exact hl)]
      · exact hm
      · exact trailing_space A
    · rw [c30_leading_space u!" " B l hl (by unfold OrdinarySpace; decide) wB rB ?_ ?_]
      · exact hn
      · have : withoutApostrophes B = B := by
          apply List.filter_eq_self.mpr
          intro c hc
          simp only [Bool.and_eq_true, bne_iff_ne, ne_eq]
          constructor
          · rintro rfl; exact apB.1 hc
          · rintro rfl; exact apB.2 hc
        rw [this]; exact tB
      · intro hk
        exact cardinal_not_skip hl cB hk
  · intro l'
    have dfree : ∀ k, ∀ p ∈ sepWords, ¬ Occurs p (decDigits k) := by
      rintro k p hp ⟨a, b, e⟩
      have hd := (decDigits_isDigit k).2
      have : ∀ q ∈ sepWords, ∃ c ∈ q, c < 48 ∨ 57 < c := by decide
      obtain ⟨c, hc, h⟩ := this p hp
      have := hd c (by rw [e]; simp [hc])
      omega
    refine (c20_fraction _ l' _).mpr ⟨_, _, m, n, fractionParts_of_free (dfree m) (dfree n) hsep, ?_, ?_, rfl⟩
    · exact c08_digits _ _ ⟨[], decDigits m, u!" ", by simp, by simp [OrdinarySpace], by unfold OrdinarySpace; decide, numeral_decDigits m,
        decDigits_length m 4300 (by decide) (number_short hm)⟩ _
    · exact c08_digits _ _ ⟨u!" ", decDigits n, [], by simp, by unfold OrdinarySpace; decide, by simp [OrdinarySpace], numeral_decDigits n,
        decDigits_length n 4300 (by decide) (number_short hn)⟩ _

example : NumberPhrase u!"en" u!"Twenty-one" ∧ parseNumber u!"Twenty-one" (some u!"en") = .ok (some 21) ∧
    parse u!"Twenty-one divided by four" (some u!"en") = .ok u!"21 divided by 4" ∧
    parseFraction u!"21 divided by 4" (some u!"en") = .ok (some u!"21/4") := by
  refine ⟨⟨u!"Twenty", [u!"-", u!"one"], (tokens_iff _ _ _).mpr (by decide +kernel), (cardinal_iff (by decide) _).mpr (by decide +kernel),
    ⟨[u!"Twenty", u!"-"], u!"one", [], rfl, (cardinal_iff (by decide) _).mpr (by decide +kernel), by simp⟩, by decide,
    ⟨_, _, rfl, by decide +kernel⟩, ⟨u!"Twenty-on", 101, by decide, by decide +kernel⟩, ?_⟩, by decide +kernel, by decide +kernel, by decide +kernel⟩
  rw [wordInput_iff]; decide +kernel

end NumberParser.Props
