import Verif.Proofs.Phrase

/-!
# C01-C05, C35: spelled numbers are read back

`Spec.enWords n` etc. (Verif/Spec/Numerals.lean) are the words of the spelling of `n`; `Spec.Rendering`
(Verif/Spec/Text.lean) says that a text consists of these words in any upper/lower-case mix, with gaps of white
space (and hyphens and "and" in English, "y" in Spanish) of any length between them and white space around.
-/

namespace NumberParser.Props
open NumberParser NumberParser.Spec

/-- **C01**: every rendering of the English spelling of `n < 10^24` is parsed to `n`. -/
theorem c01_english_round_trip (n : Nat) (hn : n < 10 ^ 24) (text : PyStr) (h : Rendering Spec.en (enWords n) text) :
    parseNumber text (some u!"en") = .ok (some n) := by
  have := parseNumber_rendering style_en h (AllNum.mem wf_en (en_words hn).2)
  rw [this]; exact congrArg _ (en_words hn).1

/-- **C01** for the usual text ("one hundred and twenty-three thousand ..."). -/
theorem c01_english_text (n : Nat) (hn : n < 10 ^ 24) : parseNumber (enText n) (some u!"en") = .ok (some n) :=
  c01_english_round_trip n hn _ (enText_rendering hn)

/-- The hypothesis of C01 is met by texts with mixed case, "and", hyphens and irregular spacing. -/
example : Rendering Spec.en (enWords 2030121) u!" TWO million\tthirty -- Thousand AND one  Hundred and Twenty-one\n" := by
  refine ⟨u!" ", u!"TWO million\tthirty -- Thousand AND one  Hundred and Twenty-one\n", by decide, ?_, rfl⟩
  have g1 : Gap Spec.en u!" " := Gap.sep (by decide) (by decide)
  have g2 : Gap Spec.en u!"\t" := Gap.sep (by decide) (by decide)
  have g3 : Gap Spec.en u!" -- " := Gap.sep (by decide) (by decide)
  have g4 : Gap Spec.en u!" AND " := Gap.filler (g := u!" ") (f := u!"and") (v := u!"AND") (rest := u!" ") (by decide) (by decide)
    (by decide) ⟨by decide +kernel, by decide +kernel⟩ g1
  have g5 : Gap Spec.en u!"  " := Gap.sep (by decide) (by decide)
  have g6 : Gap Spec.en u!" and " := Gap.filler (g := u!" ") (f := u!"and") (v := u!"and") (rest := u!" ") (by decide) (by decide)
    (by decide) ⟨by decide +kernel, by decide +kernel⟩ g1
  have g7 : Gap Spec.en u!"-" := Gap.sep (by decide) (by decide)
  have w : ∀ w v : PyStr, v.all isWord = true → form v = form w → Writes Spec.en w v :=
    fun w v h1 h2 => ⟨List.all_eq_true.mp h1, h2⟩
  exact Text.cons (v := u!"TWO") (w _ _ (by decide +kernel) (by decide +kernel)) g1
    (Text.cons (v := u!"million") (w _ _ (by decide +kernel) (by decide +kernel)) g2
    (Text.cons (v := u!"thirty") (w _ _ (by decide +kernel) (by decide +kernel)) g3
    (Text.cons (v := u!"Thousand") (w _ _ (by decide +kernel) (by decide +kernel)) g4
    (Text.cons (v := u!"one") (w _ _ (by decide +kernel) (by decide +kernel)) g5
    (Text.cons (v := u!"Hundred") (w _ _ (by decide +kernel) (by decide +kernel)) g6
    (Text.cons (v := u!"Twenty") (w _ _ (by decide +kernel) (by decide +kernel)) g7
    (Text.last (v := u!"one") (trail := u!"\n") (w _ _ (by decide +kernel) (by decide +kernel)) (by decide))))))))

example : enText 120034567 = u!"one hundred and twenty million thirty-four thousand five hundred and sixty-seven" := by
  decide +kernel

/-- **C02**: every rendering of the Spanish spelling of `n < 10^60` is parsed to `n`. -/
theorem c02_spanish_round_trip (n : Nat) (hn : n < 10 ^ 60) (text : PyStr) (h : Rendering Spec.es (esWords n) text) :
    parseNumber text (some u!"es") = .ok (some n) := by
  have := parseNumber_rendering style_es h (AllNum.mem wf_es (es_words hn).2)
  rw [this]; exact congrArg _ (es_words hn).1

theorem c02_spanish_text (n : Nat) (hn : n < 10 ^ 60) : parseNumber (esText n) (some u!"es") = .ok (some n) :=
  c02_spanish_round_trip n hn _ (esText_rendering hn)

example : esText 131021001001000521 =
    u!"ciento treinta y un mil veintiún billones mil un millones quinientos veintiuno" := by decide +kernel

example : Rendering Spec.es (esWords 1000031) u!"Un MILLON  treinta Y uno" := by
  refine ⟨[], _, by simp, ?_, rfl⟩
  have w : ∀ w v : PyStr, v.all isWord = true → form v = form w → Writes Spec.es w v :=
    fun w v h1 h2 => ⟨List.all_eq_true.mp h1, h2⟩
  have g1 : Gap Spec.es u!" " := Gap.sep (by decide) (by decide)
  exact Text.cons (v := u!"Un") (w _ _ (by decide +kernel) (by decide +kernel)) g1
    (Text.cons (v := u!"MILLON") (g := u!"  ") (w _ _ (by decide +kernel) (by decide +kernel)) (Gap.sep (by decide) (by decide))
    (Text.cons (v := u!"treinta") (w _ _ (by decide +kernel) (by decide +kernel))
      (Gap.filler (g := u!" ") (f := u!"y") (v := u!"Y") (rest := u!" ") (by decide) (by decide)
        (by decide) ⟨by decide +kernel, by decide +kernel⟩ g1)
    (Text.last (v := u!"uno") (trail := []) (w _ _ (by decide +kernel) (by decide +kernel)) (by decide))))

/-- **C03**: every rendering of the Hindi spelling of `n < 10^13` is parsed to `n`. -/
theorem c03_hindi_round_trip (n : Nat) (hn : n < 10 ^ 13) (text : PyStr) (h : Rendering Spec.hi (hiWords n) text) :
    parseNumber text (some u!"hi") = .ok (some n) := by
  have := parseNumber_rendering style_hi h (AllNum.mem wf_hi (hi_words hn).2)
  rw [this]; exact congrArg _ (hi_words hn).1

theorem c03_hindi_text (n : Nat) (hn : n < 10 ^ 13) : parseNumber (hiText n) (some u!"hi") = .ok (some n) :=
  c03_hindi_round_trip n hn _ (hiText_rendering hn)

example : hiText 9876543210123 = u!"अट्ठानबे खरब छिहत्तर अरब चौवन करोड़ बत्तीस लाख दस हज़ार एक सौ तेईस" := by decide +kernel

/-- **C04**: every rendering of the Russian spelling of `n < 10^24` is parsed to `n`. -/
theorem c04_russian_round_trip (n : Nat) (hn : n < 10 ^ 24) (text : PyStr) (h : Rendering Spec.ru (ruWords n) text) :
    parseNumber text (some u!"ru") = .ok (some n) := by
  have := parseNumber_rendering style_ru h (AllNum.mem wf_ru (ru_words hn).2)
  rw [this]; exact congrArg _ (ru_words hn).1

theorem c04_russian_text (n : Nat) (hn : n < 10 ^ 24) : parseNumber (ruText n) (some u!"ru") = .ok (some n) :=
  c04_russian_round_trip n hn _ (ruText_rendering hn)

example : ruText 34562892123 =
    u!"тридцать четыре миллиарда пятьсот шестьдесят два миллиона восемьсот девяносто две тысячи сто двадцать три" := by
  decide +kernel

/-- **C05**: every rendering of the Ukrainian spelling of `n < 10^18` is parsed to `n`. -/
theorem c05_ukrainian_round_trip (n : Nat) (hn : n < 10 ^ 18) (text : PyStr) (h : Rendering Spec.uk (ukWords n) text) :
    parseNumber text (some u!"uk") = .ok (some n) := by
  have := parseNumber_rendering style_uk h (AllNum.mem wf_uk (uk_words hn).2)
  rw [this]; exact congrArg _ (uk_words hn).1

theorem c05_ukrainian_text (n : Nat) (hn : n < 10 ^ 18) : parseNumber (ukText n) (some u!"uk") = .ok (some n) :=
  c05_ukrainian_round_trip n hn _ (ukText_rendering hn)

example : ukText 34562892121 =
    u!"тридцять чотири мільярди пʼятсот шістдесят два мільйони вісімсот девʼяносто дві тисячі сто двадцять один" := by
  decide +kernel

/-- **C35**: a hyphen in front of a spelled number is ignored: it is not a sign.  (That no result is negative is
part of the model's result type `Nat`: the code only adds and multiplies table values and reads digit strings.) -/
theorem c35_hyphen_is_no_sign (n : Nat) (hn : n < 10 ^ 24) (text : PyStr) (h : Rendering Spec.en (enWords n) text) :
    parseNumber (u!"-" ++ text) (some u!"en") = .ok (some n) := by
  obtain ⟨lead, rest, hlead, ht, rfl⟩ := h
  have hk := AllNum.mem wf_en (en_words hn).2
  have hf := Frag.prepend_spaces (Text.frag style_en ht hk) hlead
  obtain ⟨hj1, hj2⟩ := Frag.joiner style_en (c := 0x2d) (by decide)
  have hf2 := Frag.append_sep (Frag.nil _ _) hj2 hj1 hf
  obtain ⟨w, v, ws', hws, hw, hhd, hmem⟩ := Text.head style_en ht
  have hkv : ldEn.allNumbers.mem (norm v) = true := by
    have : norm v = norm w := hw.2
    rw [this]; exact hk w (by rw [hws]; exact List.mem_cons_self)
  obtain ⟨c, hc, hc1, hc2⟩ := word_char style_en.lang (fun c hc => (style_en.word c (hw.1 c hc)).1)
    (by unfold numOrSkip; rw [hkv]; rfl)
  have hcm : c ∈ u!"-" ++ (lead ++ rest) := List.mem_append_right _ (List.mem_append_right _ (hmem c hc))
  have := parseNumber_frag style_en.lang hf2 (not_blank_of_mem hcm hc1) (not_numeric_of_mem hcm hc1 hc2) (by
    rw [List.nil_append, hd_cons, if_pos hj2]; decide +kernel)
  have hv : kindsValue ldEn.maximumGroupValue (wordKinds ldEn (enWords n)) = some n := (en_words hn).1
  simp only [List.nil_append] at this
  rw [show u!"-" ++ (lead ++ rest) = 45 :: (lead ++ rest) from rfl, this, hv]

example : parseNumber u!"-five" (some u!"en") = .ok (some 5) :=
  c35_hyphen_is_no_sign 5 (by decide) u!"five" (enText_rendering (n := 5) (by decide))

end NumberParser.Props
