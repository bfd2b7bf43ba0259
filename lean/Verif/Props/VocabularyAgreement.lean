import Verif.Proofs.VocabularyAgreement
import Verif.Proofs.VocabularyModules
import Verif.Props.VocabularyPieces
import Verif.Props.Package
import Verif.Props.VocabularyOrdinal
import Verif.Props.PackageFraction

/-!
# C100: parse, parse_number and parse_ordinal agree, with any vocabulary

What C74, C19 and C70 say does not depend on the five languages of the parser.  Specification: Verif/Spec/VocabularyAgreement.lean.
-/

namespace NumberParser.Props
open NumberParser Gen Spec

set_option maxRecDepth 100000

theorem onlyWords_readAs {I : Info} (hi : Sensible I) {ts : List PyStr} {ws ws' : List (Class × Nat)} (h : OnlyWordsOf I ts ws)
    (h' : OnlyWordsOf I ts ws') {n : Nat} (hr : ReadAs I ws n) : ReadAs I ws' n := by
  rw [readAs_run (onlyWordsOf_pos hi h), ← (onlyWordsOf_kinds hi h).1, (onlyWordsOf_kinds hi h').1] at hr
  exact (readAs_run (onlyWordsOf_pos hi h')).mpr hr

theorem flatten_space {ts : List PyStr} (h : ∀ t ∈ ts, ∀ c ∈ t, isSpace c = true) : ∀ c ∈ ts.flatten, isSpace c = true := by
  intro c hc
  obtain ⟨t, ht, hct⟩ := List.mem_flatten.mp hc
  exact h t ht c hct

/-- What `parse` makes of a text of number words. -/
theorem parse_wordsOf {p : Package} {l : PyStr} {i : Info} (h : Knows p l i) {s : PyStr} {lead rest : List PyStr} {w : PyStr}
    (ht : Tokens l s (lead ++ w :: rest)) (hlead : ∀ t ∈ lead, ∀ c ∈ t, isSpace c = true) {is : List RunItem} {xs : List PyStr}
    (hrun : RunOf i (w :: rest) is) (hx : CutOf i is xs) : parseIn p s (some l) = .ok (spaced xs) := by
  rw [(knows_parse h ht).mpr ⟨_, keep_blanksOf hlead (.ending hrun hx), rfl⟩]
  have hsol := spaced_solidOf hx
  obtain ⟨ys, m, rfl⟩ := cut_lastOf hx
  rw [withSpaces_snoc, strip_lead (flatten_space hlead), strip_trail hsol.1 hsol.2.1 hsol.2.2 (by decide)]

/-- **C100** A text of number words is converted to a single number exactly if `parse_number` reads it as this number. -/
theorem c100_number (p : Package) (l : PyStr) (i : Info) (h : Knows p l i) (s : PyStr) (hs : WordInput s) (ha : 0x27 ∉ s ∧ 0x2019 ∉ s)
    (lead rest : List PyStr) (w : PyStr) (ht : Tokens l s (lead ++ w :: rest)) (hw : NumberWordsOnly i lead w rest) (n : Nat) :
    parseIn p s (some l) = .ok (decDigits n) ↔ parseNumberIn p s (some l) = .ok (some n) := by
  have hts : Tokens l (withoutApostrophes s) (lead ++ w :: rest) := by rw [withoutApostrophes_of ha]; exact ht
  obtain ⟨is, xs, hrun, hx⟩ := run_ofOf h.tidy hw.first hw.rest
  have hall : OnlyWordsOf i (lead ++ w :: rest) (runWords is) :=
    onlyWords_blanksOf (fun t ht => norm_space (hw.lead t ht)) (runTokens_wordsOf hrun.1)
  have key : parseNumberIn p s (some l) = .ok (some n) ↔ ReadAs i (runWords is) n := by
    obtain ⟨t0, ts0, h0, hsk⟩ : ∃ t0 ts0, lead ++ w :: rest = t0 :: ts0 ∧ form t0 ∉ i.skipTokens := by
      cases hl : lead with
      | nil => exact ⟨w, rest, rfl, cardinal_not_skipOf h.tidy hw.first⟩
      | cons t lead' =>
        refine ⟨t, lead' ++ w :: rest, rfl, fun hs => ?_⟩
        exact skip_not_blankOf h.tidy hs (norm_space (hw.lead t (by rw [hl]; simp)))
    rw [h0] at hts hall
    rw [c82_reads p h.distinct l i h.mem h.tidy.toSensible s t0 ts0 n hs hts]
    constructor
    · rintro ⟨_, _, ws, h1, h2⟩
      exact onlyWords_readAs h.tidy.toSensible h1 hall h2
    · exact fun hr => ⟨hsk, readAs_moderate h.tidy h.moderate hall hr, _, hall, hr⟩
  rw [key]
  constructor
  · intro he
    rw [parse_wordsOf h ht hw.lead hrun hx] at he
    injection he with he
    exact cut_singleOf hx he
  · exact fun hr => parse_wordsOf h ht hw.lead hrun (.last hr)

/-- **C100** It is no number for `parse_number` exactly if `parse` makes several numbers of it. -/
theorem c100_several (p : Package) (l : PyStr) (i : Info) (h : Knows p l i) (s : PyStr) (hs : WordInput s) (ha : 0x27 ∉ s ∧ 0x2019 ∉ s)
    (lead rest : List PyStr) (w : PyStr) (ht : Tokens l s (lead ++ w :: rest)) (hw : NumberWordsOnly i lead w rest) (out : PyStr)
    (ho : parseIn p s (some l) = .ok out) : parseNumberIn p s (some l) = .ok none ↔ 0x20 ∈ out := by
  have hnum := c100_number p l i h s hs ha lead rest w ht hw
  have hdig : ∀ n, 0x20 ∉ decDigits n := fun n hm => by have := (decDigits_isDigit n).2 _ hm; omega
  obtain ⟨is, xs, hrun, hx⟩ := run_ofOf h.tidy hw.first hw.rest
  have hp := parse_wordsOf h ht hw.lead hrun hx
  rw [hp] at ho
  cases ho
  constructor
  · intro hn
    cases hx with
    | @last _ n hr =>
      have := (hnum n).mp hp
      rw [hn] at this; cases this
    | @more is rest cs m k v xs hr he _ hc =>
      rw [List.cons_append]
      cases hq : cs ++ xs with
      | nil => exact absurd (List.append_eq_nil_iff.mp hq).2 (cut_neOf hc)
      | cons y ys => exact spaced_two
  · intro hm
    obtain ⟨r, hr⟩ := parseNumberWith_returns h.tidy h.moderate (l := l) hs
    rw [← parseNumberIn_with h.distinct h.mem] at hr
    cases r with
    | none => exact hr
    | some n =>
      have := (hnum n).mpr hr
      rw [hp] at this
      injection this with this
      rw [this] at hm
      exact absurd hm (hdig n)

/-- **C100** A text that begins with a cardinal number word (or has one word only) and ends with an ordinal, the others being cardinals or
conjunctions, is converted to a single number exactly if `parse_ordinal` reads it as this number. -/
theorem c100_ordinal (p : Package) (l : PyStr) (i : Info) (h : Knows p l i) (hi : Plain i) (hf : Faithful i) (s : PyStr)
    (hh : l ≠ u!"hi" ∨ 0x27 ∉ s ∧ 0x2019 ∉ s) (lead ts trail : List PyStr) (w : PyStr) (k : Class) (v : Nat) (ht : Tokens l s (lead ++ (ts ++ w :: trail)))
    (hlead : ∀ t ∈ lead, ∀ c ∈ t, isSpace c = true) (htrail : ∀ t ∈ trail, ∀ c ∈ t, isSpace c = true)
    (hfirst : ts = [] ∨ ∃ t ts', ts = t :: ts' ∧ NumberWordsOnly i lead t ts') (hw : OrdinalOf i k v w) (n : Nat) :
    parseIn p s (some l) = .ok (decDigits n) ↔ parseOrdinalIn p s (some l) = .ok (some n) := by
  have htok := (tokens_iff _ _ _).mp ht
  have hrun : ∃ is xs, (ts = [] ∧ is = [] ∨ RunOf i ts is) ∧ CutOf i (is ++ [.word k v]) xs ∧ RunTokensOf i ts is := by
    rcases hfirst with rfl | ⟨t, ts', rfl, hc⟩
    · obtain ⟨xs, hx⟩ := cut_existsOf (I := i) k v []
      exact ⟨[], xs, Or.inl ⟨rfl, rfl⟩, hx, .nil⟩
    · obtain ⟨is, _, hr, _⟩ := run_ofOf h.tidy hc.first hc.rest
      have hrt := hr.1
      cases hrt with
      | word hv h' =>
        obtain ⟨xs, hx⟩ := cut_existsOf (I := i) _ _ (_ ++ [.word k v])
        exact ⟨_, xs, Or.inr hr, hx, hr.1⟩
      | conj hs _ => exact absurd hs (cardinal_not_skipOf h.tidy hc.first)
      | blank hb _ => exact absurd hb (cardinal_not_blankOf h.tidy hc.first)
  obtain ⟨is, xs, hrun, hx, hrt⟩ := hrun
  have htr : ConvertedOf i trail trail.flatten := by
    have := keep_blanksOf (I := i) htrail .nil
    simpa using this
  have hp : ∀ xs, CutOf i (is ++ [.word k v]) xs → parseIn p s (some l) = .ok (spaced xs) := by
    intro xs hx
    rw [(knows_parse h ht).mpr ⟨_, keep_blanksOf hlead (.ordinal hrun hw hx htr), rfl⟩]
    have hsol := spaced_solidOf hx
    rw [strip_lead (flatten_space hlead), strip_trail hsol.1 hsol.2.1 hsol.2.2 (flatten_space htrail)]
  obtain ⟨hnc, c, hc, hst⟩ := hw
  have hnum : OnlyOrdinalsOf i (lead ++ (ts ++ w :: trail)) (runWords (is ++ [.word k v])) := by
    rw [runWords_append]
    refine onlyOrdinals_blanksOf (fun t ht => norm_space (hlead t ht)) ?_
    refine onlyWords_ordinalsOf hf (runTokens_wordsOf hrt) (.word hst hc ?_)
    have := onlyOrdinals_blanksOf (I := i) (lead := trail) (fun t ht => norm_space (htrail t ht)) .nil
    rwa [List.append_nil] at this
  have key : parseOrdinalIn p s (some l) = .ok (some n) ↔ ReadAs i (runWords (is ++ [.word k v])) n := by
    rw [c83_package p h.distinct l i h.mem s]
    obtain ⟨hb, hns⟩ := stands_text hi (ts := lead ++ (ts ++ w :: trail)) (by simp) hst
    obtain ⟨t0, ts0, h0, hsk⟩ : ∃ t0 ts0, lead ++ (ts ++ w :: trail) = t0 :: ts0 ∧ irregular (form t0) ∉ i.skipTokens := by
      cases hl : lead with
      | cons t lead' => exact ⟨t, _, rfl, blank_noSkipOf hi (norm_space (hlead t (by rw [hl]; simp)))⟩
      | nil =>
        rcases hfirst with rfl | ⟨t, ts', rfl, hcw⟩
        · exact ⟨w, trail, rfl, stands_noSkip hi hst⟩
        · exact ⟨t, _, rfl, stands_noSkip hi (hf.words _ hcw.first)⟩
    rw [h0] at ht hnum hb hns htok
    rw [c83_reads i hi l s hh t0 ts0 n ht hb hns]
    have hts : ∀ t ∈ t0 :: ts0, t ∈ tokenize s l := fun t h => by rw [← htok]; exact h
    constructor
    · rintro ⟨_, _, ws, h1, h2⟩
      exact onlyOrdinals_readAs hi (hh.imp id noApos_of) hts h1 hnum h2
    · exact fun hr => ⟨hsk, onlyOrdinals_moderate hi h.moderate (hh.imp id noApos_of) hts hnum hr, _, hnum, hr⟩
  rw [key]
  constructor
  · intro he
    rw [hp xs hx] at he
    injection he with he
    exact cut_singleOf hx he
  · exact fun hr => hp _ (.last hr)

/-- **C100** If `parse_number` finds a number in a text with a number word and without apostrophes, so does `parse_ordinal`. -/
theorem c100_cardinal (p : Package) (l : PyStr) (i : Info) (h : Knows p l i) (hi : Plain i) (hf : Faithful i) (s : PyStr)
    (hs : WordInput s) (ha : 0x27 ∉ s ∧ 0x2019 ∉ s) (ts : List PyStr) (ht : Tokens l s ts) (hc : ∃ t ∈ ts, CardinalOf i t) (n : Nat)
    (hn : parseNumberIn p s (some l) = .ok (some n)) : parseOrdinalIn p s (some l) = .ok (some n) := by
  obtain ⟨t, htm, hc⟩ := hc
  obtain ⟨hb, hns⟩ := stands_text hi htm (hf.words _ hc)
  cases ts with
  | nil => cases htm
  | cons t0 ts =>
    obtain ⟨hsk, hlt, ws, h1, h2⟩ := (c82_reads p h.distinct l i h.mem h.tidy.toSensible s t0 ts n hs (by
      rw [withoutApostrophes_of ha]; exact ht)).mp hn
    rw [c83_package p h.distinct l i h.mem s, c83_reads i hi l s (Or.inr ha) t0 ts n ht hb hns]
    have h3 := onlyWords_ordinalsOf hf h1 .nil
    rw [List.append_nil, List.append_nil] at h3
    refine ⟨?_, hlt, ws, h3, h2⟩
    cases h1 with
    | word hw _ => exact stands_noSkip hi (hf.words _ (last_listed hw))
    | other ho _ =>
      rcases ho with hb | hs
      · exact blank_noSkipOf hi hb
      · exact absurd hs hsk

theorem numberIn_digits (p : Package) (n : Nat) (hn : n < 10 ^ 4300) (lang : Option PyStr) :
    parseNumberIn p (decDigits n) lang = .ok (some n) := by
  have hdt : DigitText (decDigits n) n := ⟨[], decDigits n, [], by simp, by simp [OrdinarySpace], by simp [OrdinarySpace], numeral_decDigits n,
    decDigits_length n 4300 (by decide) hn⟩
  have hnum := (numericText_iff _).mp (digitText_numeric hdt)
  have hb : blank (decDigits n) = false := by
    obtain ⟨h1, h2⟩ := decDigits_isDigit n
    cases hd : decDigits n with
    | nil => exact absurd hd h1
    | cons c cs =>
      refine blank_false ⟨c, by simp, isSpace_ascii_digit (h2 c (by rw [hd]; simp))⟩
  unfold parseNumberIn
  simp only [hnum, hb, if_true, Bool.false_eq_true, if_false, pyInt_decDigits hn, bind, Except.bind, pure, Except.pure]

/-- **C100** A text of number words that is read as a number is read as the same number after `parse` has normalised it, in every language. -/
theorem c100_normal (p : Package) (l : PyStr) (i : Info) (h : Knows p l i) (s : PyStr) (hs : WordInput s) (ha : 0x27 ∉ s ∧ 0x2019 ∉ s)
    (lead rest : List PyStr) (w : PyStr) (ht : Tokens l s (lead ++ w :: rest)) (hw : NumberWordsOnly i lead w rest) (n : Nat)
    (hn : parseNumberIn p s (some l) = .ok (some n)) (out : PyStr) (ho : parseIn p s (some l) = .ok out) (lang : Option PyStr) :
    parseNumberIn p out lang = .ok (some n) := by
  rw [(c100_number p l i h s hs ha lead rest w ht hw n).mpr hn] at ho
  cases ho
  exact numberIn_digits p n (parseNumberIn_lt hn) lang

/-! ## Which data modules -/

/-- The check of a module -/
def faithfulB (i : Info) : Bool :=
  let fs := allForms i
  fs.all (fun f => (candidatesB (irregular f)).find? (fun c => fs.elem c) == some f) && i.skipTokens.all (fun f => i.skipTokens.elem (irregular f))

theorem candidates_exists (g : PyStr) : ∃ cs, Candidates g cs := by
  by_cases h1 : ∃ u, g = u ++ u!"ieth"
  · obtain ⟨u, rfl⟩ := h1; exact ⟨_, .ieth u⟩
  · by_cases h2 : ∃ u, g = u ++ u!"th"
    · obtain ⟨u, rfl⟩ := h2
      exact ⟨_, .th u (fun x e => h1 ⟨x, e⟩)⟩
    · exact ⟨_, .other g (fun u e => h2 ⟨u, e⟩)⟩

theorem faithfulB_sound {i : Info} (h : faithfulB i = true) : Faithful i := by
  unfold faithfulB at h
  simp only [Bool.and_eq_true, List.all_eq_true, beq_iff_eq, List.elem_iff] at h
  refine ⟨fun f hf => ?_, h.2⟩
  have := h.1 f (listed_forms.mp hf)
  rw [List.find?_eq_some_iff_append] at this
  obtain ⟨h1, a, b, h2, h3⟩ := this
  obtain ⟨cs, hc⟩ := candidates_exists (irregular f)
  have e := candidatesB_sound hc
  refine ⟨a, b, by rw [← h2, ← e]; exact hc, hf, fun x hx hl => ?_⟩
  have := h3 x hx
  rw [listed_forms] at hl
  simp [hl] at this

theorem faithful_supported : supported.all (fun l => faithfulB (file l)) = true := by decide +kernel

/-- **C100** The data modules of the five languages are faithful. -/
theorem c100_supported (l : PyStr) (hl : l ∈ supported) : Plain (file l) ∧ Faithful (file l) ∧ Knows repository l (file l) :=
  ⟨c83_supported l hl, faithfulB_sound (List.all_eq_true.mp faithful_supported l hl), c92_supported.2 l hl⟩

def faithfulOK (e : PyStr × RuleSets × Supplementary × Output) : Bool :=
  match e.2.2.2.useLongScale with
  | none => true
  | some long => faithfulB (tablesOf e.2.2.2 long)

theorem faithful_ok : otherLanguages.all faithfulOK = true := by decide +kernel

/-- **C100** So are those of the other languages in the repository that the parser could load. -/
theorem c100_shipped (name : PyStr) (rules : RuleSets) (supp : Supplementary) (module : Output) (long : Bool)
    (h : (name, rules, supp, module) ∈ otherLanguages) (hl : module.useLongScale = some long) : Faithful (tablesOf module long) := by
  have := List.all_eq_true.mp faithful_ok _ h
  unfold faithfulOK at this
  simp only [hl] at this
  exact faithfulB_sound this

/-! ## Examples -/

/-- A module with words ending in "th" and "ieth" that is faithful -/
theorem faithful_ordinalVocabulary : Faithful ordinalVocabulary := faithfulB_sound (by decide +kernel)

theorem knows_ordinalVocabulary : Knows [(u!"xx", ordinalVocabulary)] u!"xx" ordinalVocabulary :=
  ⟨by unfold Distinct; decide +kernel, by simp, plain_ordinalVocabulary.1.toTidy, plain_ordinalVocabulary.2⟩

/-- Texts of both kinds -/
theorem c100_example : [u!"ky cy", u!"cy ky", u!" ky et bath"].map (fun s => (parseIn [(u!"xx", ordinalVocabulary)] s (some u!"xx"),
      parseNumberIn [(u!"xx", ordinalVocabulary)] s (some u!"xx"))) =
    [(.ok u!"33", .ok (some 33)), (.ok u!"3 30", .ok none), (.ok u!"32", .ok (some 32))] ∧
  [u!"ky cieth", u!"cy kieth", u!"ba moth"].map (fun s => (parseIn [(u!"xx", ordinalVocabulary)] s (some u!"xx"),
      parseOrdinalIn [(u!"xx", ordinalVocabulary)] s (some u!"xx"))) =
    [(.ok u!"33", .ok (some 33)), (.ok u!"3 30", .ok none), (.ok u!"1000", .ok (some 1000))] := by constructor <;> decide +kernel

theorem example_words : NumberWordsOnly ordinalVocabulary [u!"", u!" "] u!"Cy" [u!" ", u!"et", u!" ", u!"ky"] where
  lead := by decide +kernel
  first := mem_listed.mp (by decide +kernel)
  rest := by
    intro t ht
    have h : ∀ t ∈ [u!" ", u!"et", u!" ", u!"ky"], t = u!" " ∨ t = u!"et" ∨ t = u!"ky" := by decide
    rcases h t ht with rfl | rfl | rfl
    · exact Or.inr (Or.inr ((blankForm_iff _).mpr (by decide +kernel)))
    · exact Or.inr (Or.inl (by unfold SkipOf; decide +kernel))
    · exact Or.inl (mem_listed.mp (by decide +kernel))

/-- They meet the conditions. -/
example (n : Nat) : parseIn [(u!"xx", ordinalVocabulary)] u!" Cy et ky" (some u!"xx") = .ok (decDigits n) ↔
    parseNumberIn [(u!"xx", ordinalVocabulary)] u!" Cy et ky" (some u!"xx") = .ok (some n) :=
  c100_number _ _ _ knows_ordinalVocabulary _ ((wordInput_iff _).mpr (by decide +kernel)) (by decide) _ _ _
    ((tokens_iff _ _ _).mpr (by decide +kernel)) example_words n

example (n : Nat) : parseIn [(u!"xx", ordinalVocabulary)] u!" Cy et ky moth" (some u!"xx") = .ok (decDigits n) ↔
    parseOrdinalIn [(u!"xx", ordinalVocabulary)] u!" Cy et ky moth" (some u!"xx") = .ok (some n) := by
  refine c100_ordinal _ _ _ knows_ordinalVocabulary plain_ordinalVocabulary.1 faithful_ordinalVocabulary _ (Or.inl (by decide)) [u!"", u!" "]
    [u!"Cy", u!" ", u!"et", u!" ", u!"ky", u!" "] [] u!"moth" .scale 1000 ((tokens_iff _ _ _).mpr (by decide +kernel))
    (by decide +kernel) (by simp) (Or.inr ⟨_, _, rfl, example_words.lead, example_words.first, ?_⟩)
    ⟨?_, u!"mo", ⟨[], u!"mo", [], rfl, by decide +kernel, fun h => by obtain ⟨e, he, _⟩ := h; cases he⟩, ⟨[u!"moth"], [], ?_, ?_, ?_⟩⟩ n
  · intro t ht
    rw [show [u!" ", u!"et", u!" ", u!"ky", u!" "] = [u!" ", u!"et", u!" ", u!"ky"] ++ [u!" "] from rfl] at ht
    rcases List.mem_append.mp ht with h | h
    · exact example_words.rest t h
    · simp only [List.mem_singleton] at h
      subst h
      exact Or.inr (Or.inr ((blankForm_iff _).mpr (by decide +kernel)))
  · intro h
    have := mem_listed.mpr h
    revert this
    decide +kernel
  · have : irregular (form u!"moth") = u!"mo" ++ u!"th" := by decide +kernel
    rw [this]
    refine .th u!"mo" (fun u e => ?_)
    have := List.isSuffixOf_iff_suffix.mpr ⟨u, e.symm⟩
    revert this
    decide +kernel
  · exact mem_listed.mp (by decide +kernel)
  · intro x hx hl
    have := mem_listed.mpr hl
    simp only [List.mem_singleton] at hx
    subst hx
    revert this
    decide +kernel

/-- A module that lists "bieth" and "by" -/
def unfaithfulVocabulary : Info := ⟨[(u!"by", 1), (u!"bieth", 2)], [], [], [], [], [u!"et"], false⟩

/-- Without the condition `parse_ordinal` may read a cardinal as another number. -/
theorem c100_refuted : Plain unfaithfulVocabulary ∧ Moderate unfaithfulVocabulary ∧
    parseNumberIn [(u!"xx", unfaithfulVocabulary)] u!"bieth" (some u!"xx") = .ok (some 2) ∧
    parseOrdinalIn [(u!"xx", unfaithfulVocabulary)] u!"bieth" (some u!"xx") = .ok (some 1) :=
  ⟨plainB_sound (by decide +kernel), moderateB_sound (by decide +kernel), by decide +kernel, by decide +kernel⟩

end NumberParser.Props
