import Verif.Proofs.VocabularyPieces
import Verif.Proofs.PackageInvariance
import Verif.Props.PackageInvariance

/-!
# C92: converting composed and similar texts, with any vocabulary

What C17, C57, C58, C62 and C63 say about `parse` does not depend on the five languages of the parser.  Specification:
Verif/Spec/VocabularyPieces.lean.
-/

namespace NumberParser.Props
open NumberParser Gen Spec

/-- The language `l` of the parser with the languages `p` has the tidy and moderate data module `i`. -/
structure Knows (p : Package) (l : PyStr) (i : Info) : Prop where
  distinct : Distinct p
  mem : (l, i) ∈ p
  tidy : Tidy i
  moderate : Moderate i

theorem knows_parse {p : Package} {l : PyStr} {i : Info} (h : Knows p l i) {s : PyStr} {ts : List PyStr} (hts : Tokens l s ts) {out : PyStr} :
    parseIn p s (some l) = .ok out ↔ ∃ raw, ConvertedOf i ts raw ∧ out = strip raw :=
  c82_converts p h.distinct l i h.mem h.tidy h.moderate s ts hts out

theorem solid_startsNS {b : PyStr} (h : SolidStart b) : StartsNS (withoutSoftHyphens b) ∧ withoutSoftHyphens b ≠ [] := by
  obtain ⟨c, z, e, hs⟩ := h
  refine ⟨?_, by rw [e]; simp⟩
  intro d w he
  rw [e] at he; injection he with h1 h2; rw [← h1]; exact hs

/-! ## Composed texts -/

/-- **C92** A text can be converted piece by piece: if `a` ends with an ordinary word or an ordinal, then what follows it after white
space is converted on its own. -/
theorem c92_pieces (p : Package) (l : PyStr) (i : Info) (h : Knows p l i) (a g b : PyStr) (ts : List PyStr) (ht : Tokens l a ts)
    (hc : EndsClosedOf i ts) (ha : SolidEnd a) (hg : WhiteSpace g) (hb : SolidStart b) (x y : PyStr)
    (hx : parseIn p a (some l) = .ok x) (hy : parseIn p b (some l) = .ok y) : parseIn p (a ++ g ++ b) (some l) = .ok (x ++ g ++ y) := by
  obtain ⟨ra, hra, rfl⟩ := (knows_parse h ht).mp hx
  obtain ⟨rb, hrb, rfl⟩ := (knows_parse h (tokens_tokenize l b)).mp hy
  obtain ⟨hb1, hb2⟩ := solid_startsNS hb
  obtain ⟨tt, raw, h1, h2, h3⟩ := converted_gapOf h.tidy ht hc hg.2 hg.1 (tokens_tokenize l b) ha hb1 hb2 hra hrb
  exact (knows_parse h h1).mpr ⟨raw, h2, h3.symm⟩

/-- **C92** If `a` ends with a number word and an ordinary word follows after white space, the two are converted on their own, too, and a
single space is left between them. -/
theorem c92_number (p : Package) (l : PyStr) (i : Info) (h : Knows p l i) (a g b : PyStr) (ta tb : List PyStr) (ht : Tokens l a ta)
    (hc : EndsNumberOf i ta) (ha : SolidEnd a) (hg : WhiteSpace g) (htb : Tokens l b tb) (hob : BeginsOrdinaryOf i tb) (hb : SolidStart b)
    (x y : PyStr) (hx : parseIn p a (some l) = .ok x) (hy : parseIn p b (some l) = .ok y) :
    parseIn p (a ++ g ++ b) (some l) = .ok (x ++ u!" " ++ y) := by
  obtain ⟨ra, hra, rfl⟩ := (knows_parse h ht).mp hx
  obtain ⟨rb, hrb, rfl⟩ := (knows_parse h htb).mp hy
  obtain ⟨tt, raw, h1, h2, h3⟩ := converted_open_gapOf h.tidy ht hc hg.2 hg.1 htb hob ha (solid_startsNS hb).1 hra hrb
  exact (knows_parse h h1).mpr ⟨raw, h2, h3.symm⟩

/-- **C92** A full stop or a comma ends every number: what follows it directly is converted on its own (in Hindi only white space
separates words, so the language must not be called `hi`). -/
theorem c92_concat (p : Package) (l : PyStr) (i : Info) (h : Knows p l i) (hh : l ≠ u!"hi") (a b : PyStr) (mark : Nat)
    (hm : mark = 0x2e ∨ mark = 0x2c) (hb : StartsSolid (withoutSoftHyphens b)) :
    ∃ x y, parseIn p (a ++ [mark]) (some l) = .ok x ∧ parseIn p b (some l) = .ok y ∧
      parseIn p (a ++ [mark] ++ b) (some l) = .ok (x ++ y) := by
  obtain ⟨ra, hra⟩ := converted_existsOf h.tidy (tokenize (a ++ [mark]) l)
  obtain ⟨rb, hrb⟩ := converted_existsOf h.tidy (tokenize b l)
  obtain ⟨h1, h2⟩ := converted_concatOf h.tidy hh hm hb hra hrb
  exact ⟨strip ra, strip rb, (knows_parse h (tokens_tokenize _ _)).mpr ⟨ra, hra, rfl⟩, (knows_parse h (tokens_tokenize _ _)).mpr ⟨rb, hrb, rfl⟩,
    (knows_parse h (tokens_tokenize _ _)).mpr ⟨_, h1, h2.symm⟩⟩

/-- **C92** A text that begins with a number word and that `parse_number` reads as `n` is converted to `n`, ... -/
theorem c92_whole (p : Package) (l : PyStr) (i : Info) (h : Knows p l i) (m w : PyStr) (rest : List PyStr) (htm : Tokens l m (w :: rest))
    (hc : CardinalOf i w) (hap : 0x27 ∉ m ∧ 0x2019 ∉ m) (hm : WordInput m) (n : Nat)
    (hn : parseNumberIn p m (some l) = .ok (some n)) : parseIn p m (some l) = .ok (decDigits n) := by
  have e : withoutApostrophes m = m := by
    apply List.filter_eq_self.mpr
    intro c hcm
    have h1 : c ≠ 0x27 := fun e => hap.1 (e ▸ hcm)
    have h2 : c ≠ 0x2019 := fun e => hap.2 (e ▸ hcm)
    simp [h1, h2]
  obtain ⟨_, _, ws, h1, h2⟩ := (c82_reads p h.distinct l i h.mem h.tidy.toSensible m w rest n hm (by rw [e]; exact htm)).mp hn
  obtain ⟨raw, h3, h4⟩ := converted_numberOf hc h1 h2
  exact (knows_parse h htm).mpr ⟨raw, h3, h4.symm⟩

/-- **C92** ... also inside any text, between what ends with an ordinary word or ordinal and what begins with an ordinary word. -/
theorem c92_inside (p : Package) (l : PyStr) (i : Info) (h : Knows p l i) (m w : PyStr) (rest : List PyStr) (htm : Tokens l m (w :: rest))
    (hc : CardinalOf i w) (he : EndsNumberOf i (w :: rest)) (hap : 0x27 ∉ m ∧ 0x2019 ∉ m) (hm : WordInput m) (n : Nat)
    (hn : parseNumberIn p m (some l) = .ok (some n)) (hs : SolidStart m) (hse : SolidEnd m)
    (a g g' b : PyStr) (ta tb : List PyStr) (hta : Tokens l a ta) (hca : EndsClosedOf i ta) (ha : SolidEnd a) (hg : WhiteSpace g)
    (hg' : WhiteSpace g') (htb : Tokens l b tb) (hob : BeginsOrdinaryOf i tb) (hb : SolidStart b) (x y : PyStr)
    (hx : parseIn p a (some l) = .ok x) (hy : parseIn p b (some l) = .ok y) :
    parseIn p (a ++ g ++ (m ++ g' ++ b)) (some l) = .ok (x ++ g ++ (decDigits n ++ u!" " ++ y)) := by
  have hp := c92_whole p l i h m w rest htm hc hap hm n hn
  have h1 := c92_number p l i h m g' b (w :: rest) tb htm he hse hg' htb hob hb _ y hp hy
  refine c92_pieces p l i h a g _ ta hta hca ha hg ?_ x _ hx h1
  obtain ⟨c, z, e, hs⟩ := hs
  refine ⟨c, z ++ withoutSoftHyphens (g' ++ b), ?_, hs⟩
  unfold withoutSoftHyphens at *
  rw [List.append_assoc, List.filter_append, e]; rfl

/-! ## Similar texts -/

/-- The languages of the parser are called differently, and their data modules are tidy and moderate. -/
structure AllKnown (p : Package) : Prop where
  distinct : Distinct p
  tidy : ∀ e ∈ p, Tidy e.2
  moderate : ∀ e ∈ p, Moderate e.2

theorem allKnown_knows {p : Package} (h : AllKnown p) {l : PyStr} {s a : PyStr} (ha : parseIn p s (some l) = .ok a) : ∃ i, Knows p l i := by
  cases hd : languageDataIn p l with
  | error e =>
    exfalso
    unfold parseIn resolveLanguageIn at ha
    simp only [bind, Except.bind, hd] at ha
    cases ha
  | ok ld =>
    obtain ⟨i, hi, _⟩ := languageDataIn_ok hd
    exact ⟨i, h.distinct, hi, h.tidy _ hi, h.moderate _ hi⟩

/-- A call without a language. -/
theorem parseIn_resolved {p : Package} {s s' : PyStr} (lang : Option PyStr)
    (hres : resolveLanguageIn p s lang = resolveLanguageIn p s' lang) {a : PyStr} {R : PyStr → PyStr → Prop}
    (key : ∀ l, parseIn p s (some l) = .ok a → ∃ b, parseIn p s' (some l) = .ok b ∧ R a b)
    (ha : parseIn p s lang = .ok a) : ∃ b, parseIn p s' lang = .ok b ∧ R a b := by
  cases hr : resolveLanguageIn p s lang with
  | error e =>
    unfold parseIn at ha
    simp only [bind, Except.bind, hr] at ha
    cases ha
  | ok l =>
    have e1 : parseIn p s lang = parseIn p s (some l) := by
      unfold parseIn
      simp only [hr]; rfl
    have e2 : parseIn p s' lang = parseIn p s' (some l) := by
      unfold parseIn
      simp only [← hres, hr]; rfl
    rw [e2]
    exact key l (by rw [← e1]; exact ha)

theorem parseIn_similar {R : PyStr → PyStr → Prop} (hrefl : ∀ x, R x x) (happ : ∀ {a b c d}, R a b → R c d → R (a ++ c) (b ++ d))
    (hstrip : ∀ {a b}, R a b → R (strip a) (strip b)) {p : Package} (hk : AllKnown p) {s s' a : PyStr} {lang : Option PyStr}
    (hres : resolveLanguageIn p s lang = resolveLanguageIn p s' lang) (h : ∀ l, Similar R (tokenize s l) (tokenize s' l))
    (ha : parseIn p s lang = .ok a) : ∃ b, parseIn p s' lang = .ok b ∧ R a b := by
  refine parseIn_resolved lang hres (fun l ha => ?_) ha
  obtain ⟨i, hi⟩ := allKnown_knows hk ha
  obtain ⟨raw, hr, rfl⟩ := (knows_parse hi (tokens_tokenize _ _)).mp ha
  obtain ⟨raw', hr', hR⟩ := converted_similarOf hrefl happ (h l) hr
  exact ⟨strip raw', (knows_parse hi (tokens_tokenize _ _)).mpr ⟨raw', hr', rfl⟩, hstrip hR⟩

/-- **C92** `parse` converts the same numbers whatever the case of the letters (of any script; not Σ and İ) of a text: the results differ
in the case of letters only (any language, or none given). -/
theorem c92_case (p : Package) (hk : AllKnown p) (s s' : PyStr) (h : SameUpToCase s s') (lang : Option PyStr) (a : PyStr)
    (ha : parseIn p s lang = .ok a) : ∃ b, parseIn p s' lang = .ok b ∧ SameUpToCase a b := by
  have hres : resolveLanguageIn p s lang = resolveLanguageIn p s' lang := by
    have e : al s = al s' := h
    have k : ∀ x, resolveLanguageIn p (al x) lang = resolveLanguageIn p x lang := fun x => resolveIn_tokens (fun l => tokens_al l x) lang
    rw [← k s, ← k s', e]
  exact parseIn_similar (R := SameUpToCase) (fun _ => rfl) case_append strip_case hk hres (fun l => tokenize_al l h) ha

/-- **C92** The same for accents of letters. -/
theorem c92_accents (p : Package) (hk : AllKnown p) (s s' : PyStr) (h : SameUpToAccents s s') (lang : Option PyStr) (a : PyStr)
    (ha : parseIn p s lang = .ok a) : ∃ b, parseIn p s' lang = .ok b ∧ SameUpToAccents a b := by
  have hres : resolveLanguageIn p s lang = resolveLanguageIn p s' lang := by
    obtain ⟨ps, hp, rfl, rfl⟩ := same_pairs h
    exact resolveIn_pairs hp lang
  exact parseIn_similar (R := SameUpToAccents) accents_refl accents_append strip_accents hk hres (fun l => tokenize_accents h) ha

/-- **C92** `parse` converts the same numbers whatever white space is between the words (any language, or none given): the results differ
in the amount and kind of white space only. -/
theorem c92_spacing (p : Package) (hk : AllKnown p) (s s' : PyStr) (h : SameSpacing s s') (lang : Option PyStr)
    (a : PyStr) (ha : parseIn p s lang = .ok a) : ∃ b, parseIn p s' lang = .ok b ∧ SameSpacing a b := by
  have hres : resolveLanguageIn p s lang = resolveLanguageIn p s' lang :=
    resolveIn_congr (fun _ => countValidIn_solid hk.tidy (sameSpacing_solid h)) lang
  refine parseIn_resolved lang hres (fun l ha => ?_) ha
  obtain ⟨i, hi⟩ := allKnown_knows hk ha
  obtain ⟨raw, hr, rfl⟩ := (knows_parse hi (tokens_tokenize _ _)).mp ha
  obtain ⟨raw', hr', hR⟩ := converted_sameSpacingOf hi.tidy h hr
  exact ⟨strip raw', (knows_parse hi (tokens_tokenize _ _)).mpr ⟨raw', hr', rfl⟩, sameSpacing_strip hR⟩

/-- **C92** White space in front of a text does not matter. -/
theorem c92_leading (p : Package) (l : PyStr) (i : Info) (h : Knows p l i) (g s : PyStr) (hg : WhiteSpace g) :
    parseIn p (g ++ s) (some l) = parseIn p s (some l) := by
  obtain ⟨raw, hr⟩ := converted_existsOf h.tidy (tokenize s l)
  rw [(knows_parse h (tokens_tokenize l s)).mpr ⟨raw, hr, rfl⟩]
  rw [(knows_parse h (tokens_tokenize l (g ++ s))).mpr ⟨_, converted_leadingOf h.tidy hg.2 hr, rfl⟩, strip_lead hg.2]

/-! ## Which data modules -/

/-- **C92** This holds for the five languages of the repository, ... -/
theorem c92_supported : AllKnown repository ∧ ∀ l ∈ supported, Knows repository l (file l) := by
  have hk : ∀ l ∈ supported, Knows repository l (file l) := fun l hl =>
    ⟨repository_distinct, repository_mem hl, (c81_supported l hl).1, (c81_supported l hl).2⟩
  refine ⟨⟨repository_distinct, ?_, ?_⟩, hk⟩
  · intro e he
    obtain ⟨l, hl, rfl⟩ := List.mem_map.mp he
    exact (c81_supported l hl).1
  · intro e he
    obtain ⟨l, hl, rfl⟩ := List.mem_map.mp he
    exact (c81_supported l hl).2

/-- **C92** ... and for the other languages in the repository that the parser could load, except Polish. -/
theorem c92_shipped (name : PyStr) (rules : RuleSets) (supp : Supplementary) (module : Output) (long : Bool)
    (h : (name, rules, supp, module) ∈ otherLanguages) (hl : module.useLongScale = some long) (hn : name ≠ u!"pl") (p : Package)
    (hp : Distinct p) (hm : (name, tablesOf module long) ∈ p) : Knows p name (tablesOf module long) :=
  ⟨hp, hm, (c81_shipped name rules supp module long h hl hn).1, (c81_shipped name rules supp module long h hl hn).2⟩

/-! ## An example -/

/-- Two languages the parser does not know -/
theorem known_example : AllKnown [(u!"xx", ordinalVocabulary), (u!"pt", portuguese)] ∧
    Knows [(u!"xx", ordinalVocabulary), (u!"pt", portuguese)] u!"pt" portuguese := by
  have hd : Distinct [(u!"xx", ordinalVocabulary), (u!"pt", portuguese)] := by unfold Distinct; decide
  refine ⟨⟨hd, tidy_example, ?_⟩, ⟨hd, by simp, tidy_portuguese.1, tidy_portuguese.2⟩⟩
  intro e he
  simp only [List.mem_cons, List.not_mem_nil, or_false] at he
  rcases he with rfl | rfl
  · exact plain_ordinalVocabulary.2
  · exact tidy_portuguese.2

set_option maxRecDepth 100000 in
theorem ordinary_portuguese (t : PyStr) (h : t ∈ [u!"temos", u!"livros"]) : OrdinaryOf portuguese t := by
  have k : ∀ t ∈ [u!"temos", u!"livros"], blank (norm t) = false ∧ isNumberToken (norm t) (mkLangData portuguese) = none ∧
      isSkipToken (norm t) (mkLangData portuguese) = false ∧ (mkLangData portuguese).allNumbers.mem (norm t) = false := by decide +kernel
  obtain ⟨h1, h2, h3, h4⟩ := k t h
  refine ⟨?_, ?_, ?_, ?_⟩
  · apply Classical.byContradiction
    intro hn
    have : blank (norm t) = true := by
      rw [← blankForm_iff]
      intro c hc
      cases hs : isSpace c with
      | true => rfl
      | false => exact absurd ⟨c, hc, hs⟩ hn
    rw [h1] at this; cases this
  · intro hc
    rw [show (mkLangData portuguese).allNumbers.mem (norm t) = true from mem_listed.mpr hc] at h4; cases h4
  · rintro ⟨k, v, _, c, _, hst⟩
    have := (numberTokenOf_iff tidy_portuguese.1).mpr hst
    rw [show isNumberToken (form t) (mkLangData portuguese) = none from h2] at this; cases this
  · intro hs
    rw [show isSkipToken (norm t) (mkLangData portuguese) = true from skip_mem.mpr hs] at h3; cases h3

set_option maxRecDepth 100000 in
/-- A Portuguese text, from its pieces -/
theorem c92_example : parseIn [(u!"xx", ordinalVocabulary), (u!"pt", portuguese)] u!"temos \t dois mil  livros" (some u!"pt") =
    .ok u!"temos \t 2000 livros" := by
  have hm : ∀ t ∈ [u!"dois", u!"mil"], CardinalOf portuguese t := by
    intro t ht
    apply mem_listed.mp
    revert ht; revert t; decide +kernel
  exact c92_inside _ u!"pt" portuguese known_example.2 u!"dois mil" u!"dois" [u!" ", u!"mil"] ((tokens_iff _ _ _).mpr (by decide +kernel))
    (hm _ (by simp)) ⟨[u!"dois", u!" "], u!"mil", [], rfl, hm _ (by simp), by simp⟩ (by decide) ((wordInput_iff _).mpr (by decide +kernel)) 2000
    (by decide +kernel) ⟨100, u!"ois mil", by decide +kernel, by decide⟩ ⟨u!"dois mi", 108, by decide +kernel, by decide⟩
    u!"temos" u!" \t " u!"  " u!"livros" [u!"temos"] [u!"livros"] ((tokens_iff _ _ _).mpr (by decide +kernel))
    (Or.inr ⟨[], u!"temos", [], rfl, Or.inl (ordinary_portuguese _ (by simp)), by simp⟩) ⟨u!"temo", 115, by decide +kernel, by decide⟩
    ⟨by simp, by decide⟩ ⟨by simp, by decide⟩ ((tokens_iff _ _ _).mpr (by decide +kernel))
    ⟨[], u!"livros", [], rfl, by simp, ordinary_portuguese _ (by simp)⟩ ⟨108, u!"ivros", by decide +kernel, by decide⟩
    u!"temos" u!"livros" (by decide +kernel) (by decide +kernel)

set_option maxRecDepth 100000 in
/-- A full stop, case, accents and white space -/
example : [u!"Três.dois livros", u!"TRÊS.dois LIVROS", u!"tres.dois livros", u!"três.dois \nlivros", u!"  três.dois livros"].map
      (fun s => parseIn [(u!"xx", ordinalVocabulary), (u!"pt", portuguese)] s (some u!"pt")) =
    [.ok u!"3.2 livros", .ok u!"3.2 LIVROS", .ok u!"3.2 livros", .ok u!"3.2 livros", .ok u!"3.2 livros"] := by decide +kernel

end NumberParser.Props
