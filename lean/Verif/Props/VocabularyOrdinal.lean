import Verif.Proofs.VocabularyOrdinal
import Verif.Props.Package

/-!
# C83: ordinals with any vocabulary

The rules by which `parse_ordinal` reads a text (C56) do not depend on the five languages of the parser, as long as the text is split at
all characters that are no word characters (so, except for Hindi) or has no apostrophes.  For the Hindi way of splitting, the rules
with apostrophes are given besides.  Specification: Verif/Spec/VocabularyOrdinal.lean.
-/

namespace NumberParser.Props
open NumberParser Gen Spec

/-- **C83** With any plain data module, `parse_ordinal` gives the number `n` for a text (neither blank nor a single numeral) exactly if
its first token is no conjunction, all tokens are cardinals and ordinals of the module, conjunctions, blanks and apostrophes, the
words are read as `n` by the rules, and `n` has at most 4300 digits. -/
theorem c83_reads (i : Info) (hi : Plain i) (l s : PyStr) (hl : l ≠ u!"hi" ∨ 0x27 ∉ s ∧ 0x2019 ∉ s) (t : PyStr) (ts : List PyStr) (n : Nat)
    (hts : Tokens l s (t :: ts)) (h1 : ∃ x ∈ t :: ts, ¬ BlankForm x) (h2 : ¬ SingleNumeral (t :: ts)) :
    parseOrdinalWith (mkLangData i) s l = .ok (some n) ↔
      irregular (form t) ∉ i.skipTokens ∧ n < 10 ^ 4300 ∧ ∃ ws, OnlyOrdinalsOf i (t :: ts) ws ∧ ReadAs i ws n :=
  parseOrdinalWith_reads hi (hl.imp id noApos_of) hts h1 h2 n

/-- **C83** Otherwise it finds none, if the values are moderate. -/
theorem c83_none (i : Info) (hi : Plain i) (hm : Moderate i) (l s : PyStr) (hl : l ≠ u!"hi" ∨ 0x27 ∉ s ∧ 0x2019 ∉ s) (t : PyStr)
    (ts : List PyStr) (hts : Tokens l s (t :: ts)) (h1 : ∃ x ∈ t :: ts, ¬ BlankForm x) (h2 : ¬ SingleNumeral (t :: ts)) :
    parseOrdinalWith (mkLangData i) s l = .ok none ↔
      ¬ ∃ n ws, irregular (form t) ∉ i.skipTokens ∧ n < 10 ^ 4300 ∧ OnlyOrdinalsOf i (t :: ts) ws ∧ ReadAs i ws n := by
  have key := c83_reads i hi l s hl t ts
  obtain ⟨r, hr⟩ := parseOrdinalWith_returns hi hm (l := l) (s := s) (by rw [← (tokens_iff _ _ _).mp hts]; exact h2)
  constructor
  · rintro h ⟨n, ws, a, b, c, d⟩
    rw [(key n hts h1 h2).mpr ⟨a, b, ws, c, d⟩] at h
    injection h with h; cases h
  · intro h
    cases r with
    | none => exact hr
    | some n =>
      obtain ⟨a, b, ws, c, d⟩ := (key n hts h1 h2).mp hr
      exact absurd ⟨n, ws, a, b, c, d⟩ h

/-- **C83** For a language called "hi", whose texts are split at white space, it does so for texts with apostrophes exactly if the tokens
with their ordinals and the irregular English ones replaced, and the apostrophes removed then, are read as `n`. -/
theorem c83_white_space (i : Info) (hi : Plain i) (s t : PyStr) (ts : List PyStr) (n : Nat)
    (hts : Tokens u!"hi" s (t :: ts)) (h1 : ∃ x ∈ t :: ts, ¬ BlankForm x) (h2 : ¬ SingleNumeral (t :: ts)) :
    parseOrdinalWith (mkLangData i) s u!"hi" = .ok (some n) ↔
      ∃ u us ws, ReplacedOf i (t :: ts) (u :: us) ∧ form u ∉ i.skipTokens ∧ n < 10 ^ 4300 ∧ OnlyWordsOf i (u :: us) ws ∧ ReadAs i ws n :=
  parseOrdinalWith_hindi hi hts h1 h2 n

/-- **C83** Otherwise it finds none, if the values are moderate. -/
theorem c83_white_space_none (i : Info) (hi : Plain i) (hm : Moderate i) (s t : PyStr) (ts : List PyStr)
    (hts : Tokens u!"hi" s (t :: ts)) (h1 : ∃ x ∈ t :: ts, ¬ BlankForm x) (h2 : ¬ SingleNumeral (t :: ts)) :
    parseOrdinalWith (mkLangData i) s u!"hi" = .ok none ↔
      ¬ ∃ n u us ws, ReplacedOf i (t :: ts) (u :: us) ∧ form u ∉ i.skipTokens ∧ n < 10 ^ 4300 ∧ OnlyWordsOf i (u :: us) ws ∧ ReadAs i ws n := by
  have key := fun n => c83_white_space i hi s t ts n hts h1 h2
  obtain ⟨r, hr⟩ := parseOrdinalWith_returns hi hm (l := u!"hi") (s := s) (by rw [← (tokens_iff _ _ _).mp hts]; exact h2)
  constructor
  · rintro h ⟨n, h'⟩
    rw [(key n).mpr h'] at h
    injection h with h; cases h
  · intro h
    cases r with
    | none => exact hr
    | some n => exact absurd ⟨n, (key n).mp hr⟩ h

/-- **C83** In a blank text it finds none. -/
theorem c83_blank (i : Info) (hi : Plain i) (l s : PyStr) (ts : List PyStr) (hts : Tokens l s ts) (h : ∀ t ∈ ts, BlankForm t) :
    parseOrdinalWith (mkLangData i) s l = .ok none := by
  rw [tokens_iff] at hts; subst hts
  exact parseOrdinalWith_blankForms hi.toTidy h

/-- **C83** A single numeral is read as digits, whatever the module, with the `ValueError` of `int` if these are not decimal digits. -/
theorem c83_numeral (i : Info) (l s : PyStr) (ts : List PyStr) (hts : Tokens l s ts) (h : SingleNumeral ts) :
    (∀ n, parseOrdinalWith (mkLangData i) s l = .ok (some n) ↔ DigitText (spaced (ts.map form)) n) ∧
    ((∀ n, ¬ DigitText (spaced (ts.map form)) n) → parseOrdinalWith (mkLangData i) s l = .error .badInt) := by
  rw [tokens_iff] at hts; subst hts
  rw [parseOrdinalWith_numeral h]
  show (∀ n, (pyInt (spaced ((tokenize s l).map form))).map some = _ ↔ _) ∧ (_ → (pyInt (spaced ((tokenize s l).map form))).map some = _)
  generalize spaced ((tokenize s l).map form) = j
  cases hp : pyInt j with
  | ok m =>
    have hd := (pyInt_iff j m).mp hp
    refine ⟨fun n => ?_, fun h => absurd hd (h m)⟩
    rw [← pyInt_iff, hp]
    constructor
    · intro h
      have h : (Except.ok (some m) : Res (Option Nat)) = .ok (some n) := h
      injection h with h; injection h with h; rw [h]
    · intro h; injection h with h; rw [h]; rfl
  | error e =>
    refine ⟨fun n => ?_, fun _ => ?_⟩
    · rw [← pyInt_iff, hp]
      constructor <;> intro h <;> cases h
    · have : e = .badInt := pyInt_error hp
      rw [this]; rfl

/-- **C80** With a tidy and moderate module, `parse_number` finds no number in a text (neither blank nor numeric) exactly if the rules give
none. -/
theorem c80_none (i : Info) (hi : Tidy i) (hm : Moderate i) (l s t : PyStr) (ts : List PyStr) (hs : WordInput s)
    (ht : Tokens l (withoutApostrophes s) (t :: ts)) :
    parseNumberWith (mkLangData i) s l = .ok none ↔
      ¬ ∃ n ws, form t ∉ i.skipTokens ∧ n < 10 ^ 4300 ∧ OnlyWordsOf i (t :: ts) ws ∧ ReadAs i ws n := by
  have key := fun n => c80_reads i hi.toSensible l s t ts n hs ht
  obtain ⟨r, hr⟩ := parseNumberWith_returns hi hm (l := l) hs
  constructor
  · rintro h ⟨n, ws, a, b, c, d⟩
    rw [(key n).mpr ⟨a, b, ws, c, d⟩] at h
    injection h with h; cases h
  · intro h
    cases r with
    | none => exact hr
    | some n =>
      obtain ⟨a, b, ws, c, d⟩ := (key n).mp hr
      exact absurd ⟨n, ws, a, b, c, d⟩ h

/-- **C83** This is `parse_ordinal` of a parser with the module among its languages. -/
theorem c83_package (p : Package) (hp : Distinct p) (l : PyStr) (i : Info) (h : (l, i) ∈ p) (s : PyStr) :
    parseOrdinalIn p s (some l) = parseOrdinalWith (mkLangData i) s l := by
  unfold parseOrdinalIn parseOrdinalWith
  rw [← parseNumberIn_with hp h]
  simp only [resolveLanguageIn, bind, Except.bind, languageDataIn_mem hp h]

/-- **C83** The data modules of the five languages are plain. -/
theorem c83_supported (l : PyStr) (hl : l ∈ supported) : Plain (file l) := (supported_plain l hl).1

/-- **C83** So are those of the other languages in the repository that the parser could load, except the Polish one. -/
theorem c83_shipped (name : PyStr) (rules : RuleSets) (supp : Supplementary) (module : Output) (long : Bool)
    (h : (name, rules, supp, module) ∈ otherLanguages) (hl : module.useLongScale = some long) (hn : name ≠ u!"pl") :
    Plain (tablesOf module long) := (shipped_plain name rules supp module long h hl hn).1

/-- A module with words ending in "th" and "ieth" and scale words -/
def ordinalVocabulary : Info :=
  ⟨[(u!"ba", 1), (u!"bath", 2), (u!"cy", 3), (u!"dieth", 4)], [], [(u!"ky", 30)], [], [(u!"mo", 1000)], [u!"et", u!"-"], false⟩

set_option maxRecDepth 100000 in
theorem plain_ordinalVocabulary : Plain ordinalVocabulary ∧ Moderate ordinalVocabulary :=
  ⟨plainB_sound (by decide +kernel), moderateB_sound (by decide +kernel)⟩

set_option maxRecDepth 100000 in
/-- With it ordinals would be read, ... -/
theorem c83_example : [u!"ky-cieth", u!"Cy moth et kieth", u!"bathth", u!"et bath", u!"ba ba", u!"two", u!"12"].map
    (fun s => parseOrdinalWith (mkLangData ordinalVocabulary) s u!"xx") =
      [.ok (some 33), .ok (some 3030), .ok (some 2), .ok none, .ok none, .ok none, .ok (some 12)] := by decide +kernel

set_option maxRecDepth 100000 in
/-- In a language called "hi" hyphens do not split words, and an apostrophe hides that a word is an ordinal. -/
theorem c83_example_white_space : [u!"ky cieth", u!"ky-cieth", u!"ky cy’", u!"ky cy’th", u!"ky dieth’", u!"ky di'eth", u!"ky '"].map
    (fun s => parseOrdinalWith (mkLangData ordinalVocabulary) s u!"hi") =
      [.ok (some 33), .ok none, .ok (some 33), .ok none, .ok (some 34), .ok (some 34), .ok (some 30)] := by decide +kernel

set_option maxRecDepth 100000 in
/-- ... by the rules. -/
example : ∃ ws, OnlyOrdinalsOf ordinalVocabulary [u!"Ky", u!"-", u!"cieth"] ws ∧ ReadAs ordinalVocabulary ws 33 := by
  refine ((c83_reads ordinalVocabulary plain_ordinalVocabulary.1 u!"xx" u!"Ky-cieth" (Or.inl (by decide)) _ _ 33
    ((tokens_iff _ _ _).mpr (by decide +kernel)) ⟨u!"Ky", by simp, ?_⟩ ?_).mp (by decide +kernel)).2.2
  · rw [blankForm_iff]; decide +kernel
  · rintro ⟨a, t, b, e, ha, hb, _, hn⟩
    have key : ∀ x, BlankForm x → x ≠ u!"Ky" ∧ x ≠ u!"-" ∧ x ≠ u!"cieth" := by
      intro x hx
      rw [blankForm_iff] at hx
      refine ⟨?_, ?_, ?_⟩ <;> (rintro rfl; revert hx; decide +kernel)
    have hm : u!"Ky" ∈ a ++ t :: b ∧ u!"cieth" ∈ a ++ t :: b := by rw [← e]; simp
    have h1 : t = u!"Ky" := by
      have := hm.1
      simp only [List.mem_append, List.mem_cons] at this
      rcases this with h | h | h
      · exact absurd rfl (key _ (ha _ h)).1
      · exact h.symm
      · exact absurd rfl (key _ (hb _ h)).1
    subst h1
    have := hn 0x6b (by decide +kernel)
    revert this; decide +kernel

theorem notNumeral {ts : List PyStr} {x : PyStr} (hx : x ∈ ts) (hb : ¬ BlankForm x) (hc : ∃ c ∈ form x, isNumericChar c = false) :
    ¬ SingleNumeral ts := by
  rintro ⟨a, t, b, rfl, ha, hb', _, hn⟩
  obtain ⟨c, hc, hcn⟩ := hc
  rcases List.mem_append.mp hx with h | h
  · exact hb (ha x h)
  · rcases List.mem_cons.mp h with rfl | h
    · rw [hn c hc] at hcn; cases hcn
    · exact hb (hb' x h)

set_option maxRecDepth 100000 in
/-- So are these. -/
example : ∃ ws, OnlyOrdinalsOf ordinalVocabulary [u!"ky", u!" ", u!"cieth"] ws ∧ ReadAs ordinalVocabulary ws 33 := by
  have hb : ¬ BlankForm u!"ky" := by rw [blankForm_iff]; decide +kernel
  exact ((c83_reads ordinalVocabulary plain_ordinalVocabulary.1 u!"hi" u!"ky cieth" (Or.inr (by decide)) _ _ 33
    ((tokens_iff _ _ _).mpr (by decide +kernel)) ⟨u!"ky", by simp, hb⟩
    (notNumeral (x := u!"ky") (by simp) hb ⟨0x6b, by decide +kernel, by decide +kernel⟩)).mp (by decide +kernel)).2.2

set_option maxRecDepth 100000 in
example : ∃ u us ws, ReplacedOf ordinalVocabulary [u!"ky", u!" ", u!"di'eth"] (u :: us) ∧ form u ∉ ordinalVocabulary.skipTokens ∧
    34 < 10 ^ 4300 ∧ OnlyWordsOf ordinalVocabulary (u :: us) ws ∧ ReadAs ordinalVocabulary ws 34 := by
  have hb : ¬ BlankForm u!"ky" := by rw [blankForm_iff]; decide +kernel
  exact (c83_white_space ordinalVocabulary plain_ordinalVocabulary.1 u!"ky di'eth" _ _ 34
    ((tokens_iff _ _ _).mpr (by decide +kernel)) ⟨u!"ky", by simp, hb⟩
    (notNumeral (x := u!"ky") (by simp) hb ⟨0x6b, by decide +kernel, by decide +kernel⟩)).mp (by decide +kernel)

end NumberParser.Props
