import Verif.Proofs.Convert
import Verif.Proofs.OrdinalMeaning
import Verif.Props.Errors
import Verif.Props.Text

/-!
# C54, C55, C56: the exact meaning of `parse_number`, `parse` and `parse_ordinal` on words

The rules are in Verif/Spec/Reading.lean: `Spec.Reading`, `Spec.ReadsAs` (number words as a number), `Spec.OnlyWords`
(tokens as number words), `Spec.Cut` (cutting a run of number words into numbers), `Spec.Converted` (texts).
-/

namespace NumberParser.Props
open NumberParser NumberParser.Spec

set_option maxRecDepth 100000

/-! ## C54 -/

/-- **C54**: a text that is neither blank nor numeric has the value `n` exactly if its first token is no conjunction and
its tokens are number words, read as `n` by the rules, besides blank tokens and conjunctions. -/
theorem c54_number (l : PyStr) (hl : l ∈ supported) (s : PyStr) (hs : WordInput s) (t : PyStr) (ts : List PyStr)
    (hts : Tokens l (withoutApostrophes s) (t :: ts)) (n : Nat) :
    parseNumber s (some l) = .ok (some n) ↔ ¬ Skip l t ∧ ∃ ws, OnlyWords l (t :: ts) ws ∧ ReadsAs l ws n :=
  parseNumber_reads hl hs hts n

/-- **C54**: every text has a first token, so that the theorem above covers all texts that are neither blank nor
numeric. -/
theorem c54_first_token (l s : PyStr) : ∃ t ts, Tokens l s (t :: ts) :=
  ⟨_, _, (tokens_iff l s _).mpr (by rw [tokenize_eq, split_cons])⟩

/-- **C54**: every other text is no number. -/
theorem c54_none (l : PyStr) (hl : l ∈ supported) (s : PyStr) (hs : WordInput s) (t : PyStr) (ts : List PyStr)
    (hts : Tokens l (withoutApostrophes s) (t :: ts)) :
    parseNumber s (some l) = .ok none ↔ ¬ ∃ n ws, ¬ Skip l t ∧ OnlyWords l (t :: ts) ws ∧ ReadsAs l ws n := by
  have key := c54_number l hl s hs t ts hts
  rw [parseNumber_input hl hs] at key ⊢
  constructor
  · rintro h ⟨n, ws, h1, h2, h3⟩
    have := (key n).mpr ⟨h1, ws, h2, h3⟩
    rw [h] at this; cases this
  · intro h
    have gen : ∀ r : Option Nat, (∀ n, (Except.ok r : Res (Option Nat)) = .ok (some n) ↔ ¬ Skip l t ∧ ∃ ws, OnlyWords l (t :: ts) ws ∧ ReadsAs l ws n) →
        (Except.ok r : Res (Option Nat)) = .ok none := by
      intro r key
      cases r with
      | none => rfl
      | some n =>
        obtain ⟨h1, ws, h2, h3⟩ := (key n).mp rfl
        exact absurd ⟨n, ws, h1, h2, h3⟩ h
    exact gen _ key

/-- **C54**: the rules give at most one value. -/
theorem c54_unique (l : PyStr) (hl : l ∈ supported) (ts : List PyStr) (ws ws' : List (Class × Nat)) (h : OnlyWords l ts ws)
    (h' : OnlyWords l ts ws') (m n : Nat) (hm : ReadsAs l ws m) (hn : ReadsAs l ws' n) : m = n := by
  rw [readsAs_run (onlyWords_pos hl h), ← (onlyWords_kinds hl h).1] at hm
  rw [readsAs_run (onlyWords_pos hl h'), ← (onlyWords_kinds hl h').1] at hn
  obtain ⟨r, h1, h2⟩ := hm
  obtain ⟨r', h1', h2'⟩ := hn
  rw [h1] at h1'; cases h1'
  rw [← h2, ← h2']

/-- A derivation by the rules: "two hundred and five thousand three". -/
theorem reading_205003 : ReadsAs u!"en" [(.unit, 2), (.scale, 100), (.unit, 5), (.scale, 1000), (.unit, 3)] 205003 := by
  refine ⟨205000, 3, some 1000, ?_, rfl⟩
  show Reading 100 _ _ _ _
  have h1 := Reading.add (limit := 100) (k := .unit) (d := 2) .start (by decide) (Or.inl rfl)
  have h2 := Reading.multiplyGroup (p := 100) h1 (Or.inr (Or.inr rfl)) (by decide) (by simp) (by decide)
  have h3 := Reading.add (k := .unit) (d := 5) h2 (by decide) (Or.inr ⟨[(.unit, 2)], .scale, 100, rfl, rfl⟩)
  have h4 := Reading.multiplyAll (p := 1000) h3 (by decide) (by decide) (by decide)
  exact Reading.add (k := .unit) (d := 3) h4 (by decide)
    (Or.inr ⟨[(.unit, 2), (.scale, 100), (.unit, 5)], .scale, 1000, rfl, rfl⟩)

example : parseNumber u!"two hundred and five thousand three" (some u!"en") = .ok (some 205003) := by
  have ht : Tokens u!"en" (withoutApostrophes u!"two hundred and five thousand three")
      [u!"two", u!" ", u!"hundred", u!" ", u!"and", u!" ", u!"five", u!" ", u!"thousand", u!" ", u!"three"] :=
    (tokens_iff _ _ _).mpr (by decide +kernel)
  refine (c54_number _ (by decide) _ ((wordInput_iff _).mpr ⟨by decide +kernel, by decide +kernel⟩) _ _ ht _).mpr ⟨?_, _, ?_, reading_205003⟩
  · rw [skip_iff]; decide +kernel
  have blk : ∀ {ts ws}, OnlyWords u!"en" ts ws → OnlyWords u!"en" (u!" " :: ts) ws := fun h => .other (Or.inl ((blankForm_iff _).mpr (by decide +kernel))) h
  refine .word ⟨u!"two", by decide +kernel, by decide +kernel⟩ (blk ?_)
  refine .word ⟨u!"hundred", by decide +kernel, by decide +kernel⟩ (blk ?_)
  refine .other (Or.inr ((skip_iff _ _).mpr (by decide +kernel))) (blk ?_)
  refine .word ⟨u!"five", by decide +kernel, by decide +kernel⟩ (blk ?_)
  refine .word ⟨u!"thousand", by decide +kernel, by decide +kernel⟩ (blk ?_)
  exact .word ⟨u!"three", by decide +kernel, by decide +kernel⟩ .nil

/-! ## C55 -/

/-- **C55**: the result of `parse` is the text converted by the rules, without white space at the ends. -/
theorem c55_parse (l : PyStr) (hl : l ∈ supported) (s : PyStr) (ts : List PyStr) (hts : Tokens l s ts) (out : PyStr) :
    parse s (some l) = .ok out ↔ ∃ raw, Converted l ts raw ∧ out = strip raw := by
  rw [parse_eq (supported_data hl)]
  rw [tokens_iff] at hts; subst hts
  constructor
  · intro h
    obtain ⟨raw, hr⟩ := converted_exists hl (tokenize s l)
    refine ⟨raw, hr, ?_⟩
    rw [← converted_pieces hl hr]
    injection h with h; exact h.symm
  · rintro ⟨raw, hr, rfl⟩
    rw [converted_pieces hl hr]

/-- **C55**: the rules convert every text, in exactly one way. -/
theorem c55_total (l : PyStr) (hl : l ∈ supported) (ts : List PyStr) : ∃ raw, Converted l ts raw ∧ ∀ raw', Converted l ts raw' → raw' = raw := by
  obtain ⟨raw, hr⟩ := converted_exists hl ts
  exact ⟨raw, hr, fun raw' h => (converted_pieces hl h).symm.trans (converted_pieces hl hr)⟩

/-- A derivation by the rules: "two and cats" keeps the conjunction, "two and" loses it. -/
example : Converted u!"en" [u!"two", u!" ", u!"and", u!" ", u!"cats"] u!"2 and cats" := by
  have hb : BlankForm u!" " := (blankForm_iff _).mpr (by decide +kernel)
  have hs : Skip u!"en" u!"and" := (skip_iff _ _).mpr (by decide +kernel)
  have hw : Word u!"en" .unit 2 u!"two" := ⟨u!"two", by decide +kernel, by decide +kernel⟩
  have ho : Ordinary u!"en" u!"cats" := by
    refine ⟨⟨99, by decide +kernel, by decide +kernel⟩, ?_, ?_⟩
    · rw [numberWord_iff (by decide)]; decide +kernel
    · rw [skip_iff]; decide +kernel
  have hr : RunTokens u!"en" [u!"two", u!" ", u!"and", u!" "] ([.word .unit 2] ++ [.conj (form u!"and")]) :=
    .word hw (.blank hb (.conj hs (.blank hb .nil)))
  have h1 := Reading.add (limit := 100) (k := .unit) (d := 2) .start (by decide) (Or.inl rfl)
  have hc : Cut u!"en" [.word .unit 2] [u!"2"] := .last (n := 2) ⟨0, 2, none, h1, rfl⟩
  have := Converted.conjWord (ts := []) (out := []) ⟨hr, _, _, rfl, _, _, hw⟩ hc ho (by unfold Mark; decide +kernel) .nil
  have e : form u!"and" = u!"and" := by decide +kernel
  rw [e] at this
  exact this

example : parse u!"two and cats" (some u!"en") = .ok u!"2 and cats" ∧ parse u!"two and" (some u!"en") = .ok u!"2" := by
  decide +kernel

/-! ## C56 -/

/-- **C56**: `parse_ordinal` finds the number `n` exactly if the first token is no conjunction and the tokens are cardinal
or ordinal number words, read as `n` by the rules, besides blank tokens and conjunctions, where apostrophes are ignored in
cardinals, blank tokens and conjunctions (but not in ordinals: a Hindi word can contain them).  The two remaining kinds of text, without any solid token and with a single numeral, are below. -/
theorem c56_ordinal (l : PyStr) (hl : l ∈ supported) (s : PyStr) (t : PyStr) (ts : List PyStr)
    (hts : Tokens l s (t :: ts)) (h1 : ∃ x ∈ t :: ts, ¬ BlankForm x) (h2 : ¬ SingleNumeral (t :: ts)) (n : Nat) :
    parseOrdinal s (some l) = .ok (some n) ↔
      ¬ Skip l (withoutApostrophes t) ∧ ∃ ws, OnlyNumbers l (t :: ts) ws ∧ ReadsAs l ws n := by
  obtain ⟨r, hr, h⟩ := parseOrdinal_reads hl hts h1 h2
  rw [hr, ← h n]
  constructor
  · intro h; injection h
  · intro h; rw [h]

/-- **C56**: otherwise it finds none. -/
theorem c56_none (l : PyStr) (hl : l ∈ supported) (s : PyStr) (t : PyStr) (ts : List PyStr)
    (hts : Tokens l s (t :: ts)) (h1 : ∃ x ∈ t :: ts, ¬ BlankForm x) (h2 : ¬ SingleNumeral (t :: ts)) :
    parseOrdinal s (some l) = .ok none ↔
      ¬ ∃ n ws, ¬ Skip l (withoutApostrophes t) ∧ OnlyNumbers l (t :: ts) ws ∧ ReadsAs l ws n := by
  obtain ⟨r, hr, h⟩ := parseOrdinal_reads hl hts h1 h2
  rw [hr]
  constructor
  · rintro h0 ⟨n, ws, h3, h4, h5⟩
    injection h0 with h0
    have := (h n).mpr ⟨h3, ws, h4, h5⟩
    rw [h0] at this; cases this
  · intro h0
    cases r with
    | none => rfl
    | some n =>
      obtain ⟨h3, ws, h4, h5⟩ := (h n).mp rfl
      exact absurd ⟨n, ws, h3, h4, h5⟩ h0

/-- **C56**: a text without any solid token is no ordinal. -/
theorem c56_blank (l : PyStr) (hl : l ∈ supported) (s : PyStr) (ts : List PyStr) (hts : Tokens l s ts) (h : ∀ t ∈ ts, BlankForm t) :
    parseOrdinal s (some l) = .ok none := by
  rw [tokens_iff] at hts; subst hts
  exact parseOrdinal_blankForms hl h

/-- **C56**: a single numeral is read as digits (after joining the comparison forms of all tokens with spaces), with the
`ValueError` of `int` if these are not decimal digits. -/
theorem c56_numeral (l : PyStr) (hl : l ∈ supported) (s : PyStr) (ts : List PyStr) (hts : Tokens l s ts) (h : SingleNumeral ts) :
    (∀ n, parseOrdinal s (some l) = .ok (some n) ↔ DigitText (spaced (ts.map form)) n) ∧
    ((∀ n, ¬ DigitText (spaced (ts.map form)) n) → parseOrdinal s (some l) = .error .badInt) := by
  rw [tokens_iff] at hts; subst hts
  rw [parseOrdinal_numeral hl h]
  show (∀ n, (pyInt (spaced ((tokenize s l).map form))).map some = _ ↔ _) ∧ (_ → (pyInt (spaced ((tokenize s l).map form))).map some = _)
  generalize spaced ((tokenize s l).map form) = j
  cases hp : pyInt j with
  | ok m =>
    have hd := (pyInt_iff j m).mp hp
    refine ⟨fun n => ?_, fun h => absurd hd (h m)⟩
    rw [← pyInt_iff, hp]
    constructor
    · intro h
      have h : (Except.ok (some m) : Res (Option Nat)) = .ok (some n) := h
      injection h with h; injection h with h; rw [h]
    · intro h; injection h with h; rw [h]; rfl
  | error e =>
    rw [pyInt_error hp]
    refine ⟨fun n => ?_, fun _ => rfl⟩
    rw [← pyInt_iff, hp]
    constructor <;> (intro h; cases h)

/-- **C24** for `parse_ordinal`, exactly: it raises (`ValueError`) if the only token that is not blank is a numeral which is
not a string of at most 4300 decimal digits. -/
theorem c24_ordinal_exact (l : PyStr) (hl : l ∈ supported) (s : PyStr) (ts : List PyStr) (hts : Tokens l s ts) (e : PyErr) :
    parseOrdinal s (some l) = .error e ↔ e = .badInt ∧ SingleNumeral ts ∧ ¬ ∃ n, DigitText (spaced (ts.map form)) n := by
  by_cases h2 : SingleNumeral ts
  · obtain ⟨k1, k2⟩ := c56_numeral l hl s ts hts h2
    by_cases hn : ∃ n, DigitText (spaced (ts.map form)) n
    · obtain ⟨n, hd⟩ := hn
      rw [(k1 n).mpr hd]
      constructor
      · intro h; cases h
      · rintro ⟨_, _, h⟩; exact absurd ⟨n, hd⟩ h
    · rw [k2 (fun n h => hn ⟨n, h⟩)]
      constructor
      · intro h; injection h with h; exact ⟨h.symm, h2, hn⟩
      · rintro ⟨rfl, _⟩; rfl
  · have hok : ∃ r, parseOrdinal s (some l) = .ok r := by
      by_cases h1 : ∃ x ∈ ts, ¬ BlankForm x
      · cases ts with
        | nil => obtain ⟨x, hx, _⟩ := h1; cases hx
        | cons t ts =>
          by_cases hn : ∃ n ws, ¬ Skip l (withoutApostrophes t) ∧ OnlyNumbers l (t :: ts) ws ∧ ReadsAs l ws n
          · obtain ⟨n, ws, h3, h4⟩ := hn
            exact ⟨_, (c56_ordinal l hl s t ts hts h1 h2 n).mpr ⟨h3, ws, h4⟩⟩
          · exact ⟨_, (c56_none l hl s t ts hts h1 h2).mpr hn⟩
      · exact ⟨_, c56_blank l hl s ts hts (fun t ht => Classical.byContradiction fun hb => h1 ⟨t, ht, hb⟩)⟩
    obtain ⟨r, hr⟩ := hok
    rw [hr]
    constructor
    · intro h; cases h
    · rintro ⟨_, h, _⟩; exact absurd h h2

/-- **C24** for `parse_ordinal` without a language. -/
theorem c24_ordinal_auto (l s : PyStr) (hd : Detected s l) (ts : List PyStr) (hts : Tokens l s ts) (e : PyErr) :
    parseOrdinal s none = .error e ↔ e = .badInt ∧ SingleNumeral ts ∧ ¬ ∃ n, DigitText (spaced (ts.map form)) n := by
  rw [(c27_default_language s l hd).2.2.1]
  exact c24_ordinal_exact l (Detected.mem hd) s ts hts e

/-- "½" is such a text. -/
example : parseOrdinal u!"½" (some u!"en") = .error .badInt := by
  have ht : Tokens u!"en" u!"½" [u!"½"] := (tokens_iff _ _ _).mpr (by decide +kernel)
  refine (c24_ordinal_exact _ (by decide) _ _ ht _).mpr ⟨rfl, ⟨[], u!"½", [], rfl, by simp, by simp, by decide +kernel, by decide +kernel⟩, ?_⟩
  rintro ⟨n, hn⟩
  have := (pyInt_iff _ n).mpr hn
  revert this
  have : pyInt (spaced ([u!"½"].map form)) = .error .badInt := by decide +kernel
  rw [this]; intro h; cases h

/-- "twenty-first": the tokens and their reading. -/
example : parseOrdinal u!"twenty-first" (some u!"en") = .ok (some 21) := by
  have ht : Tokens u!"en" u!"twenty-first" [u!"twenty", u!"-", u!"first"] := (tokens_iff _ _ _).mpr (by decide +kernel)
  have hw : Word u!"en" .tens 20 u!"twenty" := ⟨u!"twenty", by decide +kernel, by decide +kernel⟩
  have hf : OrdinalWord u!"en" .unit 1 u!"first" := by
    refine ⟨?_, u!"one", ⟨u!"one", by decide +kernel, by decide +kernel⟩, Or.inl (by decide +kernel)⟩
    rw [cardinal_iff (by decide)]; decide +kernel
  refine (c56_ordinal _ (by decide) _ _ _ ht ⟨u!"twenty", by simp, ?_⟩ ?_ _).mpr
    ⟨?_, [(.tens, 20), (.unit, 1)], ?_, ⟨0, 21, none, ?_, rfl⟩⟩
  · rw [blankForm_iff]; decide +kernel
  · rintro ⟨a, t, b, e, ha, hb, _, hn⟩
    have key : ∀ x, BlankForm x → x ≠ u!"twenty" ∧ x ≠ u!"-" ∧ x ≠ u!"first" := by
      intro x hx
      rw [blankForm_iff] at hx
      refine ⟨?_, ?_, ?_⟩ <;> (rintro rfl; revert hx; decide +kernel)
    cases a with
    | nil =>
      injection e with e1 e2
      exact (key u!"-" (hb _ (by rw [← e2]; simp))).2.1 rfl
    | cons x a =>
      injection e with e1 e2
      exact (key x (ha x (by simp))).1 e1.symm
  · rw [skip_iff]; decide +kernel
  · exact .word (Or.inl hw) (.other (Or.inr ((skip_iff _ _).mpr (by decide +kernel))) (.word (Or.inr hf) .nil))
  · have h1 := Reading.add (limit := 100) (k := .tens) (d := 20) .start (by decide) (Or.inl rfl)
    exact Reading.add (k := .unit) (d := 1) h1 (by decide) (Or.inr ⟨[], .tens, 20, rfl, rfl⟩)

/-- Apostrophes are ignored, also where that makes no sense; a single numeral with an accent is a numeral. -/
example : parseOrdinal u!"twenty'first" (some u!"en") = .ok (some 21) ∧ parseOrdinal u!"'" (some u!"en") = .ok (some 0) ∧
    parseOrdinal u!"बी'स" (some u!"hi") = .ok (some 20) ∧
    parseOrdinal u!"5\u0301" (some u!"en") = .ok (some 5) ∧ parseOrdinal u!"½" (some u!"en") = .error .badInt := by decide +kernel

end NumberParser.Props
