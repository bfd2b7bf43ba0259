import Verif.Proofs.OrdinalSentence
import Verif.Proofs.OpenRun
import Verif.Proofs.SpacingConvert
import Verif.Props.Sentences
import Verif.Proofs.Growth
import Verif.Props.Meaning

/-!
# C57–C63: more about conversion

`Spec.SameUpToCase`, `Spec.SameUpToAccents`: Verif/Spec/Number.lean. `Spec.EndsClosed`, `Spec.SolidStart`,
`Spec.SolidEnd`, `Spec.WhiteSpace`: Verif/Spec/Closed.lean. `Spec.Rendering`: Verif/Spec/Text.lean.
-/

namespace NumberParser.Props
open NumberParser NumberParser.Spec

set_option maxRecDepth 100000

/-! ## C57 -/

theorem parse_similar {R : PyStr → PyStr → Prop} (hrefl : ∀ x, R x x) (happ : ∀ {a b c d}, R a b → R c d → R (a ++ c) (b ++ d))
    (hstrip : ∀ {a b}, R a b → R (strip a) (strip b)) {l s s' a : PyStr} (hl : l ∈ supported)
    (h : Similar R (tokenize s l) (tokenize s' l)) (ha : parse s (some l) = .ok a) : ∃ b, parse s' (some l) = .ok b ∧ R a b := by
  rw [c55_parse l hl s _ (tokens_tokenize _ _)] at ha
  obtain ⟨raw, hr, rfl⟩ := ha
  obtain ⟨raw', hr', hR⟩ := converted_similar hrefl happ h hr
  exact ⟨strip raw', (c55_parse l hl s' _ (tokens_tokenize _ _) _).mpr ⟨raw', hr', rfl⟩, hstrip hR⟩

theorem parse_similar_any {R : PyStr → PyStr → Prop} (hrefl : ∀ x, R x x) (happ : ∀ {a b c d}, R a b → R c d → R (a ++ c) (b ++ d))
    (hstrip : ∀ {a b}, R a b → R (strip a) (strip b)) {s s' a : PyStr} {lang : Option PyStr}
    (hres : resolveLanguage s lang = resolveLanguage s' lang) (h : ∀ l, Similar R (tokenize s l) (tokenize s' l))
    (ha : parse s lang = .ok a) : ∃ b, parse s' lang = .ok b ∧ R a b := by
  have key : ∀ l, parse s (some l) = .ok a → ∃ b, parse s' (some l) = .ok b ∧ R a b := by
    intro l ha
    have hl : l ∈ supported := by
      cases hd : languageData l with
      | ok ld => exact (data_supported hd).1
      | error e =>
        exfalso
        have ha : (languageData l >>= fun ld => parseRaw ld (tokenize s l) >>= fun raw => pure (strip raw)) = .ok a := ha
        rw [hd] at ha; cases ha
    exact parse_similar (R := R) hrefl happ hstrip hl (h l) ha
  cases lang with
  | some l => exact key l ha
  | none =>
    cases hr : resolveLanguage s none with
    | error e =>
      have ha : (resolveLanguage s none >>= fun l => languageData l >>= fun ld => parseRaw ld (tokenize s l) >>= fun raw => pure (strip raw)) = .ok a := ha
      rw [hr] at ha; cases ha
    | ok l =>
      have e1 : parse s none = parse s (some l) := by
        show (resolveLanguage s none >>= fun l => languageData l >>= fun ld => parseRaw ld (tokenize s l) >>= fun raw => pure (strip raw)) = _
        rw [hr]; rfl
      have e2 : parse s' none = parse s' (some l) := by
        show (resolveLanguage s' none >>= fun l => languageData l >>= fun ld => parseRaw ld (tokenize s' l) >>= fun raw => pure (strip raw)) = _
        rw [← hres, hr]; rfl
      rw [e2]
      exact key l (by rw [← e1]; exact ha)

/-- **C57**: `parse` converts the same numbers whatever the case of the letters (of any script; not Σ and İ) of a text: the results
differ in the case of letters only (any language, or none given). -/
theorem c57_case (s s' : PyStr) (h : SameUpToCase s s') (lang : Option PyStr) (a : PyStr) (ha : parse s lang = .ok a) :
    ∃ b, parse s' lang = .ok b ∧ SameUpToCase a b := by
  have hres : resolveLanguage s lang = resolveLanguage s' lang := by
    have e : al s = al s' := h
    rw [← resolve_al s, ← resolve_al s', e]
  exact parse_similar_any (R := SameUpToCase) (fun _ => rfl) case_append strip_case hres (fun l => tokenize_al l h) ha

/-- **C57**: the same for accents of letters. -/
theorem c57_accents (s s' : PyStr) (h : SameUpToAccents s s') (lang : Option PyStr) (a : PyStr) (ha : parse s lang = .ok a) :
    ∃ b, parse s' lang = .ok b ∧ SameUpToAccents a b := by
  have hres : resolveLanguage s lang = resolveLanguage s' lang := by
    obtain ⟨ps, hp, rfl, rfl⟩ := same_pairs h
    exact resolve_pairs hp lang
  exact parse_similar_any (R := SameUpToAccents) accents_refl accents_append strip_accents hres (fun l => tokenize_accents h) ha

example : parse u!"She HAS twenty-ONE Cats" none = .ok u!"She HAS 21 Cats" ∧ parse u!"she has TWENTY-one cats" none = .ok u!"she has 21 cats" ∧
    parse u!"veintitrés años" (some u!"es") = .ok u!"23 años" ∧ parse u!"veintitres anos" (some u!"es") = .ok u!"23 anos" ∧
    SameUpToCase u!"She HAS twenty-ONE Cats" u!"she has TWENTY-one cats" := by
  refine ⟨by decide +kernel, by decide +kernel, by decide +kernel, by decide +kernel, by unfold SameUpToCase; decide⟩

/-! ## C58 -/

/-- **C58**: a text can be converted piece by piece: if `a` ends with an ordinary word or an ordinal, then what follows it
after white space is converted on its own. -/
theorem c58_pieces (l : PyStr) (hl : l ∈ supported) (a g b : PyStr) (ts : List PyStr) (ht : Tokens l a ts) (hc : EndsClosed l ts)
    (ha : SolidEnd a) (hg : WhiteSpace g) (hb : SolidStart b) (x y : PyStr) (hx : parse a (some l) = .ok x)
    (hy : parse b (some l) = .ok y) : parse (a ++ g ++ b) (some l) = .ok (x ++ g ++ y) := by
  obtain ⟨c, z, e, hs⟩ := hb
  refine parse_gap hl ht hc hg.2 hg.1 ha ?_ (by rw [e]; simp) hx hy
  intro d w he
  rw [e] at he; injection he with h1 h2; rw [← h1]; exact hs

/-- **C58**: if `a` ends with a number word and an ordinary word follows after white space, the two are converted on their
own, too, and a single space is left between them. -/
theorem c58_number (l : PyStr) (hl : l ∈ supported) (a g b : PyStr) (ta tb : List PyStr) (ht : Tokens l a ta) (hc : EndsNumber l ta)
    (ha : SolidEnd a) (hg : WhiteSpace g) (htb : Tokens l b tb) (hob : BeginsOrdinary l tb) (hb : SolidStart b) (x y : PyStr)
    (hx : parse a (some l) = .ok x) (hy : parse b (some l) = .ok y) : parse (a ++ g ++ b) (some l) = .ok (x ++ u!" " ++ y) := by
  obtain ⟨c, z, e, hs⟩ := hb
  refine parse_open hl ht hc hg.2 hg.1 htb hob ha ?_ hx hy
  intro d w he
  rw [e] at he; injection he with h1 h2; rw [← h1]; exact hs

example : EndsNumber u!"en" [u!"I", u!" ", u!"see", u!" ", u!"two"] ∧ BeginsOrdinary u!"en" [u!"cats"] ∧
    parse u!"I see two" (some u!"en") = .ok u!"I see 2" ∧ parse u!"I see two  cats" (some u!"en") = .ok u!"I see 2 cats" := by
  refine ⟨⟨[u!"I", u!" ", u!"see", u!" "], u!"two", [], rfl, (cardinal_iff (by decide) _).mpr (by decide +kernel), by simp⟩,
    ⟨[], u!"cats", [], rfl, by simp, ⟨99, by decide +kernel, by decide⟩, ?_, ?_⟩, by decide +kernel, by decide +kernel⟩
  · rw [numberWord_iff (by decide)]; decide +kernel
  · rw [skip_iff]; decide +kernel

/-- "the first cats" ends with an ordinary word. -/
example : EndsClosed u!"en" [u!"the", u!" ", u!"first", u!" ", u!"cats"] ∧ Tokens u!"en" u!"the first cats" [u!"the", u!" ", u!"first", u!" ", u!"cats"] ∧
    SolidEnd u!"the first cats" ∧ WhiteSpace u!" " ∧ SolidStart u!"twenty two" := by
  refine ⟨Or.inr ⟨[u!"the", u!" ", u!"first", u!" "], u!"cats", [], rfl, Or.inl ⟨⟨99, by decide +kernel, by decide⟩, ?_, ?_⟩, by simp⟩,
    (tokens_iff _ _ _).mpr (by decide +kernel), ⟨u!"the first cat", 115, by decide +kernel, by decide⟩, ⟨by simp, by decide⟩,
    ⟨116, u!"wenty two", by decide +kernel, by decide⟩⟩
  · rw [numberWord_iff (by decide)]; decide +kernel
  · rw [skip_iff]; decide +kernel

/-- The condition on `a` is needed: a number runs on across white space. -/
example : parse u!"twenty" (some u!"en") = .ok u!"20" ∧ parse u!"two" (some u!"en") = .ok u!"2" ∧
    parse u!"twenty two" (some u!"en") = .ok u!"22" ∧ parse u!"twentieth two" (some u!"en") = .ok u!"20 2" := by decide +kernel

/-! ## C59 -/

/-- **C59**: `parse` replaces every rendering of the English ordinal of `n < 10^24` by `n` in digits. -/
theorem c59_ordinal (n : Nat) (hn : n < 10 ^ 24) (text : PyStr) (h : Rendering Spec.en (enOrdinalWords n) text) :
    parse text (some u!"en") = .ok (decDigits n) := parse_ordinal_rendering hn h

/-- **C59**: the usual text of the ordinal. -/
theorem c59_ordinal_text (n : Nat) (hn : n < 10 ^ 24) : parse (enOrdinalText n) (some u!"en") = .ok (decDigits n) := by
  apply c59_ordinal n hn
  obtain ⟨ws, last, e1, e2, hc⟩ := enOrdinalWords_facts hn
  refine phrase_rendering enOrdinalGap_ok ?_ (by rw [e2]; simp)
  intro v hvm
  rw [e2] at hvm
  have : ∃ w ∈ ws ++ [last], v ∈ [w, enOrdinal w] := by
    rcases List.mem_append.mp hvm with h1 | h1
    · exact ⟨v, List.mem_append_left _ h1, by simp⟩
    · rw [List.mem_singleton] at h1; subst h1; exact ⟨last, by simp, by simp⟩
  obtain ⟨w, hw, hwv⟩ := this
  have := hc w hw
  unfold ordinalCheck at this
  rw [Bool.and_eq_true, List.all_eq_true] at this
  have h1 := this.1 v hwv
  simp only [Bool.and_eq_true] at h1
  exact List.all_eq_true.mp h1.2

theorem ordinal_piece {n : Nat} (hn : n < 10 ^ 24) {text : PyStr} (h : Text Spec.en (enOrdinalWords n) text) :
    (∃ ts, Tokens u!"en" text ts ∧ EndsClosed u!"en" ts) ∧ parse text (some u!"en") = .ok (decDigits n) ∧ SolidStart text := by
  obtain ⟨ts, bl, h1, h2, _⟩ := ordinal_converted hn h
  obtain ⟨c, y, e, hs⟩ := ordinal_startsNS hn h
  refine ⟨⟨ts, h1, h2⟩, c59_ordinal n hn text ⟨[], text, by simp, h, rfl⟩, c, y, ?_, hs⟩
  rw [text_noShy h, e]

/-- **C59**: in a text, an ordinal is replaced by its digits and the rest is converted on its own, if the ordinal does not
come after a number word or a conjunction. -/
theorem c59_sentence (n : Nat) (hn : n < 10 ^ 24) (text : PyStr) (h : Text Spec.en (enOrdinalWords n) text) (he : SolidEnd text)
    (a g g' b : PyStr) (ts : List PyStr) (ht : Tokens u!"en" a ts) (hc : EndsClosed u!"en" ts) (ha : SolidEnd a) (hg : WhiteSpace g)
    (hg' : WhiteSpace g') (hb : SolidStart b) (x y : PyStr) (hx : parse a (some u!"en") = .ok x) (hy : parse b (some u!"en") = .ok y) :
    parse (a ++ g ++ (text ++ g' ++ b)) (some u!"en") = .ok (x ++ g ++ (decDigits n ++ g' ++ y)) := by
  obtain ⟨⟨to, ho1, ho2⟩, hp, hs⟩ := ordinal_piece hn h
  have h1 := c58_pieces u!"en" (by decide) text g' b to ho1 ho2 he hg' hb _ y hp hy
  refine c58_pieces u!"en" (by decide) a g _ ts ht hc ha hg ?_ x _ hx h1
  obtain ⟨c, z, e, hs⟩ := hs
  refine ⟨c, z ++ withoutSoftHyphens (g' ++ b), ?_, hs⟩
  unfold withoutSoftHyphens at *
  rw [List.append_assoc, List.filter_append, e]; rfl

/-- **C59**: the same at the end of a text. -/
theorem c59_end (n : Nat) (hn : n < 10 ^ 24) (text : PyStr) (h : Text Spec.en (enOrdinalWords n) text)
    (a g : PyStr) (ts : List PyStr) (ht : Tokens u!"en" a ts) (hc : EndsClosed u!"en" ts) (ha : SolidEnd a) (hg : WhiteSpace g)
    (x : PyStr) (hx : parse a (some u!"en") = .ok x) : parse (a ++ g ++ text) (some u!"en") = .ok (x ++ g ++ decDigits n) := by
  obtain ⟨_, hp, hs⟩ := ordinal_piece hn h
  exact c58_pieces u!"en" (by decide) a g text ts ht hc ha hg hs x _ hx hp

/-- **C59**: the same at the beginning of a text. -/
theorem c59_start (n : Nat) (hn : n < 10 ^ 24) (text : PyStr) (h : Text Spec.en (enOrdinalWords n) text) (he : SolidEnd text)
    (g b : PyStr) (hg : WhiteSpace g) (hb : SolidStart b) (y : PyStr) (hy : parse b (some u!"en") = .ok y) :
    parse (text ++ g ++ b) (some u!"en") = .ok (decDigits n ++ g ++ y) := by
  obtain ⟨⟨to, ho1, ho2⟩, hp, _⟩ := ordinal_piece hn h
  exact c58_pieces u!"en" (by decide) text g b to ho1 ho2 he hg hb _ y hp hy

example : parse u!"on the twenty-first of may" (some u!"en") = .ok u!"on the 21 of may" ∧ enOrdinalText 21 = u!"twenty-first" ∧
    Text Spec.en (enOrdinalWords 21) u!"twenty-first" := by
  refine ⟨by decide +kernel, by decide +kernel, ?_⟩
  have e : enOrdinalWords 21 = [u!"twenty", u!"first"] := by decide +kernel
  rw [e]
  exact Text.cons (v := u!"twenty") (g := u!"-") (rest := u!"first") ⟨by decide +kernel, rfl⟩ (Gap.sep (by simp) (by decide))
    (Text.last (v := u!"first") (trail := []) ⟨by decide +kernel, rfl⟩ (by simp))

/-! ## C60 -/

/-- `t` contains a decimal digit (of any script). -/
def HasDigit (t : PyStr) : Prop := ∃ c ∈ t, ∃ d, decimalValue c = some d

open Classical in
/-- **C60**: every token with a digit in it ("7", "21st", "٣") is in the output verbatim and in the same order: digits are
never combined with number words or changed; the only other tokens with digits are the numbers put in. -/
theorem c60_digits_kept (l : PyStr) (hl : l ∈ supported) (s out : PyStr) (h : parse s (some l) = .ok out)
    (ts ts' : List PyStr) (hts : Tokens l s ts) (hts' : Tokens l out ts') :
    WithNumerals (ts.filter (fun t => HasDigit t)) (ts'.filter (fun t => HasDigit t)) := by
  have h1 := c15_ordinary_words_kept l hl s out h ts ts' hts hts'
  have sub : ∀ xs : List PyStr, (xs.filter (fun t => Ordinary l t)).filter (fun t => HasDigit t) = xs.filter (fun t => HasDigit t) := by
    intro xs
    rw [List.filter_filter]
    apply List.filter_congr
    intro t _
    by_cases hd : HasDigit t
    · obtain ⟨c, hc, d, hcd⟩ := hd
      have h1 : Ordinary l t := digit_ordinary hl hc hcd
      have h2 : HasDigit t := ⟨c, hc, d, hcd⟩
      simp [h1, h2]
    · simp [hd]
  rw [← sub ts, ← sub ts']
  have fil : ∀ {a b : List PyStr}, WithNumerals a b → WithNumerals (a.filter (fun t => HasDigit t)) (b.filter (fun t => HasDigit t)) := by
    intro a b h
    induction h with
    | nil => exact .nil
    | @keep t a b _ ih =>
      by_cases hd : HasDigit t
      · simp only [List.filter_cons, decide_eq_true hd, if_true]; exact .keep ih
      · simp only [List.filter_cons, decide_eq_false hd]; exact ih
    | @insert n a b hn _ ih =>
      rw [List.filter_cons]
      split
      · exact .insert hn ih
      · exact ih
  exact fil h1

example : parse u!"twenty 5 and the 21st of 3 three" (some u!"en") = .ok u!"20 5 and the 21st of 3 3" ∧
    parse u!"٣ five" (some u!"en") = .ok u!"٣ 5" := by decide +kernel

/-- **C60**: what follows a token with a digit is converted on its own: "2 million" is not 2000000. -/
theorem c60_digits_before (l : PyStr) (hl : l ∈ supported) (a g b : PyStr) (ta : List PyStr) (d : PyStr) (ht : Tokens l a (ta ++ [d])) (hd : HasDigit d)
    (ha : SolidEnd a) (hg : WhiteSpace g) (hb : SolidStart b) (x y : PyStr) (hx : parse a (some l) = .ok x) (hy : parse b (some l) = .ok y) :
    parse (a ++ g ++ b) (some l) = .ok (x ++ g ++ y) := by
  obtain ⟨c, hc, v, hcd⟩ := hd
  exact c58_pieces l hl a g b _ ht (Or.inr ⟨ta, d, [], rfl, Or.inl (digit_ordinary hl hc hcd), by simp⟩) ha hg hb x y hx hy

/-- **C60**: a token with a digit that follows a number is not combined with it either: "two 5". -/
theorem c60_digits_after (l : PyStr) (hl : l ∈ supported) (a g b : PyStr) (ta tb : List PyStr) (d : PyStr) (ht : Tokens l a ta) (hn : EndsNumber l ta)
    (ha : SolidEnd a) (hg : WhiteSpace g) (htb : Tokens l b (d :: tb)) (hd : HasDigit d) (hb : SolidStart b) (x y : PyStr)
    (hx : parse a (some l) = .ok x) (hy : parse b (some l) = .ok y) : parse (a ++ g ++ b) (some l) = .ok (x ++ u!" " ++ y) := by
  obtain ⟨c, hc, v, hcd⟩ := hd
  exact c58_number l hl a g b ta _ ht hn ha hg htb ⟨[], d, tb, rfl, by simp, digit_ordinary hl hc hcd⟩ hb x y hx hy

/-- **C60**: `parse_number` finds no number in a text that has digits and anything else. -/
theorem c60_no_number (l : PyStr) (hl : l ∈ supported) (s : PyStr) (hs : WordInput s) (ts : List PyStr)
    (hts : Tokens l (withoutApostrophes s) ts) (d : PyStr) (hd : d ∈ ts) (hdd : HasDigit d) : parseNumber s (some l) = .ok none := by
  obtain ⟨c, hc, v, hcd⟩ := hdd
  have ho := closing_facts hl (Or.inl (digit_ordinary hl hc hcd))
  exact c21_foreign_word l hl s hs ts hts d hd ho.2.2 ho.1 ho.2.1

/-- **C60**, refuted: digits in front of a scale word are not multiplied, and spelled decimals and percentages stay apart. -/
theorem c60_refuted : parse u!"2 million" (some u!"en") = .ok u!"2 1000000" ∧ parse u!"2.5 million" (some u!"en") = .ok u!"2.5 1000000" ∧
    parse u!"two 5" (some u!"en") = .ok u!"2 5" ∧ parseNumber u!"2 million" (some u!"en") = .ok none ∧
    parseNumber u!"20 two" (some u!"en") = .ok none := by decide +kernel

example : Tokens u!"en" u!"costs 2.5" [u!"costs", u!" ", u!"2", u!".", u!"5"] ∧ HasDigit u!"5" ∧ SolidEnd u!"costs 2.5" ∧
    SolidStart u!"million" ∧ WordInput u!"2 million" := by
  refine ⟨(tokens_iff _ _ _).mpr (by decide +kernel), ⟨53, by simp, 5, by decide +kernel⟩, ⟨u!"costs 2.", 53, by decide +kernel, by decide⟩,
    ⟨109, u!"illion", by decide +kernel, by decide⟩, ?_⟩
  exact (wordInput_iff _).mpr (by decide +kernel)

/-! ## C61 -/

/-- **C61**: a number is at least as great as each of its words. -/
theorem c61_words (l : PyStr) (hl : l ∈ supported) (s : PyStr) (hs : WordInput s) (n : Nat) (h : parseNumber s (some l) = .ok (some n))
    (ts : List PyStr) (hts : Tokens l (withoutApostrophes s) ts) (t : PyStr) (ht : t ∈ ts) (k : Class) (v : Nat) (hw : Word l k v t) : v ≤ n := by
  obtain ⟨u, us, hu⟩ := c54_first_token l (withoutApostrophes s)
  have e : ts = u :: us := ((tokens_iff _ _ _).mp hts).trans ((tokens_iff _ _ _).mp hu).symm
  subst e
  obtain ⟨_, ws, ho, c, o, q, hr, rfl⟩ := (c54_number l hl s hs u us hts n).mp h
  have hge := reading_ge hr (onlyWords_pos hl ho)
  have hwf := languageData_wf (supported_data hl)
  have key : ∀ {xs : List PyStr} {ws : List (Class × Nat)}, OnlyWords l xs ws → t ∈ xs → ∃ k', (k', v) ∈ ws := by
    intro xs ws ho
    induction ho with
    | nil => intro h; cases h
    | @word t' k' v' xs ws hw' _ ih =>
      intro h
      rcases List.mem_cons.mp h with rfl | h
      · refine ⟨k', ?_⟩
        have e := (kindOf_class hl hw).symm.trans (kindOf_class hl hw')
        have : v = v' := by
          cases k <;> cases k' <;> simp only [kindOfClass, Kind.unit.injEq, Kind.direct.injEq, Kind.tens.injEq, Kind.hund.injEq, Kind.big.injEq, reduceCtorEq] at e <;> exact e
        subst this; simp
      · obtain ⟨k', h⟩ := ih h; exact ⟨k', List.mem_cons_of_mem _ h⟩
    | @other t' xs ws hb _ ih =>
      intro h
      rcases List.mem_cons.mp h with rfl | h
      · exfalso
        have hm := (cardinal_iff hl t).mp ⟨k, v, hw⟩
        rcases hb with hb | hb
        · exact cardinal_not_blank hl ⟨k, v, hw⟩ hb
        · rw [skip_iff, key_skip hwf hm] at hb; cases hb
      · exact ih h
  obtain ⟨k', h⟩ := key ho ht
  exact hge _ h

/-- **C61**: the first words of a number are a number too, and not a greater one. -/
theorem c61_prefix (l : PyStr) (hl : l ∈ supported) (s s' : PyStr) (hs : WordInput s) (hs' : WordInput s') (t : PyStr) (ts ts' : List PyStr)
    (hts : Tokens l (withoutApostrophes s) (t :: ts)) (hts' : Tokens l (withoutApostrophes s') (t :: ts ++ ts')) (n : Nat)
    (h : parseNumber s' (some l) = .ok (some n)) : ∃ m, parseNumber s (some l) = .ok (some m) ∧ m ≤ n := by
  obtain ⟨hk, ws, ho, hr⟩ := (c54_number l hl s' hs' t (ts ++ ts') hts' n).mp h
  obtain ⟨x, y, h1, h2, rfl⟩ := onlyWords_split (a := t :: ts) ho
  obtain ⟨m, hm, hle⟩ := readsAs_prefix (onlyWords_pos hl ho) hr
  exact ⟨m, (c54_number l hl s hs t ts hts m).mpr ⟨hk, x, h1, hm⟩, hle⟩

example : parseNumber u!"two hundred" (some u!"en") = .ok (some 200) ∧ parseNumber u!"two hundred thousand one" (some u!"en") = .ok (some 200001) := by
  decide +kernel

/-! ## C62 -/

/-- **C62**: whatever text `parse_number` reads as `n` (words, beginning and ending with a number word), `parse` replaces it
by `n` inside any text, between what ends with an ordinary word or ordinal and what begins with an ordinary word. -/
theorem c62_inside (l : PyStr) (hl : l ∈ supported) (m : PyStr) (tm rest : List PyStr) (w : PyStr) (htm : Tokens l m tm)
    (hw : tm = w :: rest) (hc : Cardinal l w) (he : EndsNumber l tm) (hap : 0x27 ∉ m ∧ 0x2019 ∉ m) (n : Nat)
    (hn : parseNumber m (some l) = .ok (some n)) (hs : SolidStart m) (hse : SolidEnd m)
    (a g g' b : PyStr) (ta tb : List PyStr) (hta : Tokens l a ta) (hca : EndsClosed l ta) (ha : SolidEnd a) (hg : WhiteSpace g)
    (hg' : WhiteSpace g') (htb : Tokens l b tb) (hob : BeginsOrdinary l tb) (hb : SolidStart b) (x y : PyStr)
    (hx : parse a (some l) = .ok x) (hy : parse b (some l) = .ok y) :
    parse (a ++ g ++ (m ++ g' ++ b)) (some l) = .ok (x ++ g ++ (decDigits n ++ u!" " ++ y)) := by
  have hp := c18_parse_agrees l hl m [] rest w (by rw [← hw]; exact htm) (by simp) hc hap n hn
  have h1 := c58_number l hl m g' b tm tb htm he hse hg' htb hob hb _ y hp hy
  refine c58_pieces l hl a g _ ta hta hca ha hg ?_ x _ hx h1
  obtain ⟨c, z, e, hs⟩ := hs
  refine ⟨c, z ++ withoutSoftHyphens (g' ++ b), ?_, hs⟩
  unfold withoutSoftHyphens at *
  rw [List.append_assoc, List.filter_append, e]; rfl

/-- **C62**: the same at the end of a text. -/
theorem c62_end (l : PyStr) (hl : l ∈ supported) (m : PyStr) (tm rest : List PyStr) (w : PyStr) (htm : Tokens l m tm)
    (hw : tm = w :: rest) (hc : Cardinal l w) (hap : 0x27 ∉ m ∧ 0x2019 ∉ m) (n : Nat)
    (hn : parseNumber m (some l) = .ok (some n)) (hs : SolidStart m)
    (a g : PyStr) (ta : List PyStr) (hta : Tokens l a ta) (hca : EndsClosed l ta) (ha : SolidEnd a) (hg : WhiteSpace g)
    (x : PyStr) (hx : parse a (some l) = .ok x) :
    parse (a ++ g ++ m) (some l) = .ok (x ++ g ++ decDigits n) := by
  have hp := c18_parse_agrees l hl m [] rest w (by rw [← hw]; exact htm) (by simp) hc hap n hn
  exact c58_pieces l hl a g m ta hta hca ha hg hs x _ hx hp

/-- **C62**: the same at the beginning of a text. -/
theorem c62_start (l : PyStr) (hl : l ∈ supported) (m : PyStr) (tm rest : List PyStr) (w : PyStr) (htm : Tokens l m tm)
    (hw : tm = w :: rest) (hc : Cardinal l w) (he : EndsNumber l tm) (hap : 0x27 ∉ m ∧ 0x2019 ∉ m) (n : Nat)
    (hn : parseNumber m (some l) = .ok (some n)) (hse : SolidEnd m)
    (g' b : PyStr) (tb : List PyStr)
    (hg' : WhiteSpace g') (htb : Tokens l b tb) (hob : BeginsOrdinary l tb) (hb : SolidStart b) (y : PyStr)
    (hy : parse b (some l) = .ok y) : parse (m ++ g' ++ b) (some l) = .ok (decDigits n ++ u!" " ++ y) := by
  have hp := c18_parse_agrees l hl m [] rest w (by rw [← hw]; exact htm) (by simp) hc hap n hn
  exact c58_number l hl m g' b tm tb htm he hse hg' htb hob hb _ y hp hy

/-- "पाँच सौ", in Hindi, meets the hypotheses on `m`. -/
example : parseNumber u!"पाँच सौ" (some u!"hi") = .ok (some 500) ∧ Tokens u!"hi" u!"पाँच सौ" [u!"पाँच", u!" ", u!"सौ"] ∧
    Cardinal u!"hi" u!"पाँच" ∧ EndsNumber u!"hi" [u!"पाँच", u!" ", u!"सौ"] ∧ SolidStart u!"पाँच सौ" ∧ SolidEnd u!"पाँच सौ" ∧
    parse u!"मैं पाँच सौ रुपये" (some u!"hi") = .ok u!"मैं 500 रुपये" := by
  refine ⟨by decide +kernel, (tokens_iff _ _ _).mpr (by decide +kernel), (cardinal_iff (by decide) _).mpr (by decide +kernel),
    ⟨[u!"पाँच", u!" "], u!"सौ", [], rfl, (cardinal_iff (by decide) _).mpr (by decide +kernel), by simp⟩,
    ⟨0x92a, u!"ाँच सौ", by decide +kernel, by decide +kernel⟩, ⟨u!"पाँच स", 0x94c, by decide +kernel, by decide +kernel⟩, by decide +kernel⟩

/-! ## C63 -/

/-- **C63**: `parse` converts the same numbers whatever white space is between the words (any language, or none given): the
results differ in the amount and kind of white space only. -/
theorem c63_spacing (s s' : PyStr) (h : SameSpacing s s') (lang : Option PyStr) (a : PyStr) (ha : parse s lang = .ok a) :
    ∃ b, parse s' lang = .ok b ∧ SameSpacing a b := by
  have key : ∀ l, parse s (some l) = .ok a → ∃ b, parse s' (some l) = .ok b ∧ SameSpacing a b := by
    intro l ha
    have hl : l ∈ supported := by
      cases hd : languageData l with
      | ok ld => exact (data_supported hd).1
      | error e =>
        exfalso
        have ha : (languageData l >>= fun ld => parseRaw ld (tokenize s l) >>= fun raw => pure (strip raw)) = .ok a := ha
        rw [hd] at ha; cases ha
    obtain ⟨raw, hr, rfl⟩ := (c55_parse l hl s _ (tokens_tokenize _ _) _).mp ha
    obtain ⟨raw', hr', hs⟩ := converted_sameSpacing hl h hr
    exact ⟨strip raw', (c55_parse l hl s' _ (tokens_tokenize _ _) _).mpr ⟨raw', hr', rfl⟩, sameSpacing_strip hs⟩
  cases lang with
  | some l => exact key l ha
  | none =>
    obtain ⟨l, hd, _⟩ := c26_unique s
    rw [parse_detected (sameSpacing_detected h hd)]
    exact key l (by rw [← parse_detected hd]; exact ha)

/-- **C63**: white space in front of a text does not matter. -/
theorem c63_leading (l : PyStr) (hl : l ∈ supported) (g s : PyStr) (hg : WhiteSpace g) : parse (g ++ s) (some l) = parse s (some l) := by
  obtain ⟨raw, hr⟩ := converted_exists hl (tokenize s l)
  rw [(c55_parse l hl s _ (tokens_tokenize _ _) _).mpr ⟨raw, hr, rfl⟩]
  rw [(c55_parse l hl (g ++ s) _ (tokens_tokenize _ _) _).mpr ⟨_, converted_leading hl hg.2 hr, rfl⟩, strip_lead hg.2]

example : parse u!"two \t hundred  " none = .ok u!"200" ∧ parse u!"two\nhundred" none = .ok u!"200" ∧
    parse u!"the  two\thundred   cats" (some u!"en") = .ok u!"the  200 cats" ∧
    parse u!"the two hundred cats" (some u!"en") = .ok u!"the 200 cats" ∧
    parse u!"  and two" (some u!"en") = .ok u!"and 2" ∧ parse u!"and two" (some u!"en") = .ok u!"and 2" := by decide +kernel

/-- Finding: without a language, `parse` is not idempotent (C12 is about a given language): the numbers put in are no longer
words of the language that was detected. -/
example : parse u!"one two dos" none = .ok u!"1 2 dos" ∧ parse u!"1 2 dos" none = .ok u!"1 2 2" := by decide +kernel

end NumberParser.Props
