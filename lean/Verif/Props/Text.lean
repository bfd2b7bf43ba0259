import Verif.Proofs.Shuffle

/-!
# C12-C16, C39, C44: what `parse` does to a text

`Spec.Tokens l s ts`: `ts` are the tokens of the text `s`.  `Spec.NumberWord`, `Spec.Skip`, `Spec.Ordinary`: the three
kinds of non-blank tokens, in terms of the words listed in the data files (Verif/Spec/Words.lean).
-/

namespace NumberParser.Props
open NumberParser NumberParser.Spec

set_option maxRecDepth 100000

/-! ## C44 -/

/-- **C44**: the tokeniser returns the tokens of the text (pieces that put together are the text without soft
hyphens, words alternating with separators), and there is no other way to split the text like that. -/
theorem c44_tokens (l s : PyStr) (ts : List PyStr) : tokenize s l = ts ↔ Tokens l s ts := by
  rw [tokens_iff]; exact eq_comm

example : Tokens u!"en" u!"a-b  c" [u!"a", u!"-", u!"b", u!" ", [], u!" ", u!"c"] :=
  (c44_tokens _ _ _).mp (by decide +kernel)

example : Tokens u!"hi" u!" a-b  c" [[], u!" ", u!"a-b", u!"  ", u!"c"] :=
  (c44_tokens _ _ _).mp (by decide +kernel)

/-! ## C13 -/

/-- **C13**: no token of the output of `parse` is a cardinal or ordinal number word. -/
theorem c13_no_number_word_left (l : PyStr) (hl : l ∈ supported) (s out : PyStr) (h : parse s (some l) = .ok out)
    (ts : List PyStr) (hts : Tokens l out ts) : ∀ t ∈ ts, ¬ NumberWord l t := by
  intro t ht hn
  rw [tokens_iff] at hts; subst hts
  rw [numberWord_iff hl, output_tokens (supported_data hl) s out h t ht] at hn
  cases hn

example : parse u!"the twenty-First of two hundred dogs" (some u!"en") = .ok u!"the 21 of 200 dogs" := by decide +kernel

/-! ## C14 -/

/-- **C14**: a text without number words is returned unchanged, up to soft hyphens and surrounding white space. -/
theorem c14_plain_text_unchanged (l : PyStr) (hl : l ∈ supported) (s : PyStr) (ts : List PyStr) (hts : Tokens l s ts)
    (h : ∀ t ∈ ts, ¬ NumberWord l t) : parse s (some l) = .ok (strip (withoutSoftHyphens s)) := by
  rw [tokens_iff] at hts; subst hts
  apply parse_plain (supported_data hl)
  intro t ht
  have := h t ht
  rw [numberWord_iff hl] at this
  simpa using this

/-- Surrounding white space is all that `strip` removes. -/
theorem c14_strip (s : PyStr) : ∃ a b, s = a ++ strip s ++ b ∧ (∀ c ∈ a, isSpace c = true) ∧ (∀ c ∈ b, isSpace c = true) := by
  obtain ⟨a, b, h1, h2, h3, _⟩ := strip_spec s
  exact ⟨a, b, h1, h2, h3⟩

example : parse u!" dogs  and - cats, 12.\n" (some u!"en") = .ok u!"dogs  and - cats, 12." := by
  refine c14_plain_text_unchanged _ (by decide) _ _ ((tokens_iff _ _ _).mpr rfl) ?_
  intro t ht
  rw [numberWord_iff (by decide)]
  revert t ht
  decide +kernel

/-! ## C12 -/

/-- **C12**: `parse` is idempotent. -/
theorem c12_idempotent (l : PyStr) (hl : l ∈ supported) (s out : PyStr) (h : parse s (some l) = .ok out) :
    parse out (some l) = .ok out := by
  obtain ⟨h1, h2, _⟩ := output_sol (supported_data hl) s out h
  rw [parse_plain (supported_data hl) out (output_tokens (supported_data hl) s out h), h1, h2]

example : parse u!"two three-hundred and" (some u!"en") = .ok u!"2 300" := by decide +kernel

/-! ## C39 -/

/-- **C39**: the output neither starts nor ends with white space and contains no soft hyphen. -/
theorem c39_output_stripped (l : Option PyStr) (s out : PyStr) (h : parse s l = .ok out) :
    (∀ c rest, out = c :: rest → isSpace c = false) ∧ (∀ c rest, out = rest ++ [c] → isSpace c = false) ∧
      ∀ c ∈ out, c ≠ 0xad := by
  unfold parse at h
  cases hr : resolveLanguage s l with
  | error e => rw [hr] at h; simp [bind, Except.bind] at h
  | ok l' =>
    have h' : parse s (some l') = .ok out := by
      rw [hr] at h; exact h
    cases hd : languageData l' with
    | error e => rw [hr] at h; simp [bind, Except.bind, hd] at h
    | ok ld =>
      obtain ⟨h1, h2, _⟩ := output_sol hd s out h'
      obtain ⟨a, b, _, _, _, h3, h4⟩ := strip_spec out
      rw [h2] at h3 h4
      refine ⟨h3, h4, ?_⟩
      intro c hc e
      rw [← h1] at hc
      simp [noShy] at hc
      exact hc.2 e

example : parse u!" \u00adtwo \u00ad " (some u!"en") = .ok u!"2" := by decide +kernel

/-! ## C15, C16 -/

open Classical in
/-- **C15**: the ordinary tokens of the text are in the output verbatim and in the same order; the only other ordinary
tokens of the output are decimal numerals. -/
theorem c15_ordinary_words_kept (l : PyStr) (hl : l ∈ supported) (s out : PyStr) (h : parse s (some l) = .ok out)
    (ts ts' : List PyStr) (hts : Tokens l s ts) (hts' : Tokens l out ts') :
    WithNumerals (ts.filter (fun t => Ordinary l t)) (ts'.filter (fun t => Ordinary l t)) := by
  rw [tokens_iff] at hts hts'; subst hts; subst hts'
  have hd := supported_data hl
  have hord : ∀ t, Ordinary l t → blank (norm t) = false ∧ isNumberToken (norm t) (mkLangData (file l)) = none ∧
      isSkipToken (norm t) (mkLangData (file l)) = false := by
    rintro t ⟨⟨c, hc, hs⟩, h2, h3⟩
    rw [numberWord_iff hl] at h2
    rw [skip_iff] at h3
    exact ⟨not_blank_of_mem hc hs, by simpa using h2, by simpa using h3⟩
  refine parse_shuffle hd ⟨?_, ?_⟩ s out h ?_
  · intro t ht
    simp only [decide_eq_false_iff_not]
    intro ho; exact ht ((noNum_iff (languageData_wf hd)).mpr (hord t ho).2.1)
  · intro t ht
    simp only [decide_eq_false_iff_not]
    intro ho; rw [(hord t ho).1] at ht; cases ht
  · have hall : ∀ (ts : List PyStr) (b : Bool), OKseq (mkLangData (file l)) (fun t => decide (Ordinary l t)) b ts := by
      intro ts
      induction ts with
      | nil => intro b; trivial
      | cons t ts ih =>
        intro b
        refine ⟨fun hk _ => ⟨?_, ?_⟩, ih _⟩
        · simp only [decide_eq_false_iff_not]
          intro ho; rw [(hord t ho).2.2] at hk; cases hk
        · simp only [decide_eq_false_iff_not]
          intro ho
          have := (hord _ ho).2.2
          rw [skip_norm (languageData_wf hd) hk, hk] at this
          cases this
    exact hall _ _

/-- The words of a text and of its output, for comparison with C15. -/
example : parse u!"Dogs: twenty two, and (one) cat!" (some u!"en") = .ok u!"Dogs: 22, and (1 ) cat!" := by decide +kernel

/-- **C16** is false as users expect it: a conjunction after a number may disappear ("two and"), lose its case and
spacing ("two AND dogs", "two-dogs"). -/
theorem c16_refuted :
    parse u!"two and" (some u!"en") = .ok u!"2" ∧ parse u!"two AND dogs" (some u!"en") = .ok u!"2 and dogs" ∧
    parse u!"two-dogs" (some u!"en") = .ok u!"2 - dogs" ∧ parse u!"dos y." (some u!"es") = .ok u!"2." := by decide +kernel

open Classical in
/-- **C16** If no conjunction directly follows a cardinal number word, conjunctions, too, are
kept verbatim and in order. -/
theorem c16_conjunctions_kept (l : PyStr) (hl : l ∈ supported) (s out : PyStr) (h : parse s (some l) = .ok out)
    (ts ts' : List PyStr) (hts : Tokens l s ts) (hts' : Tokens l out ts') (hc : NoConjunctionAfterNumber l ts) :
    WithNumerals (ts.filter (fun t => Ordinary l t ∨ Skip l t)) (ts'.filter (fun t => Ordinary l t ∨ Skip l t)) := by
  rw [tokens_iff] at hts hts'; subst hts; subst hts'
  have hd := supported_data hl
  have hw := languageData_wf hd
  refine parse_shuffle hd ⟨?_, ?_⟩ s out h ?_
  · intro t ht
    simp only [decide_eq_false_iff_not]
    rintro (ho | ho)
    · have := ho.2.1; rw [numberWord_iff hl] at this; simp at this; exact ht ((noNum_iff hw).mpr this)
    · rw [skip_iff] at ho; exact ht ((noNum_iff hw).mpr (skip_number hw ho))
  · intro t ht
    simp only [decide_eq_false_iff_not]
    rintro (⟨⟨c, hc, hs⟩, _⟩ | ho)
    · have := not_blank_of_mem hc hs
      rw [show form t = norm t from rfl, ht] at this; cases this
    · rw [skip_iff] at ho; rw [skip_blank hw ho] at ht; cases ht
  · have gen : ∀ (ts a : List PyStr) (b : Bool), NoConjunctionAfterNumber l (a ++ ts) →
        (b = true → ∃ a1 n a2, a = a1 ++ n :: a2 ∧ Cardinal l n ∧ ∀ t ∈ a2, (∀ c ∈ form t, isSpace c = true) ∨ Skip l t) →
        OKseq (mkLangData (file l)) (fun t => decide (Ordinary l t ∨ Skip l t)) b ts := by
      intro ts
      induction ts with
      | nil => intro a b _ _; trivial
      | cons t ts ih =>
        intro a b hn hb
        refine ⟨?_, ?_⟩
        · intro hk hbt
          obtain ⟨a1, n, a2, rfl, hcn, ha2⟩ := hb hbt
          exact absurd ((skip_iff l t).mpr hk) (hn a1 n a2 t ts (by simp) hcn ha2)
        · refine ih (a ++ [t]) _ (by simpa using hn) ?_
          intro hnx
          unfold nextRun at hnx
          split at hnx
          · rename_i hbl
            obtain ⟨a1, n, a2, rfl, hcn, ha2⟩ := hb hnx
            refine ⟨a1, n, a2 ++ [t], by simp, hcn, ?_⟩
            intro x hx
            rcases List.mem_append.mp hx with hx | hx
            · exact ha2 x hx
            · simp only [List.mem_singleton] at hx; subst hx
              left
              rw [blank_iff, List.all_eq_true] at hbl
              exact hbl
          · split at hnx
            · rename_i hm
              exact ⟨a, t, [], rfl, (cardinal_iff hl t).mpr hm, by simp⟩
            · split at hnx
              · rename_i hk
                obtain ⟨a1, n, a2, rfl, hcn, ha2⟩ := hb hnx
                exact absurd ((skip_iff l t).mpr hk) (hn a1 n a2 t ts (by simp) hcn ha2)
              · cases hnx
    exact gen _ [] false hc (by simp)

example : parse u!"cats AND - dogs and two birds" (some u!"en") = .ok u!"cats AND - dogs and 2 birds" := by decide +kernel

/-- The hypothesis of the last theorem is met by "and two". -/
example : NoConjunctionAfterNumber u!"en" [u!"and", u!" ", u!"two"] := by
  intro a n b k c he hn hb hk
  have e : ∀ t, Skip u!"en" t → isSkipToken (norm t) (mkLangData Data.en) = true := fun t h => (skip_iff u!"en" t).mp h
  rcases a with _ | ⟨x, a⟩
  · simp at he
    have hn' := (cardinal_iff (l := u!"en") (by decide) n).mp hn
    rw [← he.1] at hn'
    revert hn'; decide +kernel
  · rcases a with _ | ⟨y, a⟩
    · simp at he
      have hn' := (cardinal_iff (l := u!"en") (by decide) n).mp hn
      rw [← he.2.1] at hn'
      revert hn'; decide +kernel
    · have := congrArg List.length he
      simp at this
      omega

end NumberParser.Props
