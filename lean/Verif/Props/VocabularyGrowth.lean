import Verif.Spec.VocabularyGrowth
import Verif.Proofs.VocabularyGrowth
import Verif.Props.VocabularyApart
import Verif.Props.PackageDetect
import Verif.Props.Size

/-!
# C97: how numbers and results grow, with any vocabulary

Specification: Verif/Spec/VocabularyGrowth.lean.
-/

namespace NumberParser.Props
open NumberParser Gen Spec

set_option maxRecDepth 100000

theorem word_not_other {i : Info} (hi : Sensible i) {t : PyStr} {k : Class} {v : Nat} (hw : WordOf i k v t) :
    ¬ (BlankForm t ∨ form t ∈ i.skipTokens) := by
  rintro (hb | hs)
  · obtain ⟨c, hc, hn⟩ := hi.wordNotBlank k _ (last_lists hw)
    have := hb c hc
    rw [hn] at this; cases this
  · exact hi.noConjunction k _ (last_lists hw) hs

theorem onlyWordsOf_mem {i : Info} (hi : Sensible i) {ts : List PyStr} {ws : List (Class × Nat)} (h : OnlyWordsOf i ts ws) {t : PyStr} (ht : t ∈ ts)
    {k : Class} {v : Nat} (hw : WordOf i k v t) : ∃ k', (k', v) ∈ ws := by
  induction h with
  | nil => cases ht
  | @word t' k' v' ts ws hw' _ ih =>
    rcases List.mem_cons.mp ht with rfl | ht
    · have e : k = k' := hi.oneClass k k' _ (last_lists hw) (last_lists hw')
      subst e
      have h1 := normalize_get_some.mpr hw
      rw [normalize_get_some.mpr hw'] at h1
      injection h1 with h1
      exact ⟨k, by rw [h1]; simp⟩
    · obtain ⟨k2, h2⟩ := ih ht
      exact ⟨k2, by simp [h2]⟩
  | @other t' ts ws ho _ ih =>
    rcases List.mem_cons.mp ht with rfl | ht
    · exact absurd ho (word_not_other hi hw)
    · exact ih ht

/-- **C97** A number is at least as great as each of its words, ... -/
theorem c97_words (p : Package) (hp : Distinct p) (l : PyStr) (i : Info) (h : (l, i) ∈ p) (hi : Sensible i) (s : PyStr) (hs : WordInput s) (n : Nat)
    (hn : parseNumberIn p s (some l) = .ok (some n)) (ts : List PyStr) (hts : Tokens l (withoutApostrophes s) ts) (t : PyStr) (ht : t ∈ ts)
    (k : Class) (v : Nat) (hw : WordOf i k v t) : v ≤ n := by
  obtain ⟨u, us, hu⟩ := c54_first_token l (withoutApostrophes s)
  have e : ts = u :: us := ((tokens_iff _ _ _).mp hts).trans ((tokens_iff _ _ _).mp hu).symm
  subst e
  obtain ⟨_, _, ws, ho, c, o, q, hr, rfl⟩ := (c82_reads p hp l i h hi s u us n hs hts).mp hn
  obtain ⟨k', hk⟩ := onlyWordsOf_mem hi ho ht hw
  exact reading_ge hr (onlyWordsOf_pos hi ho) _ hk

/-- **C97** ... and its first words are a number too, and not a greater one. -/
theorem c97_prefix (p : Package) (hp : Distinct p) (l : PyStr) (i : Info) (h : (l, i) ∈ p) (hi : Sensible i) (s s' : PyStr) (hs : WordInput s)
    (hs' : WordInput s') (t : PyStr) (ts ts' : List PyStr) (hts : Tokens l (withoutApostrophes s) (t :: ts))
    (hts' : Tokens l (withoutApostrophes s') (t :: ts ++ ts')) (n : Nat) (hn : parseNumberIn p s' (some l) = .ok (some n)) :
    ∃ m, parseNumberIn p s (some l) = .ok (some m) ∧ m ≤ n := by
  obtain ⟨hk, hlt, ws, ho, hr⟩ := (c82_reads p hp l i h hi s' t (ts ++ ts') n hs' hts').mp hn
  obtain ⟨x, y, h1, h2, rfl⟩ := onlyWordsOf_split (a := t :: ts) ho
  obtain ⟨m, hm, hle⟩ := readAs_prefix (onlyWordsOf_pos hi ho) hr
  exact ⟨m, (c82_reads p hp l i h hi s t ts m hs hts).mpr ⟨hk, Nat.lt_of_le_of_lt hle hlt, x, h1, hm⟩, hle⟩

/-- **C97** The number has at most as many digits as the values of its words together. -/
theorem c97_digits (p : Package) (hp : Distinct p) (l : PyStr) (i : Info) (h : (l, i) ∈ p) (hi : Tidy i) (s : PyStr) (hs : WordInput s)
    (ts : List PyStr) (hts : Tokens l (withoutApostrophes s) ts) (ws : List (Class × Nat)) (hw : OnlyWordsOf i ts ws) (hne : ws ≠ []) (n : Nat)
    (hn : parseNumberIn p s (some l) = .ok (some n)) : (decDigits n).length ≤ (ws.map (fun w => (decDigits w.2).length)).sum := by
  obtain ⟨t, ts', ht⟩ := c54_first_token l (withoutApostrophes s)
  have e : ts = t :: ts' := ((tokens_iff _ _ _).mp hts).trans ((tokens_iff _ _ _).mp ht).symm
  subst e
  obtain ⟨_, _, ws', h1, h2⟩ := (c82_reads p hp l i h hi.toSensible s t ts' n hs ht).mp hn
  rw [onlyWordsOf_unique hi hw h1]
  rw [onlyWordsOf_unique hi hw h1] at hne
  rw [digitCount_sum]
  exact readAs_size h2 (digitCount_pos hne)

/-! ## A further word -/

theorem onlyOther {i : Info} {gap : List PyStr} (h : ∀ x ∈ gap, BlankForm x ∨ SkipOf i x) : OnlyWordsOf i gap [] := by
  induction gap with
  | nil => exact .nil
  | cons t gap ih => exact .other (h t (by simp)) (ih (fun x hx => h x (by simp [hx])))

theorem continues_only {l : PyStr} {i : Info} {s s' w t : PyStr} {ts : List PyStr} (hc : ContinuedBy l i s s' w t ts) {k : Class} {v : Nat}
    (hw : WordOf i k v w) {ws : List (Class × Nat)} (ho : OnlyWordsOf i (t :: ts) ws) :
    ∃ gap, Tokens l (withoutApostrophes s') (t :: (ts ++ (gap ++ [w]))) ∧ OnlyWordsOf i (t :: (ts ++ (gap ++ [w]))) (ws ++ [(k, v)]) := by
  obtain ⟨gap, hg, ht⟩ := hc.tokens'
  exact ⟨gap, ht, onlyWordsOf_append ho (onlyWordsOf_append (onlyOther hg) (.word hw .nil))⟩

/-- **C97** A scale word (other than one for 100) larger than the number before it multiplies it. -/
theorem c97_multiplies (p : Package) (l : PyStr) (i : Info) (h : Knows p l i) (s s' w t : PyStr) (ts : List PyStr)
    (hc : ContinuedBy l i s s' w t ts) (n q : Nat) (hn : parseNumberIn p s (some l) = .ok (some n)) (h0 : 0 < n) (hw : WordOf i .scale q w)
    (hq : n < q) (h100 : q ≠ 100) : parseNumberIn p s' (some l) = .ok (some (n * q)) := by
  obtain ⟨hk, _, ws, ho, c, o, q', hr, rfl⟩ := (c82_reads p h.distinct l i h.mem h.tidy.toSensible s t ts n hc.wordInput hc.tokens).mp hn
  obtain ⟨gap, ht, ho'⟩ := continues_only hc hw ho
  have hr' : ReadAs i (ws ++ [(.scale, q)]) ((c + o) * q) := ⟨_, _, _, .multiplyAll hr h0 hq h100, by simp⟩
  exact (c82_reads p h.distinct l i h.mem h.tidy.toSensible s' t _ _ hc.wordInput' ht).mpr
    ⟨hk, readAs_moderate h.tidy h.moderate ho' hr', _, ho', hr'⟩

/-- **C97** A word of another class is added if its class may follow that of the last number word; otherwise the text is no number. -/
theorem c97_adds (p : Package) (l : PyStr) (i : Info) (h : Knows p l i) (s s' w t : PyStr) (ts : List PyStr)
    (hc : ContinuedBy l i s s' w t ts) (n d : Nat) (hn : parseNumberIn p s (some l) = .ok (some n)) (k k' : Class) (hl : LastClass i k (t :: ts))
    (hk' : k' ≠ .scale) (hw : WordOf i k' d w) :
    parseNumberIn p s' (some l) = .ok (if mayFollow k k' then some (n + d) else none) := by
  obtain ⟨hk, _, ws, ho, c, o, q', hr, rfl⟩ := (c82_reads p h.distinct l i h.mem h.tidy.toSensible s t ts n hc.wordInput hc.tokens).mp hn
  obtain ⟨gap, ht, ho'⟩ := continues_only hc hw ho
  have hlast : ∃ x v, ws = x ++ [(k, v)] := by
    obtain ⟨a, u, b, v, e, hu, hb⟩ := hl
    have ho2 := ho
    rw [e] at ho2
    obtain ⟨x, y, h1, h2, rfl⟩ := onlyWordsOf_split ho2
    refine ⟨x, v, ?_⟩
    rw [onlyWordsOf_unique h.tidy h2 (.word hu (onlyOther hb))]
  by_cases hf : mayFollow k k' = true
  · rw [if_pos hf]
    have hr' : ReadAs i (ws ++ [(k', d)]) (c + o + d) := by
      refine ⟨_, _, _, .add hr hk' (Or.inr ?_), by omega⟩
      obtain ⟨x, v, e⟩ := hlast
      exact ⟨x, k, v, e, hf⟩
    exact (c82_reads p h.distinct l i h.mem h.tidy.toSensible s' t _ _ hc.wordInput' ht).mpr
      ⟨hk, readAs_moderate h.tidy h.moderate ho' hr', _, ho', hr'⟩
  · rw [if_neg hf, parseNumberIn_with h.distinct h.mem, c80_none i h.tidy h.moderate l s' t _ hc.wordInput' ht]
    rintro ⟨m, ws', _, _, h1, c2, o2, q2, h2, _⟩
    rw [onlyWordsOf_unique h.tidy h1 ho'] at h2
    obtain ⟨x, v, e⟩ := hlast
    generalize hg : ws ++ [(k', d)] = zs at h2
    have key : ∀ {a : List (Class × Nat)} {y : Class × Nat}, ws ++ [(k', d)] = a ++ [y] → a = ws ∧ y = (k', d) := by
      intro a y e
      have := List.append_inj' e rfl
      exact ⟨this.1.symm, by simpa using this.2.symm⟩
    cases h2 with
    | start => simp at hg
    | add _ _ hm =>
      obtain ⟨rfl, e2⟩ := key hg
      cases e2
      rcases hm with hm | ⟨x', k2, v2, e3, hm⟩
      · rw [hm] at e; simp at e
      · rw [e] at e3
        have := (List.append_inj' e3 rfl).2
        simp only [List.cons.injEq, Prod.mk.injEq, and_true] at this
        rw [this.1] at hf
        exact hf hm
    | multiplyAll => obtain ⟨_, e2⟩ := key hg; cases e2; exact hk' rfl
    | multiplyGroup => obtain ⟨_, e2⟩ := key hg; cases e2; exact hk' rfl
    | closeGroup => obtain ⟨_, e2⟩ := key hg; cases e2; exact hk' rfl

/-! ## Lengths -/

/-- **C97** If the digits of the value of each word, and a space, are at most `F` times as long as the word, then the result of `parse` is at
most `3 * F` times as long as the text. -/
theorem c97_parse (p : Package) (l : PyStr) (i : Info) (h : Knows p l i) (F : Nat) (hF : DigitsWithin F i) (s out : PyStr)
    (hr : parseIn p s (some l) = .ok out) : out.length ≤ 3 * F * s.length := by
  obtain ⟨raw, hc, rfl⟩ := (knows_parse h (tokens_tokenize l s)).mp hr
  have h1 := converted_sizeOf hF h.tidy hc
  have h2 := flatten_tokens (tokens_tokenize l s)
  exact Nat.le_trans (strip_length raw) (Nat.le_trans h1 (Nat.mul_le_mul_left _ h2))

theorem moderate_within {i : Info} (hi : Tidy i) (hm : Moderate i) : DigitsWithin 2002 i := by
  refine ⟨by omega, fun k f v hw => ?_⟩
  have hlen : 1 ≤ f.length := by
    obtain ⟨c, hc, _⟩ := hi.wordNotBlank k f (last_lists hw)
    cases f with
    | nil => cases hc
    | cons => simp
  have hv : v < 10 ^ 2001 := by
    obtain ⟨a, w, b, e, _, _⟩ := hw
    have h1 := hm k w v (by rw [e]; simp)
    by_cases hk : k = .scale
    · rw [if_pos hk] at h1
      obtain ⟨e, he, rfl⟩ := h1
      exact Nat.pow_lt_pow_right (by omega) (by omega)
    · rw [if_neg hk] at h1
      exact Nat.lt_of_le_of_lt h1 (Nat.lt_of_lt_of_le (show 900 < 10 ^ 3 by decide) (Nat.pow_le_pow_right (by omega) (by omega)))
  have := decDigits_length v 2001 (by omega) hv
  clear hv
  omega

/-- **C97** With any tidy data module of moderate values the result of `parse` is at most 6006 times as long as the text. -/
theorem c97_moderate (p : Package) (l : PyStr) (i : Info) (h : Knows p l i) (s out : PyStr) (hr : parseIn p s (some l) = .ok out) :
    out.length ≤ 6006 * s.length := c97_parse p l i h 2002 (moderate_within h.tidy h.moderate) s out hr

/-! ## Examples -/

/-- Enough that it is so for the entries of the tables. -/
theorem within_entries {F : Nat} {i : Info} (h2 : 2 ≤ F)
    (h : ∀ k ∈ [Class.unit, .direct, .tens, .hundreds, .scale], ∀ e ∈ tableOf i k, (decDigits e.2).length + 1 ≤ F * (stripAccents e.1).length) :
    DigitsWithin F i := by
  refine ⟨h2, fun k f v hw => ?_⟩
  obtain ⟨a, w, b, e, rfl, _⟩ := hw
  exact h k (by cases k <;> simp) (w, v) (by rw [e]; simp)

theorem portuguese_within : DigitsWithin 4 portuguese := within_entries (by omega) (by decide +kernel)

/-- With the languages of the repository and Portuguese: the result is at most 12 times as long as the text. -/
theorem c97_example : (∀ s out, parseIn withPortuguese s (some u!"pt") = .ok out → out.length ≤ 12 * s.length) ∧
    parseNumberIn withPortuguese u!"duzentos vinte três mil" (some u!"pt") = .ok (some 223000) ∧
    parseNumberIn withPortuguese u!"duzentos vinte três" (some u!"pt") = .ok (some 223) ∧
    parseNumberIn withPortuguese u!"duzentos vinte três dez" (some u!"pt") = .ok none := by
  have hw : ∀ s ∈ [u!"duzentos vinte", u!"duzentos vinte três", u!"duzentos vinte três mil", u!"duzentos vinte três dez"], WordInput s := by
    intro s hs
    apply (wordInput_iff s).mpr
    revert hs; revert s; decide +kernel
  have hb : ∀ x ∈ [u!" "], BlankForm x ∨ SkipOf portuguese x := by
    intro x hx
    left
    apply (blankForm_iff x).mpr
    revert hx; revert x; decide +kernel
  have hword : WordOf portuguese .unit 3 u!"três" ∧ WordOf portuguese .scale 1000 u!"mil" ∧ WordOf portuguese .direct 10 u!"dez" ∧
      WordOf portuguese .tens 20 u!"vinte" := by
    refine ⟨?_, ?_, ?_, ?_⟩ <;> (apply normalize_get_some.mp; decide +kernel)
  have h220 : parseNumberIn withPortuguese u!"duzentos vinte" (some u!"pt") = .ok (some 220) := by decide +kernel
  have h223 : parseNumberIn withPortuguese u!"duzentos vinte três" (some u!"pt") = .ok (some 223) :=
    c97_adds withPortuguese u!"pt" portuguese withPortuguese_knows u!"duzentos vinte" _ u!"três" u!"duzentos" [u!" ", u!"vinte"]
      ⟨hw _ (by simp), hw _ (by simp), (tokens_iff _ _ _).mpr (by decide +kernel), [u!" "], hb, (tokens_iff _ _ _).mpr (by decide +kernel)⟩
      220 3 h220 .tens .unit ⟨[u!"duzentos", u!" "], u!"vinte", [], 20, rfl, hword.2.2.2, by simp⟩ (by decide) hword.1
  refine ⟨fun s out h => c97_parse _ _ _ withPortuguese_knows 4 portuguese_within s out h, ?_, h223, ?_⟩
  · exact c97_multiplies withPortuguese u!"pt" portuguese withPortuguese_knows u!"duzentos vinte três" _ u!"mil" u!"duzentos"
      [u!" ", u!"vinte", u!" ", u!"três"]
      ⟨hw _ (by simp), hw _ (by simp), (tokens_iff _ _ _).mpr (by decide +kernel), [u!" "], hb, (tokens_iff _ _ _).mpr (by decide +kernel)⟩
      223 1000 h223 (by omega) hword.2.1 (by omega) (by omega)
  · exact c97_adds withPortuguese u!"pt" portuguese withPortuguese_knows u!"duzentos vinte três" _ u!"dez" u!"duzentos"
      [u!" ", u!"vinte", u!" ", u!"três"]
      ⟨hw _ (by simp), hw _ (by simp), (tokens_iff _ _ _).mpr (by decide +kernel), [u!" "], hb, (tokens_iff _ _ _).mpr (by decide +kernel)⟩
      223 10 h223 .unit .direct ⟨[u!"duzentos", u!" ", u!"vinte", u!" "], u!"três", [], 3, rfl, hword.1, by simp⟩ (by decide) hword.2.2.1

/-- The number is not less than its words, its first words are a number, and it has at most as many digits as the words have. -/
example : 200 ≤ 223 ∧ (∃ m, parseNumberIn withPortuguese u!"duzentos vinte" (some u!"pt") = .ok (some m) ∧ m ≤ 223) := by
  have h := c97_example.2.2.1
  refine ⟨c97_words withPortuguese withPortuguese_distinct u!"pt" portuguese withPortuguese_knows.mem withPortuguese_knows.tidy.toSensible _
    ((wordInput_iff _).mpr (by decide +kernel)) 223 h [u!"duzentos", u!" ", u!"vinte", u!" ", u!"três"] ((tokens_iff _ _ _).mpr (by decide +kernel))
    u!"duzentos" (by simp) .hundreds 200 (normalize_get_some.mp (by decide +kernel)), ?_⟩
  exact c97_prefix withPortuguese withPortuguese_distinct u!"pt" portuguese withPortuguese_knows.mem withPortuguese_knows.tidy.toSensible _ _
    ((wordInput_iff _).mpr (by decide +kernel)) ((wordInput_iff _).mpr (by decide +kernel)) u!"duzentos" [u!" ", u!"vinte"] [u!" ", u!"três"]
    ((tokens_iff _ _ _).mpr (by decide +kernel)) ((tokens_iff _ _ _).mpr (by decide +kernel)) 223 h

end NumberParser.Props
