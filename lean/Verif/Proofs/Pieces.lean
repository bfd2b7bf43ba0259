import Verif.Proofs.Tokens
import Verif.Proofs.Render
import Verif.Proofs.ParsePure

/-! The pieces of the output of `parse`: what they are, and that they are the tokens of the output. -/

set_option linter.unusedSimpArgs false

namespace NumberParser
open Spec

set_option maxRecDepth 100000

/-! ### Strings without letters are no number words -/

def isAz (c : Nat) : Bool := 97 ≤ c && c ≤ 122

theorem replaceGo_absent (p : Nat) (ps new : PyStr) (s : PyStr) (h : p ∉ s) :
    replaceGo (p :: ps) new 0 s = s := by
  induction s with
  | nil => rfl
  | cons c cs ih =>
    have hc : p ≠ c := fun e => h (by rw [e]; exact List.mem_cons_self)
    have : (p :: ps).isPrefixOf (c :: cs) = false := by simp [List.isPrefixOf, hc]
    rw [replaceGo, this]
    simp [ih (fun hm => h (List.mem_cons_of_mem _ hm))]

theorem subEnd_absent (suf repl s : PyStr) (p : Nat) (hp : p ∈ suf) (h : p ∉ s) : subEnd suf repl s = s := by
  unfold subEnd
  rw [if_neg, if_neg]
  · intro hs
    exact h ((List.isSuffixOf_iff_suffix.mp hs).subset (List.mem_append_left _ hp))
  · intro hs
    exact h ((List.isSuffixOf_iff_suffix.mp hs).subset hp)

theorem conv_noletters (ld : LangData) {t : PyStr} (h : ∀ c ∈ t, isAz c = false) : applyCardinalConversion t ld = t := by
  have ha : ∀ p, isAz p = true → p ∉ t := fun p hp hm => by rw [h p hm] at hp; cases hp
  have hirr : CARDINAL_DIRECT_NUMBERS.foldl (fun t wn => replace t wn.1 wn.2) t = t := by
    simp only [CARDINAL_DIRECT_NUMBERS, List.foldl_cons, List.foldl_nil, replace]
    rw [replaceGo_absent _ _ _ _ (ha _ (by decide)), replaceGo_absent _ _ _ _ (ha _ (by decide)),
      replaceGo_absent _ _ _ _ (ha _ (by decide)), replaceGo_absent _ _ _ _ (ha _ (by decide)),
      replaceGo_absent _ _ _ _ (ha _ (by decide)), replaceGo_absent _ _ _ _ (ha _ (by decide)),
      replaceGo_absent _ _ _ _ (ha _ (by decide))]
  unfold applyCardinalConversion
  rw [hirr]
  simp only
  rw [subEnd_absent u!"ieth" _ t 104 (by decide) (ha _ (by decide)),
    subEnd_absent u!"th" _ t 104 (by decide) (ha _ (by decide))]
  simp

def wordKeyCheck (ld : LangData) : Bool := ld.allNumbers.all (fun e => e.1.any isWord)

theorem wordKey {l : PyStr} {ld : LangData} (h : languageData l = .ok ld) : wordKeyCheck ld = true := by
  rcases (languageData_ok_iff l ld).mp h with ⟨_, rfl⟩ | ⟨_, rfl⟩ | ⟨_, rfl⟩ | ⟨_, rfl⟩ | ⟨_, rfl⟩ <;> decide +kernel

theorem az_word {c : Nat} (h : isAz c = true) : isWord c = true := by
  unfold isAz at h
  simp only [Bool.and_eq_true, decide_eq_true_eq] at h
  exact RTree.covers_sound (lo := 97) (hi := 122) (by decide +kernel) h.1 h.2

theorem az_not_numeric {c : Nat} (h : isAz c = true) : isNumericChar c = false := by
  unfold isAz at h
  simp only [Bool.and_eq_true, decide_eq_true_eq] at h
  exact RTree.avoids_sound (lo := 97) (hi := 122) (by decide +kernel) h.1 h.2

/-- A token of separating characters is no number word. -/
theorem nonword_not_number {l : PyStr} {ld : LangData} (h : languageData l = .ok ld) {t : PyStr}
    (ht : ∀ c ∈ t, isWord c = false) : isNumberToken (norm t) ld = none := by
  have hn := norm_nonword ht
  unfold isNumberToken
  rw [conv_noletters ld (fun c hc => by
    cases ha : isAz c with
    | false => rfl
    | true => have := az_word ha; rw [hn c hc] at this; cases this)]
  unfold isCardinalToken
  rw [if_neg]
  intro hm
  have := dictAllKey_sound (p := fun t => t.any isWord) (wordKey h) hm
  obtain ⟨c, hc, hw⟩ := List.any_eq_true.mp this
  rw [hn c hc] at hw; cases hw

/-- A numeral is no number word. -/
theorem numeric_not_number {l : PyStr} {ld : LangData} (h : languageData l = .ok ld) {t : PyStr}
    (ht : ∀ c ∈ t, isNumericChar c = true) : isNumberToken (norm t) ld = none ∧ isSkipToken (norm t) ld = false := by
  have hn := norm_numeric ht
  have hno : numOrSkip ld (norm t) = false := by
    cases hc : numOrSkip ld (norm t) with
    | false => rfl
    | true =>
      obtain ⟨c, hc, hx⟩ := numOrSkip_not_numeric h hc
      rw [hn c hc] at hx; cases hx
  unfold numOrSkip at hno
  rw [Bool.or_eq_false_iff] at hno
  refine ⟨?_, hno.2⟩
  unfold isNumberToken
  rw [conv_noletters ld (fun c hc => by
    cases ha : isAz c with
    | false => rfl
    | true => have := az_not_numeric ha; rw [hn c hc] at this; cases this)]
  unfold isCardinalToken
  rw [hno.1]; rfl

theorem digit_numeric {c : Nat} (h : 48 ≤ c ∧ c ≤ 57) : isNumericChar c = true := by
  exact RTree.covers_sound (lo := 48) (hi := 57) (by decide +kernel) h.1 h.2

theorem digit_word {c : Nat} (h : 48 ≤ c ∧ c ≤ 57) : isWord c = true := by
  exact RTree.covers_sound (lo := 48) (hi := 57) (by decide +kernel) h.1 h.2

theorem sepChar_word (l : PyStr) {c : Nat} (h : isWord c = true) : sepChar l c = false := by
  unfold sepChar
  split
  · exact word_not_space h
  · rw [h]; rfl

/-! ### Classes -/

theorem classify_number {ld : LangData} (t : PyStr) :
    (isNumberToken (norm t) ld = none) → ∀ w, classify ld t ≠ .ord w := by
  intro h w hc
  unfold classify at hc
  simp only at hc
  split at hc
  · cases hc
  · split at hc
    · cases hc
    · split at hc
      · rename_i w' ho
        unfold isOrdinalToken at ho
        split at ho
        · rw [h] at ho; cases ho
        · cases ho
      · split at hc
        · cases hc
        · split at hc <;> cases hc

theorem number_of_mem {ld : LangData} (hw : ld.WF) {t : PyStr} (h : ld.allNumbers.mem t = true) :
    isNumberToken t ld = some t := by
  unfold isNumberToken
  rw [key_conv hw h]
  unfold isCardinalToken
  rw [if_pos h]

theorem classify_card {ld : LangData} (hw : ld.WF) (t : PyStr) :
    (isNumberToken (norm t) ld = none) → ∀ w, classify ld t ≠ .card w := by
  intro h w hc
  unfold classify at hc
  simp only at hc
  split at hc
  · cases hc
  · split at hc
    · cases hc
    · split at hc
      · cases hc
      · split at hc
        · rename_i hm
          rw [number_of_mem hw hm] at h; cases h
        · split at hc <;> cases hc

/-- What a class says about the token. -/
theorem classify_blank {ld : LangData} {t : PyStr} : classify ld t = .blank ↔ blank (norm t) = true := by
  unfold classify
  simp only
  constructor
  · intro h
    split at h
    · assumption
    · split at h
      · cases h
      · split at h
        · cases h
        · split at h
          · cases h
          · split at h <;> cases h
  · intro h; rw [if_pos h]

theorem classify_sep {ld : LangData} {t : PyStr} (h : classify ld t = .sep) : SENTENCE_SEPARATORS.elem (norm t) = true := by
  unfold classify at h
  simp only at h
  split at h
  · cases h
  · split at h
    · assumption
    · split at h
      · cases h
      · split at h
        · cases h
        · split at h <;> cases h

theorem classify_card_mem {ld : LangData} {t w : PyStr} (h : classify ld t = .card w) :
    w = norm t ∧ ld.allNumbers.mem (norm t) = true := by
  unfold classify at h
  simp only at h
  split at h
  · cases h
  · split at h
    · cases h
    · split at h
      · cases h
      · split at h
        · cases h; exact ⟨rfl, by assumption⟩
        · split at h <;> cases h

theorem classify_ord_mem {ld : LangData} {t w : PyStr} (h : classify ld t = .ord w) :
    isOrdinalToken (norm t) ld = some w := by
  unfold classify at h
  simp only at h
  split at h
  · cases h
  · split at h
    · cases h
    · split at h
      · cases h; assumption
      · split at h
        · cases h
        · split at h <;> cases h

theorem classify_skip_mem {ld : LangData} {t w : PyStr} (h : classify ld t = .skip w) :
    w = norm t ∧ isSkipToken (norm t) ld = true ∧ ld.allNumbers.mem (norm t) = false := by
  unfold classify at h
  simp only at h
  split at h
  · cases h
  · split at h
    · cases h
    · split at h
      · cases h
      · split at h
        · cases h
        · split at h
          · cases h; exact ⟨rfl, by assumption, by simp_all⟩
          · cases h

theorem classify_word_not {ld : LangData} {t : PyStr} (h : classify ld t = .word) :
    isNumberToken (norm t) ld = none ∧ isSkipToken (norm t) ld = false ∧ blank (norm t) = false ∧
      SENTENCE_SEPARATORS.elem (norm t) = false := by
  unfold classify at h
  simp only at h
  split at h
  · cases h
  · rename_i hb
    split at h
    · cases h
    · rename_i hs
      split at h
      · cases h
      · rename_i ho
        split at h
        · cases h
        · rename_i hm
          split at h
          · cases h
          · rename_i hk
            refine ⟨?_, by simpa using hk, by simpa using hb, by simpa using hs⟩
            unfold isOrdinalToken isCardinalToken at ho
            rw [if_neg hm] at ho
            exact ho

theorem sep_not_number {l : PyStr} {ld : LangData} (h : languageData l = .ok ld) {t : PyStr}
    (hs : SENTENCE_SEPARATORS.elem t = true) : isNumberToken t ld = none ∧ isSkipToken t ld = false ∧ blank t = false := by
  have h1 : t = u!"." ∨ t = u!"," := by
    have := List.elem_iff.mp hs; simpa [SENTENCE_SEPARATORS] using this
  rcases (languageData_ok_iff l ld).mp h with ⟨_, rfl⟩ | ⟨_, rfl⟩ | ⟨_, rfl⟩ | ⟨_, rfl⟩ | ⟨_, rfl⟩ <;>
    rcases h1 with rfl | rfl <;> decide +kernel

theorem blank_not_number {l : PyStr} {ld : LangData} (h : languageData l = .ok ld) {t : PyStr} (hb : blank t = true) :
    isNumberToken t ld = none ∧ isSkipToken t ld = false := by
  have hw := languageData_wf h
  rw [blank_iff, List.all_eq_true] at hb
  refine ⟨?_, ?_⟩
  · unfold isNumberToken
    rw [conv_noletters ld (fun c hc => by
      cases ha : isAz c with
      | false => rfl
      | true => have := az_word ha; rw [space_not_word (hb c hc)] at this; cases this)]
    unfold isCardinalToken
    rw [if_neg]
    intro hm
    have := key_blank hw hm
    rw [blank_eq, List.all_eq_true.mpr hb] at this; cases this
  · cases hk : isSkipToken t ld with
    | false => rfl
    | true =>
      have := skip_blank hw hk
      rw [blank_eq, List.all_eq_true.mpr hb] at this; cases this

/-- The converse: a token that is no number word is blank, a separator, a conjunction or an ordinary word. -/
theorem classify_cases {l : PyStr} {ld : LangData} (h : languageData l = .ok ld) {t : PyStr}
    (hn : isNumberToken (norm t) ld = none) :
    classify ld t = .blank ∨ classify ld t = .sep ∨ (∃ w, classify ld t = .skip w) ∨ classify ld t = .word := by
  cases hc : classify ld t with
  | blank => simp
  | sep => simp
  | ord w => exact absurd hc (classify_number t hn w)
  | card w => exact absurd hc (classify_card (languageData_wf h) t hn w)
  | skip w => simp
  | word => simp

/-! ### Numerals and conjunctions in the pieces of a run -/

theorem buildItems_skip' (ld : LangData) (Q : PyStr → Prop) (ts : List PyStr)
    (hQ : ∀ t ∈ ts, isSkipToken t ld = true → Q t) : ∀ t, Item.skip t ∈ buildItems ld ts → Q t := by
  have gen : ∀ (ts : List PyStr) (s : BState), (∀ t ∈ ts, isSkipToken t ld = true → Q t) →
      (∀ t, Item.skip t ∈ s.out → Q t) → (∀ t ∈ s.usedSkip, Q t) →
      (∀ t, Item.skip t ∈ (ts.foldl (buildStep ld) s).out → Q t) := by
    intro ts
    induction ts with
    | nil => intro s _ h1 _; exact h1
    | cons t ts ih =>
      intro s hq h1 h2
      rw [List.foldl_cons]
      have hadd : ∀ (s : BState) (t : PyStr), (addToken ld s t).out = s.out ∧ (addToken ld s t).usedSkip = [] := by
        intro s t
        unfold addToken
        split
        · simp
        · split
          · simp
          · split
            · simp
            · split
              · simp only; split <;> simp
              · simp
      apply ih _ (fun t' ht' => hq t' (List.mem_cons_of_mem _ ht'))
      · unfold buildStep
        split
        · exact h1
        · split
          · exact h1
          · split
            · exact h1
            · split
              · rw [(hadd _ _).1]; exact h1
              · rw [(hadd _ _).1]
                intro x hx
                simp only [flushInvalid, List.mem_append, List.mem_map, List.mem_singleton] at hx
                rcases hx with (hx | hx) | ⟨y, hy, hx⟩
                · exact h1 x hx
                · cases hx
                · cases hx; exact h2 _ hy
      · unfold buildStep
        split
        · exact h2
        · split
          · rename_i hk
            intro x hx
            simp only [List.mem_append, List.mem_singleton] at hx
            rcases hx with hx | rfl
            · exact h2 x hx
            · exact hq _ List.mem_cons_self hk
          · split
            · simp
            · split
              · rw [(hadd _ _).2]; simp
              · rw [(hadd _ _).2]; simp
  intro t ht
  unfold buildItems at ht
  simp only [List.mem_append, List.mem_singleton] at ht
  rcases ht with ht | ht
  · exact gen ts BState.init hQ (by simp [BState.init]) (by simp [BState.init]) t ht
  · cases ht

theorem buildItems_skip (ld : LangData) (ts : List PyStr) : ∀ t, Item.skip t ∈ buildItems ld ts → isSkipToken t ld = true :=
  buildItems_skip' ld (fun t => isSkipToken t ld = true) ts (fun _ _ h => h)

end NumberParser
