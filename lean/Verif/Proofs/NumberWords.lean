import Verif.Proofs.Digits

/-! `parse_number` on word input, as a pure function of the normalised tokens. -/

set_option linter.unusedSimpArgs false

namespace NumberParser

/-- `s` without ASCII apostrophes and U+2019. -/
def dropApos (s : PyStr) : PyStr := (s.filter (fun c => c != 39)).filter (fun c => c != 0x2019)

theorem replace_apos (s : PyStr) : replace (replace s u!"'" []) u!"’" [] = dropApos s := by
  rw [replace_single, replace_single]; rfl

/-- The single number of a value list, if it has length one. -/
def numberOfItems : List Item → Option Nat
  | [.num n] => some n
  | _ => none

/-- The result of `parse_number` on word input with the given normalised tokens. -/
def wordsNumber (ld : LangData) (ts : List PyStr) : Option Nat :=
  if tokensOk ld 0 ts then numberOfItems (buildItems ld ts) else none

theorem buildItems_last (ld : LangData) (ts : List PyStr) : ∃ is n, buildItems ld ts = is ++ [.num n] :=
  ⟨_, _, rfl⟩

theorem key_blank {ld : LangData} (h : ld.WF) {t : PyStr} (ht : ld.allNumbers.mem t = true) : blank t = false := by
  have := h.key t ht; simp [keyCheck] at this; exact this.1.1.1.1

theorem key_skip {ld : LangData} (h : ld.WF) {t : PyStr} (ht : ld.allNumbers.mem t = true) : isSkipToken t ld = false := by
  have := h.key t ht; simp [keyCheck] at this; exact this.1.1.1.2

theorem key_sep {ld : LangData} (h : ld.WF) {t : PyStr} (ht : ld.allNumbers.mem t = true) :
    SENTENCE_SEPARATORS.elem t = false := by
  have := h.key t ht; simp only [keyCheck, Bool.and_eq_true, Bool.not_eq_true'] at this; exact this.1.1.2

theorem key_norm {ld : LangData} (h : ld.WF) {t : PyStr} (ht : ld.allNumbers.mem t = true) : norm t = t := by
  have := h.key t ht; simp [keyCheck] at this; exact this.1.2

theorem key_conv {ld : LangData} (h : ld.WF) {t : PyStr} (ht : ld.allNumbers.mem t = true) :
    applyCardinalConversion t ld = t := by
  have := h.key t ht; simp [keyCheck] at this; exact this.2

theorem skip_blank {ld : LangData} (h : ld.WF) {t : PyStr} (ht : isSkipToken t ld = true) : blank t = false := by
  have := h.skip t ht; simp [skipCheck] at this; exact this.1.1.1.1

theorem skip_sep {ld : LangData} (h : ld.WF) {t : PyStr} (ht : isSkipToken t ld = true) :
    SENTENCE_SEPARATORS.elem t = false := by
  have := h.skip t ht; simp only [skipCheck, Bool.and_eq_true, Bool.not_eq_true'] at this; exact this.1.1.1.2

theorem skip_norm {ld : LangData} (h : ld.WF) {t : PyStr} (ht : isSkipToken t ld = true) : norm t = t := by
  have := h.skip t ht; simp [skipCheck] at this; exact this.1.1.2

theorem skip_number {ld : LangData} (h : ld.WF) {t : PyStr} (ht : isSkipToken t ld = true) : isNumberToken t ld = none := by
  have := h.skip t ht; simp [skipCheck] at this; exact this.1.2

theorem skip_all {ld : LangData} (h : ld.WF) {t : PyStr} (ht : isSkipToken t ld = true) : ld.allNumbers.mem t = false := by
  have := h.skip t ht; simp [skipCheck] at this; exact this.2

theorem truthy_cardinal {ld : LangData} (h : ld.WF) (t : PyStr) :
    truthy (isCardinalToken t ld) = ld.allNumbers.mem t := by
  unfold isCardinalToken
  by_cases ht : ld.allNumbers.mem t = true
  · rw [if_pos ht, ht]
    have hb := key_blank h ht
    cases t with
    | nil => simp at hb
    | cons c cs => rfl
  · rw [if_neg ht]; simp [truthy, ht]

/-- A token `parse_number` accepts at a position other than the first. -/
def tokOkB (ld : LangData) (t : PyStr) : Bool := ld.allNumbers.mem t || blank t || isSkipToken t ld

theorem tokensOk_succ {ld : LangData} (h : ld.WF) (i : Nat) (ts : List PyStr) :
    tokensOk ld (i + 1) ts = ts.all (tokOkB ld) := by
  induction ts generalizing i with
  | nil => rfl
  | cons t ts ih =>
    simp only [tokensOk, truthy_cardinal h, List.all_cons, tokOkB]
    by_cases h1 : (ld.allNumbers.mem t || blank t) = true
    · rw [if_pos h1, ih, h1]; simp [tokOkB]
    · rw [if_neg h1]
      simp only [Bool.not_eq_true] at h1
      rw [h1, ih]
      cases isSkipToken t ld <;> simp [tokOkB]

theorem tokensOk_zero {ld : LangData} (h : ld.WF) (t : PyStr) (ts : List PyStr) :
    tokensOk ld 0 (t :: ts) = ((ld.allNumbers.mem t || blank t) && ts.all (tokOkB ld)) := by
  simp only [tokensOk, truthy_cardinal h, tokensOk_succ h]
  by_cases h1 : (ld.allNumbers.mem t || blank t) = true
  · rw [if_pos h1, h1]; simp
  · simp only [Bool.not_eq_true] at h1
    simp [h1]

theorem tokOkB_iff (ld : LangData) (t : PyStr) : tokOkB ld t = true ↔ TokOK ld t := by
  unfold tokOkB TokOK
  simp only [Bool.or_eq_true]
  constructor
  · rintro ((h | h) | h)
    · exact Or.inr (Or.inr h)
    · exact Or.inl h
    · exact Or.inr (Or.inl h)
  · rintro (h | h | h)
    · exact Or.inl (Or.inr h)
    · exact Or.inr h
    · exact Or.inl (Or.inl h)

theorem tokensOk_all {ld : LangData} (h : ld.WF) (ts : List PyStr) (ht : tokensOk ld 0 ts = true) :
    ∀ t ∈ ts, TokOK ld t := by
  cases ts with
  | nil => simp
  | cons t ts =>
    rw [tokensOk_zero h, Bool.and_eq_true] at ht
    intro x hx
    rcases List.mem_cons.mp hx with rfl | hx
    · rw [← tokOkB_iff]; unfold tokOkB; rw [ht.1]; simp
    · rw [← tokOkB_iff]; exact List.all_eq_true.mp ht.2 x hx

theorem parseNumber_words {l : PyStr} {ld : LangData} (hl : languageData l = .ok ld) {s : PyStr}
    (hb : blank s = false) (hn : isNumeric (strip s) = false) :
    parseNumber s (some l) = .ok (wordsNumber ld (normalizeTokens (tokenize (dropApos s) l))) := by
  have hwf := languageData_wf hl
  unfold parseNumber
  simp only [hb, hn, Bool.false_eq_true, if_false, resolveLanguage, hl, replace_apos, bind, Except.bind, pure, Except.pure]
  unfold wordsNumber
  by_cases ht : tokensOk ld 0 (normalizeTokens (tokenize (dropApos s) l)) = true
  · rw [if_pos ht, if_pos ht]
    have hok := tokensOk_all hwf _ ht
    rw [buildNumber_ok hwf _ hok]
    obtain ⟨is, n, hin⟩ := buildItems_last ld (normalizeTokens (tokenize (dropApos s) l))
    have hbd := buildItems_bound hwf _ hok n (by rw [hin]; simp)
    rw [hin]
    cases is with
    | nil =>
      simp only [List.nil_append, List.map_cons, List.map_nil, renderPure, numberOfItems]
      rw [pyInt_decDigits (lt_4300 hbd)]
    | cons i is =>
      have : numberOfItems (i :: is ++ [Item.num n]) = none := by
        cases is <;> cases i <;> rfl
      rw [this]
      cases is <;> rfl
  · rw [if_neg ht, if_neg ht]

end NumberParser
