import Verif.Proofs.Uni

/-! Texts up to spacing: the non-blank tokens. -/

set_option linter.unusedSimpArgs false

namespace NumberParser

/-- `s` without soft hyphens. -/
def noShy (s : PyStr) : PyStr := s.filter (fun c => c != 0xad)

/-- The tokeniser of a language after the removal of soft hyphens. -/
def split (l : PyStr) (s : PyStr) : List PyStr :=
  if RE_BUG_LANGUAGES.elem l then splitSpaces s else splitNonWord s

theorem tokenize_eq (s l : PyStr) : tokenize s l = split l (noShy s) := by
  unfold tokenize split noShy
  rw [replace_single]

/-- The characters at which the tokeniser of a language splits. -/
def sepChar (l : PyStr) (c : Nat) : Bool := if RE_BUG_LANGUAGES.elem l then isSpace c else !isWord c

theorem sepChar_of_space (l : PyStr) {c : Nat} (h : isSpace c = true) : sepChar l c = true := by
  unfold sepChar
  split
  · exact h
  · rw [space_not_word h]; rfl

/-- The first token. -/
def hd (l s : PyStr) : PyStr := (split l s).headD []

/-- The non-blank tokens. -/
def sol (l s : PyStr) : List PyStr := (split l s).filter (fun t => !blank t)

/-- The non-blank tokens after the first token. -/
def stl (l s : PyStr) : List PyStr := ((split l s).tail).filter (fun t => !blank t)

theorem split_ne_nil (l s : PyStr) : split l s ≠ [] := by
  unfold split
  split
  · exact splitSpaces_ne_nil s
  · exact splitNonWord_ne_nil s

theorem split_cons (l s : PyStr) : split l s = hd l s :: (split l s).tail := by
  cases h : split l s with
  | nil => exact absurd h (split_ne_nil l s)
  | cons t ts => simp [hd, h]

theorem sol_eq (l s : PyStr) : sol l s = (if blank (hd l s) then [] else [hd l s]) ++ stl l s := by
  unfold sol stl
  rw [split_cons l s, List.filter_cons]
  simp only [List.tail_cons]
  cases blank (hd l s) <;> simp

@[simp] theorem hd_nil (l : PyStr) : hd l [] = [] := by
  unfold hd split; split <;> rfl

@[simp] theorem stl_nil (l : PyStr) : stl l [] = [] := by
  unfold stl split; split <;> rfl

@[simp] theorem sol_nil (l : PyStr) : sol l [] = [] := by rw [sol_eq]; simp

theorem hd_cons (l : PyStr) (c : Nat) (cs : PyStr) :
    hd l (c :: cs) = if sepChar l c then [] else c :: hd l cs := by
  unfold hd split sepChar
  split
  · simp only [splitSpaces]
    split
    · split <;> (try split) <;> rfl
    · split
      · rename_i h; exact absurd h (splitSpaces_ne_nil cs)
      · rename_i h; rw [h]; rfl
  · simp only [splitNonWord]
    by_cases hw : isWord c = true
    · simp only [hw, if_true, Bool.not_true, Bool.false_eq_true, if_false]
      split
      · rename_i h; exact absurd h (splitNonWord_ne_nil cs)
      · rename_i h; rw [h]; rfl
    · simp only [hw]; rfl

theorem splitSpaces_nil_head (cs : PyStr) (run : PyStr) (ts : List PyStr) (h : splitSpaces cs = [] :: run :: ts) :
    blank run = true := by
  cases cs with
  | nil => simp [splitSpaces] at h
  | cons c cs =>
    simp only [splitSpaces] at h
    by_cases hc : isSpace c = true
    · rw [if_pos hc] at h
      induction cs generalizing run ts c with
      | nil => simp [splitSpaces] at h; rw [← h.1]; simp [blank_cons, hc]
      | cons d ds ih =>
        split at h
        · rename_i d' ds' run' ts' he hsp
          cases he
          by_cases hd : isSpace d = true
          · rw [if_pos hd] at h
            simp at h
            rw [← h.1, blank_cons, hc]
            simp only [splitSpaces, if_pos hd] at hsp
            rw [ih run' ts' d hsp hd]; rfl
          · rw [if_neg hd] at h; simp at h; rw [← h.1]; simp [blank_cons, hc]
        · simp at h; rw [← h.1]; simp [blank_cons, hc]
    · rw [if_neg hc] at h
      split at h <;> simp at h

theorem stl_cons (l : PyStr) (c : Nat) (cs : PyStr) :
    stl l (c :: cs) = if isSpace c then sol l cs else if sepChar l c then [c] :: sol l cs else stl l cs := by
  unfold stl sol split sepChar
  by_cases hl : RE_BUG_LANGUAGES.elem l = true
  · rw [if_pos hl, if_pos hl, if_pos hl]
    simp only [splitSpaces]
    by_cases hc : isSpace c = true
    · simp only [hc, if_true]
      split
      · rename_i d ds run ts hs
        have hb := splitSpaces_nil_head _ _ _ hs
        split
        · rw [hs]; simp [blank_cons, hc, hb]
        · rw [hs]; simp [blank_cons, hc, hb]
      · simp [blank_cons, hc]
    · simp only [hc, Bool.false_eq_true, if_false]
      split
      · rename_i h; exact absurd h (splitSpaces_ne_nil cs)
      · rename_i h; rw [h]; rfl
  · rw [if_neg hl, if_neg hl, if_neg hl]
    simp only [splitNonWord]
    by_cases hw : isWord c = true
    · rw [if_pos hw, word_not_space hw, hw]
      split
      · rename_i h; exact absurd h (splitNonWord_ne_nil cs)
      · rename_i h; rw [h]; rfl
    · rw [if_neg hw]
      simp only [hw, Bool.not_eq_true] at *
      by_cases hc : isSpace c = true
      · simp [hc, blank_cons, List.filter_cons]
      · simp [hc, blank_cons, List.filter_cons, hw]

/-- Tokens on both sides of a separator character. -/
theorem hd_append_sep (l a b : PyStr) {c : Nat} (hc : sepChar l c = true) : hd l (a ++ c :: b) = hd l a := by
  induction a with
  | nil => simp [hd_cons, hc]
  | cons d ds ih => simp [hd_cons, ih]

theorem stl_sep (l b : PyStr) {c : Nat} (hc : sepChar l c = true) : stl l (c :: b) = sol l [c] ++ sol l b := by
  rw [sol_eq l [c]]
  simp only [stl_cons, hd_cons, hc, if_true, sol_nil, blank_nil, List.nil_append]
  split <;> simp

theorem sol_sep (l b : PyStr) {c : Nat} (hc : sepChar l c = true) : sol l (c :: b) = sol l [c] ++ sol l b := by
  rw [sol_eq l (c :: b), stl_sep l b hc]; simp [hd_cons, hc]

theorem stl_append_sep (l a b : PyStr) {c : Nat} (hc : sepChar l c = true) :
    stl l (a ++ c :: b) = stl l a ++ (sol l [c] ++ sol l b) ∧ sol l (a ++ c :: b) = sol l a ++ (sol l [c] ++ sol l b) := by
  induction a with
  | nil =>
    refine ⟨?_, ?_⟩
    · simp [stl_sep l b hc]
    · simp [sol_sep l b hc]
  | cons d ds ih =>
    have h1 : stl l (d :: ds ++ c :: b) = stl l (d :: ds) ++ (sol l [c] ++ sol l b) := by
      rw [List.cons_append, stl_cons, stl_cons, ih.1, ih.2]
      split
      · rfl
      · split <;> simp
    refine ⟨h1, ?_⟩
    rw [sol_eq, h1, hd_append_sep l _ _ hc, sol_eq l (d :: ds)]
    simp

theorem sol_append_sep (l a b : PyStr) {c : Nat} (hc : sepChar l c = true) :
    sol l (a ++ c :: b) = sol l a ++ (sol l [c] ++ sol l b) := (stl_append_sep l a b hc).2

theorem sol_space (l : PyStr) {c : Nat} (hc : isSpace c = true) : sol l [c] = [] := by
  rw [sol_eq]
  simp [hd_cons, stl_cons, hc, sepChar_of_space l hc]

theorem sol_append_space (l a b : PyStr) {c : Nat} (hc : isSpace c = true) :
    sol l (a ++ c :: b) = sol l a ++ sol l b := by
  rw [sol_append_sep l a b (sepChar_of_space l hc), sol_space l hc]; simp

/-- A text without separator characters is one token. -/
theorem hd_word (l : PyStr) {w : PyStr} (h : ∀ c ∈ w, sepChar l c = false) : hd l w = w := by
  induction w with
  | nil => simp
  | cons c cs ih =>
    rw [hd_cons, h c List.mem_cons_self, ih (fun d hd => h d (List.mem_cons_of_mem _ hd))]; rfl

theorem stl_word (l : PyStr) {w : PyStr} (h : ∀ c ∈ w, sepChar l c = false) : stl l w = [] := by
  induction w with
  | nil => simp
  | cons c cs ih =>
    have hc := h c List.mem_cons_self
    have : isSpace c = false := by
      cases hs : isSpace c with
      | false => rfl
      | true => rw [sepChar_of_space l hs] at hc; cases hc
    rw [stl_cons, hc, this, ih (fun d hd => h d (List.mem_cons_of_mem _ hd))]; rfl

theorem sol_word (l : PyStr) {w : PyStr} (h : ∀ c ∈ w, sepChar l c = false) (hb : blank w = false) : sol l w = [w] := by
  rw [sol_eq, hd_word l h, stl_word l h, hb]; rfl

theorem sol_blank (l : PyStr) {w : PyStr} (h : blank w = true) : sol l w = [] := by
  rw [blank_iff] at h
  induction w with
  | nil => simp
  | cons c cs ih =>
    simp only [List.all_cons, Bool.and_eq_true] at h
    rw [sol_sep l _ (sepChar_of_space l h.1), sol_space l h.1, ih h.2]; rfl

/-! ### Comparison forms -/

/-- The comparison forms of the tokens of a text that are not blank. -/
def solid (l s : PyStr) : List PyStr := (normalizeTokens (tokenize s l)).filter (fun t => !blank t)

theorem filter_map_norm (ts : List PyStr) :
    (ts.map norm).filter (fun t => !blank t) = ((ts.filter (fun t => !blank t)).map norm).filter (fun t => !blank t) := by
  induction ts with
  | nil => rfl
  | cons t ts ih =>
    by_cases hb : blank t = true
    · rw [List.map_cons, List.filter_cons, List.filter_cons]
      simp [hb, blank_norm hb, ih]
    · simp only [Bool.not_eq_true] at hb
      have : (t :: ts).filter (fun t => !blank t) = t :: ts.filter (fun t => !blank t) := by
        rw [List.filter_cons]; simp [hb]
      rw [this, List.map_cons, List.map_cons, List.filter_cons, List.filter_cons, ih]

theorem solid_eq (l s : PyStr) : solid l s = ((sol l (noShy s)).map norm).filter (fun t => !blank t) := by
  unfold solid normalizeTokens sol
  rw [tokenize_eq, ← filter_map_norm]
  rfl

theorem tokens_cons (l s : PyStr) :
    normalizeTokens (tokenize s l) = norm (hd l (noShy s)) :: normalizeTokens (split l (noShy s)).tail := by
  rw [tokenize_eq, split_cons]; rfl

theorem buildItems_filter {ld : LangData} (h : ld.Disjoint) (ts : List PyStr) :
    buildItems ld ts = buildItems ld (ts.filter (fun t => !blank t)) := by
  rw [buildItems_eq h, buildItems_eq h]
  congr 1
  induction ts with
  | nil => rfl
  | cons t ts ih =>
    by_cases hb : blank t = true
    · simp [hb, List.filterMap_cons, symOf, ih]
    · simp only [Bool.not_eq_true] at hb
      simp [hb, List.filterMap_cons, ih]

/-- A comparison form the number builder accepts. -/
def numOrSkip (ld : LangData) (t : PyStr) : Bool := ld.allNumbers.mem t || isSkipToken t ld

/-- The value of a list of non-blank comparison forms. -/
def solidNumber (ld : LangData) (ts : List PyStr) : Option Nat :=
  if ts.all (numOrSkip ld) then numberOfItems (buildItems ld ts) else none

theorem all_tokOkB (ld : LangData) (ts : List PyStr) :
    ts.all (tokOkB ld) = (ts.filter (fun t => !blank t)).all (numOrSkip ld) := by
  induction ts with
  | nil => rfl
  | cons t ts ih =>
    by_cases hb : blank t = true
    · simp [hb, tokOkB, ih]
    · simp only [Bool.not_eq_true] at hb
      simp [hb, tokOkB, ih, numOrSkip]

theorem wordsNumber_solid {ld : LangData} (h : ld.WF) (t : PyStr) (ts : List PyStr) :
    wordsNumber ld (t :: ts) =
      if isSkipToken t ld then none else solidNumber ld ((t :: ts).filter (fun t => !blank t)) := by
  unfold wordsNumber solidNumber
  rw [tokensOk_zero h, ← all_tokOkB, ← buildItems_filter h.toDisjoint, List.all_cons]
  by_cases hs : isSkipToken t ld = true
  · simp [hs, skip_all h hs, skip_blank h hs]
  · simp only [Bool.not_eq_true] at hs
    simp [hs, tokOkB]

/-- `parse_number` on word input depends only on the non-blank tokens and on whether the first token is a skip
token. -/
theorem parseNumber_solid {l : PyStr} {ld : LangData} (hl : languageData l = .ok ld) {s : PyStr}
    (hb : blank s = false) (hn : isNumeric (strip s) = false) :
    parseNumber s (some l) = .ok (if isSkipToken (norm (hd l (noShy (dropApos s)))) ld then none
      else solidNumber ld (solid l (dropApos s))) := by
  rw [parseNumber_words hl hb hn, tokens_cons, wordsNumber_solid (languageData_wf hl), ← tokens_cons]
  rfl

end NumberParser
