import Verif.Proofs.Pieces

/-! Tokens of the output of `parse`. -/

set_option linter.unusedSimpArgs false

namespace NumberParser
open Spec

set_option maxRecDepth 100000

/-- The text is empty or ends with a separator. -/
def Closed (l a : PyStr) : Prop := a = [] ∨ ∃ a' c, sepChar l c = true ∧ a = a' ++ [c]
/-- The text is empty or starts with a separator. -/
def Opens (l b : PyStr) : Prop := b = [] ∨ ∃ c b', sepChar l c = true ∧ b = c :: b'

theorem sol_closed {l a : PyStr} (b : PyStr) (h : Closed l a) : sol l (a ++ b) = sol l a ++ sol l b := by
  rcases h with rfl | ⟨a', c, hc, rfl⟩
  · simp
  · rw [List.append_assoc, List.singleton_append, sol_append_sep l a' b hc,
      sol_append_sep l a' [] hc]
    simp

theorem sol_opens {l b : PyStr} (a : PyStr) (h : Opens l b) : sol l (a ++ b) = sol l a ++ sol l b := by
  rcases h with rfl | ⟨c, b', hc, rfl⟩
  · simp
  · rw [sol_append_sep l a b' hc, sol_sep l b' hc]

/-- The pieces that are not blank. -/
def nb (ps : List PyStr) : List PyStr := ps.filter (fun t => !blank t)

@[simp] theorem nb_nil : nb [] = [] := rfl
@[simp] theorem nb_append (a b : List PyStr) : nb (a ++ b) = nb a ++ nb b := List.filter_append ..

/-- The non-blank tokens of the text put together from the pieces are the non-blank pieces. -/
def Good (l : PyStr) (ps : List PyStr) : Prop := sol l ps.flatten = nb ps

theorem Good.nil (l : PyStr) : Good l [] := by simp [Good]

theorem Good.append {l : PyStr} {ps qs : List PyStr} (hp : Good l ps) (hq : Good l qs)
    (h : Closed l ps.flatten ∨ Opens l qs.flatten) : Good l (ps ++ qs) := by
  unfold Good at *
  rw [List.flatten_append, nb_append, ← hp, ← hq]
  rcases h with h | h
  · exact sol_closed _ h
  · exact sol_opens _ h

theorem Closed.append {l : PyStr} {a b : PyStr} (h : Closed l b) (hb : b ≠ []) : Closed l (a ++ b) := by
  rcases h with rfl | ⟨b', c, hc, rfl⟩
  · exact absurd rfl hb
  · exact Or.inr ⟨a ++ b', c, hc, by simp⟩

theorem Closed.append' {l : PyStr} {a b : PyStr} (ha : Closed l a) (h : Closed l b) : Closed l (a ++ b) := by
  by_cases hb : b = []
  · subst hb; simpa using ha
  · exact h.append hb

/-- The items of a run as texts. -/
def Solo (l : PyStr) (x : PyStr) : Prop := sol l x = [x] ∧ blank x = false

theorem space_sep (l : PyStr) : sepChar l 32 = true := sepChar_of_space l (by decide)

theorem good_spaced {l : PyStr} (xs : List PyStr) (h : ∀ x ∈ xs, Solo l x) :
    Good l (xs.flatMap (fun n => [n, u!" "])) ∧ Closed l (xs.flatMap (fun n => [n, u!" "])).flatten := by
  induction xs with
  | nil => exact ⟨by simp [Good], Or.inl (by simp)⟩
  | cons x xs ih =>
    obtain ⟨h1, h2⟩ := ih (fun y hy => h y (List.mem_cons_of_mem _ hy))
    obtain ⟨hx1, hx2⟩ := h x List.mem_cons_self
    rw [List.flatMap_cons]
    have hb : blank u!" " = true := by decide
    have hg : Good l [x, u!" "] := by
      unfold Good nb
      simp only [List.flatten_cons, List.flatten_nil, List.append_nil, List.filter_cons, hx2, hb]
      rw [sol_append_space l x [] (by decide), hx1]; simp
    have hc : Closed l [x, u!" "].flatten := Or.inr ⟨x, 32, space_sep l, by simp⟩
    refine ⟨hg.append h1 (Or.inl hc), ?_⟩
    rw [List.flatten_append]
    exact hc.append' h2

theorem good_spaced_pop {l : PyStr} (xs : List PyStr) (h : ∀ x ∈ xs, Solo l x) :
    Good l (xs.flatMap (fun n => [n, u!" "])).dropLast := by
  rcases List.eq_nil_or_concat xs with rfl | ⟨ys, y, rfl⟩
  · exact Good.nil l
  · have h1 := good_spaced ys (fun z hz => h z (by simp [hz]))
    have hy := h y (by simp)
    have : ((ys.concat y).flatMap (fun n => [n, u!" "])).dropLast = ys.flatMap (fun n => [n, u!" "]) ++ [y] := by
      rw [List.concat_eq_append, List.flatMap_append]
      simp only [List.flatMap_cons, List.flatMap_nil, List.append_nil]
      rw [List.dropLast_append_of_ne_nil (by simp)]
      rfl
    rw [this]
    refine h1.1.append ?_ (Or.inl h1.2)
    unfold Good nb
    simp [hy.1, hy.2]

theorem digits_solo (l : PyStr) (n : Nat) : Solo l (decDigits n) := by
  obtain ⟨h1, h2⟩ := decDigits_isDigit n
  have hb : blank (decDigits n) = false := by
    cases hd : decDigits n with
    | nil => exact absurd hd h1
    | cons c cs =>
      have hc := h2 c (by rw [hd]; exact List.mem_cons_self)
      exact not_blank_of_mem (c := c) List.mem_cons_self (isSpace_ascii_digit hc)
  exact ⟨sol_word l (fun c hc => sepChar_word l (digit_word (h2 c hc))) hb, hb⟩

theorem skip_solo {l : PyStr} {ld : LangData} (h : languageData l = .ok ld) {t : PyStr} (ht : isSkipToken t ld = true) :
    Solo l t := by
  have hck : ∀ (l : PyStr) (i : Info), (mkLangData i).skipTokens.all (fun t => decide (sol l t = [t]) && !blank t) = true →
      isSkipToken t (mkLangData i) = true → Solo l t := by
    intro l i hc ht
    have := List.all_eq_true.mp hc t (List.elem_iff.mp ht)
    simp at this
    exact this
  rcases (languageData_ok_iff l ld).mp h with ⟨rfl, rfl⟩ | ⟨rfl, rfl⟩ | ⟨rfl, rfl⟩ | ⟨rfl, rfl⟩ | ⟨rfl, rfl⟩
  · exact hck _ _ (by decide +kernel) ht
  · exact hck _ _ (by decide +kernel) ht
  · exact hck _ _ (by decide +kernel) ht
  · exact hck _ _ (by decide +kernel) ht
  · exact hck _ _ (by decide +kernel) ht

theorem skip_noshy {l : PyStr} {ld : LangData} (hl : languageData l = .ok ld) {t : PyStr} (ht : isSkipToken t ld = true) :
    ∀ c ∈ t, c ≠ 0xad := by
  intro c hc e
  subst e
  have hck : ∀ (i : Info), (mkLangData i).skipTokens.all (fun t => !t.elem 0xad) = true →
      isSkipToken t (mkLangData i) = true → False := by
    intro i h1 h2
    have := List.all_eq_true.mp h1 t (List.elem_iff.mp h2)
    rw [List.elem_iff.mpr hc] at this; cases this
  rcases (languageData_ok_iff l ld).mp hl with ⟨rfl, rfl⟩ | ⟨rfl, rfl⟩ | ⟨rfl, rfl⟩ | ⟨rfl, rfl⟩ | ⟨rfl, rfl⟩
  · exact hck _ (by decide +kernel) ht
  · exact hck _ (by decide +kernel) ht
  · exact hck _ (by decide +kernel) ht
  · exact hck _ (by decide +kernel) ht
  · exact hck _ (by decide +kernel) ht

/-- Neither a cardinal nor an ordinal -/
def NoNum (ld : LangData) (t : PyStr) : Prop := isNumberToken t ld = none ∧ ld.allNumbers.mem t = false

/-- What the lemmas below need of the data of a language. -/
structure OutOK (l : PyStr) (ld : LangData) : Prop where
  builds : ld.Builds
  skipSolo : ∀ t, isSkipToken t ld = true → Solo l t
  skipShy : ∀ t, isSkipToken t ld = true → ∀ c ∈ t, c ≠ 0xad
  skipNorm : ∀ t, isSkipToken t ld = true → norm t = t
  skipNumber : ∀ t, isSkipToken t ld = true → NoNum ld t
  blankNo : ∀ t, blank t = true → NoNum ld t
  sepNo : ∀ t, SENTENCE_SEPARATORS.elem t = true → NoNum ld t
  nonwordNo : ∀ t, (∀ c ∈ t, isWord c = false) → NoNum ld (norm t)
  digitsNo : ∀ n, NoNum ld (norm (decDigits n))

theorem noNum_iff {ld : LangData} (hw : ld.WF) {t : PyStr} : NoNum ld t ↔ isNumberToken t ld = none := by
  refine ⟨fun h => h.1, fun h => ⟨h, ?_⟩⟩
  cases hm : ld.allNumbers.mem t with
  | false => rfl
  | true => rw [number_of_mem hw hm] at h; cases h

theorem outOK_supported {l : PyStr} {ld : LangData} (h : languageData l = .ok ld) : OutOK l ld where
  builds := (languageData_wf h).builds
  skipSolo := fun _ ht => skip_solo h ht
  skipShy := fun _ ht => skip_noshy h ht
  skipNorm := fun _ ht => skip_norm (languageData_wf h) ht
  skipNumber := fun _ ht => (noNum_iff (languageData_wf h)).mpr (skip_number (languageData_wf h) ht)
  blankNo := fun _ ht => (noNum_iff (languageData_wf h)).mpr (blank_not_number h ht).1
  sepNo := fun _ ht => (noNum_iff (languageData_wf h)).mpr (sep_not_number h ht).1
  nonwordNo := fun _ ht => (noNum_iff (languageData_wf h)).mpr (nonword_not_number h ht)
  digitsNo := fun n => (noNum_iff (languageData_wf h)).mpr (numeric_not_number h (fun c hc => digit_numeric ((decDigits_isDigit n).2 c hc))).1

theorem classify_cardX {ld : LangData} (t : PyStr) (hn : NoNum ld (norm t)) (w : PyStr) : classify ld t ≠ .card w := by
  intro hc
  have := (classify_card_mem hc).2
  rw [hn.2] at this; cases this

theorem classify_word_mem {ld : LangData} {t : PyStr} (h : classify ld t = .word) : ld.allNumbers.mem (norm t) = false := by
  unfold classify at h
  simp only at h
  split at h
  · cases h
  · split at h
    · cases h
    · split at h
      · cases h
      · split at h
        · cases h
        · rename_i hm; simpa using hm

theorem classify_casesX {ld : LangData} {t : PyStr} (hn : NoNum ld (norm t)) :
    classify ld t = .blank ∨ classify ld t = .sep ∨ (∃ w, classify ld t = .skip w) ∨ classify ld t = .word := by
  cases hc : classify ld t with
  | blank => simp
  | sep => simp
  | ord w => exact absurd hc (classify_number t hn.1 w)
  | card w => exact absurd hc (classify_cardX t hn w)
  | skip w => simp
  | word => simp

theorem items_solo {l : PyStr} {ld : LangData} (h : OutOK l ld) (ts : List PyStr) :
    ∀ x ∈ (buildItems ld ts).map renderPure, Solo l x := by
  intro x hx
  obtain ⟨i, hi, rfl⟩ := List.mem_map.mp hx
  cases i with
  | num n => exact digits_solo l n
  | skip t => exact h.skipSolo t (buildItems_skip ld ts t hi)

theorem nums_good {l : PyStr} {ld : LangData} (h : OutOK l ld) (ts : List PyStr) :
    Good l (nums ld ts) ∧ Closed l (nums ld ts).flatten := by
  unfold nums
  split
  · exact ⟨Good.nil l, Or.inl rfl⟩
  · exact good_spaced _ (items_solo h ts)

theorem flushed_good {l : PyStr} {ld : LangData} (h : OutOK l ld) (ts : List PyStr) (pop : Bool) :
    Good l (flushed ld ts pop) := by
  unfold flushed
  split
  · unfold nums
    split
    · exact Good.nil l
    · exact good_spaced_pop _ (items_solo h ts)
  · exact (nums_good h ts).1

theorem flushedWord_good {l : PyStr} {ld : LangData} (h : OutOK l ld) (ts : List PyStr) :
    Good l (flushedWord ld ts) ∧ Closed l (flushedWord ld ts).flatten := by
  unfold flushedWord
  split
  · rename_i last hl
    split
    · rename_i hk
      have h1 := nums_good h ts.dropLast
      have h2 := good_spaced (l := l) [last] (by simpa using h.skipSolo _ hk)
      refine ⟨h1.1.append h2.1 (Or.inl h1.2), ?_⟩
      rw [List.flatten_append]
      exact h1.2.append' h2.2
    · exact nums_good h ts
  · exact ⟨Good.nil l, Or.inl rfl⟩

/-! ### Word tokens and separator tokens -/

def WordTok (l t : PyStr) : Prop := ∀ c ∈ t, sepChar l c = false

structure SepTok (l t : PyStr) : Prop where
  ne : t ≠ []
  sep : ∀ c ∈ t, sepChar l c = true
  one : Good l [t]
  hi : l = u!"hi" → ∀ c ∈ t, isSpace c = true

inductive Alt (l : PyStr) : Bool → List PyStr → Prop where
  | nil (k : Bool) : Alt l k []
  | word {t : PyStr} {ts : List PyStr} : WordTok l t → Alt l false ts → Alt l true (t :: ts)
  | sep {t : PyStr} {ts : List PyStr} : SepTok l t → Alt l true ts → Alt l false (t :: ts)

theorem alt_of_wordTokens {l : PyStr} (hl : l ≠ u!"hi") {ts : List PyStr} (h : WordTokens ts) : Alt l true ts := by
  induction h with
  | last hw => exact .word (fun c hc => sepChar_word l (hw c hc)) (.nil _)
  | @cons w c ts hw hc _ ih =>
    refine .word (fun c hc => sepChar_word l (hw c hc)) (.sep ?_ ih)
    have hs : sepChar l c = true := by
      unfold sepChar
      rw [if_neg (fun h => hl ((re_bug l).mp h)), hc]; rfl
    refine ⟨by simp, by simpa using hs, ?_, fun h => absurd h hl⟩
    unfold Good nb
    simp only [List.flatten_cons, List.flatten_nil, List.append_nil]
    rw [sol_eq, hd_cons, if_pos hs, stl_cons]
    by_cases hsp : isSpace c = true
    · simp [hsp, blank_cons]
    · simp only [Bool.not_eq_true] at hsp
      simp [hsp, hs, blank_cons]

theorem alt_of_spaceTokens {ts : List PyStr} (h : SpaceTokens ts) : Alt u!"hi" true ts := by
  have hw : ∀ c, isSpace c = false → sepChar u!"hi" c = false := fun c hc => by unfold sepChar; rw [if_pos (by decide)]; exact hc
  induction h with
  | last h => exact .word (fun c hc => hw c (h c hc)) (.nil _)
  | @cons w g w' ts h hne hg _ _ ih =>
    refine .word (fun c hc => hw c (h c hc)) (.sep ⟨hne, fun c hc => sepChar_of_space _ (hg c hc), ?_, fun _ => hg⟩ ih)
    have hb : blank g = true := by rw [blank_iff, List.all_eq_true]; exact hg
    unfold Good nb
    simp [hb, sol_blank _ hb]

theorem alt_tokenize (l s : PyStr) : Alt l true (tokenize s l) := by
  have h := (tokens_tokenize l s).2
  by_cases hl : l = u!"hi"
  · rw [if_pos hl] at h; subst hl; exact alt_of_spaceTokens h
  · rw [if_neg hl] at h; exact alt_of_wordTokens hl h

theorem wordTok_good {l t : PyStr} (h : WordTok l t) : Good l [t] := by
  unfold Good nb
  simp only [List.flatten_cons, List.flatten_nil, List.append_nil]
  by_cases hb : blank t = true
  · rw [sol_blank l hb]; simp [hb]
  · simp only [Bool.not_eq_true] at hb
    rw [sol_word l h hb]; simp [hb]

theorem SepTok.opens {l t : PyStr} (h : SepTok l t) : Opens l t := by
  cases t with
  | nil => exact absurd rfl h.ne
  | cons c cs => exact Or.inr ⟨c, cs, h.sep c List.mem_cons_self, rfl⟩

theorem SepTok.closed {l t : PyStr} (h : SepTok l t) : Closed l t := by
  rcases List.eq_nil_or_concat t with rfl | ⟨a, c, rfl⟩
  · exact absurd rfl h.ne
  · exact Or.inr ⟨a, c, h.sep c (by simp), by simp⟩

theorem SepTok.not_number {l t : PyStr} {ld : LangData} (hl : OutOK l ld) (h : SepTok l t) :
    NoNum ld (norm t) := by
  apply hl.nonwordNo
  intro c hc
  by_cases hi : l = u!"hi"
  · exact space_not_word (h.hi hi c hc)
  · have := h.sep c hc
    unfold sepChar at this
    rw [if_neg (fun h => hi ((re_bug l).mp h))] at this
    simpa using this

/-- A sentence separator is a word token only in Hindi. -/
theorem wordTok_not_sep {l t : PyStr} (hi : l ≠ u!"hi") (h : WordTok l t) : SENTENCE_SEPARATORS.elem (norm t) = false := by
  have hw : ∀ c ∈ t, isWord c = true := by
    intro c hc
    have := h c hc
    unfold sepChar at this
    rw [if_neg (fun h => hi ((re_bug l).mp h))] at this
    simpa using this
  have hns := norm_nosep (t := t) (fun c hc => ⟨fun e => by
      have := hw c hc; rw [e] at this; revert this; decide +kernel, fun e => by
      have := hw c hc; rw [e] at this; revert this; decide +kernel⟩)
  cases he : SENTENCE_SEPARATORS.elem (norm t) with
  | false => rfl
  | true =>
    have := List.elem_iff.mp he
    simp only [SENTENCE_SEPARATORS, List.mem_cons, List.not_mem_nil, or_false] at this
    rcases this with e | e
    · have := hns 46 (by rw [e]; simp); simp at this
    · have := hns 44 (by rw [e]; simp); simp at this

/-- Invariant of the loop of `parse`; `k` says that the next token is a word token. -/
structure OutInv (l : PyStr) (k : Bool) (q : QState) : Prop where
  good : Good l q.out
  closed : q.taken ≠ [] ∨ k = true → Closed l q.out.flatten
  pop : l = u!"hi" → k = true → q.taken ≠ [] → q.pop = false

theorem outInv_init (l : PyStr) : OutInv l true QState.init := ⟨Good.nil l, fun _ => Or.inl rfl, fun _ _ h => absurd rfl h⟩

theorem outInv_word {l : PyStr} {ld : LangData} (hl : OutOK l ld) {q : QState} (h : OutInv l true q)
    {t : PyStr} (ht : WordTok l t) : OutInv l false (stepQ ld q t) := by
  have hc := h.closed (Or.inr rfl)
  have hg := wordTok_good ht
  unfold stepQ
  cases hcl : classify ld t with
  | blank =>
    simp only
    split
    · exact ⟨h.good.append hg (Or.inl hc), fun h' => by rcases h' with h' | h' <;> simp_all, by simp⟩
    · exact ⟨h.good, fun _ => hc, by simp⟩
  | sep =>
    simp only
    by_cases hi : l = u!"hi"
    · have hf : Good l (flushed ld q.taken q.pop) ∧ Closed l (flushed ld q.taken q.pop).flatten := by
        by_cases hte : q.taken = []
        · rw [hte]; unfold flushed nums; cases q.pop <;> exact ⟨Good.nil l, Or.inl rfl⟩
        · rw [h.pop hi rfl hte]; exact nums_good hl _
      refine ⟨(h.good.append hf.1 (Or.inl hc)).append hg (Or.inl ?_), by simp, by simp⟩
      rw [List.flatten_append]; exact hc.append' hf.2
    · have := wordTok_not_sep hi ht
      rw [classify_sep hcl] at this; cases this
  | ord w =>
    exact ⟨h.good.append (flushed_good hl _ _) (Or.inl hc), by simp, by simp⟩
  | card w => exact ⟨h.good, fun _ => hc, by simp⟩
  | skip w =>
    simp only
    split
    · exact ⟨h.good.append hg (Or.inl hc), fun h' => by rcases h' with h' | h' <;> simp_all, by simp⟩
    · exact ⟨h.good, fun _ => hc, by simp⟩
  | word =>
    have hf := flushedWord_good hl q.taken
    refine ⟨(h.good.append hf.1 (Or.inl hc)).append hg (Or.inl ?_), by simp, by simp⟩
    rw [List.flatten_append]; exact hc.append' hf.2

theorem outInv_sep {l : PyStr} {ld : LangData} (hl : OutOK l ld) {q : QState} (h : OutInv l false q)
    {t : PyStr} (ht : SepTok l t) : OutInv l true (stepQ ld q t) := by
  have hg := ht.one
  have happ : ∀ a : List PyStr, Closed l (a ++ [t]).flatten := by
    intro a
    rw [List.flatten_append]
    exact Closed.append (by simpa using ht.closed) (by simpa using ht.ne)
  have hop : Opens l [t].flatten := by simpa using ht.opens
  have hnum := ht.not_number hl
  have hhi : l = u!"hi" → classify ld t = .blank := by
    intro hi
    rw [classify_blank]
    apply blank_norm
    rw [blank_iff, List.all_eq_true]; exact ht.hi hi
  unfold stepQ
  cases hcl : classify ld t with
  | blank =>
    simp only
    split
    · rename_i he
      exact ⟨h.good.append hg (Or.inr hop), fun _ => happ _, fun _ _ hne => absurd (List.isEmpty_iff.mp he) hne⟩
    · rename_i he
      exact ⟨h.good, fun _ => h.closed (Or.inl (fun e => he (by rw [e]; rfl))), fun _ _ _ => rfl⟩
  | sep =>
    simp only
    by_cases hte : q.taken = []
    · refine ⟨?_, fun _ => happ _, by simp⟩
      rw [hte]
      have : flushed ld [] q.pop = [] := by unfold flushed nums; cases q.pop <;> rfl
      rw [this, List.append_nil]
      exact h.good.append hg (Or.inr hop)
    · exact ⟨(h.good.append (flushed_good hl _ _) (Or.inl (h.closed (Or.inl hte)))).append hg (Or.inr hop),
        fun _ => happ _, by simp⟩
  | ord w => exact absurd hcl (classify_number t hnum.1 w)
  | card w => exact absurd hcl (classify_cardX t hnum w)
  | skip w =>
    simp only
    split
    · rename_i he
      exact ⟨h.good.append hg (Or.inr hop), fun _ => happ _, fun _ _ hne => absurd (List.isEmpty_iff.mp he) hne⟩
    · rename_i he
      refine ⟨h.good, fun _ => h.closed (Or.inl (fun e => he (by rw [e]; rfl))), fun hi => ?_⟩
      rw [hhi hi] at hcl; cases hcl
  | word =>
    have hf := flushedWord_good hl q.taken
    refine ⟨?_, fun _ => happ _, by simp⟩
    by_cases hte : q.taken = []
    · rw [hte]
      have : flushedWord ld [] = [] := rfl
      simp only [this, List.append_nil]
      exact h.good.append hg (Or.inr hop)
    · exact (h.good.append hf.1 (Or.inl (h.closed (Or.inl hte)))).append hg (Or.inr hop)

theorem outInv_run {l : PyStr} {ld : LangData} (hl : OutOK l ld) {k : Bool} {ts : List PyStr}
    (ha : Alt l k ts) : ∀ q, OutInv l k q → ∃ k', OutInv l k' (runQ ld ts q) := by
  induction ha with
  | nil k => intro q hq; exact ⟨k, hq⟩
  | word ht _ ih => intro q hq; exact ih _ (outInv_word hl hq ht)
  | sep ht _ ih => intro q hq; exact ih _ (outInv_sep hl hq ht)

theorem pieces_good {l : PyStr} {ld : LangData} (hl : OutOK l ld) (s : PyStr) :
    Good l (pieces ld (tokenize s l)) := by
  obtain ⟨k, hq⟩ := outInv_run hl (alt_tokenize l s) _ (outInv_init l)
  unfold pieces finishQ
  by_cases hte : (runQ ld (tokenize s l) QState.init).taken = []
  · rw [hte]; simpa [nums] using hq.good
  · exact hq.good.append (nums_good hl _).1 (Or.inl (hq.closed (Or.inl hte)))

/-! ### What the pieces are -/

theorem flatMap_mem {P : PyStr → Prop} (hs : P u!" ") {xs : List PyStr} (h : ∀ x ∈ xs, P x) :
    ∀ p ∈ xs.flatMap (fun n => [n, u!" "]), P p := by
  intro p hp
  obtain ⟨x, hx, hp⟩ := List.mem_flatMap.mp hp
  simp only [List.mem_cons, List.not_mem_nil, or_false] at hp
  rcases hp with rfl | rfl
  · exact h _ hx
  · exact hs

theorem nums_mem {ld : LangData} {P : PyStr → Prop} (hs : P u!" ") (hn : ∀ n, P (decDigits n))
    (hk : ∀ t, isSkipToken t ld = true → P t) (ts : List PyStr) : ∀ p ∈ nums ld ts, P p := by
  unfold nums
  split
  · simp
  · apply flatMap_mem hs
    intro x hx
    obtain ⟨i, hi, rfl⟩ := List.mem_map.mp hx
    cases i with
    | num n => exact hn n
    | skip t => exact hk t (buildItems_skip ld ts t hi)

theorem flushed_mem {ld : LangData} {P : PyStr → Prop} (hs : P u!" ") (hn : ∀ n, P (decDigits n))
    (hk : ∀ t, isSkipToken t ld = true → P t) (ts : List PyStr) (pop : Bool) : ∀ p ∈ flushed ld ts pop, P p := by
  unfold flushed
  intro p hp
  split at hp
  · exact nums_mem hs hn hk ts p ((List.dropLast_sublist _).subset hp)
  · exact nums_mem hs hn hk ts p hp

theorem flushedWord_mem {ld : LangData} {P : PyStr → Prop} (hs : P u!" ") (hn : ∀ n, P (decDigits n))
    (hk : ∀ t, isSkipToken t ld = true → P t) (ts : List PyStr) : ∀ p ∈ flushedWord ld ts, P p := by
  unfold flushedWord
  intro p hp
  split at hp
  · split at hp
    · rename_i hkl
      simp only [List.mem_append, List.mem_cons, List.not_mem_nil, or_false] at hp
      rcases hp with hp | rfl | rfl
      · exact nums_mem hs hn hk _ p hp
      · exact hk _ hkl
      · exact hs
    · exact nums_mem hs hn hk _ p hp
  · cases hp

/-- Every piece is a numeral, a conjunction, a space or a token that is no number word. -/
theorem pieces_forall {l : PyStr} {ld : LangData} (hl : OutOK l ld) {P : PyStr → Prop}
    (hs : P u!" ") (hn : ∀ n, P (decDigits n))
    (hk : ∀ t, isSkipToken t ld = true → P t) (ts : List PyStr)
    (ht : ∀ t ∈ ts, NoNum ld (norm t) → P t) : ∀ p ∈ pieces ld ts, P p := by
  have hrun : ∀ (ts : List PyStr) (q : QState), (∀ p ∈ q.out, P p) →
      (∀ t ∈ ts, NoNum ld (norm t) → P t) → ∀ p ∈ (runQ ld ts q).out, P p := by
    intro ts
    induction ts with
    | nil => intro q hq _; exact hq
    | cons t ts ih =>
      intro q hq ht
      apply ih _ _ (fun t' ht' => ht t' (List.mem_cons_of_mem _ ht'))
      have ht := ht t List.mem_cons_self
      have happ : ∀ {a b : List PyStr}, (∀ p ∈ a, P p) → (∀ p ∈ b, P p) → ∀ p ∈ a ++ b, P p := by
        intro a b h1 h2 p hp
        rcases List.mem_append.mp hp with hp | hp
        · exact h1 p hp
        · exact h2 p hp
      have hone : NoNum ld (norm t) → ∀ p ∈ [t], P p := by
        intro h p hp
        simp only [List.mem_singleton] at hp
        rw [hp]; exact ht h
      unfold stepQ
      cases hcl : classify ld t with
      | blank =>
        simp only
        split
        · exact happ hq (hone (hl.blankNo _ (classify_blank.mp hcl)))
        · exact hq
      | sep =>
        exact happ (happ hq (flushed_mem hs hn hk _ _)) (hone (hl.sepNo _ (classify_sep hcl)))
      | ord w => exact happ hq (flushed_mem hs hn hk _ _)
      | card w => exact hq
      | skip w =>
        simp only
        split
        · exact happ hq (hone (hl.skipNumber _ (classify_skip_mem hcl).2.1))
        · exact hq
      | word => exact happ (happ hq (flushedWord_mem hs hn hk _)) (hone ⟨(classify_word_not hcl).1, classify_word_mem hcl⟩)
  unfold pieces finishQ
  intro p hp
  rcases List.mem_append.mp hp with hp | hp
  · exact hrun ts _ (by simp [QState.init]) ht p hp
  · exact nums_mem hs hn hk _ p hp

/-! ### Stripping -/

theorem sol_dropWhile (l s : PyStr) : sol l (s.dropWhile isSpace) = sol l s := by
  induction s with
  | nil => rfl
  | cons c cs ih =>
    rw [List.dropWhile_cons]
    split
    · rename_i h
      rw [ih, sol_sep l cs (sepChar_of_space l h), sol_space l h]; rfl
    · rfl

theorem sol_rdropWhile (l s : PyStr) : sol l (rdropWhile isSpace s) = sol l s := by
  unfold rdropWhile
  have : ∀ r : PyStr, sol l (r.dropWhile isSpace).reverse = sol l r.reverse := by
    intro r
    induction r with
    | nil => rfl
    | cons c cs ih =>
      rw [List.dropWhile_cons]
      split
      · rename_i h
        rw [ih, List.reverse_cons, sol_append_space l _ [] h]; simp
      · rfl
  rw [this, List.reverse_reverse]

theorem sol_strip (l s : PyStr) : sol l (strip s) = sol l s := by
  unfold strip; rw [sol_rdropWhile, sol_dropWhile]

theorem dropWhile_head {p : Nat → Bool} (s : PyStr) : ∀ c cs, s.dropWhile p = c :: cs → p c = false := by
  induction s with
  | nil => simp
  | cons d ds ih =>
    intro c cs h
    rw [List.dropWhile_cons] at h
    split at h
    · exact ih c cs h
    · cases h; simp_all

/-- The characteristic property of `strip`: white space around, none at the ends. -/
theorem strip_spec (s : PyStr) : ∃ a b, s = a ++ strip s ++ b ∧ (∀ c ∈ a, isSpace c = true) ∧ (∀ c ∈ b, isSpace c = true)
    ∧ (∀ c cs, strip s = c :: cs → isSpace c = false) ∧ (∀ c cs, strip s = cs ++ [c] → isSpace c = false) := by
  have h1 : ∀ s : PyStr, s = s.takeWhile isSpace ++ s.dropWhile isSpace := fun s => List.takeWhile_append_dropWhile.symm
  have htw : ∀ (s : PyStr), ∀ c ∈ s.takeWhile isSpace, isSpace c = true := by
    intro s
    induction s with
    | nil => simp
    | cons d ds ih =>
      intro c hc
      rw [List.takeWhile_cons] at hc
      split at hc
      · rcases List.mem_cons.mp hc with rfl | hc
        · assumption
        · exact ih c hc
      · cases hc
  let t := s.dropWhile isSpace
  have h2 : t = rdropWhile isSpace t ++ (t.reverse.takeWhile isSpace).reverse := by
    unfold rdropWhile
    rw [← List.reverse_append, List.takeWhile_append_dropWhile, List.reverse_reverse]
  refine ⟨s.takeWhile isSpace, (t.reverse.takeWhile isSpace).reverse, ?_, htw s, fun c hc => htw _ c (List.mem_reverse.mp hc), ?_, ?_⟩
  · rw [List.append_assoc]
    show s = s.takeWhile isSpace ++ (rdropWhile isSpace t ++ _)
    rw [← h2]; exact h1 s
  · intro c cs hcs
    have : t = c :: (cs ++ (t.reverse.takeWhile isSpace).reverse) := by
      have h3 : rdropWhile isSpace t = c :: cs := hcs
      rw [h3] at h2; simpa using h2
    exact dropWhile_head s c _ this
  · intro c cs hcs
    have h3 : rdropWhile isSpace t = cs ++ [c] := hcs
    unfold rdropWhile at h3
    have h4 : t.reverse.dropWhile isSpace = c :: cs.reverse := by
      have := congrArg List.reverse h3; simpa using this
    exact dropWhile_head _ c _ h4

theorem strip_id {s : PyStr} (h1 : ∀ c cs, s = c :: cs → isSpace c = false) (h2 : ∀ c cs, s = cs ++ [c] → isSpace c = false) :
    strip s = s := by
  unfold strip
  have e1 : s.dropWhile isSpace = s := by
    cases s with
    | nil => rfl
    | cons c cs => rw [List.dropWhile_cons, h1 c cs rfl]; simp
  rw [e1]
  unfold rdropWhile
  rcases List.eq_nil_or_concat s with rfl | ⟨a, c, rfl⟩
  · rfl
  · rw [List.concat_eq_append, List.reverse_append]
    simp only [List.reverse_cons, List.reverse_nil, List.nil_append, List.singleton_append]
    rw [List.dropWhile_cons, h2 c a (by simp)]; simp

theorem strip_strip (s : PyStr) : strip (strip s) = strip s := by
  obtain ⟨a, b, _, _, _, h1, h2⟩ := strip_spec s
  exact strip_id h1 h2

theorem mem_of_strip {s : PyStr} {c : Nat} (h : c ∈ strip s) : c ∈ s := by
  obtain ⟨a, b, hs, _⟩ := strip_spec s
  rw [hs]; simp [h]

theorem noShy_mem {s : PyStr} (h : ∀ c ∈ s, c ≠ 0xad) : noShy s = s := by
  unfold noShy; rw [List.filter_eq_self]; intro c hc; simpa using h c hc

theorem token_chars {l s t : PyStr} (ht : t ∈ tokenize s l) : ∀ c ∈ t, c ∈ noShy s := by
  intro c hc
  have := (tokens_tokenize l s).1
  have h2 : withoutSoftHyphens s = noShy s := rfl
  rw [← h2, ← this]
  exact List.mem_flatten.mpr ⟨t, ht, hc⟩

/-- No soft hyphen in the output. -/
theorem pieces_noshy {l : PyStr} {ld : LangData} (hl : OutOK l ld) (s : PyStr) :
    ∀ p ∈ pieces ld (tokenize s l), ∀ c ∈ p, c ≠ 0xad := by
  apply pieces_forall hl (P := fun p => ∀ c ∈ p, c ≠ 0xad)
  · decide
  · intro n c hc
    have := (decDigits_isDigit n).2 c hc; omega
  · intro t ht c hc; exact hl.skipShy t ht c hc
  · intro t ht _ c hc e
    have := token_chars ht c hc
    subst e
    simp [noShy] at this

/-- The output, its non-blank tokens. -/
theorem output_solX {l : PyStr} {ld : LangData} (hl : OutOK l ld) (s out : PyStr)
    (h : out = strip (pieces ld (tokenize s l)).flatten) :
    noShy out = out ∧ strip out = out ∧ sol l out = nb (pieces ld (tokenize s l)) := by
  subst h
  refine ⟨noShy_mem ?_, strip_strip _, ?_⟩
  · intro c hc
    obtain ⟨p, hp, hcp⟩ := List.mem_flatten.mp (mem_of_strip hc)
    exact pieces_noshy hl s p hp c hcp
  · rw [sol_strip]; exact pieces_good hl s

theorem output_sol {l : PyStr} {ld : LangData} (hl : languageData l = .ok ld) (s out : PyStr)
    (h : parse s (some l) = .ok out) :
    noShy out = out ∧ strip out = out ∧ sol l out = nb (pieces ld (tokenize s l)) := by
  rw [parse_eq hl] at h
  cases h
  exact output_solX (outOK_supported hl) s _ rfl

/-- No token of the output is a number word. -/
theorem output_tokensX {l : PyStr} {ld : LangData} (hl : OutOK l ld) (s out : PyStr)
    (h : out = strip (pieces ld (tokenize s l)).flatten) : ∀ t ∈ tokenize out l, NoNum ld (norm t) := by
  obtain ⟨h1, _, h3⟩ := output_solX hl s out h
  intro t ht
  rw [tokenize_eq, h1] at ht
  cases hb : blank t with
  | true => exact hl.blankNo _ (blank_norm hb)
  | false =>
    have hs : t ∈ sol l out := List.mem_filter.mpr ⟨ht, by rw [hb]; rfl⟩
    rw [h3] at hs
    have hp := (List.mem_filter.mp hs).1
    refine pieces_forall hl (P := fun p => NoNum ld (norm p)) ?_ ?_ ?_ _ (fun _ _ h => h) t hp
    · exact hl.blankNo _ (by decide)
    · intro n
      exact hl.digitsNo n
    · intro k hk
      rw [hl.skipNorm k hk]; exact hl.skipNumber k hk

theorem output_tokens {l : PyStr} {ld : LangData} (hl : languageData l = .ok ld) (s out : PyStr)
    (h : parse s (some l) = .ok out) : ∀ t ∈ tokenize out l, isNumberToken (norm t) ld = none := by
  rw [parse_eq hl] at h
  cases h
  exact fun t ht => (output_tokensX (outOK_supported hl) s _ rfl t ht).1

/-- Texts without number words are left alone. -/
theorem pieces_plain {ld : LangData} (ts : List PyStr)
    (h : ∀ t ∈ ts, NoNum ld (norm t)) : pieces ld ts = ts := by
  have : ∀ (ts : List PyStr) (q : QState), q.taken = [] → (∀ t ∈ ts, NoNum ld (norm t)) →
      (runQ ld ts q).out = q.out ++ ts ∧ (runQ ld ts q).taken = [] := by
    intro ts
    induction ts with
    | nil => intro q hq _; exact ⟨by simp [runQ], hq⟩
    | cons t ts ih =>
      intro q hq hts
      have hstep : (stepQ ld q t).out = q.out ++ [t] ∧ (stepQ ld q t).taken = [] := by
        unfold stepQ
        have he : q.taken.isEmpty = true := by rw [hq]; rfl
        rcases classify_casesX (hts t List.mem_cons_self) with hc | hc | ⟨w, hc⟩ | hc <;> rw [hc]
        · simp [hq]
        · have : flushed ld [] q.pop = [] := by unfold flushed nums; cases q.pop <;> rfl
          simp [hq, this]
        · simp [hq]
        · simp [hq, flushedWord]
      obtain ⟨h1, h2⟩ := ih (stepQ ld q t) hstep.2 (fun t' ht' => hts t' (List.mem_cons_of_mem _ ht'))
      refine ⟨?_, h2⟩
      show (runQ ld ts (stepQ ld q t)).out = _
      rw [h1, hstep.1]; simp
  obtain ⟨h1, h2⟩ := this ts QState.init rfl h
  unfold pieces finishQ
  rw [h1, h2]; simp [QState.init, nums]

theorem parse_plain {l : PyStr} {ld : LangData} (hl : languageData l = .ok ld) (s : PyStr)
    (h : ∀ t ∈ tokenize s l, isNumberToken (norm t) ld = none) : parse s (some l) = .ok (strip (noShy s)) := by
  rw [parse_eq hl, pieces_plain _ (fun t ht => (noNum_iff (languageData_wf hl)).mpr (h t ht)), (tokens_tokenize l s).1]; rfl

end NumberParser
