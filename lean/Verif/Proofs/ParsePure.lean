import Verif.Proofs.NumberWords

/-! `parse` as a pure machine over classified tokens. -/

set_option linter.unusedSimpArgs false

namespace NumberParser

/-- How `parse` treats a token. -/
inductive Cls where
  | blank
  | sep
  | ord (w : PyStr)
  | card (w : PyStr)
  | skip (w : PyStr)
  | word
  deriving DecidableEq, Repr

/-- Classification of a token by its comparison form. -/
def classify (ld : LangData) (t : PyStr) : Cls :=
  let cmp := norm t
  if blank cmp then .blank
  else if SENTENCE_SEPARATORS.elem cmp then .sep
  else match isOrdinalToken cmp ld with
    | some w => .ord w
    | none =>
      if ld.allNumbers.mem cmp then .card cmp
      else if isSkipToken cmp ld then .skip cmp
      else .word

/-- The pieces appended for a run of number tokens: every item followed by a space. -/
def nums (ld : LangData) (ts : List PyStr) : List PyStr :=
  if ts.isEmpty then [] else ((buildItems ld ts).map renderPure).flatMap (fun n => [n, u!" "])

structure QState where
  out : List PyStr
  taken : List PyStr
  pop : Bool
  deriving DecidableEq, Repr

def QState.init : QState := ⟨[], [], true⟩

/-- Pieces for the pending run, with or without the last space. -/
def flushed (ld : LangData) (ts : List PyStr) (pop : Bool) : List PyStr :=
  if pop then (nums ld ts).dropLast else nums ld ts

/-- Pieces for the pending run before an ordinary word; a final skip token is kept. -/
def flushedWord (ld : LangData) (ts : List PyStr) : List PyStr :=
  match ts.getLast? with
  | some last => if isSkipToken last ld then nums ld ts.dropLast ++ [last, u!" "] else nums ld ts
  | none => []

def stepQ (ld : LangData) (s : QState) (t : PyStr) : QState :=
  match classify ld t with
  | .blank => if s.taken.isEmpty then { s with out := s.out ++ [t], pop := true } else { s with pop := false }
  | .sep => { s with out := s.out ++ flushed ld s.taken s.pop ++ [t], taken := [] }
  | .ord w => { out := s.out ++ flushed ld (s.taken ++ [w]) true, taken := [], pop := true }
  | .card w => { s with taken := s.taken ++ [w], pop := true }
  | .skip w =>
    if s.taken.isEmpty then { s with out := s.out ++ [t], pop := true }
    else { s with taken := s.taken ++ [w], pop := true }
  | .word => { out := s.out ++ flushedWord ld s.taken ++ [t], taken := [], pop := true }

def runQ (ld : LangData) (ts : List PyStr) (s : QState) : QState := ts.foldl (stepQ ld) s

def finishQ (ld : LangData) (s : QState) : List PyStr := s.out ++ nums ld s.taken

/-- The pieces of the unstripped output of `parse`. -/
def pieces (ld : LangData) (ts : List PyStr) : List PyStr := finishQ ld (runQ ld ts QState.init)

/-- A pending run consists of number words and skip tokens and starts with a number word. -/
def RunOK (ld : LangData) (ts : List PyStr) : Prop :=
  (∀ t ∈ ts, ld.allNumbers.mem t = true ∨ isSkipToken t ld = true) ∧
    ∀ t, ts.head? = some t → ld.allNumbers.mem t = true

theorem RunOK.tok {ld : LangData} {ts : List PyStr} (h : RunOK ld ts) : ∀ t ∈ ts, TokOK ld t :=
  fun t ht => (h.1 t ht).elim (fun h => Or.inr (Or.inr h)) (fun h => Or.inr (Or.inl h))

theorem RunOK.nil (ld : LangData) : RunOK ld [] := ⟨by simp, by simp⟩

theorem RunOK.snoc_card {ld : LangData} {ts : List PyStr} (h : RunOK ld ts) {w : PyStr}
    (hw : ld.allNumbers.mem w = true) : RunOK ld (ts ++ [w]) := by
  refine ⟨fun t ht => ?_, fun t ht => ?_⟩
  · rcases List.mem_append.mp ht with ht | ht
    · exact h.1 t ht
    · simp at ht; subst ht; exact Or.inl hw
  · cases ts with
    | nil => simp at ht; subst ht; exact hw
    | cons a ts => simp at ht; exact h.2 t (by simp [ht])

theorem RunOK.snoc_skip {ld : LangData} {ts : List PyStr} (h : RunOK ld ts) {w : PyStr}
    (hw : isSkipToken w ld = true) (hne : ts ≠ []) : RunOK ld (ts ++ [w]) := by
  refine ⟨fun t ht => ?_, fun t ht => ?_⟩
  · rcases List.mem_append.mp ht with ht | ht
    · exact h.1 t ht
    · simp at ht; subst ht; exact Or.inr hw
  · cases ts with
    | nil => exact absurd rfl hne
    | cons a ts => simp at ht; exact h.2 t (by simp [ht])

theorem RunOK.dropLast {ld : LangData} {ts : List PyStr} (h : RunOK ld ts) : RunOK ld ts.dropLast := by
  refine ⟨fun t ht => h.1 t ((List.dropLast_sublist _).subset ht), fun t ht => ?_⟩
  apply h.2
  cases ts with
  | nil => simp at ht
  | cons a ts =>
    cases ts with
    | nil => simp at ht
    | cons b ts => simpa using ht

/-- Relation between the model's state and the pure state. -/
def Rel (s : PState) (q : QState) : Prop := q.out = s.final ++ s.current ∧ q.taken = s.taken ∧ q.pop = s.pop

theorem nums_ne_nil {ld : LangData} {ts : List PyStr} (h : ts ≠ []) : nums ld ts ≠ [] := by
  unfold nums
  have : ts.isEmpty = false := by cases ts <;> simp_all
  rw [this]
  obtain ⟨is, n, hi⟩ := buildItems_last ld ts
  rw [hi]; simp

/-- The builder never fails, and no number word is empty. -/
structure LangData.Builds (ld : LangData) : Prop where
  build : ∀ ts, (∀ t ∈ ts, TokOK ld t) → buildNumber ld ts = .ok ((buildItems ld ts).map renderPure)
  nonempty : ∀ t, ld.allNumbers.mem t = true → t ≠ []

theorem LangData.WF.builds {ld : LangData} (h : ld.WF) : ld.Builds where
  build := buildNumber_ok h
  nonempty := fun t ht => by have := key_blank h ht; rintro rfl; simp at this

theorem buildAndAdd_eq {ld : LangData} (h : ld.Builds) (s : PState) (ht : ∀ t ∈ s.taken, TokOK ld t) (pop : Bool) :
    buildAndAdd ld s pop = .ok ⟨s.final, s.current ++ flushed ld s.taken pop, [], s.pop⟩ := by
  unfold buildAndAdd
  by_cases he : s.taken.isEmpty = true
  · rw [if_pos he]
    have : s.taken = [] := List.isEmpty_iff.mp he
    cases s; simp only at this; subst this
    cases pop <;> simp [flushed, nums]
  · rw [if_neg he, h.build _ ht]
    have hn : nums ld s.taken = ((buildItems ld s.taken).map renderPure).flatMap (fun n => [n, u!" "]) := by
      unfold nums; rw [if_neg he]
    have hne : nums ld s.taken ≠ [] := nums_ne_nil (fun h => he (by rw [h]; rfl))
    cases pop
    · simp [bind, Except.bind, pure, Except.pure, flushed, hn]
    · simp only [bind, Except.bind, pure, Except.pure, flushed, if_true]
      rw [← hn, List.dropLast_append_of_ne_nil hne]

theorem truthy_some_of_mem {ld : LangData} (h : ld.Builds) {w : PyStr} (hw : ld.allNumbers.mem w = true) :
    truthy (some w) = true := by
  have hb := h.nonempty w hw
  cases w with
  | nil => exact absurd rfl hb
  | cons c cs => rfl

theorem truthy_cardinal' {ld : LangData} (h : ld.Builds) (t : PyStr) :
    truthy (isCardinalToken t ld) = ld.allNumbers.mem t := by
  unfold isCardinalToken
  by_cases ht : ld.allNumbers.mem t = true
  · rw [if_pos ht, ht]; exact truthy_some_of_mem h ht
  · rw [if_neg ht]; simp [truthy, ht]

theorem ordinal_mem {ld : LangData} {t w : PyStr} (h : isOrdinalToken t ld = some w) : ld.allNumbers.mem w = true := by
  unfold isOrdinalToken isNumberToken isCardinalToken at h
  by_cases h1 : ld.allNumbers.mem t = true
  · rw [if_pos h1] at h; simp at h
  · rw [if_neg h1] at h
    simp only at h
    split at h
    · rename_i h2; cases h; exact h2
    · simp at h

theorem parseStep_eq {ld : LangData} (h : ld.Builds) (s : PState) (q : QState) (hr : Rel s q) (ht : RunOK ld s.taken)
    (t : PyStr) :
    ∃ s', parseStep ld s t = .ok s' ∧ Rel s' (stepQ ld q t) ∧ RunOK ld s'.taken := by
  obtain ⟨hr1, hr2, hr3⟩ := hr
  unfold parseStep stepQ classify
  show ∃ s', (if blank (norm t) = true then _ else _) = _ ∧ _ ∧ _
  by_cases hb : blank (norm t) = true
  · simp only [hb, if_true]
    by_cases he : s.taken.isEmpty = true
    · refine ⟨_, if_pos he, ?_, ht⟩
      rw [hr2, if_pos he]
      exact ⟨by simp [hr1], rfl, rfl⟩
    · refine ⟨_, if_neg he, ?_, ht⟩
      rw [hr2, if_neg he]
      exact ⟨hr1, by rw [← hr2], rfl⟩
  simp only [hb, if_false]
  show ∃ s', (if SENTENCE_SEPARATORS.elem (norm t) = true then _ else _) = _ ∧ _ ∧ _
  by_cases hs : SENTENCE_SEPARATORS.elem (norm t) = true
  · simp only [hs, if_true, buildAndAdd_eq h s ht.tok, bind, Except.bind, pure, Except.pure]
    refine ⟨_, rfl, ⟨?_, rfl, ?_⟩, RunOK.nil ld⟩
    · simp [hr1, hr2, hr3]
    · exact hr3
  simp only [hs, if_false]
  show ∃ s', (if truthy (isOrdinalToken (norm t) ld) = true then _ else _) = _ ∧ _ ∧ _
  cases ho : isOrdinalToken (norm t) ld with
  | some w =>
    have hw := ordinal_mem ho
    have hrun := ht.snoc_card hw
    rw [truthy_some_of_mem h hw]
    have ho' : isOrdinalToken (stripAccents (lower t)) ld = some w := ho
    simp only [if_true, ho', Option.getD_some]
    rw [buildAndAdd_eq h _ hrun.tok]
    refine ⟨_, rfl, ⟨?_, rfl, rfl⟩, RunOK.nil ld⟩
    simp [hr1, hr2]
  | none =>
    have : truthy none = false := rfl
    rw [this]
    simp only [Bool.false_eq_true, if_false]
    show ∃ s', (if (truthy (isCardinalToken (norm t) ld) || (isSkipToken (norm t) ld && !s.taken.isEmpty)) = true then _ else _) = _ ∧ _ ∧ _
    rw [truthy_cardinal' h]
    by_cases hc : ld.allNumbers.mem (norm t) = true
    · simp only [hc, Bool.true_or, if_true]
      exact ⟨_, rfl, ⟨hr1, by simp only [hr2]; rfl, rfl⟩, ht.snoc_card hc⟩
    · simp only [Bool.not_eq_true] at hc
      simp only [hc, Bool.false_or]
      by_cases hk : isSkipToken (norm t) ld = true
      · simp only [hk, Bool.true_and]
        by_cases he : s.taken.isEmpty = true
        · have hte : s.taken = [] := List.isEmpty_iff.mp he
          simp only [he, Bool.not_true, Bool.false_eq_true, if_false]
          simp only [hte, List.getLast?_nil, bind, Except.bind, pure, Except.pure]
          rw [buildAndAdd_eq h s (by rw [hte]; simp)]
          refine ⟨_, rfl, ?_, RunOK.nil ld⟩
          rw [hr2, hte]
          refine ⟨?_, ?_, rfl⟩
          · simp [hr1, hte, flushed, nums]
          · simp [hr2, hte]
        · simp only [he]
          simp only [Bool.not_false, if_true]
          refine ⟨_, rfl, ?_, ht.snoc_skip hk (fun h => he (by rw [h]; rfl))⟩
          simp only [Bool.false_eq_true, if_false]
          rw [hr2, if_neg he]
          exact ⟨hr1, rfl, rfl⟩
      · simp only [Bool.not_eq_true] at hk
        simp only [hk, Bool.false_and, Bool.false_eq_true, if_false]
        simp only [flushedWord, hr2]
        cases hl : s.taken.getLast? with
        | none =>
          have hte : s.taken = [] := List.getLast?_eq_none_iff.mp hl
          simp only [bind, Except.bind, pure, Except.pure]
          rw [buildAndAdd_eq h s ht.tok]
          refine ⟨_, rfl, ⟨?_, rfl, rfl⟩, RunOK.nil ld⟩
          simp [hr1, hte, flushed, nums]
        | some last =>
          by_cases hls : isSkipToken last ld = true
          · simp only [hls, if_true, bind, Except.bind, pure, Except.pure]
            rw [buildAndAdd_eq h _ (by exact ht.dropLast.tok)]
            simp only
            rw [buildAndAdd_eq h _ (by simp)]
            refine ⟨_, rfl, ⟨?_, rfl, rfl⟩, RunOK.nil ld⟩
            simp [hr1, flushed, nums]
          · simp only [Bool.not_eq_true] at hls
            simp only [hls, Bool.false_eq_true, if_false, bind, Except.bind, pure, Except.pure]
            rw [buildAndAdd_eq h s ht.tok]
            refine ⟨_, rfl, ⟨?_, rfl, rfl⟩, RunOK.nil ld⟩
            simp [hr1, flushed]

theorem parseFold_eq {ld : LangData} (h : ld.Builds) (ts : List PyStr) (s : PState) (q : QState) (hr : Rel s q)
    (ht : RunOK ld s.taken) :
    ∃ s', ts.foldlM (parseStep ld) s = .ok s' ∧ Rel s' (runQ ld ts q) ∧ RunOK ld s'.taken := by
  induction ts generalizing s q with
  | nil => exact ⟨s, rfl, hr, ht⟩
  | cons t ts ih =>
    obtain ⟨s1, h1, h2, h3⟩ := parseStep_eq h s q hr ht t
    obtain ⟨s2, h4, h5, h6⟩ := ih s1 (stepQ ld q t) h2 h3
    refine ⟨s2, ?_, h5, h6⟩
    rw [List.foldlM_cons, h1]; exact h4

theorem parseRaw_eq {ld : LangData} (h : ld.Builds) (ts : List PyStr) :
    parseRaw ld ts = .ok (pieces ld ts).flatten := by
  obtain ⟨s, h1, ⟨h2, h3, _⟩, h4⟩ := parseFold_eq h ts PState.init QState.init ⟨rfl, rfl, rfl⟩ (RunOK.nil ld)
  unfold parseRaw
  rw [h1]
  simp only [bind, Except.bind, pure, Except.pure]
  rw [buildAndAdd_eq h s h4.tok]
  simp only [pieces, finishQ, flushed, h2, h3]
  simp

theorem parse_eq {l : PyStr} {ld : LangData} (hl : languageData l = .ok ld) (s : PyStr) :
    parse s (some l) = .ok (strip (pieces ld (tokenize s l)).flatten) := by
  unfold parse
  simp only [resolveLanguage, hl, parseRaw_eq (languageData_wf hl).builds, bind, Except.bind, pure, Except.pure]

/-- The pending run always satisfies `RunOK`. -/
theorem stepQ_run {ld : LangData} (h : ld.WF) (q : QState) (hq : RunOK ld q.taken) (t : PyStr) :
    RunOK ld (stepQ ld q t).taken := by
  obtain ⟨s', _, ⟨_, h2, _⟩, h4⟩ := parseStep_eq h.builds ⟨q.out, [], q.taken, q.pop⟩ q ⟨by simp, rfl, rfl⟩ hq t
  rw [h2]; exact h4

end NumberParser
