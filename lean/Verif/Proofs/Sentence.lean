import Verif.Proofs.Output
import Verif.Proofs.Phrase
import Verif.Spec.Sentence

/-! Runs of number words inside `parse`. -/

set_option linter.unusedSimpArgs false

namespace NumberParser
open Spec

/-! ### Classes from table facts -/

theorem classify_of_card {ld : LangData} (h : ld.WF) {t : PyStr} (ht : ld.allNumbers.mem (norm t) = true) :
    classify ld t = .card (norm t) := by
  unfold classify
  simp only
  rw [if_neg (by rw [key_blank h ht]; simp), if_neg (by rw [key_sep h ht]; simp)]
  have : isOrdinalToken (norm t) ld = none := by
    unfold isOrdinalToken isCardinalToken; rw [if_pos ht]
  rw [this]
  simp only
  rw [if_pos ht]

theorem classify_of_skip {ld : LangData} (h : ld.WF) {t : PyStr} (ht : isSkipToken (norm t) ld = true) :
    classify ld t = .skip (norm t) := by
  unfold classify
  simp only
  rw [if_neg (by rw [skip_blank h ht]; simp), if_neg (by rw [skip_sep h ht]; simp)]
  have : isOrdinalToken (norm t) ld = none := by
    unfold isOrdinalToken
    have : isCardinalToken (norm t) ld = none := by
      unfold isCardinalToken; rw [skip_all h ht]; rfl
    rw [this]; exact skip_number h ht
  rw [this]
  simp only
  rw [if_neg (by rw [skip_all h ht]; simp), if_pos ht]

/-! ### Runs -/

def nbs (ts : List PyStr) : List PyStr := (ts.map norm).filter (fun t => !blank t)

@[simp] theorem nbs_nil : nbs [] = [] := rfl
theorem nbs_append (a b : List PyStr) : nbs (a ++ b) = nbs a ++ nbs b := by simp [nbs]
theorem nbs_cons (t : PyStr) (ts : List PyStr) : nbs (t :: ts) = nbs [t] ++ nbs ts := nbs_append [t] ts

theorem step_card {ld : LangData} (h : ld.WF) (q : QState) {t : PyStr} (ht : ld.allNumbers.mem (norm t) = true) :
    stepQ ld q t = ⟨q.out, q.taken ++ nbs [t], true⟩ := by
  unfold stepQ
  rw [classify_of_card h ht]
  simp [nbs, key_blank h ht]

theorem step_run {ld : LangData} (h : ld.WF) (q : QState) (hq : q.taken ≠ []) {t : PyStr} (ht : tokOkB ld (norm t) = true) :
    stepQ ld q t = ⟨q.out, q.taken ++ nbs [t], !blank (norm t)⟩ := by
  have he : q.taken.isEmpty = false := by cases hq' : q.taken <;> simp_all
  by_cases hb : blank (norm t) = true
  · unfold stepQ
    rw [classify_blank.mpr hb]
    simp [he, nbs, hb]
  · simp only [Bool.not_eq_true] at hb
    unfold tokOkB at ht
    rw [hb, Bool.or_false, Bool.or_eq_true] at ht
    rcases ht with ht | ht
    · rw [step_card h q ht, hb]; rfl
    · unfold stepQ
      rw [classify_of_skip h ht]
      simp [he, nbs, hb]

theorem run_numbers {ld : LangData} (h : ld.WF) (ts : List PyStr) : ∀ (q : QState), q.taken ≠ [] →
    (∀ t ∈ ts, tokOkB ld (norm t) = true) →
    (runQ ld ts q).out = q.out ∧ (runQ ld ts q).taken = q.taken ++ nbs ts ∧
      (∀ t, ts.getLast? = some t → (runQ ld ts q).pop = !blank (norm t)) := by
  induction ts with
  | nil => intro q hq _; exact ⟨rfl, by simp [runQ], by simp⟩
  | cons t ts ih =>
    intro q hq hts
    have hs := step_run h q hq (hts t List.mem_cons_self)
    have hq' : (stepQ ld q t).taken ≠ [] := by rw [hs]; simp [hq]
    obtain ⟨h1, h2, h3⟩ := ih _ hq' (fun t' ht' => hts t' (List.mem_cons_of_mem _ ht'))
    refine ⟨?_, ?_, ?_⟩
    · show (runQ ld ts (stepQ ld q t)).out = _
      rw [h1, hs]
    · show (runQ ld ts (stepQ ld q t)).taken = _
      rw [h2, hs, nbs_cons t ts, List.append_assoc]
    · intro t' ht'
      show (runQ ld ts (stepQ ld q t)).pop = _
      cases ts with
      | nil => simp at ht'; subst ht'; show (stepQ ld q t).pop = _; rw [hs]
      | cons a as => rw [List.getLast?_cons_cons] at ht'; exact h3 t' ht'

/-- A run starting with a number word. -/
theorem run_start {ld : LangData} (h : ld.WF) (t : PyStr) (ts : List PyStr) (q : QState) (hq : q.taken = [])
    (ht : ld.allNumbers.mem (norm t) = true) (hts : ∀ t ∈ ts, tokOkB ld (norm t) = true) :
    (runQ ld (t :: ts) q).out = q.out ∧ (runQ ld (t :: ts) q).taken = nbs (t :: ts) ∧
      (∀ x, (t :: ts).getLast? = some x → (runQ ld (t :: ts) q).pop = !blank (norm x)) := by
  have hs := step_card h q ht
  have hne : (stepQ ld q t).taken ≠ [] := by
    rw [hs]; simp [nbs, key_blank h ht]
  obtain ⟨h1, h2, h3⟩ := run_numbers h ts _ hne hts
  refine ⟨?_, ?_, ?_⟩
  · show (runQ ld ts (stepQ ld q t)).out = _
    rw [h1, hs]
  · show (runQ ld ts (stepQ ld q t)).taken = _
    rw [h2, hs, hq, nbs_cons t ts]; simp
  · intro x hx
    show (runQ ld ts (stepQ ld q t)).pop = _
    cases ts with
    | nil => simp at hx; subst hx; show (stepQ ld q t).pop = _; rw [hs, key_blank h ht]; rfl
    | cons a as => rw [List.getLast?_cons_cons] at hx; exact h3 x hx

theorem runQ_append (ld : LangData) (a b : List PyStr) (q : QState) : runQ ld (a ++ b) q = runQ ld b (runQ ld a q) := by
  unfold runQ; rw [List.foldl_append]

theorem runQ_cons (ld : LangData) (t : PyStr) (b : List PyStr) (q : QState) : runQ ld (t :: b) q = runQ ld b (stepQ ld q t) := rfl

/-- What came before does not matter when no run is pending. -/
theorem run_shift (ld : LangData) (ts : List PyStr) : ∀ (q r : QState) (o : List PyStr), q.out = o ++ r.out → q.taken = r.taken →
    (q.pop = r.pop ∨ q.taken = []) →
    (runQ ld ts q).out = o ++ (runQ ld ts r).out ∧ (runQ ld ts q).taken = (runQ ld ts r).taken := by
  induction ts with
  | nil => intro q r o h1 h2 _; exact ⟨h1, h2⟩
  | cons t ts ih =>
    intro q r o h1 h2 h3
    apply ih (stepQ ld q t) (stepQ ld r t) o
    · unfold stepQ
      cases classify ld t with
      | blank => simp only [h2]; split <;> simp [h1]
      | sep =>
        simp only [h2, h1]
        have : flushed ld r.taken q.pop = flushed ld r.taken r.pop := by
          rcases h3 with h3 | h3
          · rw [h3]
          · rw [← h2, h3]; unfold flushed nums; cases q.pop <;> cases r.pop <;> rfl
        rw [this]; simp
      | ord w => simp [h1, h2]
      | card w => exact h1
      | skip w => simp only [h2]; split <;> simp [h1]
      | word => simp [h1, h2]
    · unfold stepQ
      cases classify ld t with
      | blank => simp only [h2]; split <;> simp [h2]
      | sep => rfl
      | ord w => rfl
      | card w => simp [h2]
      | skip w => simp only [h2]; split <;> simp [h2]
      | word => rfl
    · unfold stepQ
      cases classify ld t with
      | blank => simp only [h2]; split <;> simp
      | sep => right; rfl
      | ord w => simp
      | card w => simp
      | skip w => simp only [h2]; split <;> simp
      | word => simp

theorem finish_shift (ld : LangData) (ts : List PyStr) (q : QState) (h : q.taken = []) :
    finishQ ld (runQ ld ts q) = q.out ++ pieces ld ts := by
  obtain ⟨h1, h2⟩ := run_shift ld ts q QState.init q.out (by simp [QState.init]) h (Or.inr h)
  unfold pieces finishQ
  rw [h1, h2]; simp

/-- Tokens without number words, when no run is pending. -/
theorem run_plain {l : PyStr} {ld : LangData} (hl : languageData l = .ok ld) (ts : List PyStr)
    (h : ∀ t ∈ ts, isNumberToken (norm t) ld = none) (q : QState) (hq : q.taken = []) :
    (runQ ld ts q).out = q.out ++ ts ∧ (runQ ld ts q).taken = [] := by
  induction ts generalizing q with
  | nil => exact ⟨by simp [runQ], hq⟩
  | cons t ts ih =>
    have hstep : (stepQ ld q t).out = q.out ++ [t] ∧ (stepQ ld q t).taken = [] := by
      unfold stepQ
      rcases classify_cases hl (h t List.mem_cons_self) with hc | hc | ⟨w, hc⟩ | hc <;> rw [hc]
      · simp [hq]
      · have : flushed ld [] q.pop = [] := by unfold flushed nums; cases q.pop <;> rfl
        simp [hq, this]
      · simp [hq]
      · simp [hq, flushedWord]
    obtain ⟨h1, h2⟩ := ih (fun t' ht' => h t' (List.mem_cons_of_mem _ ht')) (stepQ ld q t) hstep.2
    refine ⟨?_, h2⟩
    rw [runQ_cons, h1, hstep.1]; simp

/-! ### Number texts -/

/-- A text of number words: tokens, value. -/
structure NumText (l : PyStr) (ld : LangData) (t : PyStr) (n : Nat) : Prop where
  noshy : ∀ c ∈ t, c ≠ 0xad
  first : ∃ v ts, split l t = v :: ts ∧ ld.allNumbers.mem (norm v) = true
  ok : ∀ x ∈ split l t, tokOkB ld (norm x) = true
  items : buildItems ld (nbs (split l t)) = [.num n]
  last : ∃ ts v, split l t = ts ++ [v] ∧ ld.allNumbers.mem (norm v) = true

theorem nbs_split (l t : PyStr) : nbs (split l t) = ((sol l t).map norm).filter (fun t => !blank t) := by
  unfold nbs sol; rw [filter_map_norm]

theorem run_numText {l : PyStr} {ld : LangData} (hw : ld.WF) {t : PyStr} {n : Nat} (h : NumText l ld t n) (q : QState) (hq : q.taken = []) :
    runQ ld (split l t) q = ⟨q.out, nbs (split l t), true⟩ ∧ nums ld (nbs (split l t)) = [decDigits n, u!" "] ∧
      nbs (split l t) ≠ [] ∧ flushedWord ld (nbs (split l t)) = [decDigits n, u!" "] := by
  obtain ⟨v, ts, hs, hv⟩ := h.first
  obtain ⟨ts', v', hs', hv'⟩ := h.last
  have hne : nbs (split l t) ≠ [] := by
    rw [hs', nbs_append]; simp [nbs, key_blank hw hv']
  have hnums : nums ld (nbs (split l t)) = [decDigits n, u!" "] := by
    unfold nums
    rw [h.items]
    cases hc : nbs (split l t) with
    | nil => exact absurd hc hne
    | cons a b => rfl
  refine ⟨?_, hnums, hne, ?_⟩
  · have := run_start hw v ts q hq hv (fun x hx => h.ok x (by rw [hs]; exact List.mem_cons_of_mem _ hx))
    rw [← hs] at this
    obtain ⟨h1, h2, h3⟩ := this
    have h4 := h3 v' (by rw [hs']; simp)
    rw [key_blank hw hv'] at h4
    generalize runQ ld (split l t) q = r at *
    cases r; simp_all
  · unfold flushedWord
    have : (nbs (split l t)).getLast? = some (norm v') := by
      rw [hs', nbs_append]; simp [nbs, key_blank hw hv']
    rw [this]
    simp only
    rw [if_neg (by rw [key_skip hw hv']; simp)]
    exact hnums

theorem nonhi_split {l : PyStr} (hl : l ≠ u!"hi") (s : PyStr) : split l s = splitNonWord s := by
  unfold split; rw [if_neg (fun h => hl ((re_bug l).mp h))]

theorem nonhi_sepChar {l : PyStr} (hl : l ≠ u!"hi") (c : Nat) : sepChar l c = !isWord c := by
  unfold sepChar; rw [if_neg (fun h => hl ((re_bug l).mp h))]

theorem split_append_sep {l : PyStr} (hl : l ≠ u!"hi") (a b : PyStr) {c : Nat} (hc : sepChar l c = true) :
    split l (a ++ c :: b) = split l a ++ [c] :: split l b := by
  rw [nonhi_split hl, nonhi_split hl, nonhi_split hl, splitNonWord_append_sep]
  rw [nonhi_sepChar hl] at hc; simpa using hc

theorem gap_last {σ : Style} {l : PyStr} {ld : LangData} (h : StyleOK σ l ld) {g : PyStr} (hg : Gap σ g) :
    ∃ y c, g = y ++ [c] ∧ sepChar l c = true := by
  induction hg with
  | @sep g hne hj =>
    rcases List.eq_nil_or_concat g with rfl | ⟨y, c, rfl⟩
    · exact absurd rfl hne
    · exact ⟨y, c, by simp, (Frag.joiner h (hj c (by simp))).2⟩
  | @filler g f v rest _ _ _ _ _ ih =>
    obtain ⟨y, c, rfl, hc⟩ := ih
    exact ⟨g ++ v ++ y, c, by simp, hc⟩

theorem text_last {σ : Style} {l : PyStr} {ld : LangData} (h : StyleOK σ l ld) (hl : l ≠ u!"hi") {ws : List PyStr} {text : PyStr}
    (ht : Text σ ws text) (hk : ∀ w ∈ ws, ld.allNumbers.mem (norm w) = true) (he : EndsSolid text) :
    ∃ ts v, split l text = ts ++ [v] ∧ ld.allNumbers.mem (norm v) = true := by
  induction ht with
  | @last w v trail hw hs =>
    have htr : trail = [] := by
      rcases List.eq_nil_or_concat trail with rfl | ⟨y, c, rfl⟩
      · rfl
      · have h1 := he c (v ++ y) (by simp)
        have h2 := hs c (by simp)
        rw [h1] at h2; cases h2
    subst htr
    refine ⟨[], v, ?_, ?_⟩
    · rw [nonhi_split hl, List.append_nil, splitNonWord_word]
      · rfl
      · rw [List.all_eq_true]
        intro c hc
        have := (h.word c (hw.1 c hc)).1
        rw [nonhi_sepChar hl] at this
        simpa using this
    · have : norm v = norm w := hw.2
      rw [this]; exact hk w List.mem_cons_self
  | @cons w v g rest ws hw hg hr ih =>
    obtain ⟨y, c, rfl, hc⟩ := gap_last h hg
    obtain ⟨ts, v', h1, h2⟩ := ih (fun x hx => hk x (List.mem_cons_of_mem _ hx)) (by
      intro d r hd
      apply he d (v ++ (y ++ [c]) ++ r)
      rw [hd]; simp)
    refine ⟨split l (v ++ y) ++ [c] :: ts, v', ?_, h2⟩
    have : v ++ (y ++ [c]) ++ rest = (v ++ y) ++ c :: rest := by simp
    rw [this, split_append_sep hl _ _ hc, h1]; simp

theorem text_numText {σ : Style} {l : PyStr} {ld : LangData} (h : StyleOK σ l ld) (hl : l ≠ u!"hi") {ws : List PyStr} {text : PyStr}
    {n : Nat} (ht : Text σ ws text) (hk : ∀ w ∈ ws, ld.allNumbers.mem (norm w) = true) (he : EndsSolid text)
    (hv : kindsValue ld.maximumGroupValue (wordKinds ld ws) = some n) : NumText l ld text n := by
  have hw := languageData_wf h.lang
  have hf := Text.frag h ht hk
  obtain ⟨w, v, ws', rfl, hwv, hhd, hmem⟩ := Text.head h ht
  have hkv : ld.allNumbers.mem (norm v) = true := by
    have : norm v = norm w := hwv.2
    rw [this]; exact hk w List.mem_cons_self
  have hnb : nbs (split l text) = (sol l text).map norm := by
    rw [nbs_split, List.filter_eq_self]
    intro t ht
    rw [numOrSkip_blank hw (hf.ok t ht)]; rfl
  refine ⟨?_, ⟨v, (split l text).tail, ?_, hkv⟩, ?_, ?_, text_last h hl ht hk he⟩
  · intro c hc e
    have := hf.plain c hc
    rw [e] at this; revert this; decide
  · rw [← hhd]; exact split_cons l text
  · intro x hx
    cases hb : blank x with
    | true => unfold tokOkB; rw [blank_norm hb]; simp
    | false =>
      have := hf.ok (norm x) (List.mem_map.mpr ⟨x, List.mem_filter.mpr ⟨hx, by rw [hb]; rfl⟩, rfl⟩)
      unfold numOrSkip at this
      unfold tokOkB
      rw [Bool.or_eq_true] at this
      rcases this with h | h <;> simp [h]
  · rw [hnb, buildItems_eq hw.toDisjoint]
    unfold kindsValue at hv
    rw [← hf.kinds] at hv
    cases hr : runR ld.maximumGroupValue (kinds ld ((sol l text).map norm)) RState.init with
    | none => rw [hr] at hv; cases hv
    | some r =>
      rw [hr] at hv
      simp only [Option.map_some, Option.some.injEq] at hv
      rw [symItems_run _ hr, hv]

end NumberParser
