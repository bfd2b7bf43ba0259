import Verif.Proofs.Output
import Verif.Spec.VocabularyOutput

/-! Ordinary tokens survive `parse`. -/

set_option linter.unusedSimpArgs false

namespace NumberParser
open Spec

theorem Spec.WithNumeralsBelow.append {B : Nat} {a b a' b' : List PyStr} (h : WithNumeralsBelow B a b) (h' : WithNumeralsBelow B a' b') :
    WithNumeralsBelow B (a ++ a') (b ++ b') := by
  induction h with
  | nil => exact h'
  | keep _ ih => exact .keep ih
  | insert hn _ ih => exact .insert hn ih

theorem Spec.WithNumeralsBelow.refl {B : Nat} (a : List PyStr) : WithNumeralsBelow B a a := by
  induction a with
  | nil => exact .nil
  | cons _ _ ih => exact .keep ih

theorem Spec.WithNumeralsBelow.numerals {B : Nat} {b : List PyStr} (h : ∀ t ∈ b, ∃ n, n < B ∧ t = decDigits n) : WithNumeralsBelow B [] b := by
  induction b with
  | nil => exact .nil
  | cons t b ih =>
    obtain ⟨n, hn, rfl⟩ := h t List.mem_cons_self
    exact .insert hn (ih (fun t' ht' => h t' (List.mem_cons_of_mem _ ht')))

theorem withNumerals_below {a b : List PyStr} (h : WithNumeralsBelow (10 ^ 1300) a b) : WithNumerals a b := by
  induction h with
  | nil => exact .nil
  | keep _ ih => exact .keep ih
  | insert hn _ ih => exact .insert hn ih

/-- What the lemmas below need of the data of a language. -/
structure NumOK (B : Nat) (l : PyStr) (ld : LangData) : Prop extends OutOK l ld where
  bound : ∀ ts, RunOK ld ts → ∀ n, Item.num n ∈ buildItems ld ts → n < B

theorem NumOK.keySkip {B : Nat} {l : PyStr} {ld : LangData} (h : NumOK B l ld) {w : PyStr} (hm : ld.allNumbers.mem w = true) :
    isSkipToken w ld = false := by
  cases hk : isSkipToken w ld with
  | false => rfl
  | true => rw [(h.skipNumber w hk).2] at hm; cases hm

theorem NumOK.keyBlank {B : Nat} {l : PyStr} {ld : LangData} (h : NumOK B l ld) {w : PyStr} (hm : ld.allNumbers.mem w = true) :
    blank w = false := by
  cases hk : blank w with
  | false => rfl
  | true => rw [(h.blankNo w hk).2] at hm; cases hm

theorem numOK_supported {l : PyStr} {ld : LangData} (h : languageData l = .ok ld) : NumOK (10 ^ 1300) l ld :=
  ⟨outOK_supported h, fun ts hr n hn => buildItems_bound (languageData_wf h) ts hr.tok n hn⟩

theorem stepQ_runX {ld : LangData} (h : ld.Builds) (q : QState) (hq : RunOK ld q.taken) (t : PyStr) :
    RunOK ld (stepQ ld q t).taken := by
  obtain ⟨s', _, ⟨_, h2, _⟩, h4⟩ := parseStep_eq h ⟨q.out, [], q.taken, q.pop⟩ q ⟨by simp, rfl, rfl⟩ hq t
  rw [h2]; exact h4

/-- A filter that ignores number words, blanks and (where it matters) conjunctions. -/
structure FiltOK (ld : LangData) (F : PyStr → Bool) : Prop where
  number : ∀ t, ¬ NoNum ld (norm t) → F t = false
  blank : ∀ t, blank (norm t) = true → F t = false

/-- Can a run be pending after the token? -/
def nextRun (ld : LangData) (b : Bool) (t : PyStr) : Bool :=
  if blank (norm t) then b else if ld.allNumbers.mem (norm t) then true else if isSkipToken (norm t) ld then b else false

def OKseq (ld : LangData) (F : PyStr → Bool) : Bool → List PyStr → Prop
  | _, [] => True
  | b, t :: ts => (isSkipToken (norm t) ld = true → b = true → F t = false ∧ F (norm t) = false) ∧ OKseq ld F (nextRun ld b t) ts

theorem nums_filter {B : Nat} {l : PyStr} {ld : LangData} (hw : NumOK B l ld) {F : PyStr → Bool} (hF : FiltOK ld F) (ts : List PyStr) (hr : RunOK ld ts)
    (hts : ∀ t ∈ ts, isSkipToken t ld = true → F t = false) : ∀ p ∈ (nums ld ts).filter F, ∃ n, n < B ∧ p = decDigits n := by
  intro p hp
  obtain ⟨hp, hFp⟩ := List.mem_filter.mp hp
  unfold nums at hp
  split at hp
  · cases hp
  · obtain ⟨x, hx, hp⟩ := List.mem_flatMap.mp hp
    simp only [List.mem_cons, List.not_mem_nil, or_false] at hp
    rcases hp with rfl | rfl
    · obtain ⟨i, hi, rfl⟩ := List.mem_map.mp hx
      cases i with
      | num n => exact ⟨n, hw.bound ts hr n hi, rfl⟩
      | skip t =>
        have := buildItems_skip' ld (fun t => F t = false) ts hts t hi
        rw [show renderPure (.skip t) = t from rfl, this] at hFp; cases hFp
    · rw [hF.blank _ (by decide +kernel)] at hFp; cases hFp

theorem flushed_filter {B : Nat} {l : PyStr} {ld : LangData} (hw : NumOK B l ld) {F : PyStr → Bool} (hF : FiltOK ld F) (ts : List PyStr) (hr : RunOK ld ts) (pop : Bool)
    (hts : ∀ t ∈ ts, isSkipToken t ld = true → F t = false) : ∀ p ∈ (flushed ld ts pop).filter F, ∃ n, n < B ∧ p = decDigits n := by
  intro p hp
  unfold flushed at hp
  split at hp
  · obtain ⟨hp, hFp⟩ := List.mem_filter.mp hp
    exact nums_filter hw hF ts hr hts p (List.mem_filter.mpr ⟨(List.dropLast_sublist _).subset hp, hFp⟩)
  · exact nums_filter hw hF ts hr hts p hp

theorem flushedWord_filter {B : Nat} {l : PyStr} {ld : LangData} (hw : NumOK B l ld) {F : PyStr → Bool} (hF : FiltOK ld F) (ts : List PyStr) (hr : RunOK ld ts)
    (hts : ∀ t ∈ ts, isSkipToken t ld = true → F t = false) : ∀ p ∈ (flushedWord ld ts).filter F, ∃ n, n < B ∧ p = decDigits n := by
  intro p hp
  unfold flushedWord at hp
  split at hp
  · rename_i last hl
    split at hp
    · rename_i hk
      rw [List.filter_append] at hp
      rcases List.mem_append.mp hp with hp | hp
      · exact nums_filter hw hF _ hr.dropLast (fun t ht => hts t ((List.dropLast_sublist _).subset ht)) p hp
      · obtain ⟨hp, hFp⟩ := List.mem_filter.mp hp
        simp only [List.mem_cons, List.not_mem_nil, or_false] at hp
        rcases hp with rfl | rfl
        · rw [hts _ (List.mem_of_getLast? hl) hk] at hFp; cases hFp
        · rw [hF.blank _ (by decide +kernel)] at hFp; cases hFp
    · exact nums_filter hw hF ts hr hts p hp
  · cases hp

theorem shuffle_run {B : Nat} {l : PyStr} {ld : LangData} (hw : NumOK B l ld) {F : PyStr → Bool} (hF : FiltOK ld F)
    (ts : List PyStr) : ∀ (b : Bool) (q : QState) (done : List PyStr), OKseq ld F b ts → (q.taken ≠ [] → b = true) → RunOK ld q.taken →
      (∀ t ∈ q.taken, isSkipToken t ld = true → F t = false) → WithNumeralsBelow B (done.filter F) (q.out.filter F) →
      WithNumeralsBelow B ((done ++ ts).filter F) ((finishQ ld (runQ ld ts q)).filter F) := by
  induction ts with
  | nil =>
    intro b q done _ _ hr h3 h4
    unfold finishQ
    show WithNumeralsBelow B _ ((q.out ++ nums ld q.taken).filter F)
    rw [List.filter_append, List.filter_append]
    exact h4.append (WithNumeralsBelow.numerals (nums_filter hw hF _ hr h3))
  | cons t ts ih =>
    intro b q done h1 h2 hr h3 h4
    obtain ⟨hskip, hrest⟩ := h1
    have hkey : ∀ w, ld.allNumbers.mem w = true → isSkipToken w ld = true → F w = false := by
      intro w hm hk
      rw [hw.keySkip hm] at hk; cases hk
    have hout : ∀ (a : List PyStr), (∀ p ∈ a.filter F, ∃ n, n < B ∧ p = decDigits n) →
        WithNumeralsBelow B ((done ++ [t]).filter F) ((q.out ++ a ++ [t]).filter F) := by
      intro a ha
      rw [List.filter_append, List.filter_append, List.filter_append, List.append_assoc]
      have := (WithNumeralsBelow.numerals ha).append (WithNumeralsBelow.refl ([t].filter F))
      exact h4.append (by simpa using this)
    have hskipped : F t = false → WithNumeralsBelow B ((done ++ [t]).filter F) (q.out.filter F) := by
      intro hf
      rw [List.filter_append]
      simpa [hf] using h4
    have goal : (∀ (q' : QState), (q'.taken ≠ [] → nextRun ld b t = true) → RunOK ld q'.taken →
        (∀ t ∈ q'.taken, isSkipToken t ld = true → F t = false) →
        WithNumeralsBelow B ((done ++ [t]).filter F) (q'.out.filter F) → 
        WithNumeralsBelow B ((done ++ t :: ts).filter F) ((finishQ ld (runQ ld ts q')).filter F)) := by
      intro q' a1 ar a2 a3
      have := ih (nextRun ld b t) q' (done ++ [t]) hrest a1 ar a2 a3
      simpa using this
    show WithNumeralsBelow B _ ((finishQ ld (runQ ld ts (stepQ ld q t))).filter F)
    apply goal
    · -- pending
      intro hne
      unfold stepQ at hne
      unfold nextRun
      cases hcl : classify ld t with
      | blank =>
        rw [hcl] at hne
        simp only [classify_blank.mp hcl, if_true]
        apply h2
        simp only at hne
        split at hne <;> exact hne
      | sep => rw [hcl] at hne; simp at hne
      | ord w => rw [hcl] at hne; simp at hne
      | card w =>
        have := classify_card_mem hcl
        rw [if_neg (by rw [hw.keyBlank this.2]; simp), if_pos this.2]
      | skip w =>
        have := classify_skip_mem hcl
        rw [if_neg (by rw [(hw.skipSolo _ this.2.1).2]; simp), this.2.2, if_neg (by simp), if_pos this.2.1]
        rw [hcl] at hne
        apply h2
        simp only at hne
        split at hne
        · exact hne
        · intro e; rename_i he; exact he (by rw [e]; rfl)
      | word => rw [hcl] at hne; simp at hne
    · exact stepQ_runX hw.builds q hr t
    · -- conjunctions in the run
      unfold stepQ
      cases hcl : classify ld t with
      | blank => simp only; split <;> exact h3
      | sep => simp
      | ord w => simp
      | card w =>
        have := classify_card_mem hcl
        intro x hx
        simp only [List.mem_append, List.mem_singleton] at hx
        rcases hx with hx | rfl
        · exact h3 x hx
        · rw [this.1]; exact hkey _ this.2
      | skip w =>
        have := classify_skip_mem hcl
        simp only
        split
        · exact h3
        · rename_i he
          intro x hx
          simp only [List.mem_append, List.mem_singleton] at hx
          rcases hx with hx | rfl
          · exact h3 x hx
          · intro _
            rw [this.1]
            exact (hskip this.2.1 (h2 (fun e => he (by rw [e]; rfl)))).2
      | word => simp
    · unfold stepQ
      cases hcl : classify ld t with
      | blank =>
        simp only
        split
        · have := hout [] (by simp); simpa using this
        · exact hskipped (hF.blank t (classify_blank.mp hcl))
      | sep => exact hout _ (flushed_filter hw hF _ hr _ h3)
      | ord w =>
        have ho := classify_ord_mem hcl
        have hf : F t = false := by
          apply hF.number
          intro hn
          unfold isOrdinalToken at ho
          split at ho
          · rw [hn.1] at ho; cases ho
          · cases ho
        have hwm := ordinal_mem ho
        have := flushed_filter hw hF (q.taken ++ [w]) (hr.snoc_card hwm) true (by
          intro x hx
          simp only [List.mem_append, List.mem_singleton] at hx
          rcases hx with hx | rfl
          · exact h3 x hx
          · exact hkey _ hwm)
        show WithNumeralsBelow B _ ((q.out ++ flushed ld (q.taken ++ [w]) true).filter F)
        rw [List.filter_append q.out]
        have h5 := (hskipped hf).append (WithNumeralsBelow.numerals this)
        simpa using h5
      | card w =>
        have := classify_card_mem hcl
        apply hskipped
        apply hF.number
        intro hn
        have := this.2; rw [hn.2] at this; cases this
      | skip w =>
        have := classify_skip_mem hcl
        simp only
        split
        · have := hout [] (by simp); simpa using this
        · rename_i he
          exact hskipped (hskip this.2.1 (h2 (fun e => he (by rw [e]; rfl)))).1
      | word => exact hout _ (flushedWord_filter hw hF _ hr h3)

theorem filter_nb {ld : LangData} {F : PyStr → Bool} (hF : FiltOK ld F) (ps : List PyStr) : (nb ps).filter F = ps.filter F := by
  unfold nb
  rw [List.filter_filter]
  apply List.filter_congr
  intro t _
  cases hb : blank t with
  | false => simp
  | true => simp [hF.blank t (blank_norm hb)]

theorem parse_shuffleX {B : Nat} {l : PyStr} {ld : LangData} (hw : NumOK B l ld) {F : PyStr → Bool} (hF : FiltOK ld F)
    (s out : PyStr) (h : out = strip (pieces ld (tokenize s l)).flatten) (hok : OKseq ld F false (tokenize s l)) :
    WithNumeralsBelow B ((tokenize s l).filter F) ((tokenize out l).filter F) := by
  obtain ⟨h1, _, h3⟩ := output_solX hw.toOutOK s out h
  have e : (tokenize out l).filter F = (pieces ld (tokenize s l)).filter F := by
    rw [tokenize_eq, h1, ← filter_nb hF (split l out), ← filter_nb hF (pieces _ _), ← h3]; rfl
  rw [e]
  have := shuffle_run hw hF (tokenize s l) false QState.init [] hok (fun h => absurd rfl h) (RunOK.nil ld) (by simp [QState.init]) (by exact .nil)
  simpa [pieces] using this

theorem parse_shuffle {l : PyStr} {ld : LangData} (hl : languageData l = .ok ld) {F : PyStr → Bool} (hF : FiltOK ld F)
    (s out : PyStr) (h : parse s (some l) = .ok out) (hok : OKseq ld F false (tokenize s l)) :
    WithNumerals ((tokenize s l).filter F) ((tokenize out l).filter F) := by
  rw [parse_eq hl] at h
  cases h
  exact withNumerals_below (parse_shuffleX (numOK_supported hl) hF s _ rfl hok)

end NumberParser
