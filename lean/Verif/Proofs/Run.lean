import Verif.Proofs.Solid

/-! Sequences of number words that the builder reads as one number. -/

set_option linter.unusedSimpArgs false

namespace NumberParser

/-- The builder's state without its output. -/
structure RState where
  total : Nat
  grp : Nat
  prev : Option Kind
  pow : Option Nat
  deriving DecidableEq, Repr

def RState.init : RState := ⟨0, 0, none, none⟩

def RState.value (r : RState) : Nat := r.total + r.grp

/-- One number word that continues the current number; `none` if it starts a new number. -/
def stepR (mg : Nat) (r : RState) (k : Kind) : Option RState :=
  match largeK k r.total r.grp with
  | some p => some ⟨(r.total + r.grp) * p, 0, some k, some p⟩
  | none =>
    if validK k r.prev r.pow r.total r.grp then
      match k with
      | .unit v | .direct v | .tens v | .hund v => some ⟨r.total, r.grp + v, some k, r.pow⟩
      | .big p =>
        if p > mg then some ⟨r.total + (if r.grp = 0 then 1 else r.grp) * p, 0, some k, some p⟩
        else some ⟨r.total, (if r.grp = 0 then 1 else r.grp) * p, some k, r.pow⟩
      | .other => some ⟨r.total, r.grp, some k, r.pow⟩
    else none

def runR (mg : Nat) : List Kind → RState → Option RState
  | [], r => some r
  | k :: ks, r => (stepR mg r k).bind (runR mg ks)

theorem runR_append (mg : Nat) (a b : List Kind) (r : RState) :
    runR mg (a ++ b) r = (runR mg a r).bind (runR mg b) := by
  induction a generalizing r with
  | nil => rfl
  | cons k ks ih =>
    simp only [List.cons_append, runR]
    cases stepR mg r k with
    | none => rfl
    | some r' => exact ih r'

def KState.red (s : KState) : RState := ⟨s.total, s.grp, s.prev, s.pow⟩

theorem numStep_red {mg : Nat} {s : KState} {k : Kind} {r : RState} (h : stepR mg s.red k = some r) :
    (numStep mg s k).red = r ∧ (numStep mg s k).out = s.out ∧ (numStep mg s k).used = [] := by
  obtain ⟨T, g, pv, pw, o, u⟩ := s
  change stepR mg ⟨T, g, pv, pw⟩ k = _ at h
  unfold stepR at h
  unfold numStep
  simp only at h ⊢
  cases hl : largeK k T g with
  | some p => rw [hl] at h; cases h; exact ⟨rfl, rfl, rfl⟩
  | none =>
    rw [hl] at h
    simp only at h ⊢
    by_cases hv : validK k pv pw T g = true
    · rw [if_pos hv] at h ⊢
      cases k with
      | big p =>
        simp only [addK] at h ⊢
        by_cases hp : p > mg
        · rw [if_pos hp] at h ⊢; cases h; exact ⟨rfl, rfl, rfl⟩
        · rw [if_neg hp] at h ⊢; cases h; exact ⟨rfl, rfl, rfl⟩
      | _ => cases h; exact ⟨rfl, rfl, rfl⟩
    · rw [if_neg hv] at h; cases h

/-- Conversely, a number word that does not continue the number makes the builder emit the number. -/
theorem numStep_flush {mg : Nat} {s : KState} {k : Kind} (h : stepR mg s.red k = none) :
    numStep mg s k = addK mg (flushK s) k := by
  obtain ⟨T, g, pv, pw, o, u⟩ := s
  change stepR mg ⟨T, g, pv, pw⟩ k = _ at h
  unfold stepR at h
  unfold numStep
  simp only at h ⊢
  cases hl : largeK k T g with
  | some p => rw [hl] at h; cases h
  | none =>
    rw [hl] at h
    simp only at h ⊢
    by_cases hv : validK k pv pw T g = true
    · rw [if_pos hv] at h
      cases k with
      | big p => simp only at h; split at h <;> cases h
      | _ => cases h
    · rw [if_neg hv]

/-- The number words of a list of symbols. -/
def symKinds (ys : List Sym) : List Kind :=
  ys.filterMap (fun y => match y with
    | .num k => some k
    | .skip _ => none)

@[simp] theorem symKinds_nil : symKinds [] = [] := rfl
@[simp] theorem symKinds_num (k : Kind) (ys : List Sym) : symKinds (.num k :: ys) = k :: symKinds ys := rfl
@[simp] theorem symKinds_skip (t : PyStr) (ys : List Sym) : symKinds (.skip t :: ys) = symKinds ys := rfl
theorem symKinds_append (a b : List Sym) : symKinds (a ++ b) = symKinds a ++ symKinds b := by
  unfold symKinds; rw [List.filterMap_append]

theorem symFold_red {mg : Nat} (ys : List Sym) (s : KState) {r : RState} (h : runR mg (symKinds ys) s.red = some r) :
    (ys.foldl (symStep mg) s).red = r ∧ (ys.foldl (symStep mg) s).out = s.out := by
  induction ys generalizing s with
  | nil => cases h; exact ⟨rfl, rfl⟩
  | cons y ys ih =>
    cases y with
    | skip t =>
      simp only [symKinds_skip] at h
      exact ih _ h
    | num k =>
      simp only [symKinds_num, runR] at h
      cases hs : stepR mg s.red k with
      | none => rw [hs] at h; cases h
      | some r' =>
        rw [hs] at h
        obtain ⟨h1, h2, _⟩ := numStep_red hs
        have := ih (numStep mg s k) (by rw [h1]; exact h)
        exact ⟨this.1, by rw [List.foldl_cons]; show (List.foldl _ (numStep mg s k) ys).out = _; rw [this.2, h2]⟩

theorem symItems_run {mg : Nat} (ys : List Sym) {r : RState} (h : runR mg (symKinds ys) RState.init = some r) :
    symItems mg ys = [.num r.value] := by
  obtain ⟨h1, h2⟩ := symFold_red (mg := mg) ys KState.init h
  unfold symItems KState.items RState.value
  rw [h2, ← h1]
  rfl

theorem symFold_out_ne {mg : Nat} (ys : List Sym) (s : KState) (h : s.out ≠ []) : (ys.foldl (symStep mg) s).out ≠ [] := by
  induction ys generalizing s with
  | nil => exact h
  | cons y ys ih =>
    apply ih
    cases y with
    | skip t => exact h
    | num k =>
      cases hs : stepR mg s.red k with
      | some r => rw [show symStep mg s (.num k) = numStep mg s k from rfl, (numStep_red hs).2.1]; exact h
      | none =>
        rw [show symStep mg s (.num k) = numStep mg s k from rfl, numStep_flush hs]
        unfold addK flushK
        cases k with
        | big p => simp only; split <;> simp
        | _ => simp

/-- The value list has one number exactly when no number word starts a new number. -/
theorem symFold_none {mg : Nat} (ys : List Sym) (s : KState) (h : runR mg (symKinds ys) s.red = none) :
    (ys.foldl (symStep mg) s).out ≠ [] := by
  induction ys generalizing s with
  | nil => cases h
  | cons y ys ih =>
    cases y with
    | skip t =>
      simp only [symKinds_skip] at h
      exact ih _ h
    | num k =>
      simp only [symKinds_num, runR] at h
      cases hs : stepR mg s.red k with
      | none =>
        rw [List.foldl_cons]
        apply symFold_out_ne
        rw [show symStep mg s (.num k) = numStep mg s k from rfl, numStep_flush hs]
        unfold addK flushK
        cases k with
        | big p => simp only; split <;> simp
        | _ => simp
      | some r' =>
        rw [hs] at h
        exact ih (numStep mg s k) (by rw [(numStep_red hs).1]; exact h)

theorem numberOfItems_symItems {mg : Nat} (ys : List Sym) :
    numberOfItems (symItems mg ys) = (runR mg (symKinds ys) RState.init).map RState.value := by
  cases h : runR mg (symKinds ys) RState.init with
  | some r => rw [symItems_run ys h]; rfl
  | none =>
    have := symFold_none (mg := mg) ys KState.init h
    unfold symItems KState.items
    cases ho : (ys.foldl (symStep mg) KState.init).out with
    | nil => exact absurd ho this
    | cons i is => cases is <;> cases i <;> rfl

/-- The number words among comparison forms. -/
def kinds (ld : LangData) (ts : List PyStr) : List Kind := symKinds (ts.filterMap (symOf ld))

theorem kinds_append (ld : LangData) (a b : List PyStr) : kinds ld (a ++ b) = kinds ld a ++ kinds ld b := by
  unfold kinds; rw [List.filterMap_append, symKinds_append]

@[simp] theorem kinds_nil (ld : LangData) : kinds ld [] = [] := rfl

theorem kinds_key {ld : LangData} (h : ld.WF) {t : PyStr} (ht : ld.allNumbers.mem t = true) :
    kinds ld [t] = [kindOf ld t] := by
  have h2 : ld.skipTokens.elem t = false := key_skip h ht
  have : symOf ld t = some (.num (kindOf ld t)) := by unfold symOf; rw [key_blank h ht, h2]; rfl
  unfold kinds
  rw [List.filterMap_cons, this]; rfl

theorem kinds_skip {ld : LangData} (h : ld.WF) {t : PyStr} (ht : isSkipToken t ld = true) : kinds ld [t] = [] := by
  have h2 : ld.skipTokens.elem t = true := ht
  have : symOf ld t = some (.skip t) := by unfold symOf; rw [skip_blank h ht, h2]; rfl
  unfold kinds
  rw [List.filterMap_cons, this]; rfl

/-- The value of non-blank comparison forms that are number words or skip tokens. -/
theorem solidNumber_eq {ld : LangData} (h : ld.Disjoint) (ts : List PyStr) :
    solidNumber ld ts = if ts.all (numOrSkip ld) then
      (runR ld.maximumGroupValue (kinds ld ts) RState.init).map RState.value else none := by
  unfold solidNumber
  rw [buildItems_eq h, numberOfItems_symItems]; rfl

end NumberParser
