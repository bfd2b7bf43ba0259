import Verif.Proofs.WF

/-! The number builder depends on a token only through its class and value: an abstract machine over
`Sym`s, and the refinement of `buildItems` to it. -/

set_option linter.unusedSimpArgs false

namespace NumberParser

/-- Class and value of a token. -/
inductive Kind where
  | unit (v : Nat)
  | direct (v : Nat)
  | tens (v : Nat)
  | hund (v : Nat)
  | big (p : Nat)
  | other
  deriving DecidableEq, Repr

def kindOf (ld : LangData) (t : PyStr) : Kind :=
  match ld.unitNumbers.get? t with
  | some v => .unit v
  | none =>
    match ld.directNumbers.get? t with
    | some v => .direct v
    | none =>
      match ld.tens.get? t with
      | some v => .tens v
      | none =>
        match ld.hundreds.get? t with
        | some v => .hund v
        | none =>
          match ld.bigPowersOfTen.get? t with
          | some p => .big p
          | none => .other

/-- What the builder sees of a token: a number word, a skip token; blanks are invisible. -/
inductive Sym where
  | num (k : Kind)
  | skip (t : PyStr)
  deriving DecidableEq, Repr

def symOf (ld : LangData) (t : PyStr) : Option Sym :=
  if blank t then none
  else if ld.skipTokens.elem t then some (.skip t)
  else some (.num (kindOf ld t))

structure KState where
  total : Nat
  grp : Nat
  prev : Option Kind
  pow : Option Nat
  out : List Item
  used : List PyStr
  deriving DecidableEq, Repr

def KState.init : KState := ⟨0, 0, none, none, [], []⟩

/-- Can a token of class `k` continue the number after a token of class `prev`? -/
def validK (k : Kind) (prev : Option Kind) (pow : Option Nat) (total grp : Nat) : Bool :=
  match prev with
  | none => true
  | some q =>
    match k, q with
    | .unit _, .unit _ => false
    | .unit _, .direct _ => false
    | .unit _, _ => true
    | .direct _, .unit _ => false
    | .direct _, .direct _ => false
    | .direct _, .tens _ => false
    | .direct _, _ => true
    | .tens _, .unit _ => false
    | .tens _, .direct _ => false
    | .tens _, .tens _ => false
    | .tens _, _ => true
    | .hund _, .big _ => true
    | .hund _, _ => false
    | .big p, _ =>
      if p < grp then false
      else match pow with
        | some pp => if total ≠ 0 ∧ pp ≠ 0 ∧ p ≥ pp then false else true
        | none => true
    | .other, _ => true

def largeK (k : Kind) (total grp : Nat) : Option Nat :=
  match k with
  | .big p => if total + grp ≠ 0 ∧ p > total + grp ∧ p ≠ 100 then some p else none
  | _ => none

def addK (mg : Nat) (s : KState) (k : Kind) : KState :=
  match k with
  | .unit v | .direct v | .tens v | .hund v => { s with grp := s.grp + v, prev := some k, used := [] }
  | .big p =>
    if p > mg then
      { s with total := s.total + (if s.grp = 0 then 1 else s.grp) * p, grp := 0, pow := some p, prev := some k, used := [] }
    else { s with grp := (if s.grp = 0 then 1 else s.grp) * p, prev := some k, used := [] }
  | .other => { s with prev := some k, used := [] }

def flushK (s : KState) : KState :=
  { s with out := s.out ++ [.num (s.total + s.grp)] ++ s.used.map .skip, total := 0, grp := 0, pow := none }

def numStep (mg : Nat) (s : KState) (k : Kind) : KState :=
  match largeK k s.total s.grp with
  | some p => { s with total := (s.total + s.grp) * p, prev := some k, grp := 0, used := [], pow := some p }
  | none => if validK k s.prev s.pow s.total s.grp then addK mg s k else addK mg (flushK s) k

def symStep (mg : Nat) (s : KState) : Sym → KState
  | .skip t => { s with used := s.used ++ [t] }
  | .num k => numStep mg s k

def KState.items (s : KState) : List Item := s.out ++ [.num (s.total + s.grp)]

/-- Abstraction of the builder's state. -/
def absB (ld : LangData) (s : BState) : KState :=
  ⟨s.total, s.grp, s.prevTok.map (kindOf ld), s.prevPow, s.out, s.usedSkip⟩

/-- Table lookups in terms of the class. -/
theorem kind_cases {ld : LangData} (h : ld.Disjoint) (t : PyStr) :
    (∃ v, kindOf ld t = .unit v ∧ ld.unitNumbers.get? t = some v ∧ ld.unitAndDirectNumbers.get? t = some v ∧
      ld.directNumbers.get? t = none ∧ ld.tens.get? t = none ∧ ld.hundreds.get? t = none ∧
      ld.bigPowersOfTen.get? t = none) ∨
    (∃ v, kindOf ld t = .direct v ∧ ld.unitNumbers.get? t = none ∧ ld.unitAndDirectNumbers.get? t = some v ∧
      ld.directNumbers.get? t = some v ∧ ld.tens.get? t = none ∧ ld.hundreds.get? t = none ∧
      ld.bigPowersOfTen.get? t = none) ∨
    (∃ v, kindOf ld t = .tens v ∧ ld.unitNumbers.get? t = none ∧ ld.unitAndDirectNumbers.get? t = none ∧
      ld.directNumbers.get? t = none ∧ ld.tens.get? t = some v ∧ ld.hundreds.get? t = none ∧
      ld.bigPowersOfTen.get? t = none) ∨
    (∃ v, kindOf ld t = .hund v ∧ ld.unitNumbers.get? t = none ∧ ld.unitAndDirectNumbers.get? t = none ∧
      ld.directNumbers.get? t = none ∧ ld.tens.get? t = none ∧ ld.hundreds.get? t = some v ∧
      ld.bigPowersOfTen.get? t = none) ∨
    (∃ v, kindOf ld t = .big v ∧ ld.unitNumbers.get? t = none ∧ ld.unitAndDirectNumbers.get? t = none ∧
      ld.directNumbers.get? t = none ∧ ld.tens.get? t = none ∧ ld.hundreds.get? t = none ∧
      ld.bigPowersOfTen.get? t = some v) ∨
    (kindOf ld t = .other ∧ ld.unitNumbers.get? t = none ∧ ld.unitAndDirectNumbers.get? t = none ∧
      ld.directNumbers.get? t = none ∧ ld.tens.get? t = none ∧ ld.hundreds.get? t = none ∧
      ld.bigPowersOfTen.get? t = none) := by
  have ud := h.ud t
  unfold kindOf
  cases hu : ld.unitNumbers.get? t with
  | some v =>
    have hm : ld.unitNumbers.mem t = true := by simp [Dict.mem, hu]
    left
    exact ⟨v, rfl, rfl, by rw [ud, h.unit_direct t hm, hu]; rfl, h.unit_direct t hm, h.unit_tens t hm, h.unit_hund t hm, h.unit_big t hm⟩
  | none =>
    cases hd : ld.directNumbers.get? t with
    | some v =>
      have hm : ld.directNumbers.mem t = true := by simp [Dict.mem, hd]
      right; left
      exact ⟨v, rfl, rfl, by rw [ud, hd]; rfl, rfl, h.direct_tens t hm, h.direct_hund t hm, h.direct_big t hm⟩
    | none =>
      have hud : ld.unitAndDirectNumbers.get? t = none := by rw [ud, hd, hu]; rfl
      cases ht : ld.tens.get? t with
      | some v =>
        have hm : ld.tens.mem t = true := by simp [Dict.mem, ht]
        right; right; left
        exact ⟨v, rfl, rfl, hud, rfl, rfl, h.tens_hund t hm, h.tens_big t hm⟩
      | none =>
        cases hh : ld.hundreds.get? t with
        | some v =>
          have hm : ld.hundreds.mem t = true := by simp [Dict.mem, hh]
          right; right; right; left
          exact ⟨v, rfl, rfl, hud, rfl, rfl, rfl, h.hund_big t hm⟩
        | none =>
          cases hb : ld.bigPowersOfTen.get? t with
          | some v => right; right; right; right; left; exact ⟨v, rfl, rfl, hud, rfl, rfl, rfl, rfl⟩
          | none => right; right; right; right; right; exact ⟨rfl, rfl, hud, rfl, rfl, rfl, rfl⟩

theorem checkValidity_eq {ld : LangData} (h : ld.Disjoint) (t : PyStr) (prev : Option PyStr) (pow : Option Nat)
    (total grp : Nat) :
    checkValidity t prev pow total grp ld = validK (kindOf ld t) (prev.map (kindOf ld)) pow total grp := by
  cases prev with
  | none => rfl
  | some q =>
    unfold checkValidity validK
    rcases kind_cases h t with ⟨v, k, h1, h2, h3, h4, h5, h6⟩ | ⟨v, k, h1, h2, h3, h4, h5, h6⟩ |
      ⟨v, k, h1, h2, h3, h4, h5, h6⟩ | ⟨v, k, h1, h2, h3, h4, h5, h6⟩ | ⟨v, k, h1, h2, h3, h4, h5, h6⟩ |
      ⟨k, h1, h2, h3, h4, h5, h6⟩ <;>
    rcases kind_cases h q with ⟨v', k', h1', h2', h3', h4', h5', h6'⟩ | ⟨v', k', h1', h2', h3', h4', h5', h6'⟩ |
      ⟨v', k', h1', h2', h3', h4', h5', h6'⟩ | ⟨v', k', h1', h2', h3', h4', h5', h6'⟩ |
      ⟨v', k', h1', h2', h3', h4', h5', h6'⟩ | ⟨k', h1', h2', h3', h4', h5', h6'⟩ <;>
    simp only [Option.map_some, k, k', Dict.mem, h2, h3, h4, h5, h6, h2', h3', h4', h5', h6', Option.isSome_some,
      Option.isSome_none, Bool.and_false, Bool.and_true, Bool.and_self, Bool.false_and, Bool.true_and, Bool.or_self,
      Bool.or_true, Bool.or_false, Bool.not_true, Bool.not_false, if_true, Bool.false_eq_true, if_false] <;> rfl

theorem checkLarge_eq {ld : LangData} (h : ld.Disjoint) (t : PyStr) (total grp : Nat) :
    checkLargeMultiplier t total grp ld = largeK (kindOf ld t) total grp := by
  unfold checkLargeMultiplier largeK
  rcases kind_cases h t with ⟨v, k, h1, h2, h3, h4, h5, h6⟩ | ⟨v, k, h1, h2, h3, h4, h5, h6⟩ |
      ⟨v, k, h1, h2, h3, h4, h5, h6⟩ | ⟨v, k, h1, h2, h3, h4, h5, h6⟩ | ⟨v, k, h1, h2, h3, h4, h5, h6⟩ |
      ⟨k, h1, h2, h3, h4, h5, h6⟩ <;> simp only [k, h6]
  all_goals (try (split <;> rfl))
  by_cases hc : total + grp ≠ 0
  · rw [if_pos hc]
    by_cases h2 : v > total + grp ∧ v ≠ 100
    · rw [if_pos h2, if_pos ⟨hc, h2⟩]
    · rw [if_neg h2, if_neg (fun h => h2 h.2)]
  · rw [if_neg hc, if_neg (fun h => hc h.1)]

theorem addToken_abs {ld : LangData} (h : ld.Disjoint) (s : BState) (t : PyStr) :
    absB ld (addToken ld s t) = addK ld.maximumGroupValue (absB ld s) (kindOf ld t) := by
  unfold addToken addK absB
  rcases kind_cases h t with ⟨v, k, h1, h2, h3, h4, h5, h6⟩ | ⟨v, k, h1, h2, h3, h4, h5, h6⟩ |
      ⟨v, k, h1, h2, h3, h4, h5, h6⟩ | ⟨v, k, h1, h2, h3, h4, h5, h6⟩ | ⟨v, k, h1, h2, h3, h4, h5, h6⟩ |
      ⟨k, h1, h2, h3, h4, h5, h6⟩ <;> simp only [k, h2, h4, h5, h6, Option.map_some]
  by_cases hp : v > ld.maximumGroupValue
  · simp only [hp, if_true]
  · simp only [hp, if_false]

theorem flush_abs (ld : LangData) (s : BState) : absB ld (flushInvalid s) = flushK (absB ld s) := rfl

theorem buildStep_abs {ld : LangData} (h : ld.Disjoint) (s : BState) (t : PyStr) :
    absB ld (buildStep ld s t) =
      match symOf ld t with
      | none => absB ld s
      | some y => symStep ld.maximumGroupValue (absB ld s) y := by
  unfold buildStep symOf
  by_cases hb : blank t = true
  · simp [hb]
  · simp only [hb]
    by_cases hs : ld.skipTokens.elem t = true
    · simp only [hs]; rfl
    · simp only [hs]
      simp only [Bool.false_eq_true, if_false, symStep, numStep]
      rw [checkLarge_eq h, checkValidity_eq h]
      show absB ld _ = match largeK (kindOf ld t) s.total s.grp with
        | some p => _
        | none => _
      cases largeK (kindOf ld t) s.total s.grp with
      | some p => rfl
      | none =>
        show absB ld (if _ then _ else _) = if validK _ (s.prevTok.map (kindOf ld)) s.prevPow s.total s.grp = true then _ else _
        by_cases hv : validK (kindOf ld t) (s.prevTok.map (kindOf ld)) s.prevPow s.total s.grp = true
        · rw [if_pos hv, if_pos hv]; exact addToken_abs h s t
        · rw [if_neg hv, if_neg hv, addToken_abs h, flush_abs]

theorem fold_abs {ld : LangData} (h : ld.Disjoint) (ts : List PyStr) (s : BState) :
    absB ld (ts.foldl (buildStep ld) s) =
      (ts.filterMap (symOf ld)).foldl (symStep ld.maximumGroupValue) (absB ld s) := by
  induction ts generalizing s with
  | nil => rfl
  | cons t ts ih =>
    rw [List.foldl_cons, ih, buildStep_abs h]
    cases hs : symOf ld t with
    | none => simp [List.filterMap_cons, hs]
    | some y => simp [List.filterMap_cons, hs]

/-- The symbols' machine. -/
def symItems (mg : Nat) (ys : List Sym) : List Item := (ys.foldl (symStep mg) KState.init).items

theorem buildItems_eq {ld : LangData} (h : ld.Disjoint) (ts : List PyStr) :
    buildItems ld ts = symItems ld.maximumGroupValue (ts.filterMap (symOf ld)) := by
  have := fold_abs h ts BState.init
  unfold buildItems symItems
  have hi : absB ld BState.init = KState.init := rfl
  rw [hi] at this
  rw [← this]; rfl

end NumberParser
