import Verif.Proofs.RuleForms
import Verif.Proofs.Generator
import Verif.Proofs.Digits

/-! The extraction of words from the rules. -/

set_option linter.unusedSimpArgs false

namespace NumberParser.Gen

open NumberParser Spec

/-! ### Parts of a text -/

theorem takeWhile_spec (c : Nat) (s : PyStr) : BeforeFirst c s (s.takeWhile (fun x => x != c)) := by
  induction s with
  | nil => exact ⟨by simp, .inl rfl⟩
  | cons a s ih =>
    by_cases h : a = c
    · subst h
      refine ⟨by simp, .inr ⟨s, by simp⟩⟩
    · have : (a != c) = true := by simp [h]
      rw [List.takeWhile_cons, if_pos this]
      obtain ⟨h1, h2⟩ := ih
      refine ⟨by simp [Ne.symm h, h1], ?_⟩
      rcases h2 with h2 | ⟨r, h2⟩
      · exact .inl (by rw [h2])
      · exact .inr ⟨r, by rw [List.cons_append, ← h2]⟩

theorem beforeFirst_unique {c : Nat} {s p q : PyStr} (hp : BeforeFirst c s p) (hq : BeforeFirst c s q) : p = q := by
  induction s generalizing p q with
  | nil =>
    have e : ∀ x, BeforeFirst c [] x → x = [] := by
      rintro x ⟨_, h | ⟨r, h⟩⟩
      · exact h
      · simp at h
    rw [e p hp, e q hq]
  | cons a s ih =>
    by_cases h : a = c
    · subst h
      have e : ∀ x, BeforeFirst a (a :: s) x → x = [] := by
        rintro x ⟨h1, h | ⟨r, h⟩⟩
        · rw [h] at h1; simp at h1
        · cases x with
          | nil => rfl
          | cons y x => simp at h; rw [h.1] at h1; simp at h1
      rw [e p hp, e q hq]
    · have e : ∀ x, BeforeFirst c (a :: s) x → ∃ x', x = a :: x' ∧ BeforeFirst c s x' := by
        rintro x ⟨h1, h' | ⟨r, h'⟩⟩
        · subst h'; simp at h1; exact ⟨s, rfl, h1.2, .inl rfl⟩
        · cases x with
          | nil => simp at h'; exact absurd h'.1 h
          | cons y x =>
            simp at h'; simp at h1
            exact ⟨x, by rw [h'.1], h1.2, .inr ⟨r, h'.2⟩⟩
      obtain ⟨p', rfl, hp'⟩ := e p hp
      obtain ⟨q', rfl, hq'⟩ := e q hq
      rw [ih hp' hq']

theorem beforeFirst_iff (c : Nat) (s p : PyStr) : BeforeFirst c s p ↔ p = splitFirst c s :=
  ⟨fun h => beforeFirst_unique h (takeWhile_spec c s), fun h => by rw [h]; exact takeWhile_spec c s⟩

theorem afterLast_reverse (c : Nat) (s p : PyStr) : AfterLast c s p ↔ BeforeFirst c s.reverse p.reverse := by
  unfold AfterLast BeforeFirst
  rw [List.mem_reverse]
  refine and_congr_right (fun _ => ?_)
  constructor
  · rintro (h | ⟨r, h⟩)
    · exact .inl (by rw [h])
    · exact .inr ⟨r.reverse, by rw [h]; simp⟩
  · rintro (h | ⟨r, h⟩)
    · exact .inl (List.reverse_inj.mp h)
    · refine .inr ⟨r.reverse, ?_⟩
      have := congrArg List.reverse h
      simpa using this

theorem afterLast_iff (c : Nat) (s p : PyStr) : AfterLast c s p ↔ p = splitLast c s := by
  rw [afterLast_reverse, beforeFirst_iff]
  unfold splitFirst splitLast
  constructor
  · intro h; rw [← h, List.reverse_reverse]
  · intro h; rw [h, List.reverse_reverse]

theorem rootWord_iff (s w : PyStr) :
    RootWordF s w ↔ w = (if s.elem 91 then strip (splitFirst 91 s) else strip (splitFirst 62 s)) := by
  unfold RootWordF
  by_cases h : 91 ∈ s
  · have : s.elem 91 = true := by simpa using h
    rw [if_pos this]
    constructor
    · rintro ⟨h1, _⟩
      obtain ⟨p, hp, rfl⟩ := h1 h
      rw [(beforeFirst_iff _ _ _).mp hp]
    · intro hw
      exact ⟨fun _ => ⟨_, takeWhile_spec 91 s, hw⟩, fun h' => absurd h h'⟩
  · have : ¬ s.elem 91 = true := by simpa using h
    rw [if_neg this]
    constructor
    · rintro ⟨_, h1⟩
      obtain ⟨p, hp, rfl⟩ := h1 h
      rw [(beforeFirst_iff _ _ _).mp hp]
    · intro hw
      exact ⟨fun h' => absurd h' h, fun _ => ⟨_, takeWhile_spec 62 s, hw⟩⟩

theorem ruleText_eq (r : PyStr) : replace (replace r [0xad] []) u!";" [] = ruleText r := by
  rw [replace_single, replace_single, List.filter_filter]
  rfl

theorem contains_iff {sub : PyStr} (hs : sub ≠ []) (s : PyStr) : contains sub s = true ↔ sub <:+: s := by
  unfold contains
  rw [← Option.not_isNone, Bool.not_eq_true', ← Bool.not_eq_true, Option.isNone_iff_eq_none, find_none hs, Classical.not_not]
  constructor
  · rintro ⟨a, b, h⟩; exact ⟨a, b, h.symm⟩
  · rintro ⟨a, b, h⟩; exact ⟨a, b, h.symm⟩

theorem isValid_iff (name : PyStr) : isValid name = true ↔ UsedSet name := by
  have h1 := contains_iff (sub := u!"spellout-cardinal") (by simp) name
  have h2 := contains_iff (sub := u!"spellout-numbering") (by simp) name
  have h3 := contains_iff (sub := u!"cents") (by simp) name
  unfold isValid UsedSet VALID_KEYS INVALID_KEYS
  rw [← h1, ← h2, ← h3]
  simp only [List.foldl_cons, List.foldl_nil]
  cases contains u!"spellout-cardinal" name <;> cases contains u!"spellout-numbering" name <;> cases contains u!"cents" name <;> simp

/-! ### One rule -/

/-- The step for one rule. -/
def ruleStep (d : Tables Int) (r : PyStr × PyStr) : GRes (Tables Int) := extractInformation r.1 (replace r.2 [0xad] []) d

/-- The effect of a rule on a table: the words it contributes are set, the others keep their values. -/
def Effect (r : PyStr × PyStr) (d d' : Tables Int) : Prop :=
  ∀ t w, (∀ n, ContributesF r.1 r.2 t w n → Table.get? (theTable d' t) w = some n) ∧
    ((∀ n, ¬ ContributesF r.1 r.2 t w n) → Table.get? (theTable d' t) w = Table.get? (theTable d t) w)

theorem count_zero_iff (c : Nat) (s : PyStr) : s.count c = 0 ↔ c ∉ s := List.count_eq_zero

theorem effect_none {r : PyStr × PyStr} {d : Tables Int} (h : ∀ t w n, ¬ ContributesF r.1 r.2 t w n) : Effect r d d :=
  fun t w => ⟨fun n hn => absurd hn (h t w n), fun _ => rfl⟩

theorem addBase_effect {r : PyStr × PyStr} {number : Int} (hk : pyIntAny r.1 = some number) (h61 : 61 ∉ ruleText r.2)
    (h62 : 62 ∉ ruleText r.2) (h60 : 60 ∉ ruleText r.2) (d : Tables Int) : Effect r d (addBaseWords number (ruleText r.2) d) := by
  have c62 : (ruleText r.2).count 62 ≠ 2 := by rw [List.count_eq_zero.mpr h62]; decide
  have hc : ∀ t w n, ContributesF r.1 r.2 t w n → (t = .unit ∧ w = ruleText r.2 ∧ w ≠ [] ∧ w ≠ u!"ERROR" ∧ n = number ∧ number ≤ 9) ∨
      (t = .direct ∧ w = ruleText r.2 ∧ w ≠ [] ∧ w ≠ u!"ERROR" ∧ n = number ∧ 10 ≤ number ∧ number ≤ 99) := by
    rintro t w n ⟨m, hm, _, h⟩
    rw [hk] at hm; injection hm with hm; subst hm
    cases t with
    | unit => exact .inl ⟨rfl, h.2.2⟩
    | direct => exact .inr ⟨rfl, h.2.2⟩
    | tens => exact absurd h.1 c62
    | hundreds => exact absurd h.1 c62
    | big => exact absurd h.1 c62
  unfold addBaseWords
  split
  · rename_i hw
    apply effect_none
    intro t w n h
    simp only [Bool.or_eq_true, beq_iff_eq] at hw
    rcases hc t w n h with ⟨_, rfl, h1, h2, _⟩ | ⟨_, rfl, h1, h2, _⟩
    · rcases hw with hw | hw
      · exact h2 hw
      · exact h1 hw
    · rcases hw with hw | hw
      · exact h2 hw
      · exact h1 hw
  · rename_i hw
    simp only [Bool.or_eq_true, beq_iff_eq, not_or] at hw
    split
    · rename_i h9
      intro t w
      constructor
      · intro n h
        rcases hc t w n h with ⟨rfl, rfl, h1, h2, rfl, _⟩ | ⟨rfl, rfl, h1, h2, rfl, h3, _⟩
        · simp [theTable, Table.get?_set]
        · omega
      · intro h
        cases t with
        | unit =>
          simp only [theTable, Table.get?_set]
          by_cases e : ruleText r.2 = w
          · exact absurd ⟨number, hk, h61, h62, h60, e.symm, by rw [← e]; exact hw.2, by rw [← e]; exact hw.1, rfl, h9⟩ (h number)
          · rw [if_neg e]
        | _ => rfl
    · split
      · rename_i h9 h99
        intro t w
        constructor
        · intro n h
          rcases hc t w n h with ⟨rfl, rfl, h1, h2, rfl, h3⟩ | ⟨rfl, rfl, h1, h2, rfl, h3, _⟩
          · omega
          · simp [theTable, Table.get?_set]
        · intro h
          cases t with
          | direct =>
            simp only [theTable, Table.get?_set]
            by_cases e : ruleText r.2 = w
            · exact absurd ⟨number, hk, h61, h62, h60, e.symm, by rw [← e]; exact hw.2, by rw [← e]; exact hw.1, rfl, by omega, h99⟩ (h number)
            · rw [if_neg e]
          | _ => rfl
      · apply effect_none
        intro t w n h
        rcases hc t w n h with ⟨_, _, _, _, _, _⟩ | ⟨_, _, _, _, _, _, _⟩ <;> omega

theorem addCompound_effect {r : PyStr × PyStr} {number : Int} (hk : pyIntAny r.1 = some number) (h61 : 61 ∉ ruleText r.2)
    (h62 : (ruleText r.2).count 62 = 2) (h60 : 60 ∉ ruleText r.2) (d d' : Tables Int)
    (h : addCompoundWords number (ruleText r.2) d = .ok d') : Effect r d d' := by
  have m62 : 62 ∈ ruleText r.2 := by
    apply Classical.byContradiction
    intro hn; rw [List.count_eq_zero.mpr hn] at h62; cases h62
  have c60 : (ruleText r.2).count 60 ≠ 2 := by rw [List.count_eq_zero.mpr h60]; decide
  have hc : ∀ t w n, ContributesF r.1 r.2 t w n →
      RootWordF (ruleText r.2) w ∧ w ≠ [] ∧ n = number ∧ firstChar number ≠ 49 ∧
      ((t = .tens ∧ countZero number = .ok 1) ∨ (t = .hundreds ∧ countZero number = .ok 2)) := by
    rintro t w n ⟨m, hm, _, h⟩
    rw [hk] at hm; injection hm with hm; subst hm
    cases t with
    | unit => exact absurd m62 h.1
    | direct => exact absurd m62 h.1
    | tens => exact ⟨h.2.2.1, h.2.2.2.1, h.2.2.2.2.1, h.2.2.2.2.2.2, .inl ⟨rfl, h.2.2.2.2.2.1⟩⟩
    | hundreds => exact ⟨h.2.2.1, h.2.2.2.1, h.2.2.2.2.1, h.2.2.2.2.2.2, .inr ⟨rfl, h.2.2.2.2.2.1⟩⟩
    | big => exact absurd h.2.1 c60
  unfold addCompoundWords at h
  cases hz : countZero number with
  | error e => rw [hz] at h; cases h
  | ok power =>
    rw [hz] at h hc
    simp only [bind, Except.bind, pure, Except.pure, ← rootWord_iff] at h
    have hroot := (rootWord_iff (ruleText r.2) (if (ruleText r.2).elem 91 then strip (splitFirst 91 (ruleText r.2)) else strip (splitFirst 62 (ruleText r.2)))).mpr rfl
    have huniq : ∀ w, RootWordF (ruleText r.2) w → w = (if (ruleText r.2).elem 91 then strip (splitFirst 91 (ruleText r.2)) else strip (splitFirst 62 (ruleText r.2))) :=
      fun w hw => (rootWord_iff _ _).mp hw
    revert h
    generalize (if (ruleText r.2).elem 91 then strip (splitFirst 91 (ruleText r.2)) else strip (splitFirst 62 (ruleText r.2))) = root at hroot huniq ⊢
    intro h
    split at h
    · injection h with h; subst h
      rename_i hp
      apply effect_none
      intro t w n hcn
      obtain ⟨_, _, _, hf, hp'⟩ := hc t w n hcn
      simp only [Bool.or_eq_true, decide_eq_true_eq, beq_iff_eq] at hp
      rcases hp with hp | hp
      · subst hp; rcases hp' with ⟨_, hp'⟩ | ⟨_, hp'⟩ <;> cases hp'
      · exact hf hp
    · rename_i hp
      simp only [Bool.or_eq_true, decide_eq_true_eq, beq_iff_eq, not_or] at hp
      split at h
      · rename_i he
        simp only [beq_iff_eq] at he
        injection h with h; subst h
        apply effect_none
        intro t w n hcn
        obtain ⟨hw, hne, _⟩ := hc t w n hcn
        rw [huniq w hw] at hne; exact hne he
      · rename_i he
        simp only [beq_iff_eq] at he
        split at h
        · rename_i h1; subst h1
          injection h with h; subst h
          intro t w
          constructor
          · intro n hcn
            obtain ⟨hw, hne, rfl, _, ⟨rfl, _⟩ | ⟨_, hbad⟩⟩ := hc t w n hcn
            · rw [huniq w hw]; simp [theTable, Table.get?_set]
            · cases hbad
          · intro hno
            cases t with
            | tens =>
              simp only [theTable, Table.get?_set]
              by_cases e : root = w
              · subst e
                exact absurd ⟨number, hk, h61, h62, h60, hroot, he, rfl, hz, hp.2⟩ (hno number)
              · rw [if_neg e]
            | _ => rfl
        · rename_i h1
          split at h
          · rename_i h2; subst h2
            injection h with h; subst h
            intro t w
            constructor
            · intro n hcn
              obtain ⟨hw, hne, rfl, _, ⟨_, hbad⟩ | ⟨rfl, _⟩⟩ := hc t w n hcn
              · cases hbad
              · rw [huniq w hw]; simp [theTable, Table.get?_set]
            · intro hno
              cases t with
              | hundreds =>
                simp only [theTable, Table.get?_set]
                by_cases e : root = w
                · subst e
                  exact absurd ⟨number, hk, h61, h62, h60, hroot, he, rfl, hz, hp.2⟩ (hno number)
                · rw [if_neg e]
              | _ => rfl
          · rename_i h2
            injection h with h; subst h
            apply effect_none
            intro t w n hcn
            obtain ⟨_, _, _, _, ⟨_, hb⟩ | ⟨_, hb⟩⟩ := hc t w n hcn
            · injection hb with hb; exact h1 hb
            · injection hb with hb; exact h2 hb

/-- Setting a list of words to the same value. -/
def setAll (ws : List PyStr) (n : Int) (d : Tables Int) : Tables Int :=
  { d with big := ws.foldl (fun t w => Table.set t w n) d.big }

theorem get?_setAll (ws : List PyStr) (n : Int) (t : Table Int) (w : PyStr) :
    Table.get? (ws.foldl (fun t w => Table.set t w n) t) w = if w ∈ ws then some n else Table.get? t w := by
  induction ws generalizing t with
  | nil => simp
  | cons x ws ih =>
    rw [List.foldl_cons, ih, Table.get?_set]
    by_cases h : w ∈ ws
    · simp [h]
    · by_cases hx : x = w
      · simp [hx]
      · simp [h, hx, Ne.symm hx]

theorem foldl_big (ws : List PyStr) (power : Nat) (hp : 2 ≤ power) (d : Tables Int) :
    ws.foldl (fun (d : Tables Int) w => if 2 ≤ power then { d with big := Table.set d.big w (10 ^ power : Int) } else d) d =
      setAll ws (10 ^ power) d := by
  induction ws generalizing d with
  | nil => rfl
  | cons w ws ih => rw [List.foldl_cons, if_pos hp, ih]; rfl

theorem foldl_big_small (ws : List PyStr) (power : Nat) (hp : ¬ 2 ≤ power) (d : Tables Int) :
    ws.foldl (fun (d : Tables Int) w => if 2 ≤ power then { d with big := Table.set d.big w (10 ^ power : Int) } else d) d = d := by
  induction ws generalizing d with
  | nil => rfl
  | cons w ws ih => rw [List.foldl_cons, if_neg hp, ih]

theorem findBrackets_space (part : PyStr) : findBrackets (32 :: part) = findBrackets part := by
  simp [findBrackets, findBracketsGo]

/-- The words a multiplier rule contributes. -/
def bigWords (required : PyStr) : List PyStr :=
  if required.elem 36 then findBrackets required
  else [if required.elem 91 then strip (splitFirst 91 required) else strip (splitFirst 62 required)]

theorem addMultiplier_effect {r : PyStr × PyStr} {number : Int} (hk : pyIntAny r.1 = some number) (h61 : 61 ∉ ruleText r.2)
    (h62 : (ruleText r.2).count 62 = 2) (h60 : (ruleText r.2).count 60 = 2) (d d' : Tables Int)
    (h : addMultiplierWords number (ruleText r.2) d = .ok d') : Effect r d d' := by
  have m62 : 62 ∈ ruleText r.2 := by
    apply Classical.byContradiction
    intro hn; rw [List.count_eq_zero.mpr hn] at h62; cases h62
  have m60 : 60 ∈ ruleText r.2 := by
    apply Classical.byContradiction
    intro hn; rw [List.count_eq_zero.mpr hn] at h60; cases h60
  have hc : ∀ t w n, ContributesF r.1 r.2 t w n ↔
      t = .big ∧ ∃ part k, splitLast 60 (ruleText r.2) = 32 :: part ∧ countZero number = .ok k ∧ 2 ≤ k ∧ n = 10 ^ k ∧
        w ∈ bigWords (32 :: part) := by
    have hb : ∀ part w, w ∈ bigWords (32 :: part) ↔ ((36 ∈ part → w ∈ findBrackets part) ∧ (36 ∉ part → RootWordF (32 :: part) w)) := by
      intro part w
      unfold bigWords
      by_cases h36 : 36 ∈ part
      · have : (32 :: part).elem 36 = true := by simpa using h36
        rw [if_pos this, findBrackets_space]
        exact ⟨fun h => ⟨fun _ => h, fun h' => absurd h36 h'⟩, fun h => h.1 h36⟩
      · have : ¬ (32 :: part).elem 36 = true := by simpa using h36
        rw [if_neg this, List.mem_singleton, ← rootWord_iff]
        exact ⟨fun h => ⟨fun h' => absurd h' h36, fun _ => h⟩, fun h => h.2 h36⟩
    intro t w n
    constructor
    · rintro ⟨m, hm, _, h⟩
      rw [hk] at hm; injection hm with hm; subst hm
      cases t with
      | unit => exact absurd m62 h.1
      | direct => exact absurd m62 h.1
      | tens => exact absurd m60 h.2.1
      | hundreds => exact absurd m60 h.2.1
      | big =>
        obtain ⟨_, _, part, k, h1, h2, h3, h4, h5⟩ := h
        exact ⟨rfl, part, k, ((afterLast_iff _ _ _).mp h1).symm, h2, h3, h4, (hb part w).mpr h5⟩
    · rintro ⟨rfl, part, k, h1, h2, h3, h4, h5⟩
      exact ⟨number, hk, h61, h62, h60, part, k, (afterLast_iff _ _ _).mpr h1.symm, h2, h3, h4, (hb part w).mp h5⟩
  unfold addMultiplierWords at h
  cases hr : splitLast 60 (ruleText r.2) with
  | nil => rw [hr] at h; cases h
  | cons c part =>
    rw [hr] at h
    simp only [hr, List.cons.injEq] at hc
    simp only [bind, Except.bind, pure, Except.pure] at h
    by_cases hsp : c = 32
    · subst hsp
      have e : ((32 : Nat) != 32) = false := rfl
      rw [e] at h
      simp only [Bool.false_eq_true, if_false] at h
      cases hz : countZero number with
      | error e => rw [hz] at h; cases h
      | ok power =>
        rw [hz] at h
        simp only at h
        have hd : d' = if 2 ≤ power then setAll (bigWords (32 :: part)) (10 ^ power) d else d := by
          unfold bigWords
          split at h
          · rename_i h36
            injection h with h
            rw [if_pos h36, ← h]
            by_cases hp : 2 ≤ power
            · rw [if_pos hp, foldl_big _ _ hp]
            · rw [if_neg hp, foldl_big_small _ _ hp]
          · rename_i h36
            rw [if_neg h36]
            by_cases hp : 2 ≤ power
            · rw [if_pos hp] at h ⊢
              injection h with h
              rw [← h]; rfl
            · rw [if_neg hp] at h ⊢
              injection h with h
              exact h.symm
        have hc' : ∀ t w n, ContributesF r.1 r.2 t w n ↔ t = .big ∧ 2 ≤ power ∧ n = 10 ^ power ∧ w ∈ bigWords (32 :: part) := by
          intro t w n
          rw [hc]
          constructor
          · rintro ⟨h1, p, k, ⟨_, rfl⟩, h3, h4, h5, h6⟩
            rw [hz] at h3; injection h3 with h3; subst h3
            exact ⟨h1, h4, h5, h6⟩
          · rintro ⟨h1, h4, h5, h6⟩
            exact ⟨h1, part, power, ⟨rfl, rfl⟩, hz, h4, h5, h6⟩
        rw [hd]
        by_cases hp : 2 ≤ power
        · rw [if_pos hp]
          intro t w
          constructor
          · intro n hn
            obtain ⟨rfl, _, rfl, hw⟩ := (hc' t w n).mp hn
            show Table.get? (List.foldl _ _ _) w = _
            rw [get?_setAll, if_pos hw]
          · intro hno
            cases t with
            | big =>
              show Table.get? (List.foldl _ _ _) w = _
              rw [get?_setAll, if_neg]
              · rfl
              · intro hw; exact hno _ ((hc' .big w _).mpr ⟨rfl, hp, rfl, hw⟩)
            | _ => rfl
        · rw [if_neg hp]
          exact effect_none (fun t w n hn => hp ((hc' t w n).mp hn).2.1)
    · have e : (c != 32) = true := by simp [hsp]
      rw [e] at h
      simp only [if_true] at h
      injection h with h; subst h
      apply effect_none
      intro t w n hcn
      obtain ⟨_, p, k, ⟨h1, _⟩, _⟩ := (hc t w n).mp hcn
      exact hsp h1

theorem ruleStep_effect (r : PyStr × PyStr) (d d' : Tables Int) (h : ruleStep d r = .ok d') : Effect r d d' := by
  unfold ruleStep extractInformation at h
  rw [ruleText_eq] at h
  cases hk : pyIntAny r.1 with
  | none =>
    rw [hk] at h
    injection h with h; subst h
    apply effect_none
    rintro t w n ⟨m, hm, _⟩
    rw [hk] at hm; cases hm
  | some number =>
    rw [hk] at h
    simp only at h
    split at h
    · rename_i h61
      injection h with h; subst h
      apply effect_none
      rintro t w n ⟨m, _, hn, _⟩
      exact h61 (List.count_eq_zero.mpr hn)
    · rename_i h61
      have h61 : 61 ∉ ruleText r.2 := List.count_eq_zero.mp (Classical.not_not.mp h61)
      split at h
      · rename_i hc
        injection h with h; subst h
        exact addBase_effect hk h61 (List.count_eq_zero.mp hc.1) (List.count_eq_zero.mp hc.2) d
      · rename_i hc0
        split at h
        · rename_i hc
          exact addCompound_effect hk h61 hc.1 (List.count_eq_zero.mp hc.2) d d' h
        · rename_i hc1
          split at h
          · rename_i hc
            exact addMultiplier_effect hk h61 hc.1 hc.2 d d' h
          · rename_i hc2
            injection h with h; subst h
            apply effect_none
            rintro t w n ⟨m, _, _, h⟩
            cases t with
            | unit => exact hc0 ⟨List.count_eq_zero.mpr h.1, List.count_eq_zero.mpr h.2.1⟩
            | direct => exact hc0 ⟨List.count_eq_zero.mpr h.1, List.count_eq_zero.mpr h.2.1⟩
            | tens => exact hc1 ⟨h.1, List.count_eq_zero.mpr h.2.1⟩
            | hundreds => exact hc1 ⟨h.1, List.count_eq_zero.mpr h.2.1⟩
            | big => exact hc2 ⟨h.1, h.2.1⟩

/-! ### All rules -/

theorem foldlM_filter_flatMap (sets : RuleSets) (d : Tables Int) :
    sets.foldlM (fun d s => if isValid s.1 then extractRules s.2 d else (return d : GRes (Tables Int))) d =
      (usedRules sets).foldlM ruleStep d := by
  induction sets generalizing d with
  | nil => rfl
  | cons s sets ih =>
    rw [List.foldlM_cons]
    unfold usedRules
    by_cases hv : UsedSet s.1
    · rw [if_pos ((isValid_iff s.1).mpr hv), List.filter_cons_of_pos (by simpa using hv), List.flatMap_cons, List.foldlM_append]
      show (extractRules s.2 d >>= _) = _
      have : extractRules s.2 d = s.2.foldlM ruleStep d := rfl
      rw [this]
      congr 1
      funext d'
      exact ih d'
    · have hv' : ¬ isValid s.1 = true := fun h => hv ((isValid_iff s.1).mp h)
      rw [if_neg hv', List.filter_cons_of_neg (by simpa using hv)]
      show (pure d >>= _) = _
      rw [pure_bind]
      exact ih d

theorem extract_eq (sets : RuleSets) : extract sets = (usedRules sets).foldlM ruleStep Tables.empty :=
  foldlM_filter_flatMap sets Tables.empty

/-- The last rule that contributes a word decides. -/
def LastContribution (rules : List (PyStr × PyStr)) (t : TableName) (w : PyStr) (n : Int) : Prop :=
  ∃ earlier r later, rules = earlier ++ r :: later ∧ ContributesF r.1 r.2 t w n ∧
    ∀ r' ∈ later, ∀ m, ¬ ContributesF r'.1 r'.2 t w m

theorem foldlM_effect (rules : List (PyStr × PyStr)) (d d' : Tables Int) (h : rules.foldlM ruleStep d = .ok d') (t : TableName)
    (w : PyStr) : (∀ n, LastContribution rules t w n → Table.get? (theTable d' t) w = some n) ∧
      ((∀ r ∈ rules, ∀ n, ¬ ContributesF r.1 r.2 t w n) → Table.get? (theTable d' t) w = Table.get? (theTable d t) w) := by
  induction rules generalizing d with
  | nil =>
    injection h with h; subst h
    refine ⟨?_, fun _ => rfl⟩
    rintro n ⟨a, r, b, he, _⟩
    simp at he
  | cons r rules ih =>
    rw [List.foldlM_cons] at h
    cases h1 : ruleStep d r with
    | error e => rw [h1] at h; cases h
    | ok d1 =>
      rw [h1] at h
      obtain ⟨ih1, ih2⟩ := ih d1 h
      have he := ruleStep_effect r d d1 h1 t w
      constructor
      · rintro n ⟨a, r', b, hab, hcn, hlast⟩
        cases a with
        | nil =>
          simp at hab
          obtain ⟨rfl, rfl⟩ := hab
          rw [ih2 hlast]
          exact he.1 n hcn
        | cons x a =>
          simp at hab
          exact ih1 n ⟨a, r', b, hab.2, hcn, hlast⟩
      · intro hno
        rw [ih2 (fun r' hr' => hno r' (List.mem_cons_of_mem _ hr'))]
        exact he.2 (hno r List.mem_cons_self)

theorem lastContribution_of {rules : List (PyStr × PyStr)} {t : TableName} {w : PyStr}
    (h : ∃ r ∈ rules, ∃ n, ContributesF r.1 r.2 t w n) : ∃ n, LastContribution rules t w n := by
  induction rules with
  | nil => obtain ⟨r, hr, _⟩ := h; cases hr
  | cons x rules ih =>
    by_cases hlater : ∃ r ∈ rules, ∃ n, ContributesF r.1 r.2 t w n
    · obtain ⟨n, a, r, b, hab, h1, h2⟩ := ih hlater
      exact ⟨n, x :: a, r, b, by rw [hab]; rfl, h1, h2⟩
    · obtain ⟨r, hr, n, hn⟩ := h
      rcases List.mem_cons.mp hr with rfl | hr
      · exact ⟨n, [], r, rules, rfl, hn, fun r' hr' m hm => hlater ⟨r', hr', m, hm⟩⟩
      · exact absurd ⟨r, hr, n, hn⟩ hlater

theorem extract_iff {sets : RuleSets} {d : Tables Int} (h : extract sets = .ok d) (t : TableName) (w : PyStr) (n : Int) :
    Table.get? (theTable d t) w = some n ↔ LastContribution (usedRules sets) t w n := by
  rw [extract_eq] at h
  obtain ⟨h1, h2⟩ := foldlM_effect _ _ _ h t w
  constructor
  · intro hg
    by_cases hc : ∃ r ∈ usedRules sets, ∃ n, ContributesF r.1 r.2 t w n
    · obtain ⟨m, hm⟩ := lastContribution_of hc
      rw [h1 m hm] at hg
      injection hg with hg; subst hg
      exact hm
    · rw [h2 (fun r hr n hn => hc ⟨r, hr, n, hn⟩)] at hg
      cases t <;> simp [theTable, Tables.empty, Table.get?] at hg
  · exact h1 n

end NumberParser.Gen
