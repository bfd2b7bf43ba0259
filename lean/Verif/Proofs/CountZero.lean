import Verif.Proofs.Extract

/-! Counting the zeros of a number with floats; distinct words. -/

set_option linter.unusedSimpArgs false

namespace NumberParser.Gen

open NumberParser Spec

/-! ### No word twice -/

def Tables.Distinct (d : Tables Int) : Prop := ∀ t, (Table.keys (theTable d t)).Nodup

theorem empty_distinct : (Tables.empty : Tables Int).Distinct := by
  intro t; cases t <;> simp [theTable, Tables.empty, Table.keys]

theorem setTable_distinct {d d' : Tables Int} (h : d.Distinct) (h' : ∀ t, theTable d' t = theTable d t ∨ ∃ w n, theTable d' t = Table.set (theTable d t) w n) :
    d'.Distinct := by
  intro t
  rcases h' t with e | ⟨w, n, e⟩
  · rw [e]; exact h t
  · rw [e]; exact Table.nodup_set (h t) w n

theorem ruleStep_distinct {r : PyStr × PyStr} {d d' : Tables Int} (h : d.Distinct) (hs : ruleStep d r = .ok d') : d'.Distinct := by
  unfold ruleStep extractInformation at hs
  split at hs
  · injection hs with hs; subst hs; exact h
  · simp only at hs
    split at hs
    · injection hs with hs; subst hs; exact h
    · split at hs
      · injection hs with hs; subst hs
        unfold addBaseWords
        split
        · exact h
        · split
          · exact setTable_distinct h (fun t => by cases t <;> first | exact .inl rfl | exact .inr ⟨_, _, rfl⟩)
          · split
            · exact setTable_distinct h (fun t => by cases t <;> first | exact .inl rfl | exact .inr ⟨_, _, rfl⟩)
            · exact h
      · split at hs
        · unfold addCompoundWords at hs
          revert hs
          generalize countZero _ = z
          intro hs
          cases z with
          | error e => cases hs
          | ok power =>
            simp only [bind, Except.bind, pure, Except.pure] at hs
            split at hs
            · injection hs with hs; subst hs; exact h
            · revert hs
              generalize (if List.elem 91 _ = true then strip (splitFirst 91 _) else strip (splitFirst 62 _)) = root
              intro hs
              split at hs
              · injection hs with hs; subst hs; exact h
              · split at hs
                · injection hs with hs; subst hs
                  exact setTable_distinct h (fun t => by cases t <;> first | exact .inl rfl | exact .inr ⟨_, _, rfl⟩)
                · split at hs
                  · injection hs with hs; subst hs
                    exact setTable_distinct h (fun t => by cases t <;> first | exact .inl rfl | exact .inr ⟨_, _, rfl⟩)
                  · injection hs with hs; subst hs; exact h
        · split at hs
          · unfold addMultiplierWords at hs
            simp only [bind, Except.bind, pure, Except.pure] at hs
            split at hs
            · cases hs
            · split at hs
              · injection hs with hs; subst hs; exact h
              · revert hs
                generalize countZero _ = z
                intro hs
                cases z with
                | error e => cases hs
                | ok power =>
                  simp only at hs
                  split at hs
                  · injection hs with hs
                    by_cases hp : 2 ≤ power
                    · rw [foldl_big _ _ hp] at hs
                      subst hs
                      intro t
                      cases t with
                      | big => exact Table.foldl_set_nodup (fun _ => (10 ^ power : Int)) (fun w => w) _ _ (h .big)
                      | unit => exact h .unit
                      | direct => exact h .direct
                      | tens => exact h .tens
                      | hundreds => exact h .hundreds
                    · rw [foldl_big_small _ _ hp] at hs
                      subst hs; exact h
                  · split at hs
                    · injection hs with hs; subst hs
                      exact setTable_distinct h (fun t => by cases t <;> first | exact .inl rfl | exact .inr ⟨_, _, rfl⟩)
                    · injection hs with hs; subst hs; exact h
          · injection hs with hs; subst hs; exact h

theorem foldlM_distinct {rules : List (PyStr × PyStr)} {d d' : Tables Int} (h : d.Distinct) (hs : rules.foldlM ruleStep d = .ok d') :
    d'.Distinct := by
  induction rules generalizing d with
  | nil => injection hs with hs; subst hs; exact h
  | cons r rules ih =>
    rw [List.foldlM_cons] at hs
    cases h1 : ruleStep d r with
    | error e => rw [h1] at hs; cases hs
    | ok d1 => rw [h1] at hs; exact ih (ruleStep_distinct h h1) hs

theorem extract_distinct {sets : RuleSets} {d : Tables Int} (h : extract sets = .ok d) : d.Distinct := by
  rw [extract_eq] at h
  exact foldlM_distinct empty_distinct h

/-! ### Rounding -/

theorem roundDouble_small {n : Nat} (h : n < 2 ^ 53) : roundDouble n = n := by
  unfold roundDouble; rw [if_pos h]

theorem log2_bounds {n : Nat} (h : n ≠ 0) : 2 ^ Nat.log2 n ≤ n ∧ n < 2 ^ (Nat.log2 n + 1) :=
  ⟨Nat.log2_self_le h, Nat.lt_log2_self⟩

/-- Numbers with at most 53 significant binary digits are exact. -/
theorem roundDouble_exact (a b : Nat) (ha : a < 2 ^ 53) : roundDouble (a * 2 ^ b) = a * 2 ^ b := by
  unfold roundDouble
  split
  · rfl
  · rename_i hn
    have hn0 : a * 2 ^ b ≠ 0 := by intro h; rw [h] at hn; exact hn (by decide)
    obtain ⟨l1, l2⟩ := log2_bounds hn0
    have hlog : 53 ≤ Nat.log2 (a * 2 ^ b) := by
      rcases Nat.lt_or_ge (Nat.log2 (a * 2 ^ b)) 53 with h | h
      · have := Nat.pow_le_pow_right (n := 2) (by decide) (show Nat.log2 (a * 2 ^ b) + 1 ≤ 53 by omega)
        omega
      · exact h
    have hle : Nat.log2 (a * 2 ^ b) - 52 ≤ b := by
      rcases Nat.lt_or_ge b (Nat.log2 (a * 2 ^ b) - 52) with h | h
      · have h1 : a * 2 ^ b < 2 ^ 53 * 2 ^ b := Nat.mul_lt_mul_of_pos_right ha (Nat.pow_pos (by decide))
        rw [← Nat.pow_add] at h1
        have h2 := Nat.pow_le_pow_right (n := 2) (by decide) (show 53 + b ≤ Nat.log2 (a * 2 ^ b) by omega)
        omega
      · exact h
    have hdvd : 2 ^ (Nat.log2 (a * 2 ^ b) - 52) ∣ a * 2 ^ b := by
      refine Nat.dvd_mul_left_of_dvd ?_ a
      exact Nat.pow_dvd_pow 2 hle
    simp only [Nat.mod_eq_zero_of_dvd hdvd]
    have hpos : 0 < 2 ^ (Nat.log2 (a * 2 ^ b) - 52) := Nat.pow_pos (by decide)
    rw [if_neg (by omega)]
    exact Nat.div_mul_cancel hdvd

theorem roundDouble_le {n : Nat} : roundDouble n ≤ 2 * n := by
  unfold roundDouble
  split
  · omega
  · rename_i hn
    have hn0 : n ≠ 0 := by intro h; rw [h] at hn; exact hn (by decide)
    obtain ⟨l1, l2⟩ := log2_bounds hn0
    have hq := Nat.div_mul_le_self n (2 ^ (Nat.log2 n - 52))
    have hp : 2 ^ (Nat.log2 n - 52) ≤ n := Nat.le_trans (Nat.pow_le_pow_right (by decide) (by omega)) l1
    simp only
    split
    · rw [Nat.add_mul]; omega
    · omega

/-! ### Counting zeros -/

/-- The loop, given that the fuel suffices. -/
theorem countZeroGo_succ (fuel n : Nat) : countZeroGo (fuel + 1) n =
    if 9 < n ∧ n % 10 = 0 then (do let n' ← divTen n; let k ← countZeroGo fuel n'; return k + 1) else .ok 0 := by
  rw [countZeroGo]
  by_cases h1 : 9 < n
  · by_cases h2 : n % 10 = 0
    · simp [h1, h2]
    · simp [h1, h2]
  · simp [h1]

theorem divTen_lt {n q : Nat} (h9 : 9 < n) (h : divTen n = .ok q) : 2 * q < n := by
  unfold divTen at h
  simp only at h
  split at h
  · injection h with h
    have := roundDouble_le (n := n / 10)
    omega
  · cases h

theorem countZeroGo_fuel (f : Nat) : ∀ n, n < 2 ^ f → ∀ g, n < 2 ^ g → countZeroGo f n = countZeroGo g n := by
  induction f with
  | zero =>
    intro n hn g hg
    have : n = 0 := by omega
    subst this
    cases g with
    | zero => rfl
    | succ g => rw [countZeroGo_succ]; rfl
  | succ f ih =>
    intro n hn g hg
    cases g with
    | zero =>
      have : n = 0 := by omega
      subst this
      rw [countZeroGo_succ]; rfl
    | succ g =>
      rw [countZeroGo_succ, countZeroGo_succ]
      split
      · rename_i hc
        cases hd : divTen n with
        | error e => rfl
        | ok q =>
          have := divTen_lt hc.1 hd
          have e := ih q (by rw [Nat.pow_succ] at hn; omega) g (by rw [Nat.pow_succ] at hg; omega)
          show (countZeroGo f q >>= _) = (countZeroGo g q >>= _)
          rw [e]
      · rfl

/-- `_count_zero` on a natural number. -/
def zeros (n : Nat) : GRes Nat := countZeroGo (Nat.log2 n + 1) n

theorem zeros_eq (n : Nat) : zeros n = if 9 < n ∧ n % 10 = 0 then (do let n' ← divTen n; let k ← zeros n'; return k + 1) else .ok 0 := by
  unfold zeros
  rw [countZeroGo_succ]
  split
  · rename_i hc
    cases hd : divTen n with
    | error e => rfl
    | ok q =>
      have h1 := divTen_lt hc.1 hd
      have h2 : n < 2 ^ (Nat.log2 n + 1) := Nat.lt_log2_self
      have e := countZeroGo_fuel (Nat.log2 n) q (by rw [Nat.pow_succ] at h2; omega) (Nat.log2 q + 1) Nat.lt_log2_self
      show (countZeroGo (Nat.log2 n) q >>= _) = (countZeroGo (Nat.log2 q + 1) q >>= _)
      rw [e]
  · rfl

theorem countZero_eq (number : Int) : countZero number = zeros number.toNat := rfl

/-- At least one zero: a multiple of ten from ten. -/
theorem zeros_pos {n k : Nat} (h : zeros n = .ok (k + 1)) : 9 < n ∧ n % 10 = 0 := by
  rw [zeros_eq] at h
  split at h
  · assumption
  · cases h

/-- The exact cases: `m * 10 ^ k` with `m * 5 ^ k` below `2 ^ 53`. -/
theorem divTen_exact {n : Nat} (a b : Nat) (ha : a < 2 ^ 53) (hb : b < 900) (h : n / 10 = a * 2 ^ b) : divTen n = .ok (n / 10) := by
  unfold divTen
  rw [h, roundDouble_exact a b ha]
  have : a * 2 ^ b < 2 ^ 1024 := by
    have h1 : a * 2 ^ b < 2 ^ 53 * 2 ^ b := Nat.mul_lt_mul_of_pos_right ha (Nat.pow_pos (by decide))
    rw [← Nat.pow_add] at h1
    exact Nat.lt_of_lt_of_le h1 (Nat.pow_le_pow_right (by decide) (by omega))
  simp only [this, if_true]

/-- The number of zeros at the end of a number, as a number of one digit counts for none: `n = m * 10 ^ k` with `m` a
single digit other than zero, or not a multiple of ten. -/
def EndsInZeros (n k : Nat) : Prop := ∃ m, n = m * 10 ^ k ∧ (k = 0 ∨ m ≠ 0) ∧ (m ≤ 9 ∨ m % 10 ≠ 0)

theorem endsInZeros_unique {n j k : Nat} (hj : EndsInZeros n j) (hk : EndsInZeros n k) : j = k := by
  have key : ∀ {n j k : Nat}, j < k → EndsInZeros n j → EndsInZeros n k → False := by
    rintro n j k hlt ⟨m, rfl, _, h2⟩ ⟨m', h3, h4, h5⟩
    have hk : k = j + (k - j - 1) + 1 := by omega
    have h10 : 0 < 10 ^ j := Nat.pow_pos (by decide)
    rw [hk, Nat.pow_succ, Nat.pow_add] at h3
    have e : m = m' * 10 ^ (k - j - 1) * 10 := by
      apply Nat.eq_of_mul_eq_mul_right h10
      rw [h3]; simp only [Nat.mul_assoc, Nat.mul_comm, Nat.mul_left_comm]
    rcases h2 with h2 | h2
    · have hm' : m' ≠ 0 := by rcases h4 with h4 | h4; omega; exact h4
      have : 1 ≤ m' * 10 ^ (k - j - 1) := Nat.mul_pos (by omega) (Nat.pow_pos (by decide))
      omega
    · omega
  rcases Nat.lt_trichotomy j k with h | h | h
  · exact (key h hj hk).elim
  · exact h
  · exact (key h hk hj).elim

/-- The count is right for `m * 10 ^ k` with `m * 5 ^ k` below `2 ^ 53`. -/
theorem zeros_exact (k m : Nat) (hm : k = 0 ∨ m ≠ 0) (hm2 : m ≤ 9 ∨ m % 10 ≠ 0) (h53 : m * 5 ^ k < 2 ^ 53) :
    zeros (m * 10 ^ k) = .ok k := by
  induction k with
  | zero =>
    rw [zeros_eq, if_neg]
    omega
  | succ k ih =>
    have hm0 : m ≠ 0 := by omega
    have h10 : 0 < m * 10 ^ k := Nat.mul_pos (by omega) (Nat.pow_pos (by decide))
    have e : m * 10 ^ (k + 1) = m * 10 ^ k * 10 := by rw [Nat.pow_succ, Nat.mul_assoc]
    rw [zeros_eq, if_pos (by rw [e]; omega)]
    have hk900 : k < 900 := by
      rcases Nat.lt_or_ge k 900 with h | h
      · exact h
      · have h1 : 5 ^ 53 ≤ 5 ^ (k + 1) := Nat.pow_le_pow_right (by decide) (by omega)
        have h2 : 5 ^ (k + 1) ≤ m * 5 ^ (k + 1) := Nat.le_mul_of_pos_left _ (by omega)
        have h3 : (2 : Nat) ^ 53 < 5 ^ 53 := by decide
        omega
    have h5 : m * 5 ^ k < 2 ^ 53 := by
      have : m * 5 ^ k ≤ m * 5 ^ (k + 1) := Nat.mul_le_mul_left _ (Nat.pow_le_pow_right (by decide) (by omega))
      omega
    have e2 : m * 10 ^ (k + 1) / 10 = m * 10 ^ k := by rw [e]; omega
    have e3 : m * 10 ^ k = m * 5 ^ k * 2 ^ k := by rw [show 10 = 5 * 2 from rfl, Nat.mul_pow, Nat.mul_assoc]
    rw [divTen_exact (m * 5 ^ k) k h5 hk900 (by rw [e2, e3]), e2]
    show (zeros (m * 10 ^ k) >>= _) = _
    rw [ih (.inr hm0) h5]; rfl

/-- Below `10 * 2 ^ 53` every count is right. -/
theorem zeros_small : ∀ (n : Nat), n < 10 * 2 ^ 53 → ∃ k, zeros n = .ok k ∧ EndsInZeros n k := by
  intro n
  induction n using Nat.strongRecOn with
  | _ n ih =>
    intro hn
    rw [zeros_eq]
    split
    · rename_i hc
      have hd : divTen n = .ok (n / 10) := divTen_exact (n / 10) 0 (by omega) (by decide) (by simp)
      obtain ⟨k, hk, m, hm, hm0, hm9⟩ := ih (n / 10) (by omega) (by omega)
      rw [hd]
      refine ⟨k + 1, ?_, m, ?_, ?_, hm9⟩
      · show (zeros (n / 10) >>= _) = _
        rw [hk]; rfl
      · rw [Nat.pow_succ, ← Nat.mul_assoc, ← hm]; omega
      · refine .inr ?_
        intro h0; subst h0; simp at hm; omega
    · rename_i hc
      refine ⟨0, rfl, n, by simp, .inl rfl, by omega⟩

end NumberParser.Gen
