import Verif.Spec.Double

/-! # `nearestDouble` rounds correctly -/

namespace NumberParser

open Gen Spec

theorem pow_pos' (k : Nat) : 0 < 2 ^ k := Nat.pow_pos (by decide)

/-- Rounding does not depend on how the fraction is written. -/
theorem roundHalfEven_scale (p q c : Nat) (hc : 0 < c) : roundHalfEven (p * c) (q * c) = roundHalfEven p q := by
  unfold roundHalfEven
  rw [Nat.mul_mod_mul_right, Nat.mul_div_mul_right _ _ hc]
  have h1 : (2 * (p % q * c) < q * c) ↔ 2 * (p % q) < q := by
    rw [← Nat.mul_assoc]; exact Nat.mul_lt_mul_right hc
  have h2 : (q * c < 2 * (p % q * c)) ↔ q < 2 * (p % q) := by
    rw [← Nat.mul_assoc]; exact Nat.mul_lt_mul_right hc
  simp only [h1, h2]

/-- The rounded number is at most half a step away, and even if it is exactly half a step away. -/
theorem roundHalfEven_spec (p q : Nat) (hq : 0 < q) :
    2 * distance p (roundHalfEven p q * q) ≤ q ∧ (2 * distance p (roundHalfEven p q * q) = q → roundHalfEven p q % 2 = 0) := by
  have e := Nat.div_add_mod p q
  have hr := Nat.mod_lt p hq
  have em : q * (p / q) = p / q * q := Nat.mul_comm _ _
  have e1 : (p / q + 1) * q = p / q * q + q := Nat.succ_mul _ _
  unfold roundHalfEven distance
  generalize hd : p / q = d at *
  generalize p % q = r at *
  generalize hdq : d * q = dq at *
  split
  · rw [hdq]; omega
  split
  · rw [e1]; omega
  split
  · rw [hdq]; omega
  · rw [e1]; omega

/-- No multiple of the step is nearer; another one that is as near means that the rounded number is even. -/
theorem roundHalfEven_nearest (p q m : Nat) (hq : 0 < q) :
    distance p (roundHalfEven p q * q) ≤ distance p (m * q) ∧
    (distance p (roundHalfEven p q * q) = distance p (m * q) → m ≠ roundHalfEven p q → roundHalfEven p q % 2 = 0) := by
  obtain ⟨h1, h2⟩ := roundHalfEven_spec p q hq
  generalize roundHalfEven p q = n at *
  by_cases hmn : m = n
  · subst hmn; exact ⟨Nat.le_refl _, fun _ h => absurd rfl h⟩
  · have hdist : q ≤ distance (m * q) (n * q) := by
      unfold distance
      rcases Nat.lt_or_gt_of_ne hmn with h | h
      · have := Nat.mul_le_mul_right q (show m + 1 ≤ n from h)
        rw [Nat.succ_mul] at this; omega
      · have := Nat.mul_le_mul_right q (show n + 1 ≤ m from h)
        rw [Nat.succ_mul] at this; omega
    unfold distance at *
    generalize m * q = mq at *
    generalize n * q = nq at *
    refine ⟨by omega, fun h _ => h2 (by omega)⟩

theorem floorLog_spec {p q : Nat} (hp : 0 < p) (hq : 0 < q) :
    q * 2 ^ (floorLog p q).toNat ≤ p * 2 ^ (-floorLog p q).toNat ∧
    p * 2 ^ (-floorLog p q).toNat < 2 * (q * 2 ^ (floorLog p q).toNat) := by
  have lp := Nat.log2_self_le (Nat.pos_iff_ne_zero.mp hp)
  have lq := Nat.log2_self_le (Nat.pos_iff_ne_zero.mp hq)
  have up : p < 2 ^ (p.log2 + 1) := Nat.lt_log2_self
  have uq : q < 2 ^ (q.log2 + 1) := Nat.lt_log2_self
  unfold floorLog
  generalize p.log2 = a at *
  generalize q.log2 = b at *
  simp only
  -- bounds for the first guess
  have g1 : q * 2 ^ ((a : Int) - b).toNat < 2 * (p * 2 ^ (-((a : Int) - b)).toNat) := by
    have h1 : q * 2 ^ ((a : Int) - b).toNat < 2 ^ (b + 1) * 2 ^ ((a : Int) - b).toNat := Nat.mul_lt_mul_of_pos_right uq (pow_pos' _)
    have h2 : 2 ^ a * 2 ^ (-((a : Int) - b)).toNat ≤ p * 2 ^ (-((a : Int) - b)).toNat := Nat.mul_le_mul_right _ lp
    rw [← Nat.pow_add] at h1 h2
    have h3 : 2 ^ (b + 1 + ((a : Int) - b).toNat) = 2 * 2 ^ (a + (-((a : Int) - b)).toNat) := by
      rw [show b + 1 + ((a : Int) - b).toNat = a + (-((a : Int) - b)).toNat + 1 by omega, Nat.pow_succ]; omega
    omega
  have g2 : p * 2 ^ (-((a : Int) - b)).toNat < 2 * (q * 2 ^ ((a : Int) - b).toNat) := by
    have h1 : p * 2 ^ (-((a : Int) - b)).toNat < 2 ^ (a + 1) * 2 ^ (-((a : Int) - b)).toNat := Nat.mul_lt_mul_of_pos_right up (pow_pos' _)
    have h2 : 2 ^ b * 2 ^ ((a : Int) - b).toNat ≤ q * 2 ^ ((a : Int) - b).toNat := Nat.mul_le_mul_right _ lq
    rw [← Nat.pow_add] at h1 h2
    have h3 : 2 ^ (a + 1 + (-((a : Int) - b)).toNat) = 2 * 2 ^ (b + ((a : Int) - b).toNat) := by
      rw [show a + 1 + (-((a : Int) - b)).toNat = b + ((a : Int) - b).toNat + 1 by omega, Nat.pow_succ]; omega
    omega
  generalize (a : Int) - b = t at *
  split
  · rename_i hlt
    rcases Int.lt_or_le 0 t with ht | ht
    · -- t > 0
      rw [show (-t).toNat = 0 by omega] at g1 g2 hlt
      rw [show (-(t - 1)).toNat = 0 by omega]
      have : 2 ^ t.toNat = 2 * 2 ^ (t - 1).toNat := by
        rw [show t.toNat = (t - 1).toNat + 1 by omega, Nat.pow_succ]; omega
      rw [this] at g1 hlt
      have e : q * (2 * 2 ^ (t - 1).toNat) = 2 * (q * 2 ^ (t - 1).toNat) := by rw [Nat.mul_left_comm]
      rw [e] at g1 hlt
      omega
    · rw [show t.toNat = 0 by omega] at g1 g2 hlt
      rw [show (t - 1).toNat = 0 by omega]
      have : 2 ^ (-(t - 1)).toNat = 2 * 2 ^ (-t).toNat := by
        rw [show (-(t - 1)).toNat = (-t).toNat + 1 by omega, Nat.pow_succ]; omega
      rw [this]
      have e : p * (2 * 2 ^ (-t).toNat) = 2 * (p * 2 ^ (-t).toNat) := by rw [Nat.mul_left_comm]
      rw [e]
      omega
  · omega

theorem lowest_spec (n k : Nat) : ∃ m e, lowest n k = ⟨(m : Nat), e⟩ ∧ m * 2 ^ k = n * 2 ^ e ∧ (e = 0 ∨ m % 2 = 1) := by
  induction k generalizing n with
  | zero => exact ⟨n, 0, rfl, rfl, .inl rfl⟩
  | succ k ih =>
    rw [lowest]
    split
    · rename_i h
      obtain ⟨m, e, h1, h2, h3⟩ := ih (n / 2)
      refine ⟨m, e, h1, ?_, h3⟩
      have : n = 2 * (n / 2) := by omega
      calc m * 2 ^ (k + 1) = 2 * (m * 2 ^ k) := by rw [Nat.pow_succ, ← Nat.mul_assoc, Nat.mul_comm]
        _ = 2 * (n / 2 * 2 ^ e) := by rw [h2]
        _ = n * 2 ^ e := by rw [← Nat.mul_assoc, ← this]
    · rename_i h
      exact ⟨n, k + 1, rfl, rfl, .inr (by omega)⟩

/-- Rounding to a multiple of `2 ^ k` is rounding to 53 bits, if the number has the right size for it. -/
theorem rounds_grid {p q k : Nat} (hq : 0 < q) (hup : p * 2 ^ 1074 < 2 ^ 53 * 2 ^ k * q) (hlo : k = 0 ∨ 2 ^ 52 * 2 ^ k * q ≤ p * 2 ^ 1074) :
    RoundsTo p q (roundHalfEven (p * 2 ^ 1074) (q * 2 ^ k) * 2 ^ k) := by
  generalize hP : p * 2 ^ 1074 = P at *
  have hstep : 0 < q * 2 ^ k := Nat.mul_pos hq (pow_pos' k)
  have near := fun m => roundHalfEven_nearest P (q * 2 ^ k) m hstep
  have spec := roundHalfEven_spec P (q * 2 ^ k) hstep
  generalize hn : roundHalfEven P (q * 2 ^ k) = n at *
  have assoc : ∀ m, m * 2 ^ k * q = m * (q * 2 ^ k) := by
    intro m; rw [Nat.mul_assoc, Nat.mul_comm (2 ^ k) q]
  have hup' : P < 2 ^ 53 * (q * 2 ^ k) := by rw [← assoc]; exact hup
  have hlo' : k = 0 ∨ 2 ^ 52 * (q * 2 ^ k) ≤ P := by rw [← assoc]; exact hlo
  have hn53 : n ≤ 2 ^ 53 := by
    apply Nat.le_of_not_lt
    intro h
    have := Nat.mul_le_mul_right (q * 2 ^ k) (show 2 ^ 53 + 1 ≤ n from h)
    rw [Nat.succ_mul] at this
    have := spec.1
    unfold distance at this
    generalize n * (q * 2 ^ k) = nq at *
    generalize 2 ^ 53 * (q * 2 ^ k) = b at *
    omega
  have hn52 : k = 0 ∨ 2 ^ 52 ≤ n := by
    rcases hlo' with h | h
    · exact .inl h
    · right
      apply Nat.le_of_not_lt
      intro hlt
      have := Nat.mul_le_mul_right (q * 2 ^ k) (show n + 1 ≤ 2 ^ 52 from hlt)
      rw [Nat.succ_mul] at this
      have := spec.1
      unfold distance at this
      generalize n * (q * 2 ^ k) = nq at *
      generalize 2 ^ 52 * (q * 2 ^ k) = b at *
      omega
  have hb : Bits53 (n * 2 ^ k) := by
    by_cases h : n < 2 ^ 53
    · exact ⟨n, k, h, rfl⟩
    · have : n = 2 ^ 53 := by omega
      refine ⟨2 ^ 52, k + 1, by decide, ?_⟩
      rw [this, Nat.pow_succ 2 k, Nat.mul_comm (2 ^ k) 2, ← Nat.mul_assoc]
  have heven : n % 2 = 0 → LastBitZero (n * 2 ^ k) := by
    intro he
    by_cases h : n < 2 ^ 53
    · exact ⟨n, k, h, hn52.symm, he, rfl⟩
    · have : n = 2 ^ 53 := by omega
      refine ⟨2 ^ 52, k + 1, by decide, .inl (Nat.le_refl _), by decide, ?_⟩
      rw [this, Nat.pow_succ 2 k, Nat.mul_comm (2 ^ k) 2, ← Nat.mul_assoc]
  refine ⟨hb, ?_⟩
  rintro u' ⟨n', k', hn', rfl⟩
  rw [hP, assoc]
  by_cases hk : k ≤ k'
  · -- a multiple of the step
    have e : n' * 2 ^ k' * q = (n' * 2 ^ (k' - k)) * (q * 2 ^ k) := by
      rw [← assoc, Nat.mul_assoc n' (2 ^ (k' - k)), ← Nat.pow_add, show k' - k + k = k' by omega]
    rw [e]
    refine ⟨(near _).1, fun h hne => heven ((near _).2 h ?_)⟩
    intro h2
    apply hne
    rw [← h2, Nat.mul_assoc, ← Nat.pow_add, show k' - k + k = k' by omega]
  · -- a number below the range
    have hk0 : k ≠ 0 := by omega
    have hlo2 : 2 ^ 52 * (q * 2 ^ k) ≤ P := hlo'.resolve_left hk0
    have hlt : n' * 2 ^ k' * q < 2 ^ 52 * (q * 2 ^ k) := by
      have h1 : n' * 2 ^ k' ≤ n' * 2 ^ (k - 1) := Nat.mul_le_mul_left _ (Nat.pow_le_pow_right (by decide) (by omega))
      have h2 : n' * 2 ^ (k - 1) < 2 ^ 53 * 2 ^ (k - 1) := Nat.mul_lt_mul_of_pos_right hn' (pow_pos' _)
      have h3 : 2 ^ 53 * 2 ^ (k - 1) = 2 ^ 52 * 2 ^ k := by
        rw [← Nat.pow_add, ← Nat.pow_add, show 53 + (k - 1) = 52 + k by omega]
      rw [← assoc]
      have h4 : n' * 2 ^ k' < 2 ^ 52 * 2 ^ k := Nat.lt_of_le_of_lt h1 (h3 ▸ h2)
      exact Nat.mul_lt_mul_of_pos_right h4 hq
    have h5 := (near (2 ^ 52)).1
    unfold distance at h5 ⊢
    clear hP near spec assoc hup hlo hup' hlo' hn53 hn52 hb heven hn
    generalize n * (q * 2 ^ k) = nq at *
    generalize 2 ^ 52 * (q * 2 ^ k) = b at *
    generalize n' * 2 ^ k' * q = c at *
    clear hk hk0 hn' hstep hq
    exact ⟨by omega, fun h _ => by exfalso; omega⟩

theorem nearestDouble_spec (p q : Nat) (hq : 0 < q) : DoubleOf p q (nearestDouble p q) := by
  unfold nearestDouble
  split
  · rename_i hp
    subst hp
    refine ⟨0, ⟨⟨0, 0, by decide, rfl⟩, ?_⟩, .inl ⟨Nat.mul_pos (pow_pos' _) (pow_pos' _), 0, 0, rfl, by simp, .inl rfl⟩⟩
    intro u' hu'
    refine ⟨by simp [distance], fun h hne => ?_⟩
    exact ⟨0, 0, by decide, .inr rfl, rfl, rfl⟩
  · rename_i hp
    have hp : 0 < p := Nat.pos_of_ne_zero hp
    obtain ⟨f1, f2⟩ := floorLog_spec hp hq
    simp only
    generalize floorLog p q = t at *
    -- the step, in units
    have size : ∀ k : Nat, (k : Int) = max (t - 52) (-1074) + 1074 →
        p * 2 ^ 1074 < 2 ^ 53 * 2 ^ k * q ∧ (k = 0 ∨ 2 ^ 52 * 2 ^ k * q ≤ p * 2 ^ 1074) := by
      intro k hk
      -- 2 ^ t ≤ p / q < 2 ^ (t + 1), in units
      have up : ∀ m : Nat, t + 1 + 1074 ≤ m → p * 2 ^ 1074 < 2 ^ m * q := by
        intro m hm
        rcases Int.lt_or_le t 0 with ht | ht
        · rw [show t.toNat = 0 by omega, Nat.pow_zero, Nat.mul_one] at f2
          have h1 : p * 2 ^ (-t).toNat * 2 ^ 1074 < 2 * q * 2 ^ 1074 := Nat.mul_lt_mul_of_pos_right f2 (pow_pos' _)
          have h2 : 2 * q * 2 ^ 1074 ≤ 2 ^ m * q * 2 ^ (-t).toNat := by
            have : 2 ^ (1 + 1074) ≤ 2 ^ (m + (-t).toNat) := Nat.pow_le_pow_right (by decide) (by omega)
            rw [Nat.pow_add, Nat.pow_add, Nat.pow_one] at this
            have := Nat.mul_le_mul_right q this
            rw [Nat.mul_right_comm 2 q, Nat.mul_right_comm (2 ^ m) q]
            exact this
          have h3 : p * 2 ^ 1074 * 2 ^ (-t).toNat < 2 ^ m * q * 2 ^ (-t).toNat := by
            rw [Nat.mul_right_comm]; exact Nat.lt_of_lt_of_le h1 h2
          exact Nat.lt_of_mul_lt_mul_right h3
        · rw [show (-t).toNat = 0 by omega, Nat.pow_zero, Nat.mul_one] at f2
          have h1 : p * 2 ^ 1074 < 2 * (q * 2 ^ t.toNat) * 2 ^ 1074 := Nat.mul_lt_mul_of_pos_right f2 (pow_pos' _)
          have h2 : 2 * (q * 2 ^ t.toNat) * 2 ^ 1074 ≤ 2 ^ m * q := by
            have : 2 ^ (1 + t.toNat + 1074) ≤ 2 ^ m := Nat.pow_le_pow_right (by decide) (by omega)
            rw [Nat.pow_add, Nat.pow_add, Nat.pow_one] at this
            have := Nat.mul_le_mul_right q this
            rw [Nat.mul_left_comm 2 q, Nat.mul_assoc q, Nat.mul_comm q]
            exact this
          exact Nat.lt_of_lt_of_le h1 h2
      have lo : ∀ m : Nat, (m : Int) = t + 1074 → 2 ^ m * q ≤ p * 2 ^ 1074 := by
        intro m hm
        rcases Int.lt_or_le t 0 with ht | ht
        · rw [show t.toNat = 0 by omega, Nat.pow_zero, Nat.mul_one] at f1
          have h1 : q * 2 ^ m ≤ p * 2 ^ (-t).toNat * 2 ^ m := Nat.mul_le_mul_right _ f1
          rw [Nat.mul_assoc, ← Nat.pow_add, show (-t).toNat + m = 1074 by omega, Nat.mul_comm q] at h1
          exact h1
        · rw [show (-t).toNat = 0 by omega, Nat.pow_zero, Nat.mul_one] at f1
          have h1 : q * 2 ^ t.toNat * 2 ^ 1074 ≤ p * 2 ^ 1074 := Nat.mul_le_mul_right _ f1
          rw [Nat.mul_assoc, ← Nat.pow_add, show t.toNat + 1074 = m by omega, Nat.mul_comm q] at h1
          exact h1
      refine ⟨by rw [← Nat.pow_add]; exact up _ (by omega), ?_⟩
      by_cases h : t - 52 < -1074
      · left; omega
      · right; rw [← Nat.pow_add]; exact lo _ (by omega)
    split
    · rename_i he
      generalize hE : max (t - 52) (-1074) = e at *
      obtain ⟨k, hk⟩ : ∃ k : Nat, (k : Int) = e + 1074 := ⟨(e + 1074).toNat, by omega⟩
      obtain ⟨s1, s2⟩ := size k hk
      have hr := rounds_grid hq s1 s2
      have hsc : roundHalfEven (p * 2 ^ 1074) (q * 2 ^ k) = roundHalfEven (p * 2 ^ (-e).toNat) q := by
        rw [show (1074 : Nat) = (-e).toNat + k by omega, Nat.pow_add, ← Nat.mul_assoc]
        exact roundHalfEven_scale _ _ _ (pow_pos' k)
      have hsm : roundHalfEven (p * 2 ^ 1074) (q * 2 ^ k) ≤ 2 ^ 53 := by
        obtain ⟨h1, _⟩ := roundHalfEven_spec (p * 2 ^ 1074) (q * 2 ^ k) (Nat.mul_pos hq (pow_pos' k))
        apply Nat.le_of_not_lt
        intro h
        have h2 := Nat.mul_le_mul_right (q * 2 ^ k) (show 2 ^ 53 + 1 ≤ _ from h)
        rw [Nat.succ_mul] at h2
        have h3 : 2 ^ 53 * 2 ^ k * q = 2 ^ 53 * (q * 2 ^ k) := by rw [Nat.mul_assoc, Nat.mul_comm (2 ^ k) q]
        rw [h3] at s1
        unfold distance at h1
        generalize roundHalfEven (p * 2 ^ 1074) (q * 2 ^ k) * (q * 2 ^ k) = a at *
        generalize 2 ^ 53 * (q * 2 ^ k) = b at *
        generalize p * 2 ^ 1074 = P at *
        generalize q * 2 ^ k = st at *
        omega
      rw [hsc] at hr hsm
      generalize roundHalfEven (p * 2 ^ (-e).toNat) q = n at *
      refine ⟨_, hr, .inl ⟨?_, ?_⟩⟩
      · have h1 : n * 2 ^ k ≤ 2 ^ 53 * 2 ^ k := Nat.mul_le_mul_right _ hsm
        rw [← Nat.pow_add] at h1
        rw [← Nat.pow_add]
        exact Nat.lt_of_le_of_lt h1 (Nat.pow_lt_pow_right (by decide) (by omega))
      · obtain ⟨m, e', h1, h2, h3⟩ := lowest_spec n (-e).toNat
        refine ⟨m, e', by rw [h1], ?_, h3⟩
        rw [show (1074 : Nat) = (-e).toNat + k by omega, Nat.pow_add, ← Nat.mul_assoc, h2, Nat.mul_right_comm]
    · rename_i he
      generalize hE : max (t - 52) (-1074) = e at *
      obtain ⟨k, hk⟩ : ∃ k : Nat, (k : Int) = e + 1074 := ⟨(e + 1074).toNat, by omega⟩
      obtain ⟨s1, s2⟩ := size k hk
      have hr := rounds_grid hq s1 s2
      have hsc : roundHalfEven (p * 2 ^ 1074) (q * 2 ^ k) = roundHalfEven p (q * 2 ^ e.toNat) := by
        rw [show k = e.toNat + 1074 by omega, Nat.pow_add, ← Nat.mul_assoc]
        exact roundHalfEven_scale _ _ _ (pow_pos' _)
      rw [hsc] at hr
      generalize roundHalfEven p (q * 2 ^ e.toNat) = n at *
      have hu : n * 2 ^ k = n * 2 ^ e.toNat * 2 ^ 1074 := by
        rw [show k = e.toNat + 1074 by omega, Nat.pow_add, ← Nat.mul_assoc]
      rw [hu] at hr
      refine ⟨_, hr, ?_⟩
      split
      · rename_i hlt
        exact .inl ⟨Nat.mul_lt_mul_of_pos_right hlt (pow_pos' _), _, 0, rfl, by rw [Nat.pow_zero, Nat.mul_one], .inl rfl⟩
      · rename_i hlt
        exact .inr ⟨Nat.mul_le_mul_right _ (Nat.le_of_not_lt hlt), rfl⟩


/-- Of two different numbers whose last bit is zero, a number with 53 bits lies between. -/
theorem between {u u' : Nat} (h : LastBitZero u) (h' : LastBitZero u') (hlt : u < u') : ∃ v, Bits53 v ∧ u < v ∧ v < u' := by
  obtain ⟨n, k, hn, hs, he, rfl⟩ := h
  obtain ⟨n', k', hn', hs', he', rfl⟩ := h'
  refine ⟨(n + 1) * 2 ^ k, ⟨n + 1, k, by omega, rfl⟩, ?_, ?_⟩
  · rw [Nat.succ_mul]; have := pow_pos' k; omega
  · by_cases hk : k ≤ k'
    · have e : n' * 2 ^ k' = n' * 2 ^ (k' - k) * 2 ^ k := by
        rw [Nat.mul_assoc, ← Nat.pow_add, show k' - k + k = k' by omega]
      rw [e] at hlt ⊢
      have h1 : n < n' * 2 ^ (k' - k) := Nat.lt_of_mul_lt_mul_right hlt
      have h2 : n' * 2 ^ (k' - k) % 2 = 0 := by
        rw [Nat.mul_mod, he']; simp
      exact Nat.mul_lt_mul_of_pos_right (by omega) (pow_pos' k)
    · exfalso
      have h1 : 2 ^ 52 ≤ n := by omega
      have h2 : 2 ^ 52 * 2 ^ k ≤ n * 2 ^ k := Nat.mul_le_mul_right _ h1
      have h3 : n' * 2 ^ k' < 2 ^ 53 * 2 ^ k' := Nat.mul_lt_mul_of_pos_right hn' (pow_pos' _)
      rw [← Nat.pow_add] at h2 h3
      have h4 : 2 ^ (53 + k') ≤ 2 ^ (52 + k) := Nat.pow_le_pow_right (by decide) (by omega)
      exact absurd hlt (Nat.not_lt.mpr (Nat.le_of_lt (Nat.lt_of_lt_of_le h3 (Nat.le_trans h4 h2))))

theorem rounds_unique {p q u u' : Nat} (hq : 0 < q) (h : RoundsTo p q u) (h' : RoundsTo p q u') : u = u' := by
  apply Classical.byContradiction
  intro hne
  obtain ⟨hb, h⟩ := h
  obtain ⟨hb', h'⟩ := h'
  have hd : distance (p * 2 ^ 1074) (u * q) = distance (p * 2 ^ 1074) (u' * q) :=
    Nat.le_antisymm (h _ hb').1 (h' _ hb).1
  have hz := (h _ hb').2 hd (Ne.symm hne)
  have hz' := (h' _ hb).2 hd.symm hne
  have key : ∃ v, Bits53 v ∧ (u < v ∧ v < u' ∨ u' < v ∧ v < u) := by
    rcases Nat.lt_or_gt_of_ne hne with hlt | hlt
    · obtain ⟨v, hv, a, b⟩ := between hz hz' hlt; exact ⟨v, hv, .inl ⟨a, b⟩⟩
    · obtain ⟨v, hv, a, b⟩ := between hz' hz hlt; exact ⟨v, hv, .inr ⟨a, b⟩⟩
  obtain ⟨v, hv, ho⟩ := key
  have n1 := (h _ hv).1
  have ho' : u * q < v * q ∧ v * q < u' * q ∨ u' * q < v * q ∧ v * q < u * q := by
    rcases ho with ⟨a, b⟩ | ⟨a, b⟩
    · exact .inl ⟨Nat.mul_lt_mul_of_pos_right a hq, Nat.mul_lt_mul_of_pos_right b hq⟩
    · exact .inr ⟨Nat.mul_lt_mul_of_pos_right a hq, Nat.mul_lt_mul_of_pos_right b hq⟩
  clear h h' hz hz' hb hb' hv ho hne
  unfold distance at hd n1
  generalize p * 2 ^ 1074 = P at *
  generalize u * q = a at *
  generalize u' * q = b at *
  generalize v * q = c at *
  omega

/-- A number in lowest terms is written in one way only. -/
theorem lowest_unique {n e n' e' : Nat} (h : n * 2 ^ e' = n' * 2 ^ e) (ho : e = 0 ∨ n % 2 = 1) (ho' : e' = 0 ∨ n' % 2 = 1) :
    n = n' ∧ e = e' := by
  have main : ∀ {n e n' e' : Nat}, n * 2 ^ e' = n' * 2 ^ e → (e' = 0 ∨ n' % 2 = 1) → e ≤ e' → e = e' := by
    intro n e n' e' h ho' hle
    apply Classical.byContradiction
    intro hne
    have h1 : n * 2 ^ (e' - e) = n' := by
      apply Nat.eq_of_mul_eq_mul_right (pow_pos' e)
      rw [Nat.mul_assoc, ← Nat.pow_add, show e' - e + e = e' by omega, h]
    have h2 : n' % 2 = 0 := by
      rw [← h1, show e' - e = (e' - e - 1) + 1 by omega, Nat.pow_succ, ← Nat.mul_assoc, Nat.mul_mod_left]
    omega
  have he : e = e' := by
    rcases Nat.le_total e e' with hle | hle
    · exact main h ho' hle
    · exact (main h.symm ho hle).symm
  subst he
  exact ⟨Nat.eq_of_mul_eq_mul_right (pow_pos' _) h, rfl⟩

theorem double_unique {p q : Nat} {x y : JFloat} (hq : 0 < q) (hx : DoubleOf p q x) (hy : DoubleOf p q y) : x = y := by
  obtain ⟨u, hu, hx⟩ := hx
  obtain ⟨u', hu', hy⟩ := hy
  have e := rounds_unique hq hu hu'
  subst e
  rcases hx with ⟨h1, n, e, rfl, h2, h3⟩ | ⟨h1, rfl⟩ <;> rcases hy with ⟨g1, n', e', rfl, g2, g3⟩ | ⟨g1, rfl⟩
  · have h : n * 2 ^ e' = n' * 2 ^ e := by
      apply Nat.eq_of_mul_eq_mul_right (pow_pos' 1074)
      rw [Nat.mul_right_comm, h2, Nat.mul_right_comm, ← g2, Nat.mul_right_comm]
    obtain ⟨rfl, rfl⟩ := lowest_unique h h3 g3
    rfl
  · exact absurd h1 (Nat.not_lt.mpr g1)
  · exact absurd g1 (Nat.not_lt.mpr h1)
  · rfl

theorem nearestDouble_iff {p q : Nat} {x : JFloat} (hq : 0 < q) : nearestDouble p q = x ↔ DoubleOf p q x :=
  ⟨fun h => h ▸ nearestDouble_spec p q hq, fun h => double_unique hq (nearestDouble_spec p q hq) h⟩

/-- A number that has 53 bits is not changed. -/
theorem rounds_exact {p q u : Nat} (hb : Bits53 u) (h : p * 2 ^ 1074 = u * q) (hq : 0 < q) : RoundsTo p q u := by
  refine ⟨hb, fun u' _ => ?_⟩
  rw [h]
  have h0 : distance (u * q) (u * q) = 0 := by simp [distance]
  rw [h0]
  refine ⟨Nat.zero_le _, fun h2 hne => ?_⟩
  exfalso
  apply hne
  have : u' * q = u * q := by unfold distance at h2; omega
  exact Nat.eq_of_mul_eq_mul_right hq this

/-- The double of a natural number with 53 bits is that number. -/
theorem nearestDouble_exact {n : Nat} (hb : Bits53 n) (hlt : n < 2 ^ 1024) : nearestDouble n 1 = .fin ⟨(n : Nat), 0⟩ := by
  rw [nearestDouble_iff (by decide)]
  obtain ⟨m, k, hm, rfl⟩ := hb
  refine ⟨m * 2 ^ k * 2 ^ 1074, rounds_exact ⟨m, k + 1074, hm, ?_⟩ ?_ (by decide), .inl ⟨?_, m * 2 ^ k, 0, rfl, ?_, .inl rfl⟩⟩
  · rw [Nat.pow_add, Nat.mul_assoc]
  · rw [Nat.mul_one]
  · exact Nat.mul_lt_mul_of_pos_right hlt (pow_pos' _)
  · rw [Nat.pow_zero, Nat.mul_one]

end NumberParser
