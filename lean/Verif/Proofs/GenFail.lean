import Verif.Proofs.RuleMeaning

/-! When the generator ends with an exception. -/

namespace NumberParser.Gen

open NumberParser Spec

/-! ### `_count_zero` -/

theorem roundDouble_overflow (n : Nat) : 2 ^ 1024 ≤ roundDouble n ↔ 2 ^ 1024 - 2 ^ 970 ≤ n := by
  have p53 : (2 : Nat) ^ 53 < 2 ^ 970 := Nat.pow_lt_pow_right (by decide) (by decide)
  have p971 : (2 : Nat) ^ 971 = 2 * 2 ^ 970 := by rw [show 971 = 970 + 1 from rfl, Nat.pow_succ]; omega
  have p1024 : (2 : Nat) ^ 1024 = 2 ^ 53 * 2 ^ 971 := by rw [← Nat.pow_add]
  unfold roundDouble
  split
  · rename_i h
    constructor
    · intro h'
      rw [p1024, p971] at h'
      omega
    · intro h'
      rw [p1024, p971] at h'
      omega
  · rename_i h
    simp only
    have hn0 : n ≠ 0 := by intro e; subst e; simp at h
    obtain ⟨l1, l2⟩ := log2_bounds hn0
    have hL : 53 ≤ Nat.log2 n := by
      rcases Nat.lt_or_ge (Nat.log2 n) 53 with h' | h'
      · have : 2 ^ (Nat.log2 n + 1) ≤ 2 ^ 53 := Nat.pow_le_pow_right (by decide) (by omega)
        omega
      · exact h'
    generalize hLe : Nat.log2 n = L at *
    obtain ⟨e, rfl⟩ : ∃ e, L = e + 52 := ⟨L - 52, by omega⟩
    rw [show e + 52 - 52 = e from by omega]
    have he : 0 < 2 ^ e := Nat.pow_pos (by decide)
    rw [Nat.pow_add] at l1
    rw [show e + 52 + 1 = e + 53 from rfl, Nat.pow_add] at l2
    have hq1 : 2 ^ 52 ≤ n / 2 ^ e := by rw [Nat.le_div_iff_mul_le he, Nat.mul_comm]; exact l1
    have hq2 : n / 2 ^ e < 2 ^ 53 := by rw [Nat.div_lt_iff_lt_mul he, Nat.mul_comm]; exact l2
    have hdm := Nat.div_add_mod n (2 ^ e)
    have hr := Nat.mod_lt n he
    generalize n / 2 ^ e = q at *
    generalize n % 2 ^ e = r at *
    rcases Nat.lt_trichotomy e 971 with hlt | rfl | hgt
    · have hle : 2 ^ e ≤ 2 ^ 970 := Nat.pow_le_pow_right (by decide) (by omega)
      have hq : q * 2 ^ e ≤ (2 ^ 53 - 1) * 2 ^ e := Nat.mul_le_mul_right _ (by omega)
      have hqs : (q + 1) * 2 ^ e = q * 2 ^ e + 2 ^ e := Nat.succ_mul _ _
      have hc : 2 ^ e * q = q * 2 ^ e := Nat.mul_comm _ _
      rw [p1024, p971]
      generalize 2 ^ e = E at *
      generalize q * E = Q at *
      generalize (2 : Nat) ^ 970 = A at *
      split <;> omega
    · have hqs : (q + 1) * 2 ^ 971 = q * 2 ^ 971 + 2 ^ 971 := Nat.succ_mul _ _
      have hc : 2 ^ 971 * q = q * 2 ^ 971 := Nat.mul_comm _ _
      by_cases hq : q = 2 ^ 53 - 1
      · subst hq
        rw [p1024]
        rw [p971] at *
        generalize (2 : Nat) ^ 970 = A at *
        split <;> omega
      · have hqm : q * 2 ^ 971 ≤ (2 ^ 53 - 2) * 2 ^ 971 := Nat.mul_le_mul_right _ (by omega)
        rw [p1024]
        rw [p971] at *
        generalize (2 : Nat) ^ 970 = A at *
        generalize q * (2 * A) = Q at *
        split <;> omega
    · have hle : 2 ^ 972 ≤ 2 ^ e := Nat.pow_le_pow_right (by decide) (by omega)
      have p972 : (2 : Nat) ^ 972 = 4 * 2 ^ 970 := by rw [show 972 = 970 + 2 from rfl, Nat.pow_add]; omega
      have hq : 2 ^ 52 * 2 ^ e ≤ q * 2 ^ e := Nat.mul_le_mul_right _ hq1
      have hqs : (q + 1) * 2 ^ e = q * 2 ^ e + 2 ^ e := Nat.succ_mul _ _
      have hc : 2 ^ e * q = q * 2 ^ e := Nat.mul_comm _ _
      rw [p1024, p971]
      rw [p972] at hle
      generalize 2 ^ e = E at *
      generalize q * E = Q at *
      generalize (2 : Nat) ^ 970 = A at *
      split <;> omega

theorem zeros_ok_of_lt (n : Nat) (h : n < 10 * (2 ^ 1024 - 2 ^ 970)) : ∃ k, zeros n = .ok k := by
  induction n using Nat.strongRecOn with
  | _ n ih =>
    rw [zeros_eq]
    split
    · rename_i hn
      have hd : divTen n = .ok (roundDouble (n / 10)) := by
        unfold divTen
        simp only
        rw [if_pos]
        have := roundDouble_overflow (n / 10)
        generalize (2 : Nat) ^ 1024 = B at *
        generalize (2 : Nat) ^ 970 = A at *
        omega
      have hlt := divTen_lt hn.1 hd
      obtain ⟨k, hk⟩ := ih (roundDouble (n / 10)) (by omega) (by omega)
      refine ⟨k + 1, ?_⟩
      rw [hd]
      show (do let k ← zeros (roundDouble (n / 10)); return k + 1 : GRes Nat) = _
      rw [hk]; rfl
    · exact ⟨0, rfl⟩

/-- The number is a multiple of ten, and a tenth of it is too large for a float. -/
theorem zeros_error (n : Nat) : (∃ k, zeros n = .ok k) ∨ zeros n = .error .overflow := by
  by_cases h : n < 10 * (2 ^ 1024 - 2 ^ 970)
  · exact .inl (zeros_ok_of_lt n h)
  · rw [zeros_eq]
    split
    · right
      have hd : divTen n = .error .overflow := by
        unfold divTen
        simp only
        rw [if_neg]
        have := roundDouble_overflow (n / 10)
        generalize (2 : Nat) ^ 1024 = B at *
        generalize (2 : Nat) ^ 970 = A at *
        omega
      rw [hd]; rfl
    · exact .inl ⟨0, rfl⟩

theorem zeros_error_iff (n : Nat) : zeros n = .error .overflow ↔ n % 10 = 0 ∧ 10 * (2 ^ 1024 - 2 ^ 970) ≤ n := by
  by_cases h : n < 10 * (2 ^ 1024 - 2 ^ 970)
  · obtain ⟨k, hk⟩ := zeros_ok_of_lt n h
    rw [hk]
    simp only [reduceCtorEq, false_iff, not_and]
    intro _; omega
  · have h9 : 9 < n := by
      have p : (2 : Nat) ^ 970 * 2 ^ 54 = 2 ^ 1024 := by rw [← Nat.pow_add]
      have : 0 < (2 : Nat) ^ 970 := Nat.pow_pos (by decide)
      rw [← p] at h
      generalize (2 : Nat) ^ 970 = A at *
      omega
    have h' : 10 * (2 ^ 1024 - 2 ^ 970) ≤ n := by omega
    constructor
    · intro hz
      refine ⟨?_, h'⟩
      rw [zeros_eq] at hz
      split at hz
      · rename_i hn; exact hn.2
      · cases hz
    · rintro ⟨h1, _⟩
      rcases zeros_error n with ⟨k, hk⟩ | hk
      · exfalso
        rw [zeros_eq, if_pos ⟨h9, h1⟩] at hk
        have hd : divTen n = .error .overflow := by
          unfold divTen
          simp only
          rw [if_neg]
          have := roundDouble_overflow (n / 10)
          generalize (2 : Nat) ^ 1024 = B at *
          generalize (2 : Nat) ^ 970 = A at *
          omega
        rw [hd] at hk
        cases hk
      · exact hk

theorem countZero_error (number : Int) : (∃ k, countZero number = .ok k) ∨ countZero number = .error .overflow := zeros_error _

theorem countZero_error_iff (number : Int) : countZero number = .error .overflow ↔ HugeNumber number := by
  rw [countZero_eq, zeros_error_iff]
  unfold HugeNumber
  have p : (2 : Nat) ^ 970 * 2 ^ 54 = 2 ^ 1024 := by rw [← Nat.pow_add]
  have p0 : 0 < (2 : Nat) ^ 970 := Nat.pow_pos (by decide)
  have e1 : (2 : Int) ^ 1024 = ((2 ^ 1024 : Nat) : Int) := by rw [Int.natCast_pow]; rfl
  have e2 : (2 : Int) ^ 970 = ((2 ^ 970 : Nat) : Int) := by rw [Int.natCast_pow]; rfl
  rw [e1, e2, ← p]
  generalize (2 : Nat) ^ 970 = A at *
  omega

/-! ### Rules -/

theorem addCompound_error (number : Int) (word : PyStr) (d : Tables Int) :
    (∃ d', addCompoundWords number word d = .ok d') ↔ ¬ HugeNumber number := by
  rw [← countZero_error_iff]
  unfold addCompoundWords
  rcases countZero_error number with ⟨k, hk⟩ | hk
  · rw [hk]
    simp only [reduceCtorEq, not_false_eq_true, iff_true]
    show ∃ d', @ite (GRes (Tables Int)) _ _ _ _ = .ok d'
    split
    · exact ⟨_, rfl⟩
    · generalize (if word.elem 91 then strip (splitFirst 91 word) else strip (splitFirst 62 word)) = root
      show ∃ d', @ite (GRes (Tables Int)) _ _ _ _ = .ok d'
      split
      · exact ⟨_, rfl⟩
      · show ∃ d', @ite (GRes (Tables Int)) _ _ _ _ = .ok d'
        split
        · exact ⟨_, rfl⟩
        · split <;> exact ⟨_, rfl⟩
  · rw [hk]
    simp only [not_true_eq_false, iff_false]
    rintro ⟨d', h⟩
    cases h

theorem addMultiplier_error (number : Int) (word : PyStr) (d : Tables Int) :
    (∃ d', addMultiplierWords number word d = .ok d') ↔
      ¬ (AfterLast 60 word [] ∨ (HugeNumber number ∧ ∃ part, AfterLast 60 word (32 :: part))) := by
  rw [← countZero_error_iff]
  simp only [afterLast_iff]
  unfold addMultiplierWords
  cases hr : splitLast 60 word with
  | nil =>
    simp only [true_or, not_true_eq_false, iff_false]
    rintro ⟨d', h⟩
    cases h
  | cons c part =>
    simp only
    by_cases hc : c = 32
    · subst hc
      rcases countZero_error number with ⟨k, hk⟩ | hk
      · rw [hk]
        simp only [reduceCtorEq, false_and, or_false, not_false_eq_true, iff_true]
        show ∃ d', @ite (GRes (Tables Int)) _ _ _ _ = .ok d'
        split
        · exact ⟨_, rfl⟩
        · generalize (if (32 :: part).elem 91 then strip (splitFirst 91 (32 :: part)) else strip (splitFirst 62 (32 :: part))) = v
          show ∃ d', @ite (GRes (Tables Int)) _ _ _ _ = .ok d'
          split
          · exact ⟨_, rfl⟩
          · split <;> exact ⟨_, rfl⟩
      · rw [hk]
        constructor
        · rintro ⟨d', h⟩
          cases h
        · intro h
          exact absurd (.inr ⟨rfl, part, rfl⟩) h
    · have : ¬ ([] = c :: part ∨ (countZero number = .error .overflow ∧ ∃ p, 32 :: p = c :: part)) := by
        rintro (h | ⟨_, p, h⟩)
        · cases h
        · injection h with h _; exact hc h.symm
      simp only [this, not_false_eq_true, iff_true]
      rw [if_pos (by simpa using hc)]
      exact ⟨_, rfl⟩

theorem ruleStep_error (r : PyStr × PyStr) (d : Tables Int) : (∃ d', ruleStep d r = .ok d') ↔ ¬ RuleFailsF r.1 r.2 := by
  unfold ruleStep extractInformation RuleFailsF
  rw [ruleText_eq]
  generalize ruleText r.2 = word
  cases hk : pyIntAny r.1 with
  | none =>
    simp only [reduceCtorEq, false_and, exists_false, not_false_eq_true, iff_true]
    exact ⟨_, rfl⟩
  | some number =>
    simp only
    have hex : ∀ P : Int → Prop, (∃ n, some number = some n ∧ P n) ↔ P number := by
      intro P; constructor
      · rintro ⟨n, h, hP⟩; injection h with h; subst h; exact hP
      · intro h; exact ⟨number, rfl, h⟩
    rw [hex]
    split
    · rename_i h
      have h : 61 ∈ word := Classical.not_not.mp (fun hm => h (List.count_eq_zero.mpr hm))
      simp only [h, not_true_eq_false, false_and, not_false_eq_true, iff_true]
      exact ⟨_, rfl⟩
    · rename_i h61
      rw [Classical.not_not, count_zero_iff] at h61
      split
      · rename_i h
        have : word.count 62 ≠ 2 := by rw [h.1]; decide
        simp only [this, false_and, and_false, not_false_eq_true, iff_true]
        exact ⟨_, rfl⟩
      · split
        · rename_i h
          have h2 : word.count 60 ≠ 2 := by rw [h.2]; decide
          rw [count_zero_iff] at h
          rw [addCompound_error]
          simp only [h61, not_false_eq_true, h.1, h.2, true_and, h2, false_and, or_false]
        · split
          · rename_i h
            have h2 : 60 ∈ word := by
              apply Classical.not_not.mp
              intro hm
              rw [List.count_eq_zero.mpr hm] at h
              exact absurd h.2 (by decide)
            rw [addMultiplier_error]
            simp only [h61, not_false_eq_true, h.1, h.2, true_and, h2, not_true_eq_false, false_and, false_or]
          · rename_i h1 h2 h3
            have : ¬ (61 ∉ word ∧ word.count 62 = 2 ∧ ((60 ∉ word ∧ HugeNumber number) ∨ (word.count 60 = 2 ∧
                (AfterLast 60 word [] ∨ (HugeNumber number ∧ ∃ part, AfterLast 60 word (32 :: part)))))) := by
              rintro ⟨_, ha, ⟨hb, _⟩ | ⟨hb, _⟩⟩
              · exact h2 ⟨ha, List.count_eq_zero.mpr hb⟩
              · exact h3 ⟨ha, hb⟩
            simp only [this, not_false_eq_true, iff_true]
            exact ⟨_, rfl⟩

theorem foldlM_error (rules : List (PyStr × PyStr)) (d : Tables Int) :
    (∃ d', rules.foldlM ruleStep d = .ok d') ↔ ∀ r ∈ rules, ¬ RuleFailsF r.1 r.2 := by
  induction rules generalizing d with
  | nil => exact ⟨fun _ r hr => absurd hr (by simp), fun _ => ⟨d, rfl⟩⟩
  | cons r rules ih =>
    rw [List.foldlM_cons, List.forall_mem_cons, ← ruleStep_error r d]
    cases hr : ruleStep d r with
    | error e =>
      simp only [reduceCtorEq, exists_false, false_and, iff_false]
      rintro ⟨d', h⟩
      cases h
    | ok d1 =>
      have := ih d1
      simp only [Except.ok.injEq, exists_eq', true_and]
      exact this

theorem extract_error (sets : RuleSets) : (∃ d, extract sets = .ok d) ↔ ∀ r ∈ usedRules sets, ¬ RuleFails r.1 r.2 := by
  rw [extract_eq]
  simp only [ruleFails_iff]
  exact foldlM_error _ _

theorem generate_error (sets : RuleSets) (supp : Supplementary) :
    (∃ out, generate sets supp = .ok out) ↔ ∀ r ∈ usedRules sets, ¬ RuleFails r.1 r.2 := by
  rw [← extract_error]
  unfold generate
  cases extract sets with
  | error e =>
    simp only [reduceCtorEq, exists_false, iff_false]
    rintro ⟨d', h⟩
    cases h
  | ok d =>
    simp only [Except.ok.injEq, exists_eq', iff_true]
    exact ⟨_, rfl⟩

end NumberParser.Gen
