import Verif.Proofs.Kind

/-! Bound on the numbers the builder can produce, whatever the length of the input. -/

set_option linter.unusedSimpArgs false
set_option exponentiation.threshold 5000

namespace NumberParser

theorem pow10_lt {p q : Nat} (hp : ∃ k, p = 10 ^ k) (hq : ∃ k, q = 10 ^ k) (h : p < q) : 10 * p ≤ q := by
  obtain ⟨a, rfl⟩ := hp
  obtain ⟨b, rfl⟩ := hq
  have hab : a < b := (Nat.pow_lt_pow_iff_right (by omega)).mp h
  calc 10 * 10 ^ a = 10 ^ (a + 1) := by rw [Nat.pow_succ, Nat.mul_comm]
    _ ≤ 10 ^ b := Nat.pow_le_pow_right (by omega) hab

/-- The values a class may carry, with scale words up to `M`. -/
def KindOK (M : Nat) : Kind → Prop
  | .unit v => v ≤ 900
  | .direct v => v ≤ 900
  | .tens v => v ≤ 900
  | .hund v => v ≤ 900
  | .big p => (∃ k, p = 10 ^ k) ∧ p ≤ M
  | .other => False

def SymOK (M : Nat) : Sym → Prop
  | .num k => KindOK M k
  | .skip _ => True

def slack : Option Kind → Nat
  | none => 0
  | some (.big _) => 0
  | some (.hund _) => 900
  | some (.tens _) => 1800
  | some (.unit _) => 2700
  | some (.direct _) => 2700
  | some .other => 0

/-- No number exceeds this. -/
def valueBound (M mg : Nat) : Nat := 2 * (M * M) + mg * mg + 2700

def ItemOK (V : Nat) : Item → Prop
  | .num n => n ≤ V
  | .skip _ => True

structure KInv (M mg : Nat) (s : KState) : Prop where
  start : s.prev = none → s.grp = 0 ∧ s.total = 0 ∧ s.pow = none
  prevOK : ∀ k, s.prev = some k → KindOK M k
  grp : s.grp ≤ mg * mg + slack s.prev
  powNone : s.pow = none → s.total = 0
  powSome : ∀ pp, s.pow = some pp → (∃ k, pp = 10 ^ k) ∧ s.total + pp * pp ≤ 2 * (M * M)
  out : ∀ i ∈ s.out, ItemOK (valueBound M mg) i

theorem slack_le (k : Option Kind) : slack k ≤ 2700 := by
  rcases k with _ | (_ | _ | _ | _ | _ | _) <;> simp [slack]

theorem KInv.total_le {M mg : Nat} {s : KState} (h : KInv M mg s) : s.total ≤ 2 * (M * M) := by
  cases hp : s.pow with
  | none => rw [h.powNone hp]; omega
  | some pp => have := (h.powSome pp hp).2; omega

theorem KInv.value_le {M mg : Nat} {s : KState} (h : KInv M mg s) : s.total + s.grp ≤ valueBound M mg := by
  have h1 := h.total_le
  have h2 := h.grp
  have h3 := slack_le s.prev
  unfold valueBound; omega

theorem KInv.flush {M mg : Nat} {s : KState} (h : KInv M mg s) :
    KInv M mg { flushK s with prev := s.prev } := by
  have hv := h.value_le
  refine ⟨fun _ => ⟨rfl, rfl, rfl⟩, h.prevOK, Nat.zero_le _, fun _ => rfl, fun pp h => (by simp [flushK] at h), ?_⟩
  intro i hi
  simp only [flushK, List.append_assoc, List.mem_append, List.mem_singleton, List.mem_map] at hi
  rcases hi with hi | rfl | ⟨t, _, rfl⟩
  · exact h.out i hi
  · exact hv
  · trivial

theorem addK_inv {M mg : Nat} {s : KState} (hs : KInv M mg s) (k : Kind) (hk : KindOK M k)
    (hv : s.grp = 0 ∨ validK k s.prev s.pow s.total s.grp = true) (ht : s.grp = 0 → s.total = 0 ∨
      validK k s.prev s.pow s.total s.grp = true) : KInv M mg (addK mg s k) := by
  have hg := hs.grp
  have hsl := slack_le s.prev
  have hout := hs.out
  have hN := hs.powNone
  have hS := hs.powSome
  have hP := hs.prevOK
  have hst := hs.start
  cases k with
  | unit v | direct v | tens v | hund v =>
    refine ⟨fun h => (by simp [addK] at h), ?_, ?_, hN, hS, hout⟩
    · intro k' h; simp only [addK, Option.some.injEq] at h; rw [← h]; exact hk
    · simp only [addK, slack]
      simp only [KindOK] at hk
      rcases hv with h0 | hv
      · rw [h0]; omega
      · unfold validK at hv
        cases hp : s.prev with
        | none => have := (hst hp).1; omega
        | some q => cases q <;> simp_all [slack, KindOK] <;> omega
  | other => exact absurd hk (by simp [KindOK])
  | big p =>
    obtain ⟨hpow, hpM⟩ := hk
    have hpp : p * p ≤ M * M := Nat.mul_le_mul hpM hpM
    -- the multiplied group is at most p * p
    have hp1 : 1 ≤ p := by obtain ⟨k, rfl⟩ := hpow; exact Nat.one_le_pow _ _ (by omega)
    have hgp : (if s.grp = 0 then 1 else s.grp) ≤ p := by
      split
      · exact hp1
      · rename_i h0
        rcases hv with h | hv
        · exact absurd h h0
        · unfold validK at hv
          cases hq : s.prev with
          | none => exact absurd (hst hq).1 h0
          | some q =>
            rw [hq] at hv
            simp only at hv
            by_cases hlt : p < s.grp
            · simp [hlt] at hv
            · omega
    have hmul : (if s.grp = 0 then 1 else s.grp) * p ≤ p * p := Nat.mul_le_mul_right p hgp
    simp only [addK]
    split
    · refine ⟨fun h => (by simp at h), ?_, ?_, fun h => (by simp at h), ?_, hout⟩
      · intro k' h; simp only [Option.some.injEq] at h; rw [← h]; exact ⟨hpow, hpM⟩
      · simp [slack]
      · intro pp h
        simp only [Option.some.injEq] at h; subst h
        refine ⟨hpow, ?_⟩
        show s.total + _ + _ ≤ _
        by_cases h0 : s.total = 0
        · rw [h0]; omega
        · cases hq : s.pow with
          | none => exact absurd (hN hq) h0
          | some pp =>
            obtain ⟨hppow, hle⟩ := hS pp hq
            have hlt : p < pp := by
              have hval : validK (.big p) s.prev s.pow s.total s.grp = true := by
                rcases hv with h | h
                · rcases ht h with h' | h'
                  · exact absurd h' h0
                  · exact h'
                · exact h
              unfold validK at hval
              cases hr : s.prev with
              | none => exact absurd (hst hr).2.1 h0
              | some q =>
                rw [hr, hq] at hval
                simp only at hval
                have hpp1 : pp ≠ 0 := by
                  obtain ⟨k, rfl⟩ := hppow; exact Nat.pos_iff_ne_zero.mp (Nat.pow_pos (by omega))
                by_cases hge : p ≥ pp
                · exfalso
                  by_cases hlt : p < s.grp <;> simp [hlt, h0, hpp1, hge] at hval
                · omega
            have h10 := pow10_lt hpow hppow hlt
            have : (10 * p) * (10 * p) ≤ pp * pp := Nat.mul_le_mul h10 h10
            have h100 : (10 * p) * (10 * p) = 100 * (p * p) := by
              rw [Nat.mul_mul_mul_comm]
            omega
    · rename_i hmg
      refine ⟨fun h => (by simp at h), ?_, ?_, hN, hS, hout⟩
      · intro k' h; simp only [Option.some.injEq] at h; rw [← h]; exact ⟨hpow, hpM⟩
      · simp only [slack]
        have : p * p ≤ mg * mg := Nat.mul_le_mul (by omega) (by omega)
        omega

theorem numStep_inv {M mg : Nat} {s : KState} (hs : KInv M mg s) (k : Kind) (hk : KindOK M k) :
    KInv M mg (numStep mg s k) := by
  unfold numStep
  cases hl : largeK k s.total s.grp with
  | some p =>
    cases k with
    | big q =>
      obtain ⟨hpow, hpM⟩ := hk
      simp only [largeK] at hl
      split at hl
      · rename_i hc
        simp only [Option.some.injEq] at hl; subst hl
        refine ⟨fun h => (by simp at h), ?_, ?_, fun h => (by simp at h), ?_, hs.out⟩
        · intro k' h; simp only [Option.some.injEq] at h; rw [← h]; exact ⟨hpow, hpM⟩
        · simp [slack]
        · intro pp h
          simp only [Option.some.injEq] at h; subst h
          refine ⟨hpow, ?_⟩
          show (s.total + s.grp) * q + q * q ≤ _
          have h1 : (s.total + s.grp) * q ≤ q * q := Nat.mul_le_mul_right q (by omega)
          have h2 : q * q ≤ M * M := Nat.mul_le_mul hpM hpM
          omega
      · simp at hl
    | _ => simp [largeK] at hl
  | none =>
    simp only
    split
    · rename_i hv; exact addK_inv hs k hk (Or.inr hv) (fun _ => Or.inr hv)
    · have hf : KInv M mg (flushK s) := hs.flush
      exact addK_inv hf k hk (Or.inl rfl) (fun _ => Or.inl rfl)

theorem symStep_inv {M mg : Nat} {s : KState} (hs : KInv M mg s) (y : Sym) (hy : SymOK M y) :
    KInv M mg (symStep mg s y) := by
  cases y with
  | skip t => exact ⟨hs.start, hs.prevOK, hs.grp, hs.powNone, hs.powSome, hs.out⟩
  | num k => exact numStep_inv hs k hy

theorem KInv.initial (M mg : Nat) : KInv M mg KState.init :=
  ⟨fun _ => ⟨rfl, rfl, rfl⟩, fun k h => (by simp [KState.init] at h), by simp [KState.init, slack], fun _ => rfl,
    fun pp h => (by simp [KState.init] at h), fun i h => (by simp [KState.init] at h)⟩

theorem fold_inv {M mg : Nat} (ys : List Sym) (hy : ∀ y ∈ ys, SymOK M y) (s : KState) (hs : KInv M mg s) :
    KInv M mg (ys.foldl (symStep mg) s) := by
  induction ys generalizing s with
  | nil => exact hs
  | cons y ys ih =>
    exact ih (fun z hz => hy z (List.mem_cons_of_mem _ hz)) _ (symStep_inv hs y (hy y (List.mem_cons_self)))

theorem symItems_bound {M mg : Nat} (ys : List Sym) (hy : ∀ y ∈ ys, SymOK M y) :
    ∀ i ∈ symItems mg ys, ItemOK (valueBound M mg) i := by
  have h := fold_inv (M := M) (mg := mg) ys hy _ (KInv.initial M mg)
  intro i hi
  unfold symItems KState.items at hi
  rw [List.mem_append, List.mem_singleton] at hi
  rcases hi with hi | rfl
  · exact h.out i hi
  · exact h.value_le

/-- A token the builder may be given by the API: blank, a skip token or a number word. -/
def TokOK (ld : LangData) (t : PyStr) : Prop := blank t = true ∨ isSkipToken t ld = true ∨ ld.allNumbers.mem t = true

theorem kind_ok {ld : LangData} (h : ld.WF) {M : Nat} (hM : ∀ t p, ld.bigPowersOfTen.get? t = some p → p ≤ M)
    (t : PyStr) (ht : ld.allNumbers.mem t = true) : KindOK M (kindOf ld t) := by
  rcases kind_cases h.toDisjoint t with ⟨v, k, h1, h2, h3, h4, h5, h6⟩ | ⟨v, k, h1, h2, h3, h4, h5, h6⟩ |
      ⟨v, k, h1, h2, h3, h4, h5, h6⟩ | ⟨v, k, h1, h2, h3, h4, h5, h6⟩ | ⟨v, k, h1, h2, h3, h4, h5, h6⟩ |
      ⟨k, h1, h2, h3, h4, h5, h6⟩ <;> rw [k]
  · have := h.unit_val t v h1; simp only [KindOK]; omega
  · have := h.direct_val t v h3; simp only [KindOK]; omega
  · have := h.tens_val t v h4; simp only [KindOK]; omega
  · have := h.hund_val t v h5; simp only [KindOK]; omega
  · obtain ⟨k, _, _, e⟩ := h.big_val t v h6; exact ⟨⟨k, e⟩, hM t v h6⟩
  · rw [h.all t] at ht; simp [Dict.mem, h1, h3, h4, h5, h6] at ht

theorem symOf_ok {ld : LangData} (h : ld.WF) {M : Nat} (hM : ∀ t p, ld.bigPowersOfTen.get? t = some p → p ≤ M)
    (ts : List PyStr) (ht : ∀ t ∈ ts, TokOK ld t) : ∀ y ∈ ts.filterMap (symOf ld), SymOK M y := by
  intro y hy
  obtain ⟨t, htm, hty⟩ := List.mem_filterMap.mp hy
  unfold symOf at hty
  by_cases hb : blank t = true
  · simp [hb] at hty
  · by_cases hs : ld.skipTokens.elem t = true
    · rw [if_neg hb, if_pos hs] at hty; cases hty; trivial
    · rw [if_neg hb, if_neg hs] at hty; cases hty
      apply kind_ok h hM
      rcases ht t htm with h1 | h1 | h1
      · exact absurd h1 hb
      · exact absurd h1 hs
      · exact h1

theorem wf_big_le {ld : LangData} (h : ld.WF) : ∀ t p, ld.bigPowersOfTen.get? t = some p → p ≤ 10 ^ 600 := by
  intro t p hp
  obtain ⟨k, _, h2, rfl⟩ := h.big_val t p hp
  exact Nat.pow_le_pow_right (by omega) h2

/-- Every number built from words is below `10 ^ 1300`. -/
theorem buildItems_bound {ld : LangData} (h : ld.WF) (ts : List PyStr) (ht : ∀ t ∈ ts, TokOK ld t) :
    ∀ n, Item.num n ∈ buildItems ld ts → n < 10 ^ 1300 := by
  intro n hn
  rw [buildItems_eq h.toDisjoint] at hn
  have := symItems_bound (mg := ld.maximumGroupValue) _ (symOf_ok h (wf_big_le h) ts ht) _ hn
  simp only [ItemOK, valueBound] at this
  have hmg := h.group.2
  have h2 : ld.maximumGroupValue * ld.maximumGroupValue ≤ 10000 * 10000 := Nat.mul_le_mul hmg hmg
  have h3 : 2 * (10 ^ 600 * 10 ^ 600) + 10000 * 10000 + 2700 < 10 ^ 1300 := by decide +kernel
  omega

end NumberParser
