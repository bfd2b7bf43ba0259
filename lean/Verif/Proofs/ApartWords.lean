import Verif.Spec.Apart
import Verif.Proofs.RoundTrip
import Verif.Proofs.Reading

/-! First and last words of spelled numbers (C75). -/

set_option linter.unusedSimpArgs false

namespace NumberParser
open Spec

set_option maxRecDepth 100000

/-! ### Leading digits -/

theorem lead_lt {b n : Nat} (h : n < b) : lead b n = n := by
  rw [lead, dif_pos (Or.inl h)]

theorem lead_div {b n : Nat} (hb : 2 ≤ b) (h : b ≤ n) : lead b n = lead b (n / b) := by
  rw [lead, dif_neg (by omega)]

theorem lead_pow {b : Nat} (hb : 2 ≤ b) : ∀ k n, 1 ≤ n / b ^ k → n / b ^ k < b → lead b n = n / b ^ k := by
  intro k
  induction k with
  | zero =>
    intro n _ h
    rw [Nat.pow_zero, Nat.div_one] at *
    exact lead_lt h
  | succ k ih =>
    intro n h1 h2
    have hp : 0 < b ^ (k + 1) := Nat.pow_pos (by omega)
    have e : n / b ^ (k + 1) = n / b / b ^ k := by rw [Nat.pow_succ, Nat.mul_comm, Nat.div_div_eq_div_mul]
    have hn : b ^ (k + 1) ≤ n := by
      apply Nat.le_of_not_lt
      intro hlt
      rw [Nat.div_eq_of_lt hlt] at h1
      omega
    have hbn : b ≤ n := by
      have : b ^ 1 ≤ b ^ (k + 1) := Nat.pow_le_pow_right (by omega) (by omega)
      rw [Nat.pow_one] at this
      omega
    rw [e] at h1 h2 ⊢
    rw [lead_div hb hbn]
    exact ih _ h1 h2

theorem lead_pos {b : Nat} (hb : 2 ≤ b) {n : Nat} (h : n ≠ 0) : lead b n ≠ 0 := by
  induction n using Nat.strongRecOn with
  | ind n ih =>
    by_cases h1 : n < b
    · rw [lead_lt h1]; exact h
    · rw [lead_div hb (by omega)]
      refine ih (n / b) (Nat.div_lt_self (by omega) (by omega)) ?_
      intro e
      rcases Nat.div_eq_zero_iff.mp e with h' | h' <;> omega

/-! ### Periods -/

theorem periods_none {b : Nat} {word : Nat → Nat → List PyStr} : ∀ {k N : Nat}, N % b ^ k = 0 → periods b word k N = [] := by
  intro k
  induction k with
  | zero => intro N _; rfl
  | succ k ih =>
    intro N h
    rw [Nat.mod_pow_succ] at h
    obtain ⟨h1, h2⟩ := Nat.add_eq_zero_iff.mp h
    rw [periods, ih h1, List.append_nil]
    rcases Nat.mul_eq_zero.mp h2 with h2 | h2
    · have hb : b = 0 := by
        rcases Nat.eq_zero_or_pos b with h | h
        · exact h
        · have := Nat.pow_pos (n := k) h; omega
      subst hb
      rw [h2, Nat.div_zero, Nat.zero_mod]; rfl
    · rw [if_pos h2]

theorem periods_head {b : Nat} (hb : 2 ≤ b) {word : Nat → Nat → List PyStr} (hne : ∀ k g, word k g ≠ []) : ∀ k N, N < b ^ k → N ≠ 0 →
    ∃ j, j < k ∧ 1 ≤ lead b N ∧ lead b N < b ∧ (periods b word k N).head? = (word j (lead b N)).head? := by
  intro k
  induction k with
  | zero => intro N h h0; simp at h; omega
  | succ k ih =>
    intro N h h0
    have hp : 0 < b ^ k := Nat.pow_pos (by omega)
    have hq : N / b ^ k < b := by
      apply Nat.div_lt_of_lt_mul
      rw [Nat.pow_succ] at h
      exact h
    rw [periods, Nat.mod_eq_of_lt hq]
    by_cases hz : N / b ^ k = 0
    · rw [if_pos hz, List.nil_append]
      have hlt : N < b ^ k := by
        rcases (Nat.div_eq_zero_iff).mp hz with h | h
        · omega
        · exact h
      obtain ⟨j, hj, h1, h2, h3⟩ := ih N hlt h0
      exact ⟨j, by omega, h1, h2, h3⟩
    · rw [if_neg hz]
      have hz1 : 1 ≤ N / b ^ k := Nat.pos_of_ne_zero hz
      have hl := lead_pow hb k N hz1 hq
      refine ⟨k, by omega, by rw [hl]; exact hz1, by rw [hl]; exact hq, ?_⟩
      rw [hl]
      cases hw : word k (N / b ^ k) with
      | nil => exact absurd hw (hne _ _)
      | cons w ws => rfl

theorem periods_last {b : Nat} {body : Nat → Nat → List PyStr} {scale : Nat → Nat → PyStr} : ∀ k N, N % b ^ k ≠ 0 →
    ∃ j g, j < k ∧ (periods b (fun k g => body k g ++ [scale k g]) k N).getLast? = some (scale j g) := by
  intro k
  induction k with
  | zero => intro N h; rw [Nat.pow_zero, Nat.mod_one] at h; exact absurd rfl h
  | succ k ih =>
    intro N h
    rw [periods]
    by_cases h1 : N % b ^ k = 0
    · rw [periods_none h1, List.append_nil]
      rw [Nat.mod_pow_succ, h1, Nat.zero_add] at h
      have h2 : N / b ^ k % b ≠ 0 := by
        intro e; rw [e] at h; simp at h
      rw [if_neg h2]
      exact ⟨k, N / b ^ k % b, by omega, by simp⟩
    · obtain ⟨j, g, hj, e⟩ := ih N h1
      refine ⟨j, g, by omega, ?_⟩
      rw [List.getLast?_append, e]; rfl

/-! ### Kinds of the first and the last word -/

/-- The kind of the last word of a number below 100; words up to `t` are single words. -/
def last100 (t g : Nat) : Kind := if g < t then smallKind g else if g % 10 = 0 then .tens g else .unit (g % 10)

/-- The kind of the first word of a group of digits. -/
def headEn (h : Nat) : Kind := if h < 20 then smallKind h else if h < 100 then .tens (10 * (h / 10)) else .unit (h / 100)

def headSl (t h : Nat) : Kind := if h < t then smallKind h else if h < 100 then .tens (10 * (h / 10)) else .hund (100 * (h / 100))

theorem wordKinds_head (ld : LangData) (ws : List PyStr) : (wordKinds ld ws).head? = ws.head?.map (fun w => kindOf ld (norm w)) := by
  cases ws <;> rfl

theorem wordKinds_last (ld : LangData) (ws : List PyStr) : (wordKinds ld ws).getLast? = ws.getLast?.map (fun w => kindOf ld (norm w)) := by
  unfold wordKinds; rw [List.getLast?_map]

/-! ### English -/

theorem en100_head {g : Nat} (h : g < 100) : (wordKinds ldEn (enBelow100 g)).head? = some (headEn g) := by
  unfold enBelow100 headEn
  by_cases h1 : g < 20
  · rw [if_pos h1, if_pos h1]
    show some (kindOf ldEn (norm (nth enSmall g))) = _
    rw [en_small h1]
  · rw [if_neg h1, if_neg h1, if_pos h]
    have ht := en_tens (i := g / 10) (by omega) (by omega)
    split
    · show some (kindOf ldEn (norm (nth enTens (g / 10)))) = _
      rw [ht]
    · show some (kindOf ldEn (norm (nth enTens (g / 10)))) = _
      rw [ht]

theorem en100_last {g : Nat} (h : g < 100) : (wordKinds ldEn (enBelow100 g)).getLast? = some (last100 20 g) := by
  unfold enBelow100 last100
  by_cases h1 : g < 20
  · rw [if_pos h1, if_pos h1]
    show some (kindOf ldEn (norm (nth enSmall g))) = _
    rw [en_small h1]
  · rw [if_neg h1, if_neg h1]
    have ht := en_tens (i := g / 10) (by omega) (by omega)
    by_cases h2 : g % 10 = 0
    · rw [if_pos h2, if_pos h2]
      show some (kindOf ldEn (norm (nth enTens (g / 10)))) = _
      rw [ht, show 10 * (g / 10) = g by omega]
    · rw [if_neg h2, if_neg h2]
      show some (kindOf ldEn (norm (nth enSmall (g % 10)))) = _
      rw [en_small (by omega)]
      unfold smallKind
      rw [if_pos (by omega)]

theorem en1000_head {g : Nat} (h : g < 1000) : (wordKinds ldEn (enBelow1000 g)).head? = some (headEn g) := by
  unfold enBelow1000
  by_cases h1 : g < 100
  · rw [if_pos h1]; exact en100_head h1
  · rw [if_neg h1]
    show some (kindOf ldEn (norm (nth enSmall (g / 100)))) = _
    rw [en_small (by omega)]
    unfold smallKind headEn
    rw [if_pos (by omega), if_neg (by omega), if_neg h1]

theorem en1000_last {g : Nat} (h : g < 1000) (h0 : g ≠ 0) :
    ∃ q, (wordKinds ldEn (enBelow1000 g)).getLast? = some q ∧ (g % 100 ≠ 0 ∧ q = last100 20 (g % 100) ∨ g % 100 = 0 ∧ ∃ p, q = .big p) := by
  unfold enBelow1000
  by_cases h1 : g < 100
  · rw [if_pos h1]
    exact ⟨_, en100_last h1, Or.inl ⟨by omega, by rw [Nat.mod_eq_of_lt h1]⟩⟩
  · rw [if_neg h1]
    by_cases h2 : g % 100 = 0
    · rw [if_pos h2]
      refine ⟨.big 100, ?_, Or.inr ⟨h2, _, rfl⟩⟩
      show some (kindOf ldEn (norm u!"hundred")) = _
      rw [en_hundred]
    · rw [if_neg h2, wordKinds_append, List.getLast?_append, en100_last (by omega)]
      exact ⟨_, rfl, Or.inl ⟨h2, rfl⟩⟩

/-- The last word of a number with periods, in terms of the lowest group. -/
theorem last_periods {ld : LangData} {b S K : Nat} {body : Nat → Nat → List PyStr} {scale : Nat → Nat → PyStr} {low : List PyStr} {m : Nat}
    (hscale : ∀ k g, k < K → ∃ p, kindOf ld (norm (scale k g)) = .big p) (hm : m < S * b ^ K) (h0 : m ≠ 0)
    (hlow : m % S ≠ 0 → low ≠ []) :
    (m % S ≠ 0 ∧ (wordKinds ld (periods b (fun k g => body k g ++ [scale k g]) K (m / S) ++ (if m % S = 0 then [] else low))).getLast? =
      (wordKinds ld low).getLast?) ∨
    (m % S = 0 ∧ ∃ p, (wordKinds ld (periods b (fun k g => body k g ++ [scale k g]) K (m / S) ++ (if m % S = 0 then [] else low))).getLast? = some (.big p)) := by
  by_cases h : m % S = 0
  · right
    refine ⟨h, ?_⟩
    rw [if_pos h, List.append_nil, wordKinds_last]
    have hd : m / S < b ^ K := Nat.div_lt_of_lt_mul hm
    have hne : m / S % b ^ K ≠ 0 := by
      rw [Nat.mod_eq_of_lt hd]
      intro e
      have := Nat.div_add_mod m S
      rw [e, h] at this
      simp at this
      omega
    obtain ⟨j, g, hj, e⟩ := periods_last (b := b) (body := body) (scale := scale) K (m / S) hne
    obtain ⟨p, hp⟩ := hscale j g hj
    exact ⟨p, by rw [e]; exact congrArg some hp⟩
  · left
    refine ⟨h, ?_⟩
    rw [if_neg h, wordKinds_append, List.getLast?_append]
    cases hq : (wordKinds ld low).getLast? with
    | none =>
      rw [List.getLast?_eq_none_iff] at hq
      exact absurd (List.map_eq_nil_iff.mp hq) (hlow h)
    | some q => rfl

/-- The first word of a number with periods. -/
theorem head_periods {ld : LangData} {b S K : Nat} {body : Nat → Nat → List PyStr} {scale : Nat → Nat → PyStr} {low : List PyStr} {n : Nat}
    (hb : 2 ≤ b) (hS : 0 < S) (hn : n < S * b ^ K) (h0 : n ≠ 0) :
    (n < S ∧ (wordKinds ld (periods b (fun k g => body k g ++ [scale k g]) K (n / S) ++ (if n % S = 0 then [] else low))).head? =
      (wordKinds ld low).head?) ∨
    (S ≤ n ∧ ∃ j, j < K ∧ 1 ≤ lead b (n / S) ∧ lead b (n / S) < b ∧
      (wordKinds ld (periods b (fun k g => body k g ++ [scale k g]) K (n / S) ++ (if n % S = 0 then [] else low))).head? =
        (wordKinds ld (body j (lead b (n / S)) ++ [scale j (lead b (n / S))])).head?) := by
  by_cases h : n < S
  · left
    refine ⟨h, ?_⟩
    rw [Nat.div_eq_of_lt h, periods_none (Nat.zero_mod _), Nat.mod_eq_of_lt h, if_neg h0, List.nil_append]
  · right
    refine ⟨by omega, ?_⟩
    have hd : n / S < b ^ K := Nat.div_lt_of_lt_mul hn
    have hne : n / S ≠ 0 := by
      intro e
      rcases Nat.div_eq_zero_iff.mp e with h' | h' <;> omega
    obtain ⟨j, hj, h1, h2, e⟩ := periods_head hb (word := fun k g => body k g ++ [scale k g]) (by simp) K (n / S) hd hne
    refine ⟨j, hj, h1, h2, ?_⟩
    rw [wordKinds_head, wordKinds_head, ← e]
    have : ∃ w ws, periods b (fun k g => body k g ++ [scale k g]) K (n / S) = w :: ws := by
      cases hq : periods b (fun k g => body k g ++ [scale k g]) K (n / S) with
      | nil => rw [hq] at e; simp at e
      | cons w ws => exact ⟨w, ws, rfl⟩
    obtain ⟨w, ws, hq⟩ := this
    rw [hq]; rfl

theorem head_of_body {ld : LangData} {a : List PyStr} {w : PyStr} {k : Kind} (h : (wordKinds ld a).head? = some k) :
    (wordKinds ld (a ++ [w])).head? = some k := by
  cases a with
  | nil => cases h
  | cons x a => exact h

theorem en_first {n : Nat} (h : n < 10 ^ 24) : (wordKinds ldEn (enWords n)).head? = some (headEn (lead 1000 n)) := by
  unfold enWords
  by_cases h0 : n = 0
  · rw [if_pos h0, h0, lead_lt (by omega)]; decide +kernel
  · rw [if_neg h0]
    rcases head_periods (ld := ldEn) (b := 1000) (S := 1000) (K := 7) (body := fun _ g => enBelow1000 g) (scale := fun k _ => nth enScale k)
      (low := enBelow1000 (n % 1000)) (by omega) (by omega) (by simpa using h) h0 with ⟨h1, e⟩ | ⟨h1, j, _, h2, h3, e⟩
    · rw [e, Nat.mod_eq_of_lt h1, en1000_head h1, lead_lt h1]
    · rw [e, lead_div (by omega) h1]
      exact head_of_body (en1000_head h3)

theorem en_last {m : Nat} (h : m < 10 ^ 24) : ∃ q, (wordKinds ldEn (enWords m)).getLast? = some q ∧
    (m = 0 ∧ q = .unit 0 ∨ m % 100 ≠ 0 ∧ q = last100 20 (m % 100) ∨ m ≠ 0 ∧ m % 100 = 0 ∧ ∃ p, q = .big p) := by
  unfold enWords
  by_cases h0 : m = 0
  · rw [if_pos h0]
    refine ⟨.unit 0, by decide +kernel, Or.inl ⟨h0, rfl⟩⟩
  · rw [if_neg h0]
    rcases last_periods (ld := ldEn) (b := 1000) (S := 1000) (K := 7) (m := m) (body := fun _ g => enBelow1000 g) (scale := fun k _ => nth enScale k)
      (low := enBelow1000 (m % 1000)) (fun k _ hk => ⟨_, en_scale hk⟩) (by simpa using h) h0
      (fun hne e => by obtain ⟨q, hq, _⟩ := en1000_last (g := m % 1000) (by omega) hne; rw [e] at hq; cases hq) with ⟨h1, e⟩ | ⟨h1, p, e⟩
    · obtain ⟨q, hq, hc⟩ := en1000_last (g := m % 1000) (by omega) h1
      rw [e, hq]
      refine ⟨q, rfl, Or.inr ?_⟩
      rw [show m % 1000 % 100 = m % 100 by omega] at hc
      rcases hc with hc | ⟨h2, hp⟩
      · exact Or.inl hc
      · exact Or.inr ⟨h0, h2, hp⟩
    · exact ⟨_, e, Or.inr (Or.inr ⟨h0, by omega, p, rfl⟩)⟩

/-! ### Russian -/

theorem ru100_head {fem : Bool} {g : Nat} (h : g < 100) : (wordKinds ldRu (ruBelow100 fem g)).head? = some (headSl 20 g) := by
  unfold ruBelow100 headSl
  by_cases h1 : g < 20
  · rw [if_pos h1, if_pos h1]
    show some (kindOf ldRu (norm (ruBelow20 fem g))) = _
    rw [ru_small h1]
  · rw [if_neg h1, if_neg h1, if_pos h]
    have ht := ru_tens (i := g / 10) (by omega) (by omega)
    split
    · show some (kindOf ldRu (norm (nth ruTens (g / 10)))) = _
      rw [ht]
    · show some (kindOf ldRu (norm (nth ruTens (g / 10)))) = _
      rw [ht]

theorem ru100_last {fem : Bool} {g : Nat} (h : g < 100) : (wordKinds ldRu (ruBelow100 fem g)).getLast? = some (last100 20 g) := by
  unfold ruBelow100 last100
  by_cases h1 : g < 20
  · rw [if_pos h1, if_pos h1]
    show some (kindOf ldRu (norm (ruBelow20 fem g))) = _
    rw [ru_small h1]
  · rw [if_neg h1, if_neg h1]
    have ht := ru_tens (i := g / 10) (by omega) (by omega)
    by_cases h2 : g % 10 = 0
    · rw [if_pos h2, if_pos h2]
      show some (kindOf ldRu (norm (nth ruTens (g / 10)))) = _
      rw [ht, show 10 * (g / 10) = g by omega]
    · rw [if_neg h2, if_neg h2]
      show some (kindOf ldRu (norm (ruBelow20 fem (g % 10)))) = _
      rw [ru_small (by omega)]
      unfold smallKind
      rw [if_pos (by omega)]

theorem ru1000_head {fem : Bool} {g : Nat} (h : g < 1000) : (wordKinds ldRu (ruBelow1000 fem g)).head? = some (headSl 20 g) := by
  unfold ruBelow1000
  by_cases h1 : g < 100
  · rw [if_pos h1]; exact ru100_head h1
  · rw [if_neg h1]
    show some (kindOf ldRu (norm (nth ruHund (g / 100)))) = _
    rw [ru_hund (by omega) (by omega)]
    unfold headSl
    rw [if_neg (by omega), if_neg h1]

theorem ru1000_last {fem : Bool} {g : Nat} (h : g < 1000) (h0 : g ≠ 0) : ∃ q, (wordKinds ldRu (ruBelow1000 fem g)).getLast? = some q ∧
    (g % 100 ≠ 0 ∧ q = last100 20 (g % 100) ∨ g % 100 = 0 ∧ ∃ p, q = .hund p) := by
  unfold ruBelow1000
  by_cases h1 : g < 100
  · rw [if_pos h1]
    exact ⟨_, ru100_last h1, Or.inl ⟨by omega, by rw [Nat.mod_eq_of_lt h1]⟩⟩
  · rw [if_neg h1]
    by_cases h2 : g % 100 = 0
    · rw [if_pos h2]
      refine ⟨.hund (100 * (g / 100)), ?_, Or.inr ⟨h2, _, rfl⟩⟩
      show some (kindOf ldRu (norm (nth ruHund (g / 100)))) = _
      rw [ru_hund (by omega) (by omega)]
    · rw [if_neg h2, ← List.singleton_append, wordKinds_append, List.getLast?_append, ru100_last (by omega)]
      exact ⟨_, rfl, Or.inl ⟨h2, rfl⟩⟩

theorem ru_first {n : Nat} (h : n < 10 ^ 24) : (wordKinds ldRu (ruWords n)).head? = some (headSl 20 (lead 1000 n)) := by
  unfold ruWords
  by_cases h0 : n = 0
  · rw [if_pos h0, h0, lead_lt (by omega)]; decide +kernel
  · rw [if_neg h0]
    rcases head_periods (ld := ldRu) (b := 1000) (S := 1000) (K := 7) (body := fun k g => ruBelow1000 (k == 0) g)
      (scale := fun k g => nth (ruScale.getD k []) (slavicForm g))
      (low := ruBelow1000 false (n % 1000)) (by omega) (by omega) (by simpa using h) h0 with ⟨h1, e⟩ | ⟨h1, j, _, h2, h3, e⟩
    · rw [e, Nat.mod_eq_of_lt h1, ru1000_head h1, lead_lt h1]
    · rw [e, lead_div (by omega) h1]
      exact head_of_body (ru1000_head h3)

theorem ru_last {m : Nat} (h : m < 10 ^ 24) : ∃ q, (wordKinds ldRu (ruWords m)).getLast? = some q ∧
    (m = 0 ∧ q = .unit 0 ∨ m % 100 ≠ 0 ∧ q = last100 20 (m % 100) ∨ m % 1000 ≠ 0 ∧ m % 100 = 0 ∧ (∃ p, q = .hund p) ∨
      m ≠ 0 ∧ m % 1000 = 0 ∧ ∃ p, q = .big p) := by
  unfold ruWords
  by_cases h0 : m = 0
  · rw [if_pos h0]
    refine ⟨.unit 0, by decide +kernel, Or.inl ⟨h0, rfl⟩⟩
  · rw [if_neg h0]
    rcases last_periods (ld := ldRu) (b := 1000) (S := 1000) (K := 7) (m := m) (body := fun k g => ruBelow1000 (k == 0) g)
      (scale := fun k g => nth (ruScale.getD k []) (slavicForm g))
      (low := ruBelow1000 false (m % 1000)) (fun k g hk => ⟨_, ru_scale hk (slavicForm_lt g)⟩) (by simpa using h) h0
      (fun hne e => by obtain ⟨q, hq, _⟩ := ru1000_last (fem := false) (g := m % 1000) (by omega) hne; rw [e] at hq; cases hq) with ⟨h1, e⟩ | ⟨h1, p, e⟩
    · obtain ⟨q, hq, hc⟩ := ru1000_last (fem := false) (g := m % 1000) (by omega) h1
      rw [e, hq]
      refine ⟨q, rfl, Or.inr ?_⟩
      rw [show m % 1000 % 100 = m % 100 by omega] at hc
      rcases hc with hc | ⟨h2, hp⟩
      · exact Or.inl hc
      · exact Or.inr (Or.inl ⟨h1, h2, hp⟩)
    · exact ⟨_, e, Or.inr (Or.inr (Or.inr ⟨h0, h1, p, rfl⟩))⟩

/-! ### Ukrainian -/

theorem uk100_head {fem : Bool} {g : Nat} (h : g < 100) : (wordKinds ldUk (ukBelow100 fem g)).head? = some (headSl 20 g) := by
  unfold ukBelow100 headSl
  by_cases h1 : g < 20
  · rw [if_pos h1, if_pos h1]
    show some (kindOf ldUk (norm (ukBelow20 fem g))) = _
    rw [uk_small h1]
  · rw [if_neg h1, if_neg h1, if_pos h]
    have ht := uk_tens (i := g / 10) (by omega) (by omega)
    split
    · show some (kindOf ldUk (norm (nth ukTens (g / 10)))) = _
      rw [ht]
    · show some (kindOf ldUk (norm (nth ukTens (g / 10)))) = _
      rw [ht]

theorem uk100_last {fem : Bool} {g : Nat} (h : g < 100) : (wordKinds ldUk (ukBelow100 fem g)).getLast? = some (last100 20 g) := by
  unfold ukBelow100 last100
  by_cases h1 : g < 20
  · rw [if_pos h1, if_pos h1]
    show some (kindOf ldUk (norm (ukBelow20 fem g))) = _
    rw [uk_small h1]
  · rw [if_neg h1, if_neg h1]
    have ht := uk_tens (i := g / 10) (by omega) (by omega)
    by_cases h2 : g % 10 = 0
    · rw [if_pos h2, if_pos h2]
      show some (kindOf ldUk (norm (nth ukTens (g / 10)))) = _
      rw [ht, show 10 * (g / 10) = g by omega]
    · rw [if_neg h2, if_neg h2]
      show some (kindOf ldUk (norm (ukBelow20 fem (g % 10)))) = _
      rw [uk_small (by omega)]
      unfold smallKind
      rw [if_pos (by omega)]

theorem uk1000_head {fem : Bool} {g : Nat} (h : g < 1000) : (wordKinds ldUk (ukBelow1000 fem g)).head? = some (headSl 20 g) := by
  unfold ukBelow1000
  by_cases h1 : g < 100
  · rw [if_pos h1]; exact uk100_head h1
  · rw [if_neg h1]
    show some (kindOf ldUk (norm (nth ukHund (g / 100)))) = _
    rw [uk_hund (by omega) (by omega)]
    unfold headSl
    rw [if_neg (by omega), if_neg h1]

theorem uk1000_last {fem : Bool} {g : Nat} (h : g < 1000) (h0 : g ≠ 0) : ∃ q, (wordKinds ldUk (ukBelow1000 fem g)).getLast? = some q ∧
    (g % 100 ≠ 0 ∧ q = last100 20 (g % 100) ∨ g % 100 = 0 ∧ ∃ p, q = .hund p) := by
  unfold ukBelow1000
  by_cases h1 : g < 100
  · rw [if_pos h1]
    exact ⟨_, uk100_last h1, Or.inl ⟨by omega, by rw [Nat.mod_eq_of_lt h1]⟩⟩
  · rw [if_neg h1]
    by_cases h2 : g % 100 = 0
    · rw [if_pos h2]
      refine ⟨.hund (100 * (g / 100)), ?_, Or.inr ⟨h2, _, rfl⟩⟩
      show some (kindOf ldUk (norm (nth ukHund (g / 100)))) = _
      rw [uk_hund (by omega) (by omega)]
    · rw [if_neg h2, ← List.singleton_append, wordKinds_append, List.getLast?_append, uk100_last (by omega)]
      exact ⟨_, rfl, Or.inl ⟨h2, rfl⟩⟩

theorem uk_first {n : Nat} (h : n < 10 ^ 18) : (wordKinds ldUk (ukWords n)).head? = some (headSl 20 (lead 1000 n)) := by
  unfold ukWords
  by_cases h0 : n = 0
  · rw [if_pos h0, h0, lead_lt (by omega)]; decide +kernel
  · rw [if_neg h0]
    rcases head_periods (ld := ldUk) (b := 1000) (S := 1000) (K := 5) (body := fun k g => ukBelow1000 (k == 0) g)
      (scale := fun k g => nth (ukScale.getD k []) (slavicForm g))
      (low := ukBelow1000 false (n % 1000)) (by omega) (by omega) (by simpa using h) h0 with ⟨h1, e⟩ | ⟨h1, j, _, h2, h3, e⟩
    · rw [e, Nat.mod_eq_of_lt h1, uk1000_head h1, lead_lt h1]
    · rw [e, lead_div (by omega) h1]
      exact head_of_body (uk1000_head h3)

theorem uk_last {m : Nat} (h : m < 10 ^ 18) : ∃ q, (wordKinds ldUk (ukWords m)).getLast? = some q ∧
    (m = 0 ∧ q = .unit 0 ∨ m % 100 ≠ 0 ∧ q = last100 20 (m % 100) ∨ m % 1000 ≠ 0 ∧ m % 100 = 0 ∧ (∃ p, q = .hund p) ∨
      m ≠ 0 ∧ m % 1000 = 0 ∧ ∃ p, q = .big p) := by
  unfold ukWords
  by_cases h0 : m = 0
  · rw [if_pos h0]
    refine ⟨.unit 0, by decide +kernel, Or.inl ⟨h0, rfl⟩⟩
  · rw [if_neg h0]
    rcases last_periods (ld := ldUk) (b := 1000) (S := 1000) (K := 5) (m := m) (body := fun k g => ukBelow1000 (k == 0) g)
      (scale := fun k g => nth (ukScale.getD k []) (slavicForm g))
      (low := ukBelow1000 false (m % 1000)) (fun k g hk => ⟨_, uk_scale hk (slavicForm_lt g)⟩) (by simpa using h) h0
      (fun hne e => by obtain ⟨q, hq, _⟩ := uk1000_last (fem := false) (g := m % 1000) (by omega) hne; rw [e] at hq; cases hq) with ⟨h1, e⟩ | ⟨h1, p, e⟩
    · obtain ⟨q, hq, hc⟩ := uk1000_last (fem := false) (g := m % 1000) (by omega) h1
      rw [e, hq]
      refine ⟨q, rfl, Or.inr ?_⟩
      rw [show m % 1000 % 100 = m % 100 by omega] at hc
      rcases hc with hc | ⟨h2, hp⟩
      · exact Or.inl hc
      · exact Or.inr (Or.inl ⟨h1, h2, hp⟩)
    · exact ⟨_, e, Or.inr (Or.inr (Or.inr ⟨h0, h1, p, rfl⟩))⟩

/-! ### Hindi -/

theorem hi1000_head {g : Nat} (h : g < 1000) : ∃ i, (wordKinds ldHi (hiBelow1000 g)).head? = some (smallKind i) ∧ (g ≠ 0 → i ≠ 0) := by
  unfold hiBelow1000
  by_cases h1 : g < 100
  · rw [if_pos h1]
    refine ⟨g, ?_, id⟩
    show some (kindOf ldHi (norm (nth hiBelow100 g))) = _
    rw [hi_below100 h1]
  · rw [if_neg h1]
    refine ⟨g / 100, ?_, fun _ => by omega⟩
    show some (kindOf ldHi (norm (nth hiBelow100 (g / 100)))) = _
    rw [hi_below100 (by omega)]

theorem hi1000_last {g : Nat} (h : g < 1000) (h0 : g ≠ 0) : ∃ q, (wordKinds ldHi (hiBelow1000 g)).getLast? = some q ∧
    (g % 100 ≠ 0 ∧ q = smallKind (g % 100) ∨ g % 100 = 0 ∧ ∃ p, q = .big p) := by
  unfold hiBelow1000
  by_cases h1 : g < 100
  · rw [if_pos h1]
    refine ⟨smallKind g, ?_, Or.inl ⟨by omega, by rw [Nat.mod_eq_of_lt h1]⟩⟩
    show some (kindOf ldHi (norm (nth hiBelow100 g))) = _
    rw [hi_below100 h1]
  · rw [if_neg h1]
    by_cases h2 : g % 100 = 0
    · rw [if_pos h2]
      refine ⟨.big 100, ?_, Or.inr ⟨h2, _, rfl⟩⟩
      show some (kindOf ldHi (norm u!"सौ")) = _
      rw [hi_sau]
    · rw [if_neg h2]
      refine ⟨smallKind (g % 100), ?_, Or.inl ⟨h2, rfl⟩⟩
      show some (kindOf ldHi (norm (nth hiBelow100 (g % 100)))) = _
      rw [hi_below100 (by omega)]

theorem hi_first {n : Nat} (h : n < 10 ^ 13) : ∃ i, (wordKinds ldHi (hiWords n)).head? = some (smallKind i) ∧ (n ≠ 0 → i ≠ 0) := by
  unfold hiWords
  by_cases h0 : n = 0
  · rw [if_pos h0]; exact ⟨0, by decide +kernel, fun h => absurd h0 h⟩
  · rw [if_neg h0]
    rcases head_periods (ld := ldHi) (b := 100) (S := 1000) (K := 5) (body := fun _ g => [nth hiBelow100 g]) (scale := fun k _ => nth hiScale k)
      (low := hiBelow1000 (n % 1000)) (by omega) (by omega) (by simpa using h) h0 with ⟨h1, e⟩ | ⟨h1, j, _, h2, h3, e⟩
    · obtain ⟨i, hi, h4⟩ := hi1000_head (g := n % 1000) (by omega)
      exact ⟨i, e.trans hi, fun _ => h4 (by omega)⟩
    · refine ⟨lead 100 (n / 1000), e.trans ?_, fun _ => by omega⟩
      refine head_of_body ?_
      show some (kindOf ldHi (norm (nth hiBelow100 (lead 100 (n / 1000))))) = _
      rw [hi_below100 h3]

theorem hi_last {m : Nat} (h : m < 10 ^ 13) : ∃ q, (wordKinds ldHi (hiWords m)).getLast? = some q ∧
    ((m = 0 ∨ m % 100 ≠ 0) ∧ (∃ i, q = smallKind i) ∨ (m ≠ 0 ∧ m % 100 = 0) ∧ ∃ p, q = .big p) := by
  unfold hiWords
  by_cases h0 : m = 0
  · rw [if_pos h0]
    refine ⟨.unit 0, by decide +kernel, Or.inl ⟨Or.inl h0, 0, rfl⟩⟩
  · rw [if_neg h0]
    rcases last_periods (ld := ldHi) (b := 100) (S := 1000) (K := 5) (m := m) (body := fun _ g => [nth hiBelow100 g]) (scale := fun k _ => nth hiScale k)
      (low := hiBelow1000 (m % 1000)) (fun k _ hk => ⟨_, hi_scale hk⟩) (by simpa using h) h0
      (fun hne e => by obtain ⟨q, hq, _⟩ := hi1000_last (g := m % 1000) (by omega) hne; rw [e] at hq; cases hq) with ⟨h1, e⟩ | ⟨h1, p, e⟩
    · obtain ⟨q, hq, hc⟩ := hi1000_last (g := m % 1000) (by omega) h1
      refine ⟨q, e.trans hq, ?_⟩
      rw [show m % 1000 % 100 = m % 100 by omega] at hc
      rcases hc with ⟨h2, hc⟩ | ⟨h2, hp⟩
      · exact Or.inl ⟨Or.inr h2, _, hc⟩
      · exact Or.inr ⟨⟨h0, h2⟩, hp⟩
    · exact ⟨_, e, Or.inr ⟨⟨h0, by omega⟩, p, rfl⟩⟩

/-! ### Spanish -/

theorem es100_head {short : Bool} {g : Nat} (h : g < 100) : (wordKinds ldEs (esBelow100 short g)).head? = some (headSl 30 g) := by
  unfold esBelow100 headSl
  by_cases h1 : g < 30
  · rw [if_pos h1, if_pos h1]
    show some (kindOf ldEs (norm (esBelow30 short g))) = _
    rw [es_small h1]
  · rw [if_neg h1, if_neg h1, if_pos h]
    have ht := es_tens (i := g / 10) (by omega) (by omega)
    split
    · show some (kindOf ldEs (norm (nth esTens (g / 10)))) = _
      rw [ht]
    · show some (kindOf ldEs (norm (nth esTens (g / 10)))) = _
      rw [ht]

theorem es100_last {short : Bool} {g : Nat} (h : g < 100) : (wordKinds ldEs (esBelow100 short g)).getLast? = some (last100 30 g) := by
  unfold esBelow100 last100
  by_cases h1 : g < 30
  · rw [if_pos h1, if_pos h1]
    show some (kindOf ldEs (norm (esBelow30 short g))) = _
    rw [es_small h1]
  · rw [if_neg h1, if_neg h1]
    have ht := es_tens (i := g / 10) (by omega) (by omega)
    by_cases h2 : g % 10 = 0
    · rw [if_pos h2, if_pos h2]
      show some (kindOf ldEs (norm (nth esTens (g / 10)))) = _
      rw [ht, show 10 * (g / 10) = g by omega]
    · rw [if_neg h2, if_neg h2]
      show some (kindOf ldEs (norm (esBelow30 short (g % 10)))) = _
      rw [es_small (by omega)]
      unfold smallKind
      rw [if_pos (by omega)]

theorem es1000_head {short : Bool} {g : Nat} (h : g < 1000) : (wordKinds ldEs (esBelow1000 short g)).head? = some (headSl 30 g) := by
  unfold esBelow1000
  by_cases h1 : g < 100
  · rw [if_pos h1]; exact es100_head h1
  · rw [if_neg h1]
    by_cases h2 : g = 100
    · rw [if_pos h2, h2]
      show some (kindOf ldEs (norm u!"cien")) = _
      rw [es_cien]; rfl
    · rw [if_neg h2]
      show some (kindOf ldEs (norm (nth esHund (g / 100)))) = _
      rw [es_hund (by omega) (by omega)]
      unfold headSl
      rw [if_neg (by omega), if_neg h1]

theorem es1000_last {short : Bool} {g : Nat} (h : g < 1000) (h0 : g ≠ 0) : ∃ q, (wordKinds ldEs (esBelow1000 short g)).getLast? = some q ∧
    (g % 100 ≠ 0 ∧ q = last100 30 (g % 100) ∨ g % 100 = 0 ∧ ∃ p, q = .hund p) := by
  unfold esBelow1000
  by_cases h1 : g < 100
  · rw [if_pos h1]
    exact ⟨_, es100_last h1, Or.inl ⟨by omega, by rw [Nat.mod_eq_of_lt h1]⟩⟩
  · rw [if_neg h1]
    by_cases h3 : g = 100
    · rw [if_pos h3]
      refine ⟨.hund 100, ?_, Or.inr ⟨by omega, _, rfl⟩⟩
      show some (kindOf ldEs (norm u!"cien")) = _
      rw [es_cien]
    · rw [if_neg h3]
      by_cases h2 : g % 100 = 0
      · rw [if_pos h2]
        refine ⟨.hund (100 * (g / 100)), ?_, Or.inr ⟨h2, _, rfl⟩⟩
        show some (kindOf ldEs (norm (nth esHund (g / 100)))) = _
        rw [es_hund (by omega) (by omega)]
      · rw [if_neg h2, ← List.singleton_append, wordKinds_append, List.getLast?_append, es100_last (by omega)]
        exact ⟨_, rfl, Or.inl ⟨h2, rfl⟩⟩

/-- The kind of the first word of a Spanish group of six digits. -/
def headEs (g : Nat) : Kind := if g / 1000 = 1 then .big 1000 else headSl 30 (lead 1000 g)

theorem es6_head {short : Bool} {g : Nat} (h : g < 1000000) : (wordKinds ldEs (esBelow1000000 short g)).head? = some (headEs g) := by
  unfold esBelow1000000 headEs
  by_cases h1 : g < 1000
  · rw [if_pos h1, if_neg (by omega), es1000_head h1, lead_lt h1]
  · rw [if_neg h1]
    by_cases h2 : g / 1000 = 1
    · rw [if_pos h2, if_pos h2]
      show some (kindOf ldEs (norm u!"mil")) = _
      rw [es_mil]
    · rw [if_neg h2, if_neg h2, lead_div (by omega) (by omega), lead_lt (by omega), List.append_assoc, wordKinds_append]
      have := es1000_head (short := true) (g := g / 1000) (by omega)
      rw [List.head?_append, this]; rfl

theorem es6_last {short : Bool} {g : Nat} (h : g < 1000000) (h0 : g ≠ 0) : ∃ q, (wordKinds ldEs (esBelow1000000 short g)).getLast? = some q ∧
    (g % 100 ≠ 0 ∧ q = last100 30 (g % 100) ∨ g % 1000 ≠ 0 ∧ g % 100 = 0 ∧ (∃ p, q = .hund p) ∨ g % 1000 = 0 ∧ ∃ p, q = .big p) := by
  unfold esBelow1000000
  by_cases h1 : g < 1000
  · rw [if_pos h1]
    obtain ⟨q, hq, hc⟩ := es1000_last (short := short) h1 h0
    refine ⟨q, hq, ?_⟩
    rcases hc with hc | ⟨h2, hp⟩
    · exact Or.inl hc
    · exact Or.inr (Or.inl ⟨by omega, h2, hp⟩)
  · rw [if_neg h1, wordKinds_append, List.getLast?_append]
    by_cases h2 : g % 1000 = 0
    · rw [if_pos h2, wordKinds_append, List.getLast?_append]
      have : (wordKinds ldEs [u!"mil"]).getLast? = some (.big 1000) := by
        show some (kindOf ldEs (norm u!"mil")) = _
        rw [es_mil]
      rw [this]
      exact ⟨_, rfl, Or.inr (Or.inr ⟨h2, _, rfl⟩)⟩
    · rw [if_neg h2]
      obtain ⟨q, hq, hc⟩ := es1000_last (short := short) (g := g % 1000) (by omega) h2
      rw [hq]
      refine ⟨q, rfl, ?_⟩
      rw [show g % 1000 % 100 = g % 100 by omega] at hc
      rcases hc with hc | ⟨h3, hp⟩
      · exact Or.inl hc
      · exact Or.inr (Or.inl ⟨h2, h3, hp⟩)

theorem es_first {n : Nat} (h : n < 10 ^ 60) : (wordKinds ldEs (esWords n)).head? = some (headEs (lead 1000000 n)) := by
  unfold esWords
  by_cases h0 : n = 0
  · rw [if_pos h0, h0, lead_lt (by omega)]
    unfold headEs
    rw [lead_lt (by omega)]; decide +kernel
  · rw [if_neg h0]
    rcases head_periods (ld := ldEs) (b := 1000000) (S := 1000000) (K := 9) (body := fun _ g => esBelow1000000 true g)
      (scale := fun k g => if g = 1 then nth esScale1 k else nth esScale k)
      (low := esBelow1000000 false (n % 1000000)) (by omega) (by omega) (by simpa using h) h0 with ⟨h1, e⟩ | ⟨h1, j, _, h2, h3, e⟩
    · rw [e, Nat.mod_eq_of_lt h1, es6_head h1, lead_lt h1]
    · rw [e, lead_div (by omega) h1]
      exact head_of_body (es6_head h3)

theorem es_last {m : Nat} (h : m < 10 ^ 60) : ∃ q, (wordKinds ldEs (esWords m)).getLast? = some q ∧
    (m = 0 ∧ q = .unit 0 ∨ m % 100 ≠ 0 ∧ q = last100 30 (m % 100) ∨ m % 1000 ≠ 0 ∧ m % 100 = 0 ∧ (∃ p, q = .hund p) ∨
      m ≠ 0 ∧ m % 1000 = 0 ∧ ∃ p, q = .big p) := by
  unfold esWords
  by_cases h0 : m = 0
  · rw [if_pos h0]
    refine ⟨.unit 0, by decide +kernel, Or.inl ⟨h0, rfl⟩⟩
  · rw [if_neg h0]
    rcases last_periods (ld := ldEs) (b := 1000000) (S := 1000000) (K := 9) (m := m) (body := fun _ g => esBelow1000000 true g)
      (scale := fun k g => if g = 1 then nth esScale1 k else nth esScale k)
      (low := esBelow1000000 false (m % 1000000)) (fun k g hk => ⟨_, es_scale hk g⟩) (by simpa using h) h0
      (fun hne e => by obtain ⟨q, hq, _⟩ := es6_last (short := false) (g := m % 1000000) (by omega) hne; rw [e] at hq; cases hq) with ⟨h1, e⟩ | ⟨h1, p, e⟩
    · obtain ⟨q, hq, hc⟩ := es6_last (short := false) (g := m % 1000000) (by omega) h1
      rw [e, hq]
      refine ⟨q, rfl, Or.inr ?_⟩
      rw [show m % 1000000 % 100 = m % 100 by omega, show m % 1000000 % 1000 = m % 1000 by omega] at hc
      rcases hc with hc | hc | ⟨h2, hp⟩
      · exact Or.inl hc
      · exact Or.inr (Or.inl hc)
      · exact Or.inr (Or.inr ⟨h0, h2, hp⟩)
    · exact ⟨_, e, Or.inr (Or.inr (Or.inr ⟨h0, by omega, p, rfl⟩))⟩

end NumberParser
