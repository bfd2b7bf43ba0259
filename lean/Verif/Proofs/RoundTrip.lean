import Verif.Proofs.Render
import Verif.Spec.Numerals

/-! The spelled numbers of the five languages are read back. -/

set_option linter.unusedSimpArgs false

namespace NumberParser
open Spec

set_option maxRecDepth 100000

theorem mem_of_kind {ld : LangData} (h : ld.WF) {t : PyStr} (hk : kindOf ld t ≠ .other) : ld.allNumbers.mem t = true := by
  rw [h.all]
  rcases kind_cases h.toDisjoint t with ⟨v, k, h1, h2, h3, h4, h5, h6⟩ | ⟨v, k, h1, h2, h3, h4, h5, h6⟩ |
      ⟨v, k, h1, h2, h3, h4, h5, h6⟩ | ⟨v, k, h1, h2, h3, h4, h5, h6⟩ | ⟨v, k, h1, h2, h3, h4, h5, h6⟩ |
      ⟨k, h1, h2, h3, h4, h5, h6⟩
  · simp [Dict.mem, h1]
  · simp [Dict.mem, h3]
  · simp [Dict.mem, h4]
  · simp [Dict.mem, h5]
  · simp [Dict.mem, h6]
  · exact absurd k hk

/-- Words that are all number words. -/
def AllNum (ld : LangData) (ws : List PyStr) : Prop := ∀ k ∈ wordKinds ld ws, k ≠ .other

theorem AllNum.mem {ld : LangData} (h : ld.WF) {ws : List PyStr} (ha : AllNum ld ws) :
    ∀ w ∈ ws, ld.allNumbers.mem (norm w) = true := by
  intro w hw
  exact mem_of_kind h (ha _ (List.mem_map.mpr ⟨w, hw, rfl⟩))

theorem AllNum.append {ld : LangData} {a b : List PyStr} (ha : AllNum ld a) (hb : AllNum ld b) : AllNum ld (a ++ b) := by
  intro k hk
  unfold wordKinds at hk
  rw [List.map_append] at hk
  rcases List.mem_append.mp hk with h | h
  · exact ha k h
  · exact hb k h

theorem wordKinds_append (ld : LangData) (a b : List PyStr) : wordKinds ld (a ++ b) = wordKinds ld a ++ wordKinds ld b := by
  unfold wordKinds; rw [List.map_append]

theorem Tail.ne_other {ks : List Kind} {v : Nat} (h : Tail ks v) : ∀ k ∈ ks, k ≠ .other := by
  cases h <;> simp

theorem Group3.ne_other {ks : List Kind} {v : Nat} (h : Group3 ks v) : ∀ k ∈ ks, k ≠ .other := by
  cases h with
  | tail h => exact h.ne_other
  | hund _ h =>
    intro k hk
    rcases List.mem_cons.mp hk with rfl | hk
    · simp
    · exact h.ne_other k hk
  | unitHundred _ _ _ h =>
    intro k hk
    rcases List.mem_cons.mp hk with rfl | hk
    · simp
    · rcases List.mem_cons.mp hk with rfl | hk
      · simp
      · exact h.ne_other k hk

/-- The words `ws` form a group of value `g`. -/
structure WGroup (ld : LangData) (B : Nat) (ws : List PyStr) (g : Nat) : Prop where
  reads : GroupReads ld.maximumGroupValue B (wordKinds ld ws) g
  num : AllNum ld ws

theorem WGroup.of3 {ld : LangData} (h : ld.WF) {ws : List PyStr} {g : Nat} (B : Nat) (hB : 100 < B)
    (hg : Group3 (wordKinds ld ws) g) : WGroup ld B ws g :=
  ⟨hg.reads h.group.1 hB, hg.ne_other⟩

theorem periods_seq {ld : LangData} {B S b K : Nat} {body : Nat → Nat → List PyStr} {scale : Nat → Nat → PyStr}
    (hbody : ∀ k g, k < K → 1 ≤ g → g < b → WGroup ld B (body k g) g)
    (hscale : ∀ k g, k < K → 1 ≤ g → g < b → kindOf ld (norm (scale k g)) = .big (S * b ^ k))
    (hb : 0 < b) (hbS : b ≤ S) (hmg : ld.maximumGroupValue < S) (hBS : B ≤ S)
    {tw : List PyStr} {v : Nat} (htail : (tw = [] ∧ v = 0) ∨ WGroup ld B tw v) :
    ∀ k, k ≤ K → ∀ n P, (∀ pp, P = some pp → S * b ^ k ≤ pp) →
      Seq ld.maximumGroupValue B P (wordKinds ld (periods b (fun k g => body k g ++ [scale k g]) k n ++ tw))
        ((n % b ^ k) * S + v) ∧ AllNum ld (periods b (fun k g => body k g ++ [scale k g]) k n ++ tw) := by
  intro k
  induction k with
  | zero =>
    intro _ n P _
    simp only [periods, List.nil_append, Nat.pow_zero, Nat.mod_one, Nat.zero_mul, Nat.zero_add]
    rcases htail with ⟨rfl, rfl⟩ | h
    · exact ⟨Seq.nil P, by simp [AllNum, wordKinds]⟩
    · exact ⟨Seq.last h.reads, h.num⟩
  | succ k ih =>
    intro hk n P hP
    have hpow : 0 < b ^ k := Nat.pow_pos hb
    have hval : n % b ^ (k + 1) = n % b ^ k + b ^ k * (n / b ^ k % b) := Nat.mod_pow_succ
    simp only [periods]
    by_cases hg : n / b ^ k % b = 0
    · rw [if_pos hg, List.nil_append, hval, hg, Nat.mul_zero, Nat.add_zero]
      refine ih (by omega) n P (fun pp hpp => Nat.le_trans ?_ (hP pp hpp))
      exact Nat.mul_le_mul_left S (Nat.pow_le_pow_right hb (by omega))
    · rw [if_neg hg]
      have hg1 : 1 ≤ n / b ^ k % b := by omega
      have hglt : n / b ^ k % b < b := Nat.mod_lt _ hb
      generalize n / b ^ k % b = g at *
      have hsp : S ≤ S * b ^ k := Nat.le_mul_of_pos_right S hpow
      have h1 := hbody k g (by omega) hg1 hglt
      have h2 := hscale k g (by omega) hg1 hglt
      obtain ⟨h3, h4⟩ := ih (by omega) n (some (S * b ^ k)) (fun pp hpp => by cases hpp; exact Nat.le_refl _)
      have hlt : ∀ pp, P = some pp → S * b ^ k < pp := by
        intro pp hpp
        have := hP pp hpp
        rw [Nat.pow_succ, ← Nat.mul_assoc] at this
        have hp0 : 0 < S * b ^ k := Nat.lt_of_lt_of_le (by omega) hsp
        have : S * b ^ k * 2 ≤ S * b ^ k * b := Nat.mul_le_mul_left _ (by omega)
        omega
      have hs := Seq.scale (P := P) h1.reads hg1 (Nat.lt_of_lt_of_le hglt (Nat.le_trans hbS hsp))
        (Nat.lt_of_lt_of_le hmg hsp) (Nat.le_trans hBS hsp) hlt h3
      refine ⟨?_, ?_⟩
      · have he : wordKinds ld (body k g ++ [scale k g] ++ periods b (fun k g => body k g ++ [scale k g]) k n ++ tw) =
            wordKinds ld (body k g) ++ .big (S * b ^ k) ::
              wordKinds ld (periods b (fun k g => body k g ++ [scale k g]) k n ++ tw) := by
          rw [List.append_assoc, List.append_assoc, wordKinds_append, List.singleton_append]
          show _ ++ kindOf ld (norm (scale k g)) :: _ = _
          rw [h2]; rfl
        rw [he]
        have hv : (n % b ^ k + b ^ k * g) * S + v = g * (S * b ^ k) + (n % b ^ k * S + v) := by
          rw [Nat.add_mul, Nat.mul_comm (b ^ k) g, Nat.mul_assoc, Nat.mul_comm (b ^ k) S]; omega
        rw [hval, hv]
        exact hs
      · rw [List.append_assoc]
        refine AllNum.append (AllNum.append h1.num ?_) h4
        intro x hx
        simp only [wordKinds, List.map_cons, List.map_nil, List.mem_singleton] at hx
        rw [hx, h2]; simp

/-- A whole number: periods, then the lowest group. -/
theorem spelled_value {ld : LangData} (hwf : ld.WF) {B S b K : Nat} {body : Nat → Nat → List PyStr} {scale : Nat → Nat → PyStr}
    {low : Nat → List PyStr}
    (hbody : ∀ k g, k < K → 1 ≤ g → g < b → WGroup ld B (body k g) g)
    (hscale : ∀ k g, k < K → 1 ≤ g → g < b → kindOf ld (norm (scale k g)) = .big (S * b ^ k))
    (hlow : ∀ g, 1 ≤ g → g < S → WGroup ld B (low g) g)
    (hb : 0 < b) (hbS : b ≤ S) (hmg : ld.maximumGroupValue < S) (hBS : B ≤ S) {n : Nat} (hn : n < S * b ^ K) :
    let ws := periods b (fun k g => body k g ++ [scale k g]) K (n / S) ++ (if n % S = 0 then [] else low (n % S))
    kindsValue ld.maximumGroupValue (wordKinds ld ws) = some n ∧ AllNum ld ws := by
  intro ws
  have htail : ((if n % S = 0 then [] else low (n % S)) = [] ∧ n % S = 0) ∨
      WGroup ld B (if n % S = 0 then [] else low (n % S)) (n % S) := by
    by_cases h : n % S = 0
    · rw [if_pos h]; exact Or.inl ⟨rfl, h⟩
    · rw [if_neg h]; exact Or.inr (hlow _ (by omega) (Nat.mod_lt _ (by omega)))
  have := periods_seq (K := K) hbody hscale hb hbS hmg hBS htail K (Nat.le_refl _) (n / S) none (fun pp hpp => by cases hpp)
  have hd : n / S % b ^ K = n / S := Nat.mod_eq_of_lt (Nat.div_lt_of_lt_mul hn)
  rw [hd, Nat.mul_comm, Nat.div_add_mod] at this
  exact ⟨this.1.value hwf.group.1, this.2⟩

/-! ### Finite checks -/

theorem range_all {p : Nat → Bool} {n : Nat} (h : (List.range n).all p = true) {i : Nat} (hi : i < n) : p i = true :=
  List.all_eq_true.mp h i (List.mem_range.mpr hi)

abbrev ldEn := mkLangData Data.en
abbrev ldEs := mkLangData Data.es
abbrev ldHi := mkLangData Data.hi
abbrev ldRu := mkLangData Data.ru
abbrev ldUk := mkLangData Data.uk

/-- Kind of a word for `i < 20` (or 30, 100): a unit word below ten, a direct word otherwise. -/
def smallKind (i : Nat) : Kind := if i < 10 then .unit i else .direct i

theorem smallKind_tail (i : Nat) : Tail [smallKind i] i := by
  unfold smallKind; split
  · exact Tail.unit i
  · exact Tail.direct i

/-! ### English -/

theorem en_small {i : Nat} (h : i < 20) : kindOf ldEn (norm (nth enSmall i)) = smallKind i := by
  have := range_all (p := fun i => decide (kindOf ldEn (norm (nth enSmall i)) = smallKind i)) (n := 20) (by decide +kernel) h
  simpa using this

theorem en_tens {i : Nat} (h1 : 2 ≤ i) (h : i < 10) : kindOf ldEn (norm (nth enTens i)) = .tens (10 * i) := by
  have := range_all (p := fun i => decide (i < 2) || decide (kindOf ldEn (norm (nth enTens i)) = .tens (10 * i))) (n := 10)
    (by decide +kernel) h
  simp at this
  exact this.resolve_left (by omega)

theorem en_hundred : kindOf ldEn (norm u!"hundred") = .big 100 := by decide +kernel

theorem en_scale {k : Nat} (h : k < 7) : kindOf ldEn (norm (nth enScale k)) = .big (1000 * 1000 ^ k) := by
  have := range_all (p := fun k => decide (kindOf ldEn (norm (nth enScale k)) = .big (1000 * 1000 ^ k))) (n := 7)
    (by decide +kernel) h
  simpa using this

theorem en_below100 {n : Nat} (h : n < 100) : Tail (wordKinds ldEn (enBelow100 n)) n := by
  unfold enBelow100
  by_cases h1 : n < 20
  · rw [if_pos h1]
    show Tail [kindOf ldEn (norm (nth enSmall n))] n
    rw [en_small h1]; exact smallKind_tail n
  · rw [if_neg h1]
    have ht := en_tens (i := n / 10) (by omega) (by omega)
    by_cases h2 : n % 10 = 0
    · rw [if_pos h2]
      show Tail [kindOf ldEn (norm (nth enTens (n / 10)))] n
      rw [ht]
      have : 10 * (n / 10) = n := by omega
      rw [this]; exact Tail.tens n
    · rw [if_neg h2]
      show Tail [kindOf ldEn (norm (nth enTens (n / 10))), kindOf ldEn (norm (nth enSmall (n % 10)))] n
      rw [ht, en_small (by omega)]
      have hs : smallKind (n % 10) = .unit (n % 10) := by unfold smallKind; rw [if_pos (by omega)]
      have he : n = 10 * (n / 10) + n % 10 := by omega
      rw [hs]
      have := Tail.tensUnit (10 * (n / 10)) (n % 10)
      rw [← he] at this
      exact this

theorem en_below1000 {n : Nat} (h : n < 1000) : Group3 (wordKinds ldEn (enBelow1000 n)) n := by
  unfold enBelow1000
  by_cases h1 : n < 100
  · rw [if_pos h1]; exact Group3.tail (en_below100 h1)
  · rw [if_neg h1, wordKinds_append]
    have hu : wordKinds ldEn [nth enSmall (n / 100), u!"hundred"] = [.unit (n / 100), .big 100] := by
      show [kindOf ldEn (norm (nth enSmall (n / 100))), kindOf ldEn (norm u!"hundred")] = _
      rw [en_hundred, en_small (by omega)]
      unfold smallKind; rw [if_pos (by omega)]
    have ht : Tail (wordKinds ldEn (if n % 100 = 0 then [] else enBelow100 (n % 100))) (n % 100) := by
      by_cases h2 : n % 100 = 0
      · rw [if_pos h2, h2]; exact Tail.nil
      · rw [if_neg h2]; exact en_below100 (by omega)
    rw [hu]
    have := Group3.unitHundred (n / 100) (by omega) (by omega) ht
    have he : n / 100 * 100 + n % 100 = n := by omega
    rw [he] at this
    exact this

theorem en_words {n : Nat} (h : n < 10 ^ 24) :
    kindsValue 100 (wordKinds ldEn (enWords n)) = some n ∧ AllNum ldEn (enWords n) := by
  unfold enWords
  by_cases h0 : n = 0
  · rw [if_pos h0, h0]
    refine ⟨by decide +kernel, ?_⟩
    unfold AllNum; decide +kernel
  · rw [if_neg h0]
    exact spelled_value (B := 1000) (S := 1000) (b := 1000) (K := 7) (body := fun _ g => enBelow1000 g)
      (scale := fun k _ => nth enScale k) (low := enBelow1000) wf_en
      (fun k g _ _ hg => WGroup.of3 wf_en 1000 (by omega) (en_below1000 hg))
      (fun k g hk _ _ => en_scale hk)
      (fun g _ hg => WGroup.of3 wf_en 1000 (by omega) (en_below1000 hg))
      (by omega) (by omega) (by decide) (by omega) (by simpa using h)

/-! ### Russian -/

theorem ru_small {fem : Bool} {i : Nat} (h : i < 20) : kindOf ldRu (norm (ruBelow20 fem i)) = smallKind i := by
  have := range_all (p := fun i => decide (kindOf ldRu (norm (ruBelow20 true i)) = smallKind i) &&
    decide (kindOf ldRu (norm (ruBelow20 false i)) = smallKind i)) (n := 20) (by decide +kernel) h
  simp at this
  cases fem
  · exact this.2
  · exact this.1

theorem ru_tens {i : Nat} (h1 : 2 ≤ i) (h : i < 10) : kindOf ldRu (norm (nth ruTens i)) = .tens (10 * i) := by
  have := range_all (p := fun i => decide (i < 2) || decide (kindOf ldRu (norm (nth ruTens i)) = .tens (10 * i))) (n := 10)
    (by decide +kernel) h
  simp at this
  exact this.resolve_left (by omega)

theorem ru_hund {i : Nat} (h1 : 1 ≤ i) (h : i < 10) : kindOf ldRu (norm (nth ruHund i)) = .hund (100 * i) := by
  have := range_all (p := fun i => decide (i < 1) || decide (kindOf ldRu (norm (nth ruHund i)) = .hund (100 * i))) (n := 10)
    (by decide +kernel) h
  simp at this
  exact this.resolve_left (by omega)

theorem slavicForm_lt (g : Nat) : slavicForm g < 3 := by
  unfold slavicForm; split <;> (try split) <;> (try split) <;> omega

theorem ru_scale {k f : Nat} (h : k < 7) (hf : f < 3) :
    kindOf ldRu (norm (nth (ruScale.getD k []) f)) = .big (1000 * 1000 ^ k) := by
  have := range_all (p := fun k => (List.range 3).all (fun f =>
      decide (kindOf ldRu (norm (nth (ruScale.getD k []) f)) = .big (1000 * 1000 ^ k)))) (n := 7)
    (by decide +kernel) h
  have := range_all this hf
  simpa using this

theorem ru_below100 {fem : Bool} {n : Nat} (h : n < 100) : Tail (wordKinds ldRu (ruBelow100 fem n)) n := by
  unfold ruBelow100
  by_cases h1 : n < 20
  · rw [if_pos h1]
    show Tail [kindOf ldRu (norm (ruBelow20 fem n))] n
    rw [ru_small h1]; exact smallKind_tail n
  · rw [if_neg h1]
    have ht := ru_tens (i := n / 10) (by omega) (by omega)
    by_cases h2 : n % 10 = 0
    · rw [if_pos h2]
      show Tail [kindOf ldRu (norm (nth ruTens (n / 10)))] n
      rw [ht]
      have : 10 * (n / 10) = n := by omega
      rw [this]; exact Tail.tens n
    · rw [if_neg h2]
      show Tail [kindOf ldRu (norm (nth ruTens (n / 10))), kindOf ldRu (norm (ruBelow20 fem (n % 10)))] n
      rw [ht, ru_small (by omega)]
      have hs : smallKind (n % 10) = .unit (n % 10) := by unfold smallKind; rw [if_pos (by omega)]
      have he : n = 10 * (n / 10) + n % 10 := by omega
      rw [hs]
      have := Tail.tensUnit (10 * (n / 10)) (n % 10)
      rw [← he] at this
      exact this

theorem ru_below1000 {fem : Bool} {n : Nat} (h : n < 1000) : Group3 (wordKinds ldRu (ruBelow1000 fem n)) n := by
  unfold ruBelow1000
  by_cases h1 : n < 100
  · rw [if_pos h1]; exact Group3.tail (ru_below100 h1)
  · rw [if_neg h1]
    have ht : Tail (wordKinds ldRu (if n % 100 = 0 then [] else ruBelow100 fem (n % 100))) (n % 100) := by
      by_cases h2 : n % 100 = 0
      · rw [if_pos h2, h2]; exact Tail.nil
      · rw [if_neg h2]; exact ru_below100 (by omega)
    show Group3 (kindOf ldRu (norm (nth ruHund (n / 100))) :: wordKinds ldRu _) n
    rw [ru_hund (by omega) (by omega)]
    have := Group3.hund (100 * (n / 100)) ht
    have he : 100 * (n / 100) + n % 100 = n := by omega
    rw [he] at this
    exact this

theorem ru_words {n : Nat} (h : n < 10 ^ 24) :
    kindsValue 100 (wordKinds ldRu (ruWords n)) = some n ∧ AllNum ldRu (ruWords n) := by
  unfold ruWords
  by_cases h0 : n = 0
  · rw [if_pos h0, h0]
    refine ⟨by decide +kernel, ?_⟩
    unfold AllNum; decide +kernel
  · rw [if_neg h0]
    exact spelled_value (B := 1000) (S := 1000) (b := 1000) (K := 7) (body := fun k g => ruBelow1000 (k == 0) g)
      (scale := fun k g => nth (ruScale.getD k []) (slavicForm g)) (low := ruBelow1000 false) wf_ru
      (fun k g _ _ hg => WGroup.of3 wf_ru 1000 (by omega) (ru_below1000 hg))
      (fun k g hk _ _ => ru_scale hk (slavicForm_lt g))
      (fun g _ hg => WGroup.of3 wf_ru 1000 (by omega) (ru_below1000 hg))
      (by omega) (by omega) (by decide) (by omega) (by simpa using h)

/-! ### Hindi -/

theorem hi_below100 {i : Nat} (h : i < 100) : kindOf ldHi (norm (nth hiBelow100 i)) = smallKind i := by
  have := range_all (p := fun i => decide (kindOf ldHi (norm (nth hiBelow100 i)) = smallKind i)) (n := 100) (by decide +kernel) h
  simpa using this

theorem hi_sau : kindOf ldHi (norm u!"सौ") = .big 100 := by decide +kernel

theorem hi_scale {k : Nat} (h : k < 5) : kindOf ldHi (norm (nth hiScale k)) = .big (1000 * 100 ^ k) := by
  have := range_all (p := fun k => decide (kindOf ldHi (norm (nth hiScale k)) = .big (1000 * 100 ^ k))) (n := 5)
    (by decide +kernel) h
  simpa using this

theorem hi_tail {n : Nat} (h : n < 100) : Tail (wordKinds ldHi [nth hiBelow100 n]) n := by
  show Tail [kindOf ldHi (norm (nth hiBelow100 n))] n
  rw [hi_below100 h]; exact smallKind_tail n

theorem hi_below1000 {n : Nat} (h : n < 1000) : Group3 (wordKinds ldHi (hiBelow1000 n)) n := by
  unfold hiBelow1000
  by_cases h1 : n < 100
  · rw [if_pos h1]; exact Group3.tail (hi_tail h1)
  · rw [if_neg h1, wordKinds_append]
    have hu : wordKinds ldHi [nth hiBelow100 (n / 100), u!"सौ"] = [.unit (n / 100), .big 100] := by
      show [kindOf ldHi (norm (nth hiBelow100 (n / 100))), kindOf ldHi (norm u!"सौ")] = _
      rw [hi_sau, hi_below100 (by omega)]
      unfold smallKind; rw [if_pos (by omega)]
    have ht : Tail (wordKinds ldHi (if n % 100 = 0 then [] else [nth hiBelow100 (n % 100)])) (n % 100) := by
      by_cases h2 : n % 100 = 0
      · rw [if_pos h2, h2]; exact Tail.nil
      · rw [if_neg h2]; exact hi_tail (by omega)
    rw [hu]
    have := Group3.unitHundred (n / 100) (by omega) (by omega) ht
    have he : n / 100 * 100 + n % 100 = n := by omega
    rw [he] at this
    exact this

theorem hi_words {n : Nat} (h : n < 10 ^ 13) :
    kindsValue 100 (wordKinds ldHi (hiWords n)) = some n ∧ AllNum ldHi (hiWords n) := by
  unfold hiWords
  by_cases h0 : n = 0
  · rw [if_pos h0, h0]
    refine ⟨by decide +kernel, ?_⟩
    unfold AllNum; decide +kernel
  · rw [if_neg h0]
    exact spelled_value (B := 1000) (S := 1000) (b := 100) (K := 5) (body := fun _ g => [nth hiBelow100 g])
      (scale := fun k _ => nth hiScale k) (low := hiBelow1000) wf_hi
      (fun k g _ _ hg => WGroup.of3 wf_hi 1000 (by omega) (Group3.tail (hi_tail hg)))
      (fun k g hk _ _ => hi_scale hk)
      (fun g _ hg => WGroup.of3 wf_hi 1000 (by omega) (hi_below1000 hg))
      (by omega) (by omega) (by decide) (by omega) (by simpa using h)

/-! ### Spanish -/

theorem es_small {short : Bool} {i : Nat} (h : i < 30) : kindOf ldEs (norm (esBelow30 short i)) = smallKind i := by
  have := range_all (p := fun i => decide (kindOf ldEs (norm (esBelow30 true i)) = smallKind i) &&
    decide (kindOf ldEs (norm (esBelow30 false i)) = smallKind i)) (n := 30) (by decide +kernel) h
  simp at this
  cases short
  · exact this.2
  · exact this.1

theorem es_tens {i : Nat} (h1 : 3 ≤ i) (h : i < 10) : kindOf ldEs (norm (nth esTens i)) = .tens (10 * i) := by
  have := range_all (p := fun i => decide (i < 3) || decide (kindOf ldEs (norm (nth esTens i)) = .tens (10 * i))) (n := 10)
    (by decide +kernel) h
  simp at this
  exact this.resolve_left (by omega)

theorem es_hund {i : Nat} (h1 : 1 ≤ i) (h : i < 10) : kindOf ldEs (norm (nth esHund i)) = .hund (100 * i) := by
  have := range_all (p := fun i => decide (i < 1) || decide (kindOf ldEs (norm (nth esHund i)) = .hund (100 * i))) (n := 10)
    (by decide +kernel) h
  simp at this
  exact this.resolve_left (by omega)

theorem es_cien : kindOf ldEs (norm u!"cien") = .hund 100 := by decide +kernel
theorem es_mil : kindOf ldEs (norm u!"mil") = .big 1000 := by decide +kernel

theorem es_scale {k : Nat} (h : k < 9) (g : Nat) :
    kindOf ldEs (norm (if g = 1 then nth esScale1 k else nth esScale k)) = .big (1000000 * 1000000 ^ k) := by
  have := range_all (p := fun k => decide (kindOf ldEs (norm (nth esScale1 k)) = .big (1000000 * 1000000 ^ k)) &&
      decide (kindOf ldEs (norm (nth esScale k)) = .big (1000000 * 1000000 ^ k))) (n := 9)
    (by decide +kernel) h
  simp at this
  split
  · exact this.1
  · exact this.2

theorem es_below100 {short : Bool} {n : Nat} (h : n < 100) : Tail (wordKinds ldEs (esBelow100 short n)) n := by
  unfold esBelow100
  by_cases h1 : n < 30
  · rw [if_pos h1]
    show Tail [kindOf ldEs (norm (esBelow30 short n))] n
    rw [es_small h1]; exact smallKind_tail n
  · rw [if_neg h1]
    have ht := es_tens (i := n / 10) (by omega) (by omega)
    by_cases h2 : n % 10 = 0
    · rw [if_pos h2]
      show Tail [kindOf ldEs (norm (nth esTens (n / 10)))] n
      rw [ht]
      have : 10 * (n / 10) = n := by omega
      rw [this]; exact Tail.tens n
    · rw [if_neg h2]
      show Tail [kindOf ldEs (norm (nth esTens (n / 10))), kindOf ldEs (norm (esBelow30 short (n % 10)))] n
      rw [ht, es_small (by omega)]
      have hs : smallKind (n % 10) = .unit (n % 10) := by unfold smallKind; rw [if_pos (by omega)]
      have he : n = 10 * (n / 10) + n % 10 := by omega
      rw [hs]
      have := Tail.tensUnit (10 * (n / 10)) (n % 10)
      rw [← he] at this
      exact this

/-- A group without the word for hundred. -/
def NoHundred (ks : List Kind) : Prop := ∀ d r, ks ≠ .unit d :: .big 100 :: r

theorem Tail.noHundred {ks : List Kind} {v : Nat} (h : Tail ks v) : NoHundred ks := by
  intro d r
  cases h <;> simp

theorem es_below1000 {short : Bool} {n : Nat} (h : n < 1000) :
    Group3 (wordKinds ldEs (esBelow1000 short n)) n ∧ NoHundred (wordKinds ldEs (esBelow1000 short n)) := by
  unfold esBelow1000
  by_cases h1 : n < 100
  · rw [if_pos h1]; exact ⟨Group3.tail (es_below100 h1), (es_below100 h1).noHundred⟩
  · rw [if_neg h1]
    by_cases h100 : n = 100
    · rw [if_pos h100]
      have : wordKinds ldEs [u!"cien"] = [.hund 100] := by
        show [kindOf ldEs (norm u!"cien")] = _
        rw [es_cien]
      rw [this, h100]
      exact ⟨Group3.hund 100 Tail.nil, by intro d r; simp⟩
    · rw [if_neg h100]
      have ht : Tail (wordKinds ldEs (if n % 100 = 0 then [] else esBelow100 short (n % 100))) (n % 100) := by
        by_cases h2 : n % 100 = 0
        · rw [if_pos h2, h2]; exact Tail.nil
        · rw [if_neg h2]; exact es_below100 (by omega)
      have hk : wordKinds ldEs (nth esHund (n / 100) :: (if n % 100 = 0 then [] else esBelow100 short (n % 100))) =
          .hund (100 * (n / 100)) :: wordKinds ldEs (if n % 100 = 0 then [] else esBelow100 short (n % 100)) := by
        show kindOf ldEs (norm (nth esHund (n / 100))) :: wordKinds ldEs _ = _
        rw [es_hund (by omega) (by omega)]
      rw [hk]
      have := Group3.hund (100 * (n / 100)) ht
      have he : 100 * (n / 100) + n % 100 = n := by omega
      rw [he] at this
      exact ⟨this, by intro d r; simp⟩

theorem es_below1000000 {short : Bool} {n : Nat} (h : n < 1000000) : WGroup ldEs 1000000 (esBelow1000000 short n) n := by
  unfold esBelow1000000
  by_cases h1 : n < 1000
  · rw [if_pos h1]; exact WGroup.of3 wf_es 1000000 (by omega) (es_below1000 h1).1
  · rw [if_neg h1]
    have hA : (wordKinds ldEs (if n / 1000 = 1 then [] else esBelow1000 true (n / 1000)) = [] ∧ n / 1000 = 1) ∨
        (Group3 (wordKinds ldEs (if n / 1000 = 1 then [] else esBelow1000 true (n / 1000))) (n / 1000) ∧ 1 ≤ n / 1000) := by
      by_cases h2 : n / 1000 = 1
      · rw [if_pos h2]; exact Or.inl ⟨rfl, h2⟩
      · rw [if_neg h2]; exact Or.inr ⟨(es_below1000 (by omega)).1, by omega⟩
    have hB : Group3 (wordKinds ldEs (if n % 1000 = 0 then [] else esBelow1000 short (n % 1000))) (n % 1000) ∧
        NoHundred (wordKinds ldEs (if n % 1000 = 0 then [] else esBelow1000 short (n % 1000))) := by
      by_cases h2 : n % 1000 = 0
      · rw [if_pos h2, h2]; exact ⟨Group3.tail Tail.nil, by intro d r; simp [wordKinds]⟩
      · rw [if_neg h2]; exact es_below1000 (by omega)
    refine ⟨?_, ?_⟩
    · have := group6_reads (mg := ldEs.maximumGroupValue) (by decide) hA (by omega) hB.1 hB.2
      have he : n / 1000 * 1000 + n % 1000 = n := by omega
      rw [he] at this
      have hk : wordKinds ldEs ((if n / 1000 = 1 then [] else esBelow1000 true (n / 1000)) ++ [u!"mil"] ++
          (if n % 1000 = 0 then [] else esBelow1000 short (n % 1000))) =
          wordKinds ldEs (if n / 1000 = 1 then [] else esBelow1000 true (n / 1000)) ++ .big 1000 ::
            wordKinds ldEs (if n % 1000 = 0 then [] else esBelow1000 short (n % 1000)) := by
        rw [List.append_assoc, wordKinds_append, List.singleton_append]
        show _ ++ kindOf ldEs (norm u!"mil") :: _ = _
        rw [es_mil]; rfl
      rw [hk]; exact this
    · refine AllNum.append (AllNum.append ?_ ?_) hB.1.ne_other
      · rcases hA with ⟨h, _⟩ | ⟨h, _⟩
        · unfold AllNum; rw [h]; simp
        · exact h.ne_other
      · unfold AllNum
        show ∀ k ∈ [kindOf ldEs (norm u!"mil")], k ≠ .other
        rw [es_mil]; simp

theorem es_words {n : Nat} (h : n < 10 ^ 60) :
    kindsValue 10000 (wordKinds ldEs (esWords n)) = some n ∧ AllNum ldEs (esWords n) := by
  unfold esWords
  by_cases h0 : n = 0
  · rw [if_pos h0, h0]
    refine ⟨by decide +kernel, ?_⟩
    unfold AllNum; decide +kernel
  · rw [if_neg h0]
    exact spelled_value (B := 1000000) (S := 1000000) (b := 1000000) (K := 9) (body := fun _ g => esBelow1000000 true g)
      (scale := fun k g => if g = 1 then nth esScale1 k else nth esScale k) (low := esBelow1000000 false) wf_es
      (fun k g _ _ hg => es_below1000000 hg)
      (fun k g hk _ _ => es_scale hk g)
      (fun g _ hg => es_below1000000 hg)
      (by omega) (by omega) (by decide) (by omega) (by simpa using h)

/-! ### Ukrainian -/

theorem uk_small {fem : Bool} {i : Nat} (h : i < 20) : kindOf ldUk (norm (ukBelow20 fem i)) = smallKind i := by
  have := range_all (p := fun i => decide (kindOf ldUk (norm (ukBelow20 true i)) = smallKind i) &&
    decide (kindOf ldUk (norm (ukBelow20 false i)) = smallKind i)) (n := 20) (by decide +kernel) h
  simp at this
  cases fem
  · exact this.2
  · exact this.1

theorem uk_tens {i : Nat} (h1 : 2 ≤ i) (h : i < 10) : kindOf ldUk (norm (nth ukTens i)) = .tens (10 * i) := by
  have := range_all (p := fun i => decide (i < 2) || decide (kindOf ldUk (norm (nth ukTens i)) = .tens (10 * i))) (n := 10)
    (by decide +kernel) h
  simp at this
  exact this.resolve_left (by omega)

theorem uk_hund {i : Nat} (h1 : 1 ≤ i) (h : i < 10) : kindOf ldUk (norm (nth ukHund i)) = .hund (100 * i) := by
  have := range_all (p := fun i => decide (i < 1) || decide (kindOf ldUk (norm (nth ukHund i)) = .hund (100 * i))) (n := 10)
    (by decide +kernel) h
  simp at this
  exact this.resolve_left (by omega)

theorem uk_scale {k f : Nat} (h : k < 5) (hf : f < 3) :
    kindOf ldUk (norm (nth (ukScale.getD k []) f)) = .big (1000 * 1000 ^ k) := by
  have := range_all (p := fun k => (List.range 3).all (fun f =>
      decide (kindOf ldUk (norm (nth (ukScale.getD k []) f)) = .big (1000 * 1000 ^ k)))) (n := 5)
    (by decide +kernel) h
  have := range_all this hf
  simpa using this

theorem uk_below100 {fem : Bool} {n : Nat} (h : n < 100) : Tail (wordKinds ldUk (ukBelow100 fem n)) n := by
  unfold ukBelow100
  by_cases h1 : n < 20
  · rw [if_pos h1]
    show Tail [kindOf ldUk (norm (ukBelow20 fem n))] n
    rw [uk_small h1]; exact smallKind_tail n
  · rw [if_neg h1]
    have ht := uk_tens (i := n / 10) (by omega) (by omega)
    by_cases h2 : n % 10 = 0
    · rw [if_pos h2]
      show Tail [kindOf ldUk (norm (nth ukTens (n / 10)))] n
      rw [ht]
      have : 10 * (n / 10) = n := by omega
      rw [this]; exact Tail.tens n
    · rw [if_neg h2]
      show Tail [kindOf ldUk (norm (nth ukTens (n / 10))), kindOf ldUk (norm (ukBelow20 fem (n % 10)))] n
      rw [ht, uk_small (by omega)]
      have hs : smallKind (n % 10) = .unit (n % 10) := by unfold smallKind; rw [if_pos (by omega)]
      have he : n = 10 * (n / 10) + n % 10 := by omega
      rw [hs]
      have := Tail.tensUnit (10 * (n / 10)) (n % 10)
      rw [← he] at this
      exact this

theorem uk_below1000 {fem : Bool} {n : Nat} (h : n < 1000) : Group3 (wordKinds ldUk (ukBelow1000 fem n)) n := by
  unfold ukBelow1000
  by_cases h1 : n < 100
  · rw [if_pos h1]; exact Group3.tail (uk_below100 h1)
  · rw [if_neg h1]
    have ht : Tail (wordKinds ldUk (if n % 100 = 0 then [] else ukBelow100 fem (n % 100))) (n % 100) := by
      by_cases h2 : n % 100 = 0
      · rw [if_pos h2, h2]; exact Tail.nil
      · rw [if_neg h2]; exact uk_below100 (by omega)
    show Group3 (kindOf ldUk (norm (nth ukHund (n / 100))) :: wordKinds ldUk _) n
    rw [uk_hund (by omega) (by omega)]
    have := Group3.hund (100 * (n / 100)) ht
    have he : 100 * (n / 100) + n % 100 = n := by omega
    rw [he] at this
    exact this

theorem uk_words {n : Nat} (h : n < 10 ^ 18) :
    kindsValue 100 (wordKinds ldUk (ukWords n)) = some n ∧ AllNum ldUk (ukWords n) := by
  unfold ukWords
  by_cases h0 : n = 0
  · rw [if_pos h0, h0]
    refine ⟨by decide +kernel, ?_⟩
    unfold AllNum; decide +kernel
  · rw [if_neg h0]
    exact spelled_value (B := 1000) (S := 1000) (b := 1000) (K := 5) (body := fun k g => ukBelow1000 (k == 0) g)
      (scale := fun k g => nth (ukScale.getD k []) (slavicForm g)) (low := ukBelow1000 false) wf_uk
      (fun k g _ _ hg => WGroup.of3 wf_uk 1000 (by omega) (uk_below1000 hg))
      (fun k g hk _ _ => uk_scale hk (slavicForm_lt g))
      (fun g _ hg => WGroup.of3 wf_uk 1000 (by omega) (uk_below1000 hg))
      (by omega) (by omega) (by decide) (by omega) (by simpa using h)

end NumberParser
