import Verif.Proofs.RoundTrip
import Verif.Proofs.Phrase
import Verif.Proofs.Forms
import Verif.Spec.Declension

/-!
# Declined Russian and Spanish numbers

The words of `Spec/Declension.lean` have the same classes and values as those of the base forms.
-/

set_option maxRecDepth 100000

namespace NumberParser
open Spec

/-! ### Russian -/

/-- The values checked for the words below twenty: those of each case -/
def ruCase (c : Case) : Bool :=
  (List.range 20).all (fun i => i == 0 || decide (kindOf ldRu (norm (ruSmallIn c .masc false i)) = smallKind i)) &&
  (List.range 5).all (fun i => i == 0 || [Gender.masc, .fem, .neut, .plural].all (fun g => [true, false].all (fun a =>
    decide (kindOf ldRu (norm (ruSmallIn c g a i)) = smallKind i))))

theorem ruCase_all (c : Case) : ruCase c = true := by
  cases c <;> decide +kernel

theorem ruin_small {c : Case} {g : Gender} {a : Bool} {i : Nat} (h1 : 1 ≤ i) (h : i < 20) :
    kindOf ldRu (norm (ruSmallIn c g a i)) = smallKind i := by
  have hc := ruCase_all c
  unfold ruCase at hc
  rw [Bool.and_eq_true] at hc
  by_cases h5 : i < 5
  · have := range_all hc.2 h5
    have h0 : (i == 0) = false := by simp; omega
    rw [h0, Bool.false_or] at this
    have := List.all_eq_true.mp this g (by cases g <;> simp)
    have := List.all_eq_true.mp this a (by cases a <;> simp)
    simpa using this
  · have := range_all hc.1 h
    have h0 : (i == 0) = false := by simp; omega
    rw [h0, Bool.false_or] at this
    have he : ruSmallIn c g a i = ruSmallIn c .masc false i := by
      unfold ruSmallIn
      simp only [show i ≠ 1 by omega, show i ≠ 2 by omega, show i ≠ 3 by omega, show i ≠ 4 by omega, if_false]
    rw [he]
    simpa using this

theorem ruin_tens {c : Case} {i : Nat} (h1 : 2 ≤ i) (h : i < 10) : kindOf ldRu (norm (ruTensIn c i)) = .tens (10 * i) := by
  have := range_all (p := fun i => decide (i < 2) || decide (kindOf ldRu (norm (ruTensIn c i)) = .tens (10 * i))) (n := 10)
    (by cases c <;> decide +kernel) h
  simp at this
  exact this.resolve_left (by omega)

theorem ruin_hund {c : Case} {i : Nat} (h1 : 1 ≤ i) (h : i < 10) : kindOf ldRu (norm (ruHundIn c i)) = .hund (100 * i) := by
  have := range_all (p := fun i => decide (i < 1) || decide (kindOf ldRu (norm (ruHundIn c i)) = .hund (100 * i))) (n := 10)
    (by cases c <;> decide +kernel) h
  simp at this
  exact this.resolve_left (by omega)

theorem ruin_noun {c : Case} {p : Bool} {k : Nat} (h : k < 7) (hp : p = false ∨ c ≠ .nom ∧ c ≠ .acc) :
    kindOf ldRu (norm (ruScaleNoun k p c)) = .big (1000 * 1000 ^ k) := by
  have := range_all (p := fun k => p && (decide (c = .nom) || decide (c = .acc)) ||
      decide (kindOf ldRu (norm (ruScaleNoun k p c)) = .big (1000 * 1000 ^ k))) (n := 7)
    (by cases c <;> cases p <;> decide +kernel) h
  have hb : (p && (decide (c = .nom) || decide (c = .acc))) = false := by
    rcases hp with rfl | ⟨h1, h2⟩
    · rfl
    · simp [h1, h2]
  rw [hb, Bool.false_or] at this
  simpa using this

theorem ruin_scale {c : Case} {k g : Nat} (h : k < 7) : kindOf ldRu (norm (ruScaleIn k c g)) = .big (1000 * 1000 ^ k) := by
  unfold ruScaleIn
  split
  · exact ruin_noun h (Or.inl rfl)
  · split
    · exact ruin_noun h (Or.inr ⟨by simp, by simp⟩)
    · rename_i hc
      exact ruin_noun h (Or.inr ⟨fun h => hc (Or.inl h), fun h => hc (Or.inr h)⟩)

theorem ruin_below100 {c : Case} {g : Gender} {a : Bool} {n : Nat} (h0 : 1 ≤ n) (h : n < 100) : Tail (wordKinds ldRu (ruBelow100In c g a n)) n := by
  unfold ruBelow100In
  by_cases h1 : n < 20
  · rw [if_pos h1]
    show Tail [kindOf ldRu (norm (ruSmallIn c g a n))] n
    rw [ruin_small h0 h1]; exact smallKind_tail n
  · rw [if_neg h1]
    have ht := ruin_tens (c := c) (i := n / 10) (by omega) (by omega)
    by_cases h2 : n % 10 = 0
    · rw [if_pos h2]
      show Tail [kindOf ldRu (norm (ruTensIn c (n / 10)))] n
      rw [ht]
      have : 10 * (n / 10) = n := by omega
      rw [this]; exact Tail.tens n
    · rw [if_neg h2]
      show Tail [kindOf ldRu (norm (ruTensIn c (n / 10))), kindOf ldRu (norm (ruSmallIn c g a (n % 10)))] n
      rw [ht, ruin_small (by omega) (by omega)]
      have hs : smallKind (n % 10) = .unit (n % 10) := by unfold smallKind; rw [if_pos (by omega)]
      have he : n = 10 * (n / 10) + n % 10 := by omega
      rw [hs]
      have := Tail.tensUnit (10 * (n / 10)) (n % 10)
      rw [← he] at this
      exact this

theorem ruin_below1000 {c : Case} {g : Gender} {a : Bool} {n : Nat} (h0 : 1 ≤ n) (h : n < 1000) : Group3 (wordKinds ldRu (ruBelow1000In c g a n)) n := by
  unfold ruBelow1000In
  by_cases h1 : n < 100
  · rw [if_pos h1]; exact Group3.tail (ruin_below100 h0 h1)
  · rw [if_neg h1]
    have ht : Tail (wordKinds ldRu (if n % 100 = 0 then [] else ruBelow100In c g a (n % 100))) (n % 100) := by
      by_cases h2 : n % 100 = 0
      · rw [if_pos h2, h2]; exact Tail.nil
      · rw [if_neg h2]; exact ruin_below100 (by omega) (by omega)
    show Group3 (kindOf ldRu (norm (ruHundIn c (n / 100))) :: wordKinds ldRu _) n
    rw [ruin_hund (by omega) (by omega)]
    have := Group3.hund (100 * (n / 100)) ht
    have he : 100 * (n / 100) + n % 100 = n := by omega
    rw [he] at this
    exact this

theorem ruin_words {c : Case} {g : Gender} {a : Bool} {n : Nat} (h : n < 10 ^ 24) :
    kindsValue 100 (wordKinds ldRu (ruWordsIn c g a n)) = some n ∧ AllNum ldRu (ruWordsIn c g a n) :=
  spelled_value (B := 1000) (S := 1000) (b := 1000) (K := 7)
    (body := fun k p => ruBelow1000In c (if k = 0 then .fem else .masc) false p)
    (scale := fun k p => ruScaleIn k c p) (low := ruBelow1000In c g a) wf_ru
    (fun k g _ h1 hg => WGroup.of3 wf_ru 1000 (by omega) (ruin_below1000 h1 hg))
    (fun k g hk _ _ => ruin_scale hk)
    (fun g h1 hg => WGroup.of3 wf_ru 1000 (by omega) (ruin_below1000 h1 hg))
    (by omega) (by omega) (by decide) (by omega) (by simpa using h)

/-! ### Spanish -/

theorem esin_small {e : Ending} {i : Nat} (h : i < 30) : kindOf ldEs (norm (esBelow30In e i)) = smallKind i := by
  have := range_all (p := fun i => decide (kindOf ldEs (norm (esBelow30In e i)) = smallKind i)) (n := 30)
    (by cases e <;> decide +kernel) h
  simpa using this

theorem esin_hund {fem : Bool} {i : Nat} (h1 : 1 ≤ i) (h : i < 10) :
    kindOf ldEs (norm (nth (if fem then esHundFem else esHund) i)) = .hund (100 * i) := by
  have := range_all (p := fun i => decide (i < 1) ||
    decide (kindOf ldEs (norm (nth (if fem then esHundFem else esHund) i)) = .hund (100 * i))) (n := 10)
    (by cases fem <;> decide +kernel) h
  simp only [Bool.or_eq_true, decide_eq_true_eq] at this
  exact this.resolve_left (by omega)

theorem esin_below100 {e : Ending} {n : Nat} (h : n < 100) : Tail (wordKinds ldEs (esBelow100In e n)) n := by
  unfold esBelow100In
  by_cases h1 : n < 30
  · rw [if_pos h1]
    show Tail [kindOf ldEs (norm (esBelow30In e n))] n
    rw [esin_small h1]; exact smallKind_tail n
  · rw [if_neg h1]
    have ht := es_tens (i := n / 10) (by omega) (by omega)
    by_cases h2 : n % 10 = 0
    · rw [if_pos h2]
      show Tail [kindOf ldEs (norm (nth esTens (n / 10)))] n
      rw [ht]
      have : 10 * (n / 10) = n := by omega
      rw [this]; exact Tail.tens n
    · rw [if_neg h2]
      show Tail [kindOf ldEs (norm (nth esTens (n / 10))), kindOf ldEs (norm (esBelow30In e (n % 10)))] n
      rw [ht, esin_small (by omega)]
      have hs : smallKind (n % 10) = .unit (n % 10) := by unfold smallKind; rw [if_pos (by omega)]
      have he : n = 10 * (n / 10) + n % 10 := by omega
      rw [hs]
      have := Tail.tensUnit (10 * (n / 10)) (n % 10)
      rw [← he] at this
      exact this

theorem esin_below1000 {e : Ending} {fem : Bool} {n : Nat} (h : n < 1000) :
    Group3 (wordKinds ldEs (esBelow1000In e fem n)) n ∧ NoHundred (wordKinds ldEs (esBelow1000In e fem n)) := by
  unfold esBelow1000In
  by_cases h1 : n < 100
  · rw [if_pos h1]; exact ⟨Group3.tail (esin_below100 h1), (esin_below100 h1).noHundred⟩
  · rw [if_neg h1]
    by_cases h100 : n = 100
    · rw [if_pos h100]
      have : wordKinds ldEs [u!"cien"] = [.hund 100] := by
        show [kindOf ldEs (norm u!"cien")] = _
        rw [es_cien]
      rw [this, h100]
      exact ⟨Group3.hund 100 Tail.nil, by intro d r; simp⟩
    · rw [if_neg h100]
      have ht : Tail (wordKinds ldEs (if n % 100 = 0 then [] else esBelow100In e (n % 100))) (n % 100) := by
        by_cases h2 : n % 100 = 0
        · rw [if_pos h2, h2]; exact Tail.nil
        · rw [if_neg h2]; exact esin_below100 (by omega)
      have hk : wordKinds ldEs (nth (if fem then esHundFem else esHund) (n / 100) :: (if n % 100 = 0 then [] else esBelow100In e (n % 100))) =
          .hund (100 * (n / 100)) :: wordKinds ldEs (if n % 100 = 0 then [] else esBelow100In e (n % 100)) := by
        show kindOf ldEs (norm (nth (if fem then esHundFem else esHund) (n / 100))) :: wordKinds ldEs _ = _
        rw [esin_hund (by omega) (by omega)]
      rw [hk]
      have := Group3.hund (100 * (n / 100)) ht
      have he : 100 * (n / 100) + n % 100 = n := by omega
      rw [he] at this
      exact ⟨this, by intro d r; simp⟩

theorem esin_below1000000 {e e' : Ending} {fem : Bool} {n : Nat} (h : n < 1000000) : WGroup ldEs 1000000 (esBelow1000000In e e' fem n) n := by
  unfold esBelow1000000In
  by_cases h1 : n < 1000
  · rw [if_pos h1]; exact WGroup.of3 wf_es 1000000 (by omega) (esin_below1000 h1).1
  · rw [if_neg h1]
    have hA : (wordKinds ldEs (if n / 1000 = 1 then [] else esBelow1000In e' fem (n / 1000)) = [] ∧ n / 1000 = 1) ∨
        (Group3 (wordKinds ldEs (if n / 1000 = 1 then [] else esBelow1000In e' fem (n / 1000))) (n / 1000) ∧ 1 ≤ n / 1000) := by
      by_cases h2 : n / 1000 = 1
      · rw [if_pos h2]; exact Or.inl ⟨rfl, h2⟩
      · rw [if_neg h2]; exact Or.inr ⟨(esin_below1000 (by omega)).1, by omega⟩
    have hB : Group3 (wordKinds ldEs (if n % 1000 = 0 then [] else esBelow1000In e fem (n % 1000))) (n % 1000) ∧
        NoHundred (wordKinds ldEs (if n % 1000 = 0 then [] else esBelow1000In e fem (n % 1000))) := by
      by_cases h2 : n % 1000 = 0
      · rw [if_pos h2, h2]; exact ⟨Group3.tail Tail.nil, by intro d r; simp [wordKinds]⟩
      · rw [if_neg h2]; exact esin_below1000 (by omega)
    refine ⟨?_, ?_⟩
    · have := group6_reads (mg := ldEs.maximumGroupValue) (by decide) hA (by omega) hB.1 hB.2
      have he : n / 1000 * 1000 + n % 1000 = n := by omega
      rw [he] at this
      have hk : wordKinds ldEs ((if n / 1000 = 1 then [] else esBelow1000In e' fem (n / 1000)) ++ [u!"mil"] ++
          (if n % 1000 = 0 then [] else esBelow1000In e fem (n % 1000))) =
          wordKinds ldEs (if n / 1000 = 1 then [] else esBelow1000In e' fem (n / 1000)) ++ .big 1000 ::
            wordKinds ldEs (if n % 1000 = 0 then [] else esBelow1000In e fem (n % 1000)) := by
        rw [List.append_assoc, wordKinds_append, List.singleton_append]
        show _ ++ kindOf ldEs (norm u!"mil") :: _ = _
        rw [es_mil]; rfl
      rw [hk]; exact this
    · refine AllNum.append (AllNum.append ?_ ?_) hB.1.ne_other
      · rcases hA with ⟨h, _⟩ | ⟨h, _⟩
        · unfold AllNum; rw [h]; simp
        · exact h.ne_other
      · unfold AllNum
        show ∀ k ∈ [kindOf ldEs (norm u!"mil")], k ≠ .other
        rw [es_mil]; simp

theorem esin_words {e e' : Ending} {fem : Bool} {n : Nat} (h : n < 10 ^ 60) :
    kindsValue 10000 (wordKinds ldEs (esWordsIn e e' fem n)) = some n ∧ AllNum ldEs (esWordsIn e e' fem n) := by
  unfold esWordsIn
  by_cases h0 : n = 0
  · rw [if_pos h0, h0]
    refine ⟨by decide +kernel, ?_⟩
    unfold AllNum; decide +kernel
  · rw [if_neg h0]
    exact spelled_value (B := 1000000) (S := 1000000) (b := 1000000) (K := 9)
      (body := fun _ g => esBelow1000000In .beforeNoun .beforeNoun false g)
      (scale := fun k g => if g = 1 then nth esScale1 k else nth esScale k) (low := esBelow1000000In e e' fem) wf_es
      (fun k g _ _ hg => esin_below1000000 hg)
      (fun k g hk _ _ => es_scale hk g)
      (fun g _ hg => esin_below1000000 hg)
      (by omega) (by omega) (by decide) (by omega) (by simpa using h)

/-! ### The same classes as the base forms -/

theorem wordKinds_cons (ld : LangData) (w : PyStr) (ws : List PyStr) :
    wordKinds ld (w :: ws) = kindOf ld (norm w) :: wordKinds ld ws := rfl

theorem wordKinds_nil (ld : LangData) : wordKinds ld [] = [] := rfl

theorem periods_same {ld : LangData} {b K : Nat} (hb : 0 < b) {f f' : Nat → Nat → List PyStr}
    (h : ∀ k g, k < K → 1 ≤ g → g < b → wordKinds ld (f k g) = wordKinds ld (f' k g)) (n : Nat) :
    wordKinds ld (periods b f K n) = wordKinds ld (periods b f' K n) := by
  induction K with
  | zero => rfl
  | succ k ih =>
    simp only [periods, wordKinds_append]
    rw [ih (fun k' g hk => h k' g (by omega))]
    congr 1
    by_cases h0 : n / b ^ k % b = 0
    · rw [if_pos h0, if_pos h0]
    · rw [if_neg h0, if_neg h0]; exact h k _ (by omega) (by omega) (Nat.mod_lt _ hb)

theorem ruin_same100 {c : Case} {g : Gender} {a fem : Bool} {n : Nat} (h0 : 1 ≤ n) (h : n < 100) :
    wordKinds ldRu (ruBelow100In c g a n) = wordKinds ldRu (ruBelow100 fem n) := by
  unfold ruBelow100In ruBelow100
  by_cases h1 : n < 20
  · rw [if_pos h1, if_pos h1, wordKinds_cons, wordKinds_cons, ruin_small h0 h1, ru_small h1]
  · rw [if_neg h1, if_neg h1]
    have ht : kindOf ldRu (norm (ruTensIn c (n / 10))) = kindOf ldRu (norm (nth ruTens (n / 10))) := by
      rw [ruin_tens (by omega) (by omega), ru_tens (by omega) (by omega)]
    by_cases h2 : n % 10 = 0
    · rw [if_pos h2, if_pos h2, wordKinds_cons, wordKinds_cons, ht]
    · rw [if_neg h2, if_neg h2, wordKinds_cons, wordKinds_cons, wordKinds_cons, wordKinds_cons, ht,
        ruin_small (by omega) (by omega), ru_small (by omega)]

theorem ruin_same1000 {c : Case} {g : Gender} {a fem : Bool} {n : Nat} (h0 : 1 ≤ n) (h : n < 1000) :
    wordKinds ldRu (ruBelow1000In c g a n) = wordKinds ldRu (ruBelow1000 fem n) := by
  unfold ruBelow1000In ruBelow1000
  by_cases h1 : n < 100
  · rw [if_pos h1, if_pos h1]; exact ruin_same100 h0 h1
  · rw [if_neg h1, if_neg h1, wordKinds_cons, wordKinds_cons, ruin_hund (by omega) (by omega), ru_hund (by omega) (by omega)]
    by_cases h2 : n % 100 = 0
    · rw [if_pos h2, if_pos h2]
    · rw [if_neg h2, if_neg h2, ruin_same100 (by omega) (by omega)]

theorem ruin_same {c : Case} {g : Gender} {a : Bool} {n : Nat} (h0 : n ≠ 0) :
    wordKinds ldRu (ruWordsIn c g a n) = wordKinds ldRu (ruWords n) := by
  unfold ruWordsIn ruWords
  rw [if_neg h0, wordKinds_append, wordKinds_append]
  congr 1
  · apply periods_same (by omega)
    intro k g hk h1 hg
    rw [wordKinds_append, wordKinds_append, ruin_same1000 h1 hg, wordKinds_cons, wordKinds_cons, ruin_scale hk,
      ru_scale hk (slavicForm_lt g)]
  · by_cases h2 : n % 1000 = 0
    · rw [if_pos h2, if_pos h2]
    · rw [if_neg h2, if_neg h2]; exact ruin_same1000 (by omega) (by omega)

theorem esin_same100 {e : Ending} {s : Bool} {n : Nat} (h : n < 100) :
    wordKinds ldEs (esBelow100In e n) = wordKinds ldEs (esBelow100 s n) := by
  unfold esBelow100In esBelow100
  by_cases h1 : n < 30
  · rw [if_pos h1, if_pos h1, wordKinds_cons, wordKinds_cons, esin_small h1, es_small h1]
  · rw [if_neg h1, if_neg h1]
    by_cases h2 : n % 10 = 0
    · rw [if_pos h2, if_pos h2]
    · rw [if_neg h2, if_neg h2, wordKinds_cons, wordKinds_cons, wordKinds_cons, wordKinds_cons,
        esin_small (by omega), es_small (by omega)]

theorem esin_same1000 {e : Ending} {s fem : Bool} {n : Nat} (h : n < 1000) :
    wordKinds ldEs (esBelow1000In e fem n) = wordKinds ldEs (esBelow1000 s n) := by
  unfold esBelow1000In esBelow1000
  by_cases h1 : n < 100
  · rw [if_pos h1, if_pos h1]; exact esin_same100 h1
  · rw [if_neg h1, if_neg h1]
    by_cases h3 : n = 100
    · rw [if_pos h3, if_pos h3]
    · rw [if_neg h3, if_neg h3, wordKinds_cons, wordKinds_cons, esin_hund (by omega) (by omega), es_hund (by omega) (by omega)]
      by_cases h2 : n % 100 = 0
      · rw [if_pos h2, if_pos h2]
      · rw [if_neg h2, if_neg h2, esin_same100 (by omega)]

theorem esin_same6 {e e' : Ending} {s fem : Bool} {n : Nat} (h : n < 1000000) :
    wordKinds ldEs (esBelow1000000In e e' fem n) = wordKinds ldEs (esBelow1000000 s n) := by
  unfold esBelow1000000In esBelow1000000
  by_cases h1 : n < 1000
  · rw [if_pos h1, if_pos h1]; exact esin_same1000 h1
  · rw [if_neg h1, if_neg h1]
    simp only [wordKinds_append]
    congr 1
    · congr 1
      by_cases h2 : n / 1000 = 1
      · rw [if_pos h2, if_pos h2]
      · rw [if_neg h2, if_neg h2]; exact esin_same1000 (by omega)
    · by_cases h2 : n % 1000 = 0
      · rw [if_pos h2, if_pos h2]
      · rw [if_neg h2, if_neg h2]; exact esin_same1000 (by omega)

theorem esin_same {e e' : Ending} {fem : Bool} {n : Nat} :
    wordKinds ldEs (esWordsIn e e' fem n) = wordKinds ldEs (esWords n) := by
  unfold esWordsIn esWords
  by_cases h0 : n = 0
  · rw [if_pos h0, if_pos h0]
  · rw [if_neg h0, if_neg h0, wordKinds_append, wordKinds_append]
    congr 1
    · apply periods_same (by omega)
      intro k g hk h1 hg
      rw [wordKinds_append, wordKinds_append, esin_same6 hg]
    · by_cases h2 : n % 1000000 = 0
      · rw [if_pos h2, if_pos h2]
      · rw [if_neg h2, if_neg h2]; exact esin_same6 (by omega)

theorem ruin_form (c : Case) (g : Gender) (a : Bool) {n : Nat} (h0 : n ≠ 0) (h : n < 10 ^ 24) :
    russian.Form n (ruWordsIn c g a n) :=
  form_of (L := russian) (by decide) (AllNum.mem wf_ru (ru_words h).2) (AllNum.mem wf_ru (ruin_words h).2) (ruin_same h0).symm

theorem esin_form (e e' : Ending) (fem : Bool) {n : Nat} (h : n < 10 ^ 60) : spanish.Form n (esWordsIn e e' fem n) :=
  form_of (L := spanish) (by decide) (AllNum.mem wf_es (es_words h).2) (AllNum.mem wf_es (esin_words h).2) esin_same.symm

/-! ### Letters -/

theorem nth_large {ws : List PyStr} {i : Nat} (h : ws.length ≤ i) : nth ws i = [] := by
  unfold nth; rw [List.getD_eq_getElem?_getD, List.getElem?_eq_none h]; rfl

theorem checkW {w : PyStr} (h : w.all isWord = true) : ∀ x ∈ w, isWord x = true := List.all_eq_true.mp h

theorem ruin_charsSmall (c : Case) (g : Gender) (a : Bool) (n : Nat) : ∀ x ∈ ruSmallIn c g a n, isWord x = true := by
  by_cases h : n < 20
  · exact checkW (range_all (p := fun n => (ruSmallIn c g a n).all isWord) (n := 20)
      (by cases c <;> cases g <;> cases a <;> decide +kernel) h)
  · have : ruSmallIn c g a n = ruSmallIn c g a 20 := by
      unfold ruSmallIn
      rw [nth_large (ws := ruStems) (i := n - 9) (by simp [ruStems]; omega)]
      simp only [show n ≠ 1 by omega, show n ≠ 2 by omega, show n ≠ 3 by omega, show n ≠ 4 by omega, show n ≠ 5 by omega,
        show n ≠ 6 by omega, show n ≠ 7 by omega, show n ≠ 8 by omega, if_false]
      rfl
    rw [this]
    exact checkW (by cases c <;> cases g <;> cases a <;> decide +kernel)

theorem ruin_charsTens (c : Case) (n : Nat) : ∀ x ∈ ruTensIn c n, isWord x = true := by
  by_cases h : n < 10
  · exact checkW (range_all (p := fun n => (ruTensIn c n).all isWord) (n := 10) (by cases c <;> decide +kernel) h)
  · have : ruTensIn c n = ruTensIn c 9 := by
      unfold ruTensIn
      simp only [show n ≠ 2 by omega, show n ≠ 3 by omega, show n ≠ 4 by omega, show n ≠ 5 by omega,
        show n ≠ 6 by omega, show n ≠ 7 by omega, show n ≠ 8 by omega, if_false]
      rfl
    rw [this]
    exact checkW (by cases c <;> decide +kernel)

theorem ruin_charsHund (c : Case) (n : Nat) : ∀ x ∈ ruHundIn c n, isWord x = true := by
  by_cases h : n < 10
  · exact checkW (range_all (p := fun n => (ruHundIn c n).all isWord) (n := 10) (by cases c <;> decide +kernel) h)
  · have : ruHundIn c n = ruHundIn c 9 := by
      unfold ruHundIn
      simp only [show n ≠ 1 by omega, show n ≠ 2 by omega, show n ≠ 3 by omega, show n ≠ 4 by omega, show n ≠ 5 by omega,
        show n ≠ 6 by omega, show n ≠ 7 by omega, show n ≠ 8 by omega, if_false]
      rfl
    rw [this]
    exact checkW (by cases c <;> decide +kernel)

theorem ruin_charsNoun (k : Nat) (p : Bool) (c : Case) : ∀ x ∈ ruScaleNoun k p c, isWord x = true := by
  by_cases h : k < 7
  · exact checkW (range_all (p := fun k => (ruScaleNoun k p c).all isWord) (n := 7) (by cases c <;> cases p <;> decide +kernel) h)
  · have : ruScaleNoun k p c = ruScaleNoun 7 p c := by
      unfold ruScaleNoun
      rw [nth_large (ws := ruScaleStems) (i := k - 1) (by simp [ruScaleStems]; omega), if_neg (by omega)]
      rfl
    rw [this]
    exact checkW (by cases c <;> cases p <;> decide +kernel)

theorem ruin_chars100 (c : Case) (g : Gender) (a : Bool) (n : Nat) : Chars isWord (ruBelow100In c g a n) :=
  Chars.ite (Chars.cons (ruin_charsSmall _ _ _ _) (Chars.nil _)) (Chars.ite (Chars.cons (ruin_charsTens _ _) (Chars.nil _))
    (Chars.cons (ruin_charsTens _ _) (Chars.cons (ruin_charsSmall _ _ _ _) (Chars.nil _))))

theorem ruin_chars1000 (c : Case) (g : Gender) (a : Bool) (n : Nat) : Chars isWord (ruBelow1000In c g a n) :=
  Chars.ite (ruin_chars100 _ _ _ _) (Chars.cons (ruin_charsHund _ _) (Chars.ite (Chars.nil _) (ruin_chars100 _ _ _ _)))

theorem ruin_chars (c : Case) (g : Gender) (a : Bool) (n : Nat) : Chars isWord (ruWordsIn c g a n) :=
  Chars.append (Chars.periods (fun _ p => Chars.append (ruin_chars1000 c _ _ p)
    (Chars.cons (iteC (ruin_charsNoun _ _ _) (iteC (ruin_charsNoun _ _ _) (ruin_charsNoun _ _ _))) (Chars.nil _))) _ _)
    (Chars.ite (Chars.nil _) (ruin_chars1000 _ _ _ _))

theorem esin_chars30 (e : Ending) (n : Nat) : ∀ x ∈ esBelow30In e n, isWord x = true := by
  have h1 : Chars isWord esSmall := Chars.of_check (by decide +kernel)
  cases e
  · exact h1.nth n
  · exact iteC (litC (by decide +kernel)) (iteC (litC (by decide +kernel)) (h1.nth n))
  · exact iteC (litC (by decide +kernel)) (iteC (litC (by decide +kernel)) (h1.nth n))

theorem esin_chars100 (e : Ending) (n : Nat) : Chars isWord (esBelow100In e n) := by
  have h2 : Chars isWord esTens := Chars.of_check (by decide +kernel)
  exact Chars.ite (Chars.cons (esin_chars30 _ _) (Chars.nil _)) (Chars.ite (Chars.cons (h2.nth _) (Chars.nil _))
    (Chars.cons (h2.nth _) (Chars.cons (esin_chars30 _ _) (Chars.nil _))))

theorem esin_chars1000 (e : Ending) (fem : Bool) (n : Nat) : Chars isWord (esBelow1000In e fem n) := by
  have h2 : Chars isWord (if fem then esHundFem else esHund) := Chars.of_check (by cases fem <;> decide +kernel)
  exact Chars.ite (esin_chars100 _ _) (Chars.ite (Chars.cons (litC (by decide +kernel)) (Chars.nil _))
    (Chars.cons (h2.nth _) (Chars.ite (Chars.nil _) (esin_chars100 _ _))))

theorem esin_chars6 (e e' : Ending) (fem : Bool) (n : Nat) : Chars isWord (esBelow1000000In e e' fem n) :=
  Chars.ite (esin_chars1000 _ _ _) (Chars.append (Chars.append (Chars.ite (Chars.nil _) (esin_chars1000 _ _ _))
    (Chars.cons (litC (by decide +kernel)) (Chars.nil _))) (Chars.ite (Chars.nil _) (esin_chars1000 _ _ _)))

theorem esin_chars (e e' : Ending) (fem : Bool) (n : Nat) : Chars isWord (esWordsIn e e' fem n) := by
  have h1 : Chars isWord esScale1 := Chars.of_check (by decide +kernel)
  have h2 : Chars isWord esScale := Chars.of_check (by decide +kernel)
  exact Chars.ite (Chars.cons (litC (by decide +kernel)) (Chars.nil _))
    (Chars.append (Chars.periods (fun k g => Chars.append (esin_chars6 _ _ _ g)
      (Chars.cons (iteC (h1.nth _) (h2.nth _)) (Chars.nil _))) _ _)
      (Chars.ite (Chars.nil _) (esin_chars6 _ _ _ _)))

theorem ruin_ne_nil {c : Case} {g : Gender} {a : Bool} {n : Nat} (h0 : n ≠ 0) (h : n < 10 ^ 24) : ruWordsIn c g a n ≠ [] :=
  words_ne_nil (ruin_words h).1 h0

theorem esin_ne_nil {e e' : Ending} {fem : Bool} {n : Nat} (h : n < 10 ^ 60) : esWordsIn e e' fem n ≠ [] := by
  by_cases h0 : n = 0
  · subst h0; simp [esWordsIn]
  · exact words_ne_nil (esin_words h).1 h0

theorem esGapIn_ok (a b : PyStr) : Gap Spec.es (esGapIn a b) := by
  unfold esGapIn
  split
  · exact Gap.filler (g := u!" ") (f := u!"y") (v := u!"y") (rest := u!" ") (by simp) (by decide) (by decide)
        ⟨by decide +kernel, rfl⟩ (gap_space (by decide))
  · exact gap_space (by decide)

end NumberParser
