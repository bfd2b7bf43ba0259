import Verif.Proofs.VocabularyNumeral
import Verif.Spec.Numerals

/-! The English and Spanish names are names in the sense of C93, with every data module that lists their words. -/

namespace NumberParser
open Spec

/-- Deciding entries -/
theorem wordOf_get {i : Info} {k : Class} {v : Nat} {w : PyStr} (h : Dict.get? (normalizeDict (tableOf i k)) (form w) = some v) : WordOf i k v w :=
  normalize_get_some.mp h

/-- The module lists the English words for 0 to 19, the tens and "hundred". -/
structure EnglishWords (i : Info) : Prop where
  unit : ∀ n, n < 10 → WordOf i .unit n (nth enSmall n)
  direct : ∀ n, 10 ≤ n → n < 20 → WordOf i .direct n (nth enSmall n)
  tens : ∀ n, 2 ≤ n → n < 10 → WordOf i .tens (10 * n) (nth enTens n)
  hundred : WordOf i .scale 100 u!"hundred"

theorem enName_below100 {i : Info} (hi : EnglishWords i) {n : Nat} (hn : n < 100) : ∃ cs, Valued i (enBelow100 n) cs ∧ Small cs n := by
  unfold enBelow100
  by_cases h1 : n < 20
  · rw [if_pos h1]
    by_cases h2 : n < 10
    · exact ⟨_, valued_one (hi.unit n h2), .unit n⟩
    · exact ⟨_, valued_one (hi.direct n (by omega) h1), .direct n⟩
  · rw [if_neg h1]
    have ht := hi.tens (n / 10) (by omega) (by omega)
    by_cases h2 : n % 10 = 0
    · rw [if_pos h2]
      refine ⟨_, valued_one ht, ?_⟩
      rw [show 10 * (n / 10) = n by omega]; exact .tens n
    · rw [if_neg h2]
      refine ⟨_, .cons ht (valued_one (hi.unit (n % 10) (by omega))), ?_⟩
      have := Small.tensUnit (10 * (n / 10)) (n % 10)
      rwa [show 10 * (n / 10) + n % 10 = n by omega] at this

theorem enName_below1000 {i : Info} (hi : EnglishWords i) {n : Nat} (hn : n < 1000) : ∃ cs, Valued i (enBelow1000 n) cs ∧ Group cs n := by
  unfold enBelow1000
  by_cases h1 : n < 100
  · rw [if_pos h1]
    obtain ⟨cs, h2, h3⟩ := enName_below100 hi h1
    exact ⟨cs, h2, .simple (.small h3)⟩
  · rw [if_neg h1]
    have hr : ∃ rs, Valued i (if n % 100 = 0 then [] else enBelow100 (n % 100)) rs ∧ (rs = [] ∧ n % 100 = 0 ∨ Small rs (n % 100)) := by
      by_cases h2 : n % 100 = 0
      · rw [if_pos h2]; exact ⟨[], .nil, Or.inl ⟨rfl, h2⟩⟩
      · rw [if_neg h2]
        obtain ⟨cs, h3, h4⟩ := enName_below100 (n := n % 100) hi (by omega)
        exact ⟨cs, h3, Or.inr h4⟩
    obtain ⟨rs, hv, hs⟩ := hr
    refine ⟨_, valued_append (.cons (hi.unit (n / 100) (by omega)) (valued_one hi.hundred)) hv, ?_⟩
    have := Group.hundred (cs := [(.unit, n / 100)]) (v := n / 100) (Or.inr ⟨.unit _, by omega, by omega⟩) hs
    rwa [show n / 100 * 100 + n % 100 = n by omega] at this

/-- The module lists the Spanish words for 0 to 29, the tens, the hundreds and "mil". -/
structure SpanishWords (i : Info) : Prop where
  unit : ∀ n, n < 10 → WordOf i .unit n (nth esSmall n)
  un : WordOf i .unit 1 u!"un"
  direct : ∀ n, 10 ≤ n → n < 30 → WordOf i .direct n (nth esSmall n)
  veintiun : WordOf i .direct 21 u!"veintiún"
  tens : ∀ n, 3 ≤ n → n < 10 → WordOf i .tens (10 * n) (nth esTens n)
  hundreds : ∀ n, 1 ≤ n → n < 10 → WordOf i .hundreds (100 * n) (nth esHund n)
  cien : WordOf i .hundreds 100 u!"cien"
  mil : WordOf i .scale 1000 u!"mil"

theorem esName_below30 {i : Info} (hi : SpanishWords i) (short : Bool) {n : Nat} (hn : n < 30) :
    (n < 10 → WordOf i .unit n (esBelow30 short n)) ∧ (10 ≤ n → WordOf i .direct n (esBelow30 short n)) := by
  unfold esBelow30
  by_cases h1 : short ∧ n = 1
  · rw [if_pos h1, h1.2]
    exact ⟨fun _ => hi.un, fun h => absurd h (by omega)⟩
  · rw [if_neg h1]
    by_cases h2 : short ∧ n = 21
    · rw [if_pos h2, h2.2]
      exact ⟨fun h => absurd h (by omega), fun _ => hi.veintiun⟩
    · rw [if_neg h2]
      exact ⟨hi.unit n, fun h => hi.direct n h hn⟩

theorem esName_below100 {i : Info} (hi : SpanishWords i) (short : Bool) {n : Nat} (hn : n < 100) :
    ∃ cs, Valued i (esBelow100 short n) cs ∧ Small cs n := by
  unfold esBelow100
  by_cases h1 : n < 30
  · rw [if_pos h1]
    by_cases h2 : n < 10
    · exact ⟨_, valued_one ((esName_below30 hi short h1).1 h2), .unit n⟩
    · exact ⟨_, valued_one ((esName_below30 hi short h1).2 (by omega)), .direct n⟩
  · rw [if_neg h1]
    have ht := hi.tens (n / 10) (by omega) (by omega)
    by_cases h2 : n % 10 = 0
    · rw [if_pos h2]
      refine ⟨_, valued_one ht, ?_⟩
      rw [show 10 * (n / 10) = n by omega]; exact .tens n
    · rw [if_neg h2]
      refine ⟨_, .cons ht (valued_one ((esName_below30 hi short (by omega)).1 (by omega))), ?_⟩
      have := Small.tensUnit (10 * (n / 10)) (n % 10)
      rwa [show 10 * (n / 10) + n % 10 = n by omega] at this

theorem esName_below1000 {i : Info} (hi : SpanishWords i) (short : Bool) {n : Nat} (hn : n < 1000) :
    ∃ cs, Valued i (esBelow1000 short n) cs ∧ Simple cs n := by
  unfold esBelow1000
  by_cases h1 : n < 100
  · rw [if_pos h1]
    obtain ⟨cs, h2, h3⟩ := esName_below100 hi short h1
    exact ⟨cs, h2, .small h3⟩
  · rw [if_neg h1]
    by_cases h2 : n = 100
    · rw [if_pos h2, h2]
      exact ⟨_, valued_one hi.cien, .hundreds 100⟩
    · rw [if_neg h2]
      have hh := hi.hundreds (n / 100) (by omega) (by omega)
      by_cases h3 : n % 100 = 0
      · rw [if_pos h3]
        refine ⟨_, valued_one hh, ?_⟩
        rw [show 100 * (n / 100) = n by omega]; exact .hundreds n
      · rw [if_neg h3]
        obtain ⟨cs, h4, h5⟩ := esName_below100 hi short (n := n % 100) (by omega)
        refine ⟨_, .cons hh h4, ?_⟩
        have := Simple.hundredsSmall (100 * (n / 100)) h5
        rwa [show 100 * (n / 100) + n % 100 = n by omega] at this

theorem esName_belowMillion {i : Info} (hi : SpanishWords i) (short : Bool) {n : Nat} (hn : n < 1000000) :
    ∃ cs, Valued i (esBelow1000000 short n) cs ∧ Block 10000 cs n := by
  unfold esBelow1000000
  by_cases h1 : n < 1000
  · rw [if_pos h1]
    obtain ⟨cs, h2, h3⟩ := esName_below1000 hi short h1
    exact ⟨cs, h2, .group (.simple h3)⟩
  · rw [if_neg h1]
    have hr : ∃ rs, Valued i (if n % 1000 = 0 then [] else esBelow1000 short (n % 1000)) rs ∧ (rs = [] ∧ n % 1000 = 0 ∨ Simple rs (n % 1000)) := by
      by_cases h2 : n % 1000 = 0
      · rw [if_pos h2]; exact ⟨[], .nil, Or.inl ⟨rfl, h2⟩⟩
      · rw [if_neg h2]
        obtain ⟨cs, h3, h4⟩ := esName_below1000 hi short (n := n % 1000) (by omega)
        exact ⟨cs, h3, Or.inr h4⟩
    have hc : ∃ cs, Valued i (if n / 1000 = 1 then [] else esBelow1000 true (n / 1000)) cs ∧
        (cs = [] ∧ n / 1000 = 1 ∨ Group cs (n / 1000) ∧ 0 < n / 1000 ∧ n / 1000 ≤ 1000) := by
      by_cases h2 : n / 1000 = 1
      · rw [if_pos h2]; exact ⟨[], .nil, Or.inl ⟨rfl, h2⟩⟩
      · rw [if_neg h2]
        obtain ⟨cs, h3, h4⟩ := esName_below1000 hi true (n := n / 1000) (by omega)
        exact ⟨cs, h3, Or.inr ⟨.simple h4, by omega, by omega⟩⟩
    obtain ⟨rs, hr1, hr2⟩ := hr
    obtain ⟨cs, hc1, hc2⟩ := hc
    refine ⟨_, valued_append (valued_append hc1 (valued_one hi.mil)) hr1, ?_⟩
    have := Block.thousands (limit := 10000) hc2 (by omega) (by omega) hr2
    rw [show n / 1000 * 1000 + n % 1000 = n by omega] at this
    rw [List.append_assoc]
    exact this

end NumberParser
