import Verif.Proofs.Reading
import Verif.Proofs.OrdinalMeaning

/-! Numbers grow with their words (C61); tokens with digits (C60). -/

set_option linter.unusedSimpArgs false

namespace NumberParser
open Spec

set_option maxRecDepth 100000

theorem reading_ge {limit : Nat} {ws : List (Class × Nat)} {c o : Nat} {q : Option Nat} (h : Reading limit ws c o q) (hp : PosScale ws) :
    ∀ w ∈ ws, w.2 ≤ c + o := by
  have pos : ∀ {ws : List (Class × Nat)} {p : Nat}, PosScale (ws ++ [(Class.scale, p)]) → 0 < p := fun h => h _ (by simp)
  have one : ∀ o p : Nat, p ≤ max o 1 * p ∧ (0 < p → o ≤ max o 1 * p) := by
    intro o p
    refine ⟨Nat.le_mul_of_pos_left p (by omega), fun h => ?_⟩
    exact Nat.le_trans (Nat.le_max_left o 1) (Nat.le_mul_of_pos_right _ h)
  induction h with
  | start => intro w hw; cases hw
  | add _ _ _ ih =>
    intro w hw
    rcases List.mem_append.mp hw with hw | hw
    · have := ih hp.init w hw; omega
    · rw [List.mem_singleton] at hw; subst hw; simp only; omega
  | @multiplyAll ws c o q p _ h0 _ _ ih =>
    intro w hw
    have hpp := pos hp
    rcases List.mem_append.mp hw with hw | hw
    · have := ih hp.init w hw
      have h2 : c + o ≤ (c + o) * p := Nat.le_mul_of_pos_right _ hpp
      omega
    · rw [List.mem_singleton] at hw; subst hw
      have h2 : p ≤ (c + o) * p := Nat.le_mul_of_pos_left _ h0
      simp only; omega
  | @multiplyGroup ws c o q p _ _ _ _ _ ih =>
    intro w hw
    have hpp := pos hp
    have h2 := one o p
    have h3 := h2.2 hpp
    rcases List.mem_append.mp hw with hw | hw
    · have := ih hp.init w hw; omega
    · rw [List.mem_singleton] at hw; subst hw; simp only; omega
  | @closeGroup ws c o q p _ _ _ _ _ ih =>
    intro w hw
    have hpp := pos hp
    have h2 := one o p
    have h3 := h2.2 hpp
    rcases List.mem_append.mp hw with hw | hw
    · have := ih hp.init w hw; omega
    · rw [List.mem_singleton] at hw; subst hw; simp only; omega

/-- A reading without its last word. -/
theorem reading_snoc {limit : Nat} {ws : List (Class × Nat)} {w : Class × Nat} {c o : Nat} {q : Option Nat} (h : Reading limit (ws ++ [w]) c o q)
    (hp : PosScale (ws ++ [w])) : ∃ c' o' q', Reading limit ws c' o' q' ∧ c' + o' ≤ c + o := by
  have pos : w.1 = .scale → 0 < w.2 := by
    intro e
    refine hp _ (List.mem_append_right _ ?_)
    rw [List.mem_singleton, ← e]
  generalize hx : ws ++ [w] = xs at h
  cases h with
  | start => simp at hx
  | add h _ _ =>
    obtain ⟨rfl, _⟩ := List.append_inj' hx rfl
    exact ⟨_, _, _, h, by omega⟩
  | @multiplyAll ws' c o q p h h0 _ _ =>
    obtain ⟨rfl, e⟩ := List.append_inj' hx rfl
    injection e with e; subst e
    refine ⟨_, _, _, h, ?_⟩
    have := Nat.le_mul_of_pos_right (c + o) (pos rfl)
    simpa using this
  | @multiplyGroup ws' c o q p h _ _ _ _ =>
    obtain ⟨rfl, e⟩ := List.append_inj' hx rfl
    injection e with e; subst e
    refine ⟨_, _, _, h, ?_⟩
    have := Nat.le_trans (Nat.le_max_left o 1) (Nat.le_mul_of_pos_right _ (pos rfl))
    exact Nat.add_le_add_left this c
  | @closeGroup ws' c o q p h _ _ _ _ =>
    obtain ⟨rfl, e⟩ := List.append_inj' hx rfl
    injection e with e; subst e
    refine ⟨_, _, _, h, ?_⟩
    have := Nat.le_trans (Nat.le_max_left o 1) (Nat.le_mul_of_pos_right _ (pos rfl))
    have := Nat.add_le_add_left this c
    simpa using this

/-- The first words of a number are a number that is not greater. -/
theorem readsAs_prefix {l : PyStr} {ws ws' : List (Class × Nat)} {n : Nat} (hp : PosScale (ws ++ ws')) (h : ReadsAs l (ws ++ ws') n) :
    ∃ m, ReadsAs l ws m ∧ m ≤ n := by
  induction ws' using snocRec generalizing n with
  | nil => rw [List.append_nil] at h; exact ⟨n, h, Nat.le_refl _⟩
  | snoc ws' w ih =>
    rw [← List.append_assoc] at h hp
    obtain ⟨c, o, q, h, rfl⟩ := h
    obtain ⟨c', o', q', h', hle⟩ := reading_snoc h hp
    obtain ⟨m, h1, h2⟩ := ih hp.init ⟨c', o', q', h', rfl⟩
    exact ⟨m, h1, by omega⟩

theorem onlyWords_split {l : PyStr} {a b : List PyStr} {ws : List (Class × Nat)} (h : OnlyWords l (a ++ b) ws) :
    ∃ x y, OnlyWords l a x ∧ OnlyWords l b y ∧ ws = x ++ y := by
  induction a generalizing ws with
  | nil => exact ⟨[], ws, .nil, h, rfl⟩
  | cons t a ih =>
    cases h with
    | word hw h =>
      obtain ⟨x, y, h1, h2, rfl⟩ := ih h
      exact ⟨_, y, .word hw h1, h2, rfl⟩
    | other ho h =>
      obtain ⟨x, y, h1, h2, rfl⟩ := ih h
      exact ⟨x, y, .other ho h1, h2, rfl⟩

/-! ### Tokens with digits -/

theorem norm_decimal {t : PyStr} {c d : Nat} (hc : c ∈ t) (hd : decimalValue c = some d) : c ∈ norm t := by
  have h := decimal_plain hd
  unfold plainDigit at h
  simp only [Bool.and_eq_true, beq_iff_eq, bne_iff_ne, Bool.not_eq_true'] at h
  refine norm_mem hc h.1.2 ?_
  unfold normChars lowerChars
  rw [if_neg h.1.2, h.1.1.1.1.1]
  simp [h.1.1.1.1.2, h.1.1.2]

theorem noDigits_check : supported.all (fun l => [Class.unit, .direct, .tens, .hundreds, .scale].all (fun k => (entries l k).all (fun e =>
    (form e.1).all (fun c => (decimalValue c).isNone))) && (file l).skipTokens.all (fun t => t.all (fun c => (decimalValue c).isNone))) = true := by
  decide +kernel

/-- A token with a digit is an ordinary word. -/
theorem digit_ordinary {l : PyStr} (hl : l ∈ supported) {t : PyStr} {c d : Nat} (hc : c ∈ t) (hd : decimalValue c = some d) : Ordinary l t := by
  have hcheck := List.all_eq_true.mp noDigits_check l hl
  rw [Bool.and_eq_true, List.all_eq_true, List.all_eq_true] at hcheck
  have hn := norm_decimal hc hd
  have hform : ∀ k v f, FormOf l k v f → c ∉ f := by
    rintro k v f ⟨w, hw, rfl⟩ hm
    have := List.all_eq_true.mp (List.all_eq_true.mp (hcheck.1 k (by cases k <;> simp)) _ hw) c hm
    rw [hd] at this; cases this
  have haz : isAz c = false := by
    have h := decimal_plain hd
    unfold plainDigit at h
    simp only [Bool.and_eq_true, Bool.not_eq_true'] at h
    exact h.2
  have hi := (irregular_keeps haz _).mpr hn
  refine ⟨⟨c, hn, (decimal_facts hd).2.2.1⟩, ?_, ?_⟩
  · rintro ⟨k, v, w, hw, h⟩
    have hne := hform k v w hw
    have th : c ∉ u!"th" := by intro h; revert haz; simp at h; rcases h with rfl | rfl <;> decide
    have ieth : c ∉ u!"ieth" := by intro h; revert haz; simp at h; rcases h with rfl | rfl | rfl | rfl <;> decide
    rcases h with h | h | ⟨stem, h1, h⟩
    · exact hne (h ▸ hi)
    · have hi : c ∈ w ++ u!"th" := h ▸ hi
      rcases List.mem_append.mp hi with h | h
      · exact hne h
      · exact th h
    · have hi : c ∈ stem ++ u!"ieth" := h ▸ hi
      rcases List.mem_append.mp hi with h | h
      · exact hne (by rw [h1]; exact List.mem_append_left _ h)
      · exact ieth h
  · intro hs
    have := List.all_eq_true.mp (hcheck.2 _ hs) c hn
    rw [hd] at this; cases this

end NumberParser
