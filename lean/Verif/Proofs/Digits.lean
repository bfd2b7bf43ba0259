import Verif.Proofs.Bound

/-! Decimal conversion. -/

set_option linter.unusedSimpArgs false
set_option exponentiation.threshold 5000

namespace NumberParser

/-- ASCII digit code points of a digit-value list. -/
def IsDigitStr (s : PyStr) : Prop := s ≠ [] ∧ ∀ c ∈ s, 48 ≤ c ∧ c ≤ 57

theorem decGo_acc (f n : Nat) (acc : PyStr) : decGo f n acc = decGo f n [] ++ acc := by
  induction f generalizing n acc with
  | zero => rfl
  | succ f ih =>
    simp only [decGo]
    split
    · simp
    · rw [ih (n / 10) ((48 + n % 10) :: acc), ih (n / 10) [48 + n % 10]]; simp

theorem decGo_fuel (f g n : Nat) (hf : n < f) (hg : n < g) : decGo f n [] = decGo g n [] := by
  induction f generalizing g n with
  | zero => omega
  | succ f ih =>
    cases g with
    | zero => omega
    | succ g =>
      simp only [decGo]
      split
      · rfl
      · rw [decGo_acc f, decGo_acc g, ih g (n / 10) (by omega) (by omega)]

theorem decDigits_lt {n : Nat} (h : n < 10) : decDigits n = [48 + n] := by
  simp [decDigits, decGo, h]

theorem decDigits_ge {n : Nat} (h : 10 ≤ n) : decDigits n = decDigits (n / 10) ++ [48 + n % 10] := by
  have : ¬ n < 10 := by omega
  unfold decDigits
  rw [decGo, if_neg this, decGo_acc, decGo_fuel n (n / 10 + 1) (n / 10) (by omega) (by omega)]

theorem decDigits_isDigit (n : Nat) : IsDigitStr (decDigits n) := by
  induction n using Nat.strongRecOn with
  | _ n ih =>
    by_cases h : n < 10
    · rw [decDigits_lt h]; refine ⟨by simp, fun c hc => ?_⟩
      simp at hc; omega
    · rw [decDigits_ge (by omega)]
      obtain ⟨h1, h2⟩ := ih (n / 10) (by omega)
      refine ⟨by simp, fun c hc => ?_⟩
      simp at hc
      rcases hc with hc | hc
      · exact h2 c hc
      · omega

theorem decDigits_length (n k : Nat) (hk : 1 ≤ k) (h : n < 10 ^ k) : (decDigits n).length ≤ k := by
  induction k generalizing n with
  | zero => omega
  | succ k ih =>
    by_cases hn : n < 10
    · rw [decDigits_lt hn]; simp
    · rw [decDigits_ge (by omega)]
      have hk1 : 1 ≤ k := by
        rcases Nat.eq_zero_or_pos k with rfl | h'
        · simp at h; omega
        · exact h'
      have := ih (n / 10) hk1 (by rw [Nat.pow_succ] at h; omega)
      simp; omega

theorem strInt_ok {n : Nat} (h : n < 10 ^ 4300) : strInt n = .ok (decDigits n) := by
  have := decDigits_length n 4300 (by omega) h
  unfold strInt maxStrDigits
  rw [if_pos this]

theorem digitsValue_append (ds : List Nat) (d : Nat) : digitsValue (ds ++ [d]) = 10 * digitsValue ds + d := by
  simp [digitsValue]

theorem decimalValue_ascii {c : Nat} (h : 48 ≤ c ∧ c ≤ 57) : decimalValue c = some (c - 48) := by
  obtain ⟨h1, h2⟩ := h
  have : c = 48 ∨ c = 49 ∨ c = 50 ∨ c = 51 ∨ c = 52 ∨ c = 53 ∨ c = 54 ∨ c = 55 ∨ c = 56 ∨ c = 57 := by omega
  rcases this with rfl | rfl | rfl | rfl | rfl | rfl | rfl | rfl | rfl | rfl <;> decide +kernel

theorem mapM_decimal_ascii (s : PyStr) (h : ∀ c ∈ s, 48 ≤ c ∧ c ≤ 57) :
    s.mapM decimalValue = some (s.map (· - 48)) := by
  induction s with
  | nil => rfl
  | cons c cs ih =>
    rw [List.mapM_cons, decimalValue_ascii (h c List.mem_cons_self), ih (fun d hd => h d (List.mem_cons_of_mem _ hd))]
    rfl

theorem digitsValue_decDigits (n : Nat) : digitsValue ((decDigits n).map (· - 48)) = n := by
  induction n using Nat.strongRecOn with
  | _ n ih =>
    by_cases h : n < 10
    · rw [decDigits_lt h]; simp [digitsValue]
    · rw [decDigits_ge (by omega), List.map_append, List.map_singleton, digitsValue_append, ih (n / 10) (by omega)]
      omega

theorem dropWhile_none {p : Nat → Bool} {s : PyStr} (h : ∀ c ∈ s, p c = false) : s.dropWhile p = s := by
  cases s with
  | nil => rfl
  | cons c cs => simp [h c List.mem_cons_self]

theorem rdropWhile_none {p : Nat → Bool} {s : PyStr} (h : ∀ c ∈ s, p c = false) : rdropWhile p s = s := by
  unfold rdropWhile
  rw [dropWhile_none (fun c hc => h c (List.mem_reverse.mp hc)), List.reverse_reverse]

theorem isSpace_ascii_digit {c : Nat} (h : 48 ≤ c ∧ c ≤ 57) : isSpace c = false := by
  have : c = 48 ∨ c = 49 ∨ c = 50 ∨ c = 51 ∨ c = 52 ∨ c = 53 ∨ c = 54 ∨ c = 55 ∨ c = 56 ∨ c = 57 := by omega
  rcases this with rfl | rfl | rfl | rfl | rfl | rfl | rfl | rfl | rfl | rfl <;> decide

theorem pyInt_decDigits {n : Nat} (h : n < 10 ^ 4300) : pyInt (decDigits n) = .ok n := by
  obtain ⟨h1, h2⟩ := decDigits_isDigit n
  have hs : ∀ c ∈ decDigits n, isIntSpace c = false := by
    intro c hc; unfold isIntSpace; rw [isSpace_ascii_digit (h2 c hc)]; rfl
  unfold pyInt
  rw [dropWhile_none hs, rdropWhile_none hs]
  have hl := decDigits_length n 4300 (by omega) h
  have he : (decDigits n).isEmpty = false := by
    cases hd : decDigits n with
    | nil => exact absurd hd h1
    | cons _ _ => rfl
  simp [he, mapM_decimal_ascii _ h2, maxStrDigits, hl, digitsValue_decDigits]

/-! ### The builder never fails on the tokens the API gives it -/

/-- `str` without the length limit. -/
def renderPure : Item → PyStr
  | .num n => decDigits n
  | .skip t => t

theorem mapM_render (is : List Item) (h : ∀ n, Item.num n ∈ is → n < 10 ^ 4300) :
    is.mapM renderItem = .ok (is.map renderPure) := by
  induction is with
  | nil => rfl
  | cons i is ih =>
    have ih' := ih (fun n hn => h n (List.mem_cons_of_mem _ hn))
    have hi : renderItem i = .ok (renderPure i) := by
      cases i with
      | num n => exact strInt_ok (h n List.mem_cons_self)
      | skip t => rfl
    rw [List.mapM_cons, hi, ih']; rfl

theorem lt_4300 {n : Nat} (h : n < 10 ^ 1300) : n < 10 ^ 4300 :=
  Nat.lt_of_lt_of_le h (Nat.pow_le_pow_right (by omega) (by omega))

theorem buildNumber_ok {ld : LangData} (h : ld.WF) (ts : List PyStr) (ht : ∀ t ∈ ts, TokOK ld t) :
    buildNumber ld ts = .ok ((buildItems ld ts).map renderPure) :=
  mapM_render _ (fun n hn => lt_4300 (buildItems_bound h ts ht n hn))

end NumberParser
