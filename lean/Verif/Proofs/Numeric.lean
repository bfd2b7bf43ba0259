import Verif.Proofs.Output
import Verif.Spec.Digits

/-! Digit strings. -/

set_option linter.unusedSimpArgs false

namespace NumberParser
open Spec UnicodeData

/-! ### Decimal digits -/

def RTree.allRanges (p : Nat → Nat → Bool) : RTree → Bool
  | .leaf => true
  | .node l lo hi r => l.allRanges p && (p lo hi && r.allRanges p)

theorem RTree.allRanges_sound {p : Nat → Nat → Bool} {t : RTree} (h : t.allRanges p = true) {c lo : Nat}
    (hf : t.find? c = some lo) : ∃ hi, p lo hi = true ∧ lo ≤ c ∧ c ≤ hi := by
  induction t with
  | leaf => simp [RTree.find?] at hf
  | node l a b r ihl ihr =>
    simp only [RTree.allRanges, Bool.and_eq_true] at h
    simp only [RTree.find?, cond_eq_ite] at hf
    split at hf
    · exact ihl h.1 hf
    · split at hf
      · exact ihr h.2.2 hf
      · rename_i h1 h2
        injection hf with hf
        subst hf
        have h1' : ¬ c < a := fun x => h1 (Nat.blt_eq.mpr x)
        have h2' : ¬ b < c := fun x => h2 (Nat.blt_eq.mpr x)
        exact ⟨b, h.2.1, by omega, by omega⟩

theorem decimal_check : decimalRanges.allRanges (fun lo hi => numericRanges.covers lo hi && wordRanges.covers lo hi) = true := by
  decide +kernel

theorem decimal_facts {c d : Nat} (h : decimalValue c = some d) : isNumericChar c = true ∧ isWord c = true ∧ isSpace c = false ∧ d < 10 := by
  unfold decimalValue at h
  cases hf : decimalRanges.find? c with
  | none => rw [hf] at h; simp at h
  | some lo =>
    rw [hf] at h
    simp only [Option.map_some, Option.some.injEq] at h
    obtain ⟨hi, hp, h1, h2⟩ := RTree.allRanges_sound decimal_check hf
    rw [Bool.and_eq_true] at hp
    have hw : isWord c = true := RTree.covers_sound hp.2 h1 h2
    refine ⟨RTree.covers_sound hp.1 h1 h2, hw, word_not_space hw, ?_⟩
    omega

/-! ### Numerals -/

theorem mapM_snoc {f : Nat → Option Nat} (s : PyStr) (c : Nat) :
    (s ++ [c]).mapM f = (s.mapM f).bind (fun ds => (f c).map (fun d => ds ++ [d])) := by
  rw [List.mapM_append]
  cases s.mapM f with
  | none => rfl
  | some ds =>
    simp only [Option.bind_eq_bind, Option.bind_some, List.mapM_cons, List.mapM_nil]
    cases f c <;> rfl

theorem numeral_iff (s : PyStr) (n : Nat) : Numeral s n ↔ s ≠ [] ∧ ∃ ds, s.mapM decimalValue = some ds ∧ digitsValue ds = n ∧ ds.length = s.length := by
  constructor
  · intro h
    induction h with
    | @digit c d hd => exact ⟨by simp, [d], by simp [hd], by simp [digitsValue], rfl⟩
    | @snoc s n c d _ hd ih =>
      obtain ⟨_, ds, h1, h2, h3⟩ := ih
      refine ⟨by simp, ds ++ [d], ?_, ?_, by simp [h3]⟩
      · rw [mapM_snoc, h1, hd]; rfl
      · rw [digitsValue_append, h2]
  · rintro ⟨hne, ds, h1, h2, _⟩
    have key : ∀ (k : Nat) (s : PyStr) (ds : List Nat) (n : Nat), s.length = k + 1 → s.mapM decimalValue = some ds → digitsValue ds = n → Numeral s n := by
      intro k
      induction k with
      | zero =>
        intro s ds n hl h1 h2
        match s, hl with
        | [c], _ =>
          simp only [List.mapM_cons, List.mapM_nil] at h1
          cases hd : decimalValue c with
          | none => rw [hd] at h1; cases h1
          | some d =>
            rw [hd] at h1
            simp at h1
            subst h1
            simp [digitsValue] at h2
            subst h2
            exact Numeral.digit hd
      | succ k ih =>
        intro s ds n hl h1 h2
        rcases List.eq_nil_or_concat s with rfl | ⟨s', c, rfl⟩
        · simp at hl
        · rw [List.concat_eq_append] at *
          rw [mapM_snoc] at h1
          cases hs : s'.mapM decimalValue with
          | none => rw [hs] at h1; cases h1
          | some ds' =>
            rw [hs] at h1
            cases hd : decimalValue c with
            | none => rw [hd] at h1; cases h1
            | some d =>
              rw [hd] at h1
              simp at h1
              subst h1
              rw [digitsValue_append] at h2
              subst h2
              exact Numeral.snoc (ih s' ds' _ (by simp at hl; exact hl) hs rfl) hd
    cases s with
    | nil => exact absurd rfl hne
    | cons c cs => exact key cs.length _ ds n rfl h1 h2

theorem numeral_chars {s : PyStr} {n : Nat} (h : Numeral s n) : ∀ c ∈ s, ∃ d, decimalValue c = some d := by
  induction h with
  | @digit c d hd => intro x hx; simp at hx; subst hx; exact ⟨d, hd⟩
  | @snoc s n c d _ hd ih =>
    intro x hx
    rcases List.mem_append.mp hx with hx | hx
    · exact ih x hx
    · simp at hx; subst hx; exact ⟨d, hd⟩

theorem numeral_ne {s : PyStr} {n : Nat} (h : Numeral s n) : s ≠ [] := ((numeral_iff s n).mp h).1

theorem numeral_lt {s : PyStr} {n : Nat} (h : Numeral s n) : n < 10 ^ s.length := by
  induction h with
  | @digit c d hd => have := (decimal_facts hd).2.2.2; simpa using this
  | @snoc s n c d _ hd ih =>
    have := (decimal_facts hd).2.2.2
    rw [List.length_append, List.length_singleton, Nat.pow_succ]
    omega

theorem numeral_decDigits (n : Nat) : Numeral (decDigits n) n := by
  induction n using Nat.strongRecOn with
  | ind n ih =>
    by_cases h : n < 10
    · rw [decDigits_lt h]
      have := Numeral.digit (c := 48 + n) (d := n) (by rw [decimalValue_ascii ⟨by omega, by omega⟩]; congr 1; omega)
      exact this
    · rw [decDigits_ge (by omega)]
      have := Numeral.snoc (c := 48 + n % 10) (d := n % 10) (ih (n / 10) (by omega))
        (by rw [decimalValue_ascii ⟨by omega, by omega⟩]; congr 1; omega)
      have e : 10 * (n / 10) + n % 10 = n := by omega
      rw [e] at this; exact this

/-! ### Trimming -/

theorem trim_append {p : Nat → Bool} {a t b : PyStr} (ha : ∀ c ∈ a, p c = true) (hb : ∀ c ∈ b, p c = true)
    (ht : ∀ c ∈ t, p c = false) (hne : t ≠ []) : rdropWhile p ((a ++ t ++ b).dropWhile p) = t := by
  rw [List.append_assoc, List.dropWhile_append_of_pos ha]
  cases t with
  | nil => exact absurd rfl hne
  | cons c cs =>
    rw [List.cons_append, List.dropWhile_cons_of_neg (by rw [ht c (by simp)]; simp), ← List.cons_append]
    unfold rdropWhile
    rw [List.reverse_append, List.dropWhile_append_of_pos (by simpa using hb), dropWhile_none (fun x hx => ht x (List.mem_reverse.mp hx))]
    simp

theorem trim_spec (p : Nat → Bool) (s : PyStr) : ∃ a b, s = a ++ rdropWhile p (s.dropWhile p) ++ b ∧ (∀ c ∈ a, p c = true) ∧ (∀ c ∈ b, p c = true) := by
  refine ⟨s.takeWhile p, ((s.dropWhile p).reverse.takeWhile p).reverse, ?_, ?_, ?_⟩
  · unfold rdropWhile
    rw [List.append_assoc, ← List.reverse_append, List.takeWhile_append_dropWhile, List.reverse_reverse, List.takeWhile_append_dropWhile]
  · intro c hc
    have := List.all_eq_true.mp (List.all_takeWhile (l := s) (p := p)) c hc
    exact this
  · intro c hc
    have := List.all_eq_true.mp (List.all_takeWhile (l := (s.dropWhile p).reverse) (p := p)) c (List.mem_reverse.mp hc)
    exact this

theorem intSpace_iff (c : Nat) : isIntSpace c = true ↔ isSpace c = true ∧ ¬ (0x1c ≤ c ∧ c ≤ 0x1f) := by
  unfold isIntSpace
  simp only [Bool.and_eq_true, Bool.not_eq_true', Bool.and_eq_false_iff, decide_eq_false_iff_not, Nat.not_le]
  constructor
  · rintro ⟨h1, h2⟩; exact ⟨h1, by omega⟩
  · rintro ⟨h1, h2⟩; exact ⟨h1, by omega⟩

theorem pyInt_iff (s : PyStr) (n : Nat) : pyInt s = .ok n ↔ DigitText s n := by
  constructor
  · intro h
    unfold pyInt at h
    simp only at h
    obtain ⟨a, b, hs, ha, hb⟩ := trim_spec isIntSpace s
    split at h
    · cases h
    · rename_i hne
      split at h
      · cases h
      · rename_i ds hds
        split at h
        · rename_i hl
          injection h with h
          have hlen : ∀ (t : PyStr) (ds : List Nat), t.mapM decimalValue = some ds → ds.length = t.length := by
            intro t
            induction t with
            | nil => intro ds h; simp at h; subst h; rfl
            | cons c cs ih =>
              intro ds h
              rw [List.mapM_cons] at h
              cases hc : decimalValue c with
              | none => rw [hc] at h; cases h
              | some d =>
                rw [hc] at h
                cases hcs : cs.mapM decimalValue with
                | none => rw [hcs] at h; cases h
                | some ds' =>
                  rw [hcs] at h
                  simp at h
                  subst h
                  simp [ih ds' hcs]
          have hl' := hlen _ ds hds
          refine ⟨a, _, b, hs, fun c hc => (intSpace_iff c).mp (ha c hc), fun c hc => (intSpace_iff c).mp (hb c hc),
            (numeral_iff _ _).mpr ⟨fun e => hne (by rw [e]; rfl), ds, hds, h, hl'⟩, ?_⟩
          rw [← hl']; exact hl
        · cases h
  · rintro ⟨a, t, b, rfl, ha, hb, ht, hl⟩
    have hns : ∀ c ∈ t, isIntSpace c = false := by
      intro c hc
      obtain ⟨d, hd⟩ := numeral_chars ht c hc
      unfold isIntSpace; rw [(decimal_facts hd).2.2.1]; rfl
    obtain ⟨hne, ds, h1, h2, h3⟩ := (numeral_iff t n).mp ht
    unfold pyInt
    rw [trim_append (fun c hc => (intSpace_iff c).mpr (ha c hc)) (fun c hc => (intSpace_iff c).mpr (hb c hc)) hns hne]
    simp only
    rw [if_neg (by cases t <;> simp_all), h1]
    simp only
    rw [if_pos (by rw [h3]; exact hl), h2]

theorem pyInt_error {s : PyStr} {e : PyErr} (h : pyInt s = .error e) : e = .badInt := by
  unfold pyInt at h
  simp only at h
  split at h
  · injection h with h; exact h.symm
  · split at h
    · injection h with h; exact h.symm
    · split at h
      · cases h
      · injection h with h; exact h.symm

theorem numericText_iff (s : PyStr) : NumericText s ↔ isNumeric (strip s) = true := by
  constructor
  · rintro ⟨a, t, b, rfl, ha, hb, hne, ht⟩
    have hns : ∀ c ∈ t, isSpace c = false := by
      intro c hc
      by_cases h : isSpace c = true
      · have := space_not_numeric h; rw [ht c hc] at this; cases this
      · simpa using h
    unfold strip
    rw [trim_append ha hb hns hne]
    unfold isNumeric
    rw [Bool.and_eq_true]
    exact ⟨by cases t <;> simp_all, List.all_eq_true.mpr ht⟩
  · intro h
    obtain ⟨a, b, hs, ha, hb, _⟩ := strip_spec s
    unfold isNumeric at h
    rw [Bool.and_eq_true] at h
    exact ⟨a, strip s, b, hs, ha, hb, fun e => by rw [e] at h; simp at h, List.all_eq_true.mp h.2⟩

theorem digitText_numeric {s : PyStr} {n : Nat} (h : DigitText s n) : NumericText s := by
  obtain ⟨a, t, b, hs, ha, hb, ht, _⟩ := h
  refine ⟨a, t, b, hs, fun c hc => (ha c hc).1, fun c hc => (hb c hc).1, numeral_ne ht, ?_⟩
  intro c hc
  obtain ⟨d, hd⟩ := numeral_chars ht c hc
  exact (decimal_facts hd).1

theorem numericText_not_blank {s : PyStr} (h : NumericText s) : blank s = false := by
  obtain ⟨a, t, b, rfl, _, _, hne, ht⟩ := h
  cases t with
  | nil => exact absurd rfl hne
  | cons c cs =>
    have : isSpace c = false := by
      by_cases h : isSpace c = true
      · have := space_not_numeric h; rw [ht c (by simp)] at this; cases this
      · simpa using h
    exact not_blank_of_mem (c := c) (by simp) this

theorem parseNumber_numeric {s : PyStr} (h : NumericText s) (l : Option PyStr) :
    parseNumber s l = (pyInt s).map some := by
  unfold parseNumber
  rw [numericText_not_blank h, (numericText_iff s).mp h]
  simp only [Bool.false_eq_true, if_false, if_true, bind, Except.bind, pure, Except.pure]
  cases pyInt s <;> rfl

theorem digitText_lt {s : PyStr} {n : Nat} (h : DigitText s n) : n < 10 ^ 4300 := by
  obtain ⟨a, t, b, _, _, _, ht, hl⟩ := h
  have := numeral_lt ht
  exact Nat.lt_of_lt_of_le this (Nat.pow_le_pow_right (by omega) hl)

/-- Every result of `parse_number` can be converted back. -/
theorem parseNumber_lt {s l : PyStr} {n : Nat} (h : parseNumber s (some l) = .ok (some n)) : n < 10 ^ 4300 := by
  by_cases hb : blank s = true
  · unfold parseNumber at h; rw [if_pos hb] at h; cases h
  by_cases hn : isNumeric (strip s) = true
  · rw [parseNumber_numeric ((numericText_iff s).mpr hn)] at h
    cases hp : pyInt s with
    | error e => rw [hp] at h; cases h
    | ok m =>
      rw [hp] at h
      have : m = n := by simpa [Except.map] using h
      subst this
      exact digitText_lt ((pyInt_iff s m).mp hp)
  · cases hd : languageData l with
    | error e =>
      unfold parseNumber at h
      simp [hb, hn, resolveLanguage, hd, bind, Except.bind] at h
    | ok ld =>
      have hwf := languageData_wf hd
      rw [parseNumber_words hd (by simpa using hb) (by simpa using hn)] at h
      injection h with h
      unfold wordsNumber at h
      split at h
      · rename_i ht
        have hi : buildItems ld (normalizeTokens (tokenize (dropApos s) l)) = [.num n] := by
          unfold numberOfItems at h
          split at h
          · rename_i m hm; simp at h; rw [hm, h]
          · cases h
        exact lt_4300 (buildItems_bound hwf _ (tokensOk_all hwf _ ht) n (by rw [hi]; simp))
      · cases h

end NumberParser
