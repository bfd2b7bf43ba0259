import Verif.Proofs.Size
import Verif.Props.Meaning
import Verif.Props.Errors
import Verif.Props.Api

/-!
# C73: how long results can be
-/

namespace NumberParser.Props
open NumberParser NumberParser.Spec

set_option maxRecDepth 100000

theorem flatten_tokens {l s : PyStr} {ts : List PyStr} (h : Tokens l s ts) : ts.flatten.length ≤ s.length := by
  rw [tokens_iff] at h
  subst h
  rw [tokenize_eq, split_flatten]
  exact List.length_filter_le _ _

theorem strip_length (s : PyStr) : (strip s).length ≤ s.length := by
  unfold strip rdropWhile
  rw [List.length_reverse]
  refine Nat.le_trans (List.dropWhile_suffix _).sublist.length_le ?_
  rw [List.length_reverse]
  exact (List.dropWhile_suffix _).sublist.length_le

/-- **C73**: the result of `parse` is at most `growthFactor l` times as long as the text (67 for Spanish, 8 for Ukrainian, 5 for Hindi, 3 for
English and Russian). -/
theorem c73_parse (l : PyStr) (hl : l ∈ supported) (s out : PyStr) (h : parse s (some l) = .ok out) : out.length ≤ growthFactor l * s.length := by
  obtain ⟨raw, hc, rfl⟩ := (c55_parse l hl s _ (tokens_tokenize l s) out).mp h
  have h1 := converted_size hl hc
  have h2 := flatten_tokens (tokens_tokenize l s)
  exact Nat.le_trans (strip_length raw) (Nat.le_trans h1 (Nat.mul_le_mul_left _ h2))

theorem word_unique {l : PyStr} (hl : l ∈ supported) {k k' : Class} {v v' : Nat} {t : PyStr} (h : Word l k v t) (h' : Word l k' v' t) :
    k = k' ∧ v = v' := by
  have h1 := kindOf_word hl h
  have h2 := kindOf_word hl h'
  rw [h1] at h2
  cases k <;> cases k' <;> simp_all

theorem onlyWords_unique {l : PyStr} (hl : l ∈ supported) {ts : List PyStr} {ws ws' : List (Class × Nat)} (h : OnlyWords l ts ws)
    (h' : OnlyWords l ts ws') : ws = ws' := by
  induction h generalizing ws' with
  | nil => cases h'; rfl
  | word hw _ ih =>
    cases h' with
    | word hw' h' =>
      obtain ⟨rfl, rfl⟩ := word_unique hl hw hw'
      rw [ih h']
    | other ho _ =>
      rcases ho with ho | ho
      · exact absurd ho (cardinal_not_blank hl ⟨_, _, hw⟩)
      · exact absurd ho (cardinal_not_skip hl ⟨_, _, hw⟩)
  | other ho _ ih =>
    cases h' with
    | word hw' _ =>
      rcases ho with ho | ho
      · exact absurd ho (cardinal_not_blank hl ⟨_, _, hw'⟩)
      · exact absurd ho (cardinal_not_skip hl ⟨_, _, hw'⟩)
    | other _ h' => exact ih h'

theorem digitCount_sum (ws : List (Class × Nat)) : (ws.map (fun w => (decDigits w.2).length)).sum = digitCount ws := by
  induction ws with
  | nil => rfl
  | cons w ws ih => obtain ⟨k, v⟩ := w; simp [digitCount, ih]

/-- **C73**: the number read from some words has at most as many digits as the values of the words together. -/
theorem c73_digits (l : PyStr) (hl : l ∈ supported) (s : PyStr) (hs : WordInput s) (ts : List PyStr) (hts : Tokens l (withoutApostrophes s) ts)
    (ws : List (Class × Nat)) (hw : OnlyWords l ts ws) (hne : ws ≠ []) (n : Nat) (h : parseNumber s (some l) = .ok (some n)) :
    (decDigits n).length ≤ (ws.map (fun w => (decDigits w.2).length)).sum := by
  obtain ⟨t, ts', ht⟩ := c54_first_token l (withoutApostrophes s)
  have e : ts = t :: ts' := by rw [tokens_iff] at hts ht; rw [hts, ht]
  subst e
  obtain ⟨_, ws', h1, h2⟩ := (c54_number l hl s hs t ts' ht n).mp h
  cases onlyWords_unique hl hw h1
  rw [digitCount_sum]
  exact reads_size h2 (digitCount_pos hne)

theorem onlyWords_size {l : PyStr} (hl : l ∈ supported) {ts : List PyStr} {ws : List (Class × Nat)} (h : OnlyWords l ts ws) :
    digitCount ws ≤ growthFactor l * ts.flatten.length := by
  induction h with
  | nil => simp [digitCount]
  | word hw _ ih =>
    have := word_size hl hw
    simp only [digitCount, List.flatten_cons, List.length_append, Nat.mul_add]; omega
  | other _ _ ih => simp only [List.flatten_cons, List.length_append, Nat.mul_add]; omega

theorem onlyNumbers_size {l : PyStr} (hl : l ∈ supported) {ts : List PyStr} {ws : List (Class × Nat)} (h : OnlyNumbers l ts ws) :
    digitCount ws ≤ growthFactor l * ts.flatten.length := by
  induction h with
  | nil => simp [digitCount]
  | @word t k v ts ws hw _ ih =>
    have : (decDigits v).length + 1 ≤ growthFactor l * t.length := by
      rcases hw with hw | hw
      · exact Nat.le_trans (word_size hl hw) (Nat.mul_le_mul_left _ (List.length_filter_le _ _))
      · exact ordinal_size hl hw
    simp only [digitCount, List.flatten_cons, List.length_append, Nat.mul_add]; omega
  | other _ _ ih => simp only [List.flatten_cons, List.length_append, Nat.mul_add]; omega

theorem reads_bound {l s : PyStr} {ws : List (Class × Nat)} {n : Nat} (h : ReadsAs l ws n) (hd : digitCount ws ≤ growthFactor l * s.length)
    (hs : s ≠ []) : (decDigits n).length ≤ growthFactor l * s.length := by
  by_cases hw : ws = []
  · obtain ⟨c, o, q, hr, rfl⟩ := h
    subst hw
    have := decDigits_length (c + o) 1 (by omega) (Nat.lt_of_lt_of_le (reading_size hr) (by simp [digitCount]))
    have h1 : 1 ≤ s.length := by cases s with | nil => exact absurd rfl hs | cons => simp
    have h2 := Nat.mul_le_mul (growthFactor_ge l) h1
    omega
  · exact Nat.le_trans (reads_size h (digitCount_pos hw)) hd

theorem numeral_size {t : PyStr} {n : Nat} (h : Numeral t n) : (decDigits n).length ≤ t.length := by
  have key : n < 10 ^ t.length := by
    induction h with
    | digit hd => have := (decimal_facts hd).2.2.2; simpa using this
    | snoc _ hd ih =>
      have := (decimal_facts hd).2.2.2
      rw [List.length_append, Nat.pow_add]
      simp only [List.length_cons, List.length_nil, Nat.zero_add, Nat.pow_one]
      omega
  have h1 : 1 ≤ t.length := by cases h <;> simp
  exact decDigits_length _ _ h1 key

theorem digitText_size {s : PyStr} {n : Nat} (h : DigitText s n) : (decDigits n).length ≤ (s.filter (fun c => !isSpace c)).length := by
  obtain ⟨a, t, b, rfl, _, _, hn, _⟩ := h
  have h1 := numeral_size hn
  have h2 : t.filter (fun c => !isSpace c) = t := by
    apply List.filter_eq_self.mpr
    intro c hc
    obtain ⟨d, hd⟩ := numeral_chars hn c hc
    rw [(decimal_facts hd).2.2.1]; rfl
  rw [List.filter_append, List.filter_append, h2]
  simp only [List.length_append]
  omega

theorem self_bound (l s : PyStr) : s.length ≤ growthFactor l * s.length :=
  Nat.le_mul_of_pos_left _ (by have := growthFactor_ge l; omega)

/-- **C73**: the number read from a text has at most `growthFactor l` times as many digits as the text has characters. -/
theorem c73_number (l : PyStr) (hl : l ∈ supported) (s : PyStr) (n : Nat) (h : parseNumber s (some l) = .ok (some n)) :
    (decDigits n).length ≤ growthFactor l * s.length := by
  by_cases hb : Blank s
  · rw [(c23_blank s hb _).1] at h; cases h
  · by_cases hn : NumericText s
    · rw [parseNumber_numeric hn] at h
      cases hp : pyInt s with
      | error e => rw [hp] at h; cases h
      | ok m =>
        rw [hp] at h; cases h
        exact Nat.le_trans (digitText_size ((pyInt_iff s n).mp hp)) (Nat.le_trans (List.length_filter_le _ _) (self_bound l s))
    · obtain ⟨t, ts', ht⟩ := c54_first_token l (withoutApostrophes s)
      obtain ⟨_, ws, h1, h2⟩ := (c54_number l hl s ⟨hb, hn⟩ t ts' ht n).mp h
      refine reads_bound h2 (Nat.le_trans (onlyWords_size hl h1) (Nat.mul_le_mul_left _ ?_)) (fun e => hb (by rw [e]; intro c hc; cases hc))
      exact Nat.le_trans (flatten_tokens ht) (List.length_filter_le _ _)

theorem filter_spaced (xs : List PyStr) : (spaced xs).filter (fun c => !isSpace c) = (xs.map (fun x => x.filter (fun c => !isSpace c))).flatten := by
  induction xs with
  | nil => rfl
  | cons x xs ih =>
    cases xs with
    | nil => simp [spaced]
    | cons y ys =>
      simp only [spaced, List.filter_append, ih, List.map_cons, List.flatten_cons]
      rw [show (u!" ").filter (fun c => !isSpace c) = [] from by decide]
      simp

/-- **C73** for `parse_ordinal`. -/
theorem c73_ordinal (l : PyStr) (hl : l ∈ supported) (s : PyStr) (n : Nat) (h : parseOrdinal s (some l) = .ok (some n)) :
    (decDigits n).length ≤ growthFactor l * s.length := by
  obtain ⟨t, ts, ht⟩ := c54_first_token l s
  by_cases h2 : SingleNumeral (t :: ts)
  · have h3 := ((c56_numeral l hl s _ ht h2).1 n).mp h
    obtain ⟨a, x, b, e, ha, hb, _, hnum⟩ := h2
    have h4 := digitText_size h3
    have hz : ∀ ys : List PyStr, (∀ y ∈ ys, BlankForm y) → ((ys.map form).map (fun x => x.filter (fun c => !isSpace c))).flatten = [] := by
      intro ys hy
      induction ys with
      | nil => rfl
      | cons y ys ih =>
        simp only [List.map_cons, List.flatten_cons, ih (fun z hz => hy z (by simp [hz])), List.append_nil]
        apply List.filter_eq_nil_iff.mpr
        intro c hc
        rw [hy y (by simp) c hc]; simp
    rw [filter_spaced, e, List.map_append, List.map_append, List.flatten_append, hz a ha, List.nil_append, List.map_cons, List.map_cons,
      List.flatten_cons, hz b hb, List.append_nil] at h4
    have h5 : (form x).length ≤ x.length := norm_short x (fun c hc => by unfold narrow; rw [hnum c hc]; simp)
    have h6 := List.length_filter_le (fun c => !isSpace c) (form x)
    have h7 := flatten_tokens ht
    rw [e] at h7
    simp only [List.flatten_append, List.flatten_cons, List.length_append] at h7
    exact Nat.le_trans (by omega) (self_bound l s)
  · by_cases h1 : ∃ x ∈ t :: ts, ¬ BlankForm x
    · obtain ⟨_, ws, h3, h4⟩ := (c56_ordinal l hl s t ts ht h1 h2 n).mp h
      refine reads_bound h4 (Nat.le_trans (onlyNumbers_size hl h3) (Nat.mul_le_mul_left _ (flatten_tokens ht))) ?_
      rintro rfl
      obtain ⟨x, hx, hb⟩ := h1
      rw [tokens_iff] at ht
      rw [ht] at hx
      have : x = [] := List.eq_nil_iff_forall_not_mem.mpr (fun c hc => by cases tokenize_sub hx c hc)
      subst this
      exact hb (fun c hc => by rw [show form [] = [] from by decide] at hc; cases hc)
    · have := c56_blank l hl s _ ht (fun x hx => Classical.byContradiction fun hb => h1 ⟨x, hx, hb⟩)
      rw [this] at h; cases h

/-- **C73** for `parse_fraction`. -/
theorem c73_fraction (l : PyStr) (hl : l ∈ supported) (s r : PyStr) (h : parseFraction s (some l) = .ok (some r)) :
    r.length ≤ growthFactor l * s.length := by
  obtain ⟨a, b, m, n, ⟨higher, sep, lower, hs, _, rfl, _⟩, hm, hn, rfl⟩ := (c20_fraction s l r).mp h
  have h1 := c73_number l hl a m hm
  have h2 := c73_number l hl b n hn
  have h3 : 1 ≤ sep.length := by
    have : sep ∈ separators := by rw [hs]; simp
    exact (by decide : ∀ x ∈ separators, 1 ≤ x.length) sep this
  have h4 := self_bound l sep
  simp only [List.length_append, List.length_cons, List.length_nil, Nat.mul_add]
  omega

/-- **C73** without a language. -/
theorem c73_detected (s : PyStr) : (∀ out, parse s none = .ok out → out.length ≤ 67 * s.length) ∧
    (∀ n, parseNumber s none = .ok (some n) → (decDigits n).length ≤ 67 * s.length) ∧
    (∀ n, parseOrdinal s none = .ok (some n) → (decDigits n).length ≤ 67 * s.length) ∧
    (∀ r, parseFraction s none = .ok (some r) → r.length ≤ 67 * s.length) := by
  obtain ⟨d, hd, hds, _⟩ := c26_unique s
  obtain ⟨e1, e2, e3, e4⟩ := c27_default_language s d hd
  have hg : growthFactor d ≤ 67 := by
    unfold growthFactor
    split
    · omega
    · split
      · omega
      · split <;> omega
  have hm := Nat.mul_le_mul_right s.length hg
  refine ⟨fun out h => ?_, fun n h => ?_, fun n h => ?_, fun r h => ?_⟩
  · rw [e1] at h; exact Nat.le_trans (c73_parse d hds s out h) hm
  · rw [e2] at h; exact Nat.le_trans (c73_number d hds s n h) hm
  · rw [e3] at h; exact Nat.le_trans (c73_ordinal d hds s n h) hm
  · rw [e4] at h; exact Nat.le_trans (c73_fraction d hds s r h) hm

/-- Smaller whole factors would not do for Spanish, Ukrainian and English; Hindi and Russian texts get 4 times and twice as long. -/
theorem c73_sharp : (parse u!"centillón" (some u!"es")).toOption.map List.length = some 601 ∧
    (parse u!"квадрагінтільйон" (some u!"uk")).toOption.map List.length = some 124 ∧
    (parse u!"खरब" (some u!"hi")).toOption.map List.length = some 12 ∧
    (parse u!"sextillion" (some u!"en")).toOption.map List.length = some 22 ∧
    (parse u!"секстиллион" (some u!"ru")).toOption.map List.length = some 22 := by
  decide +kernel

end NumberParser.Props
