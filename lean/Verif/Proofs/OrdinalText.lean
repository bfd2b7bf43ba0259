import Verif.Proofs.Ordinal

/-! `parse_ordinal` on cardinals and digit strings (C19). -/

set_option linter.unusedSimpArgs false

namespace NumberParser
open Spec UnicodeData

set_option maxRecDepth 100000

/-! ### Apostrophes -/

theorem preserved_noapos : preserved (fun c => c != 0x27 && c != 0x2019) = true := by decide +kernel

theorem norm_noApos {t : PyStr} (h : noApos t = true) : noApos (norm t) = true := by
  unfold noApos at *
  rw [List.all_eq_true] at *
  exact norm_preserved (p := fun c => c != 0x27 && c != 0x2019) preserved_noapos
    (fun c h1 h2 _ x hx => by have := hangul_decomp h1 h2 hx; simp; omega) h

theorem dropApos_noApos {s : PyStr} (h : noApos s = true) : dropApos s = s := by
  rw [dropApos_eq]
  exact List.filter_eq_self.mpr (List.all_eq_true.mp h)

theorem token_noApos {l s t : PyStr} (h : noApos s = true) (ht : t ∈ tokenize s l) : noApos t = true := by
  unfold noApos at *
  rw [List.all_eq_true] at *
  intro c hc
  exact h c (List.mem_filter.mp (token_chars ht c hc)).1

/-- Cardinal words and conjunctions without apostrophes are not changed by the conversion. -/
theorem conv_id {l : PyStr} (hl : l ∈ supported) {t : PyStr} (h : blank t = true ∨ (numOrSkip (mkLangData (file l)) t = true ∧ noApos t = true)) :
    applyCardinalConversion t (mkLangData (file l)) = t := by
  rcases h with h | ⟨h1, h2⟩
  · exact conv_blank _ h
  · unfold numOrSkip at h1
    rw [Bool.or_eq_true] at h1
    rcases h1 with h1 | h1
    · exact (stable_key (supported_data hl) h1 h2).2.2.2
    · exact (stable_skip (supported_data hl) h1).2.2

/-- On word input without apostrophes `parse_ordinal` finds what `parse_number` finds. -/
theorem parseOrdinal_cardinal {l s : PyStr} (hl : l ∈ supported) (hs : WordInput s) (ha : noApos s = true) {n : Nat}
    (h : parseNumber s (some l) = .ok (some n)) {ts : List PyStr} (hts : Tokens l s ts) (hne : ∃ t ∈ ts, ¬ BlankForm t) :
    parseOrdinal s (some l) = .ok (some n) := by
  rw [tokens_iff] at hts
  have hp := h
  rw [parseNumber_input hl hs, dropApos_noApos ha] at h
  obtain ⟨h1, h2, _⟩ := (parseNumber_some hl hs).mp hp
  rw [dropApos_noApos ha] at h1 h2
  have hall : ∀ f ∈ normalizeTokens (tokenize s l), blank f = true ∨ (numOrSkip (mkLangData (file l)) f = true ∧ noApos f = true) := by
    intro f hf
    cases hb : blank f with
    | true => exact Or.inl rfl
    | false =>
      right
      refine ⟨List.all_eq_true.mp h2 f (List.mem_filter.mpr ⟨hf, by simp [hb]⟩), ?_⟩
      obtain ⟨t, ht, rfl⟩ := List.mem_map.mp hf
      exact norm_noApos (token_noApos ha ht)
  have hconv : (normalizeTokens (tokenize s l)).map (fun t => applyCardinalConversion t (mkLangData (file l))) =
      normalizeTokens (tokenize s l) := by
    conv => rhs; rw [← List.map_id (normalizeTokens (tokenize s l))]
    apply List.map_congr_left
    intro f hf
    exact conv_id hl (hall f hf)
  have hcons := tokens_cons l s
  rw [parseOrdinal_words hl (hconv.trans hcons) (by rw [← hcons]; exact hall) h1
    (by
      obtain ⟨t, ht, hb⟩ := hne
      rw [blankForm_iff] at hb
      refine ⟨norm t, ?_, by simpa using hb⟩
      rw [← hcons, ← hts.symm.symm] at *
      rw [← hts]
      exact List.mem_map.mpr ⟨t, ht, rfl⟩)]
  rw [← hcons]
  rw [h1] at h
  exact h

/-! ### Digit strings -/

def plainDigit (c : Nat) : Bool := lowerChar c == [c] && decompChar c == [c] && ccc c == 0 && !isMn c && c != 0x3a3 && !isAz c

theorem digit_check : decimalRanges.allRanges (fun lo hi => (List.range (hi + 1 - lo)).all (fun i => plainDigit (lo + i))) = true := by
  decide +kernel

theorem decimal_plain {c d : Nat} (h : decimalValue c = some d) : plainDigit c = true := by
  unfold decimalValue at h
  cases hf : decimalRanges.find? c with
  | none => rw [hf] at h; simp at h
  | some lo =>
    obtain ⟨hi, hp, h1, h2⟩ := RTree.allRanges_sound digit_check hf
    have := List.all_eq_true.mp hp (c - lo) (List.mem_range.mpr (by omega))
    rw [show lo + (c - lo) = c by omega] at this
    exact this

theorem norm_digits {t : PyStr} (h : ∀ c ∈ t, plainDigit c = true) : norm t = t := by
  have hlow : ∀ (rev t : PyStr), (∀ c ∈ t, plainDigit c = true) → lowerGo rev t = t := by
    intro rev t
    induction t generalizing rev with
    | nil => intro _; rfl
    | cons c cs ih =>
      intro h
      have hc := h c (by simp)
      unfold plainDigit at hc
      simp only [Bool.and_eq_true, beq_iff_eq, bne_iff_ne] at hc
      unfold lowerGo
      rw [if_neg hc.1.2, hc.1.1.1.1.1, ih _ (fun d hd => h d (List.mem_cons_of_mem _ hd))]; rfl
  have hdec : ∀ t : PyStr, (∀ c ∈ t, plainDigit c = true) → t.flatMap decompChar = t := by
    intro t
    induction t with
    | nil => intro _; rfl
    | cons c cs ih =>
      intro h
      have hc := h c (by simp)
      unfold plainDigit at hc
      simp only [Bool.and_eq_true, beq_iff_eq, bne_iff_ne] at hc
      rw [List.flatMap_cons, hc.1.1.1.1.2, ih (fun d hd => h d (List.mem_cons_of_mem _ hd))]; rfl
  have hord : ∀ t : PyStr, (∀ c ∈ t, plainDigit c = true) → canonicalOrder t = t := by
    intro t
    induction t with
    | nil => intro _; rfl
    | cons c cs ih =>
      intro h
      have hc := h c (by simp)
      unfold plainDigit at hc
      simp only [Bool.and_eq_true, beq_iff_eq, bne_iff_ne] at hc
      unfold canonicalOrder
      rw [ih (fun d hd => h d (List.mem_cons_of_mem _ hd))]
      cases cs with
      | nil => rfl
      | cons d ds => unfold insertCcc; rw [hc.1.1.1.2, if_neg (by omega)]
  unfold norm lower stripAccents nfd
  rw [hlow _ _ h, hdec _ h, hord _ h]
  apply List.filter_eq_self.mpr
  intro c hc
  have := h c hc
  unfold plainDigit at this
  simp only [Bool.and_eq_true] at this
  exact this.1.1.2

theorem join_mid {u v : List PyStr} {t : PyStr} : ∃ a b, join u!" " (u ++ t :: v) = a ++ t ++ b ∧
    (∀ c ∈ a, c = 0x20 ∨ ∃ x ∈ u, c ∈ x) ∧ (∀ c ∈ b, c = 0x20 ∨ ∃ x ∈ v, c ∈ x) := by
  have hv : ∀ v : List PyStr, ∃ b, join u!" " (t :: v) = t ++ b ∧ ∀ c ∈ b, c = 0x20 ∨ ∃ x ∈ v, c ∈ x := by
    intro v
    cases v with
    | nil => exact ⟨[], by simp [join], by simp⟩
    | cons y ys =>
      refine ⟨u!" " ++ join u!" " (y :: ys), by simp [join], ?_⟩
      have : ∀ (ys : List PyStr), ∀ c ∈ join u!" " ys, c = 0x20 ∨ ∃ x ∈ ys, c ∈ x := by
        intro ys
        induction ys with
        | nil => intro c hc; simp [join] at hc
        | cons z zs ih =>
          cases zs with
          | nil => intro c hc; exact Or.inr ⟨z, by simp, hc⟩
          | cons w ws =>
            intro c hc
            simp only [join, List.mem_append] at hc
            rcases hc with (hc | hc) | hc
            · exact Or.inr ⟨z, by simp, hc⟩
            · exact Or.inl (List.mem_singleton.mp hc)
            · rcases ih c hc with h | ⟨x, hx, hcx⟩
              · exact Or.inl h
              · exact Or.inr ⟨x, List.mem_cons_of_mem _ hx, hcx⟩
      intro c hc
      rcases List.mem_append.mp hc with hc | hc
      · exact Or.inl (List.mem_singleton.mp hc)
      · exact this _ c hc
  induction u with
  | nil =>
    obtain ⟨b, h1, h2⟩ := hv v
    exact ⟨[], b, by simpa using h1, by simp, h2⟩
  | cons x u ih =>
    obtain ⟨a, b, h1, h2, h3⟩ := ih
    refine ⟨x ++ u!" " ++ a, b, ?_, ?_, h3⟩
    · have : join u!" " (x :: u ++ t :: v) = x ++ u!" " ++ join u!" " (u ++ t :: v) := by
        cases u <;> simp [join]
      rw [this, h1]; simp
    · intro c hc
      simp only [List.mem_append] at hc
      rcases hc with (hc | hc) | hc
      · exact Or.inr ⟨x, by simp, hc⟩
      · exact Or.inl (List.mem_singleton.mp hc)
      · rcases h2 c hc with h | ⟨y, hy, hcy⟩
        · exact Or.inl h
        · exact Or.inr ⟨y, List.mem_cons_of_mem _ hy, hcy⟩

theorem preserved_intSpace : preserved isIntSpace = true := by decide +kernel

/-- `parse_ordinal` of a digit string. -/
theorem parseOrdinal_digits {l s : PyStr} (hl : l ∈ supported) {n : Nat} (h : DigitText s n) : parseOrdinal s (some l) = .ok (some n) := by
  obtain ⟨a, t, b, rfl, ha, hb, ht, hlen⟩ := h
  have hdig := numeral_chars ht
  have hplain : ∀ c ∈ t, plainDigit c = true := fun c hc => by obtain ⟨d, hd⟩ := hdig c hc; exact decimal_plain hd
  have hfacts : ∀ c ∈ t, isWord c = true ∧ isNumericChar c = true := fun c hc => by
    obtain ⟨d, hd⟩ := hdig c hc; exact ⟨(decimal_facts hd).2.1, (decimal_facts hd).1⟩
  have hne : t ≠ [] := ((numeral_iff t n).mp ht).1
  have hsep : ∀ c ∈ t, sepChar l c = false := by
    intro c hc
    unfold sepChar
    rw [(hfacts c hc).1, word_not_space (hfacts c hc).1]
    simp
  have hbt : blank t = false := by
    cases t with
    | nil => exact absurd rfl hne
    | cons c cs => exact not_blank_of_mem (c := c) (by simp) (word_not_space (hfacts c (by simp)).1)
  have hns : noShy (a ++ t ++ b) = a ++ t ++ b := by
    apply noShy_plain
    intro c hc
    simp only [List.mem_append] at hc
    rcases hc with (hc | hc) | hc
    · exact space_plain (ha c hc).1
    · exact word_plain (hfacts c hc).1
    · exact space_plain (hb c hc).1
  have hsol : sol l (a ++ t ++ b) = [t] := by
    rw [List.append_assoc, sol_spaces l (fun c hc => (ha c hc).1)]
    by_cases hb0 : b = []
    · subst hb0; rw [List.append_nil]; exact sol_word l hsep hbt
    · have := sol_append_gap l t [] hb0 (fun c hc => (hb c hc).1)
      rw [List.append_nil, sol_nil, List.append_nil] at this
      rw [this]; exact sol_word l hsep hbt
  unfold sol at hsol
  obtain ⟨u, v, h1, h2, h3, h4⟩ := List.filter_eq_cons_iff.mp hsol
  have hu : ∀ x ∈ u, blank x = true := fun x hx => by have := h2 x hx; simpa using this
  have hv : ∀ x ∈ v, blank x = true := fun x hx => by have := List.filter_eq_nil_iff.mp h4 x hx; simpa using this
  have hord : ∀ x, x ∈ u ∨ x ∈ v → ∀ c ∈ norm x, isIntSpace c = true := by
    intro x hx
    apply norm_preserved preserved_intSpace (fun c h1 h2 hs => by
      rw [intSpace_iff, word_not_space (hangul_word h1 h2)] at hs; exact absurd hs.1 (by simp))
    intro c hc
    have hbx : isSpace c = true := by
      rcases hx with hx | hx
      · exact (blank_spec x).mp (hu x hx) c hc
      · exact (blank_spec x).mp (hv x hx) c hc
    have hxs : x ∈ split l (a ++ t ++ b) := by
      rw [h1]; rcases hx with hx | hx <;> simp [hx]
    have hcs : c ∈ a ++ t ++ b := by
      rw [← split_flatten l (a ++ t ++ b)]; exact List.mem_flatten.mpr ⟨x, hxs, hc⟩
    simp only [List.mem_append] at hcs
    rw [intSpace_iff]
    rcases hcs with (hc | hc) | hc
    · exact ha c hc
    · rw [word_not_space (hfacts c hc).1] at hbx; cases hbx
    · exact hb c hc
  have hcv : ∀ x, x ∈ u ∨ x ∈ v → applyCardinalConversion (norm x) (mkLangData (file l)) = norm x := by
    intro x hx
    apply conv_blank
    apply blank_norm
    rcases hx with hx | hx
    · exact hu x hx
    · exact hv x hx
  have htc : applyCardinalConversion (norm t) (mkLangData (file l)) = t := by
    rw [norm_digits hplain]
    apply conv_noletters
    intro c hc
    have := hplain c hc
    unfold plainDigit at this
    simp only [Bool.and_eq_true, Bool.not_eq_true'] at this
    exact this.2
  have hmap : (normalizeTokens (tokenize (a ++ t ++ b) l)).map (fun t => applyCardinalConversion t (mkLangData (file l))) =
      u.map norm ++ t :: v.map norm := by
    rw [tokenize_eq, hns, h1]
    unfold normalizeTokens
    rw [List.map_map, List.map_append, List.map_cons]
    congr 1
    · apply List.map_congr_left
      intro x hx
      exact hcv x (Or.inl hx)
    · congr 1
      apply List.map_congr_left
      intro x hx
      exact hcv x (Or.inr hx)
  unfold parseOrdinal
  simp only [resolveLanguage, supported_data hl, bind, Except.bind, hmap]
  obtain ⟨a', b', e1, e2, e3⟩ := join_mid (u := u.map norm) (v := v.map norm) (t := t)
  have hdt : DigitText (join u!" " (u.map norm ++ t :: v.map norm)) n := by
    refine ⟨a', t, b', e1, ?_, ?_, ht, hlen⟩
    · intro c hc
      rcases e2 c hc with rfl | ⟨x, hx, hcx⟩
      · decide
      · obtain ⟨y, hy, rfl⟩ := List.mem_map.mp hx
        exact (intSpace_iff c).mp (hord y (Or.inl hy) c hcx)
    · intro c hc
      rcases e3 c hc with rfl | ⟨x, hx, hcx⟩
      · decide
      · obtain ⟨y, hy, rfl⟩ := List.mem_map.mp hx
        exact (intSpace_iff c).mp (hord y (Or.inr hy) c hcx)
  rw [parseNumber_numeric (digitText_numeric hdt), (pyInt_iff _ n).mpr hdt]; rfl

end NumberParser
