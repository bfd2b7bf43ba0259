import Verif.Proofs.ParsePure

/-! Facts about all code points, from kernel-checked traversals of the Unicode tables. -/

set_option linter.unusedSimpArgs false

namespace NumberParser
open UnicodeData

/-! ### Traversals -/

/-- The predicate holds of every entry. -/
def MTree.all (p : Nat → List Nat → Bool) : MTree → Bool
  | .leaf => true
  | .node l k v r => l.all p && (p k v && r.all p)

theorem MTree.all_sound {p : Nat → List Nat → Bool} {t : MTree} (h : t.all p = true) {c : Nat} {v : List Nat}
    (hf : t.find? c = some v) : p c v = true := by
  induction t with
  | leaf => simp [MTree.find?] at hf
  | node l k v' r ihl ihr =>
    simp only [MTree.all, Bool.and_eq_true] at h
    simp only [MTree.find?, cond_eq_ite] at hf
    split at hf
    · exact ihl h.1 hf
    · split at hf
      · exact ihr h.2.2 hf
      · rename_i h1 h2
        have hk : c = k := by
          simp only [Bool.not_eq_true] at h1 h2
          have a : ¬ c < k := by intro hlt; rw [Nat.blt_eq.mpr hlt] at h1; cases h1
          have b : ¬ k < c := by intro hlt; rw [Nat.blt_eq.mpr hlt] at h2; cases h2
          omega
        cases hf; rw [hk]; exact h.2.1

/-- All of `[lo, hi]` lies in one range of the tree. -/
def RTree.covers : RTree → Nat → Nat → Bool
  | .leaf, _, _ => false
  | .node l a b r, lo, hi =>
    bif Nat.blt hi a then l.covers lo hi
    else Nat.ble a lo && (bif Nat.blt b lo then r.covers lo hi else Nat.ble hi b)

theorem RTree.covers_sound {t : RTree} {lo hi c : Nat} (h : t.covers lo hi = true) (h1 : lo ≤ c) (h2 : c ≤ hi) :
    t.mem c = true := by
  induction t with
  | leaf => simp [RTree.covers] at h
  | node l a b r ihl ihr =>
    simp only [RTree.covers, cond_eq_ite] at h
    simp only [RTree.mem, cond_eq_ite]
    split at h
    · rename_i hh
      have := Nat.blt_eq.mp hh
      rw [if_pos (Nat.blt_eq.mpr (by omega))]; exact ihl h
    · simp only [Bool.and_eq_true, Nat.ble_eq] at h
      rw [if_neg (fun hx => by have := Nat.blt_eq.mp hx; omega)]
      obtain ⟨h3, h4⟩ := h
      split at h4
      · rename_i hh
        have := Nat.blt_eq.mp hh
        rw [if_pos (Nat.blt_eq.mpr (by omega))]; exact ihr h4
      · have := Nat.le_of_ble_eq_true h4
        rw [if_neg (fun hx => by have := Nat.blt_eq.mp hx; omega)]

/-- No range of the tree meets `[lo, hi]`. -/
def RTree.avoids : RTree → Nat → Nat → Bool
  | .leaf, _, _ => true
  | .node l a b r, lo, hi =>
    bif Nat.blt hi a then l.avoids lo hi else Nat.ble a lo && (Nat.blt b lo && r.avoids lo hi)

theorem RTree.avoids_sound {t : RTree} {lo hi c : Nat} (h : t.avoids lo hi = true) (h1 : lo ≤ c) (h2 : c ≤ hi) :
    t.mem c = false := by
  induction t with
  | leaf => rfl
  | node l a b r ihl ihr =>
    simp only [RTree.avoids, cond_eq_ite] at h
    simp only [RTree.mem, cond_eq_ite]
    split at h
    · rename_i hh
      have := Nat.blt_eq.mp hh
      rw [if_pos (Nat.blt_eq.mpr (by omega))]; exact ihl h
    · simp only [Bool.and_eq_true, Nat.ble_eq, Nat.blt_eq] at h
      rw [if_neg (fun hx => by have := Nat.blt_eq.mp hx; omega), if_pos (Nat.blt_eq.mpr (by omega))]
      exact ihr h.2.2

/-! ### The comparison form, character by character -/

/-- All characters that `c` can contribute to a lower-cased text. -/
def lowerChars (c : Nat) : List Nat := if c = 0x3a3 then [0x3c2, 0x3c3] else lowerChar c

/-- All characters that `c` can contribute to a comparison form. -/
def normChars (c : Nat) : List Nat := ((lowerChars c).flatMap decompChar).filter (fun x => !isMn x)

theorem mem_lowerGo {rev s : PyStr} {x : Nat} (h : x ∈ lowerGo rev s) : ∃ c ∈ s, x ∈ lowerChars c := by
  induction s generalizing rev with
  | nil => simp [lowerGo] at h
  | cons c cs ih =>
    simp only [lowerGo, List.mem_append] at h
    rcases h with h | h
    · refine ⟨c, List.mem_cons_self, ?_⟩
      unfold lowerChars
      by_cases hc : c = 0x3a3
      · rw [if_pos hc] at h ⊢
        simp only [List.mem_singleton] at h
        split at h <;> simp [h]
      · rw [if_neg hc] at h ⊢; exact h
    · obtain ⟨d, hd, hx⟩ := ih h
      exact ⟨d, List.mem_cons_of_mem _ hd, hx⟩

theorem lowerGo_mem {rev s : PyStr} {c x : Nat} (hc : c ∈ s) (h3 : c ≠ 0x3a3) (hx : x ∈ lowerChar c) :
    x ∈ lowerGo rev s := by
  induction s generalizing rev with
  | nil => cases hc
  | cons d ds ih =>
    simp only [lowerGo, List.mem_append]
    rcases List.mem_cons.mp hc with rfl | hc
    · left; rw [if_neg h3]; exact hx
    · right; exact ih hc

theorem mem_insertCcc (c : Nat) (s : PyStr) (x : Nat) : x ∈ insertCcc c s ↔ x = c ∨ x ∈ s := by
  induction s with
  | nil => simp [insertCcc]
  | cons d ds ih =>
    simp only [insertCcc]
    split
    · rw [List.mem_cons, ih, List.mem_cons]
      constructor
      · rintro (h | h | h) <;> simp [h]
      · rintro (h | h | h) <;> simp [h]
    · simp

theorem mem_canonicalOrder (s : PyStr) (x : Nat) : x ∈ canonicalOrder s ↔ x ∈ s := by
  induction s with
  | nil => simp [canonicalOrder]
  | cons c cs ih => simp [canonicalOrder, mem_insertCcc, ih]

theorem mem_stripAccents (s : PyStr) (x : Nat) :
    x ∈ stripAccents s ↔ (∃ c ∈ s, x ∈ decompChar c) ∧ isMn x = false := by
  unfold stripAccents nfd
  simp [mem_canonicalOrder]

theorem mem_norm {t : PyStr} {x : Nat} (h : x ∈ norm t) : ∃ c ∈ t, x ∈ normChars c := by
  unfold norm at h
  obtain ⟨⟨y, hy, hx⟩, hm⟩ := (mem_stripAccents _ _).mp h
  obtain ⟨c, hc, hyc⟩ := mem_lowerGo hy
  exact ⟨c, hc, by unfold normChars; simp [hm]; exact ⟨y, hyc, hx⟩⟩

theorem norm_mem {t : PyStr} {c x : Nat} (hc : c ∈ t) (h3 : c ≠ 0x3a3) (hx : x ∈ normChars c) : x ∈ norm t := by
  unfold normChars lowerChars at hx
  rw [if_neg h3] at hx
  simp at hx
  obtain ⟨⟨y, hy, hyx⟩, hm⟩ := hx
  exact (mem_stripAccents _ _).mpr ⟨⟨y, lowerGo_mem hc h3 hy, hyx⟩, hm⟩

/-! ### Properties preserved by the comparison form -/

/-- `p` is preserved by lower-casing and by decomposition (up to dropped accents), except that Hangul is
not looked at. -/
def preserved (p : Nat → Bool) : Bool :=
  lowerMap.all (fun k v => !p k || v.all p) &&
  (nfdMap.all (fun k v => !p k || v.all (fun x => isMn x || p x)) && (!p 0x3a3 || (p 0x3c2 && p 0x3c3)))

theorem lower_preserved {p : Nat → Bool} (h : preserved p = true) {c : Nat} (hc : p c = true) :
    ∀ y ∈ lowerChars c, p y = true := by
  unfold preserved at h
  simp only [Bool.and_eq_true] at h
  intro y hy
  unfold lowerChars at hy
  by_cases h3 : c = 0x3a3
  · rw [if_pos h3] at hy
    subst h3
    have h3 := h.2.2
    rw [hc] at h3
    simp at h3 hy
    rcases hy with rfl | rfl
    · exact h3.1
    · exact h3.2
  · rw [if_neg h3] at hy
    unfold lowerChar at hy
    cases hf : lowerMap.find? c with
    | none => rw [hf] at hy; simp at hy; rw [hy]; exact hc
    | some v =>
      rw [hf] at hy
      have := MTree.all_sound h.1 hf
      rw [hc] at this
      simp at this hy
      exact this y hy

theorem decomp_preserved {p : Nat → Bool} (h : preserved p = true)
    (hh : ∀ c, 0xac00 ≤ c → c ≤ 0xd7a3 → p c = true → ∀ x ∈ decompChar c, p x = true) {c : Nat} (hc : p c = true) :
    ∀ y ∈ decompChar c, isMn y = false → p y = true := by
  unfold preserved at h
  simp only [Bool.and_eq_true] at h
  intro y hy hm
  by_cases hr : 0xac00 ≤ c ∧ c ≤ 0xd7a3
  · exact hh c hr.1 hr.2 hc y hy
  · unfold decompChar at hy
    rw [if_neg hr] at hy
    cases hf : nfdMap.find? c with
    | none => rw [hf] at hy; simp at hy; rw [hy]; exact hc
    | some v =>
      rw [hf] at hy
      have := MTree.all_sound h.2.1 hf
      rw [hc] at this
      simp at this hy
      rcases this y hy with h | h
      · rw [h] at hm; cases hm
      · exact h

theorem normChars_preserved {p : Nat → Bool} (h : preserved p = true)
    (hh : ∀ c, 0xac00 ≤ c → c ≤ 0xd7a3 → p c = true → ∀ x ∈ decompChar c, p x = true) {c : Nat} (hc : p c = true) :
    ∀ x ∈ normChars c, p x = true := by
  intro x hx
  unfold normChars at hx
  simp only [List.mem_filter, List.mem_flatMap, Bool.not_eq_true'] at hx
  obtain ⟨⟨y, hy, hyx⟩, hm⟩ := hx
  exact decomp_preserved h hh (lower_preserved h hc y hy) x hyx hm

theorem norm_preserved {p : Nat → Bool} (h : preserved p = true)
    (hh : ∀ c, 0xac00 ≤ c → c ≤ 0xd7a3 → p c = true → ∀ x ∈ decompChar c, p x = true) {t : PyStr}
    (ht : ∀ c ∈ t, p c = true) : ∀ x ∈ norm t, p x = true := by
  intro x hx
  obtain ⟨c, hc, hxc⟩ := mem_norm hx
  exact normChars_preserved h hh (ht c hc) x hxc

theorem hangul_decomp {c x : Nat} (h1 : 0xac00 ≤ c) (h2 : c ≤ 0xd7a3) (hx : x ∈ decompChar c) :
    0x1100 ≤ x ∧ x ≤ 0x11c2 := by
  unfold decompChar at hx
  rw [if_pos ⟨h1, h2⟩] at hx
  simp only at hx
  split at hx <;> simp at hx <;> omega

set_option maxRecDepth 100000

theorem preserved_space : preserved isSpace = true := by decide +kernel
theorem preserved_nonspace : preserved (fun c => !isSpace c) = true := by decide +kernel
/-- A word character, or one of the characters (accents, two vowel signs) that the decomposition of a word
character can contain. -/
def wordish (c : Nat) : Bool := isWord c || (isMn c || (c == 0xbd7 || c == 0x1b35))
theorem preserved_word : preserved wordish = true := by decide +kernel
theorem preserved_nonword : preserved (fun c => !isWord c) = true := by decide +kernel
theorem preserved_numeric : preserved isNumericChar = true := by decide +kernel
theorem preserved_nosep : preserved (fun c => c != 46 && c != 44) = true := by decide +kernel

theorem hangul_word {c : Nat} (h1 : 0xac00 ≤ c) (h2 : c ≤ 0xd7a3) : isWord c = true :=
  RTree.covers_sound (lo := 0xac00) (hi := 0xd7a3) (by decide +kernel) h1 h2

theorem jamo_word {c : Nat} (h1 : 0x1100 ≤ c) (h2 : c ≤ 0x11c2) : isWord c = true :=
  RTree.covers_sound (lo := 0x1100) (hi := 0x11c2) (by decide +kernel) h1 h2

theorem hangul_not_numeric {c : Nat} (h1 : 0xac00 ≤ c) (h2 : c ≤ 0xd7a3) : isNumericChar c = false :=
  RTree.avoids_sound (lo := 0xac00) (hi := 0xd7a3) (by decide +kernel) h1 h2

theorem space_mem {c : Nat} (h : isSpace c = true) : c ∈ [0x09, 0x0a, 0x0b, 0x0c, 0x0d, 0x1c, 0x1d, 0x1e, 0x1f, 0x20, 0x85, 0xa0, 0x1680,
   0x2000, 0x2001, 0x2002, 0x2003, 0x2004, 0x2005, 0x2006, 0x2007, 0x2008, 0x2009, 0x200a,
   0x2028, 0x2029, 0x202f, 0x205f, 0x3000] := List.elem_iff.mp h

/-- A property of white space, checked on the 29 white-space characters. -/
theorem space_all {p : Nat → Bool} (h : ([0x09, 0x0a, 0x0b, 0x0c, 0x0d, 0x1c, 0x1d, 0x1e, 0x1f, 0x20, 0x85, 0xa0, 0x1680,
   0x2000, 0x2001, 0x2002, 0x2003, 0x2004, 0x2005, 0x2006, 0x2007, 0x2008, 0x2009, 0x200a,
   0x2028, 0x2029, 0x202f, 0x205f, 0x3000] : List Nat).all p = true) {c : Nat} (hc : isSpace c = true) : p c = true :=
  List.all_eq_true.mp h c (space_mem hc)

theorem space_not_word {c : Nat} (h : isSpace c = true) : isWord c = false := by
  have := space_all (p := fun c => !isWord c) (by decide +kernel) h
  simpa using this

theorem word_not_space {c : Nat} (h : isWord c = true) : isSpace c = false := by
  cases hs : isSpace c with
  | false => rfl
  | true => rw [space_not_word hs] at h; cases h

theorem space_not_numeric {c : Nat} (h : isSpace c = true) : isNumericChar c = false := by
  have := space_all (p := fun c => !isNumericChar c) (by decide +kernel) h
  simpa using this

theorem norm_space {t : PyStr} (h : ∀ c ∈ t, isSpace c = true) : ∀ x ∈ norm t, isSpace x = true :=
  norm_preserved preserved_space
    (fun c h1 h2 hs => by rw [word_not_space (hangul_word h1 h2)] at hs; cases hs) h

theorem norm_nonspace {t : PyStr} (h : ∀ c ∈ t, isSpace c = false) : ∀ x ∈ norm t, isSpace x = false := by
  have := norm_preserved (p := fun c => !isSpace c) preserved_nonspace (t := t)
    (fun c h1 h2 _ x hx => by
      have := hangul_decomp h1 h2 hx
      rw [word_not_space (jamo_word this.1 this.2)]; rfl) (fun c hc => by rw [h c hc]; rfl)
  intro x hx; simpa using this x hx

theorem norm_wordish {t : PyStr} (h : ∀ c ∈ t, isWord c = true) : ∀ x ∈ norm t, wordish x = true :=
  norm_preserved preserved_word
    (fun c h1 h2 _ x hx => by
      have := hangul_decomp h1 h2 hx; unfold wordish; rw [jamo_word this.1 this.2]; rfl)
    (fun c hc => by unfold wordish; rw [h c hc]; rfl)

theorem norm_nonword {t : PyStr} (h : ∀ c ∈ t, isWord c = false) : ∀ x ∈ norm t, isWord x = false := by
  have := norm_preserved (p := fun c => !isWord c) preserved_nonword (t := t)
    (fun c h1 h2 hs => by rw [hangul_word h1 h2] at hs; cases hs) (fun c hc => by rw [h c hc]; rfl)
  intro x hx; simpa using this x hx

theorem norm_numeric {t : PyStr} (h : ∀ c ∈ t, isNumericChar c = true) : ∀ x ∈ norm t, isNumericChar x = true :=
  norm_preserved preserved_numeric
    (fun c h1 h2 hs => by rw [hangul_not_numeric h1 h2] at hs; cases hs) h

theorem norm_nosep {t : PyStr} (h : ∀ c ∈ t, c ≠ 46 ∧ c ≠ 44) : ∀ x ∈ norm t, x ≠ 46 ∧ x ≠ 44 := by
  have := norm_preserved (p := fun c => c != 46 && c != 44) preserved_nosep (t := t)
    (fun c h1 h2 _ x hx => by have := hangul_decomp h1 h2 hx; simp; omega) (fun c hc => by simpa using h c hc)
  intro x hx; simpa using this x hx

theorem blank_norm {t : PyStr} (h : blank t = true) : blank (norm t) = true := by
  rw [blank_iff, List.all_eq_true] at *
  exact norm_space h

end NumberParser
