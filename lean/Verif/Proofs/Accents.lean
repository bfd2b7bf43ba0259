import Verif.Proofs.NumberText

/-! Accents: replacing letters by letters with the same base. -/

set_option linter.unusedSimpArgs false

namespace NumberParser
open Spec UnicodeData

set_option maxRecDepth 100000

/-! ### Combining classes -/

/-- A nonspacing mark, or a character that starts a new cluster. -/
def okOrder (x : Nat) : Bool := isMn x || ccc x == 0

/-- Canonical reordering moves nonspacing marks only. -/
theorem filter_order {xs : PyStr} (h : ∀ x ∈ xs, okOrder x = true) :
    (canonicalOrder xs).filter (fun x => !isMn x) = xs.filter (fun x => !isMn x) := by
  induction xs with
  | nil => rfl
  | cons c cs ih =>
    have ih := ih (fun x hx => h x (List.mem_cons_of_mem _ hx))
    have ins : ∀ s : PyStr, (insertCcc c s).filter (fun x => !isMn x) = (c :: s).filter (fun x => !isMn x) := by
      intro s
      have hc := h c (by simp)
      unfold okOrder at hc
      rw [Bool.or_eq_true, beq_iff_eq] at hc
      induction s with
      | nil => rfl
      | cons d ds ihs =>
        simp only [insertCcc]
        split
        · rename_i hd
          rcases hc with hc | hc
          · rw [List.filter_cons, ihs]
            simp only [List.filter_cons, hc]
            simp
          · omega
        · rfl
    rw [canonicalOrder, ins, List.filter_cons, ih, List.filter_cons]

/-- Not a reordered nonspacing mark. -/
def kept (x : Nat) : Bool := !(isMn x && ccc x != 0)

/-- The head of a canonically ordered text does not come after a character of class `k`. -/
def headOK (k : Nat) : PyStr → Prop
  | [] => True
  | d :: _ => ccc d = 0 ∨ k ≤ ccc d

/-- Canonically ordered. -/
def Ordered : PyStr → Prop
  | [] => True
  | d :: ds => headOK (ccc d) ds ∧ Ordered ds

theorem insertCcc_head {k c : Nat} {s : PyStr} (hc : ccc c = 0 ∨ k ≤ ccc c) (h : headOK k s) : headOK k (insertCcc c s) := by
  cases s with
  | nil => exact hc
  | cons d ds =>
    simp only [insertCcc]
    split
    · exact h
    · exact hc

theorem insertCcc_ordered {c : Nat} {s : PyStr} (h : Ordered s) : Ordered (insertCcc c s) := by
  induction s with
  | nil => exact ⟨trivial, trivial⟩
  | cons d ds ih =>
    simp only [insertCcc]
    split
    · rename_i hd
      exact ⟨insertCcc_head (Or.inr (by omega)) h.1, ih h.2⟩
    · rename_i hd
      exact ⟨show ccc d = 0 ∨ ccc c ≤ ccc d by omega, h⟩

theorem order_ordered (xs : PyStr) : Ordered (canonicalOrder xs) := by
  induction xs with
  | nil => trivial
  | cons c cs ih => exact insertCcc_ordered ih

theorem filter_head {k : Nat} {s : PyStr} (h : Ordered s) (hk : headOK k s) : headOK k (s.filter kept) := by
  induction s with
  | nil => trivial
  | cons d ds ih =>
    rw [List.filter_cons]
    split
    · exact hk
    · rename_i hd
      have h0 : ccc d ≠ 0 := by
        intro h0; simp [kept, h0] at hd
      apply ih h.2
      have h1 := h.1
      cases ds with
      | nil => trivial
      | cons e es =>
        have hk : ccc d = 0 ∨ k ≤ ccc d := hk
        have h1 : ccc e = 0 ∨ ccc d ≤ ccc e := h1
        show ccc e = 0 ∨ k ≤ ccc e
        omega

theorem insertCcc_first {c : Nat} {s : PyStr} (h : headOK (ccc c) s) : insertCcc c s = c :: s := by
  cases s with
  | nil => rfl
  | cons d ds =>
    have h : ccc d = 0 ∨ ccc c ≤ ccc d := h
    simp only [insertCcc]
    rw [if_neg (by omega)]

theorem insertCcc_filter {c : Nat} {s : PyStr} (h : Ordered s) :
    (insertCcc c s).filter kept = if kept c then insertCcc c (s.filter kept) else s.filter kept := by
  induction s with
  | nil => simp only [insertCcc, List.filter_cons, List.filter_nil]
  | cons d ds ih =>
    simp only [insertCcc]
    split
    · rename_i hd
      rw [List.filter_cons, ih h.2, List.filter_cons]
      by_cases hkd : kept d = true
      · simp only [hkd, if_true, insertCcc, if_pos hd]
        split <;> rfl
      · simp only [hkd, Bool.false_eq_true, if_false]
    · rename_i hd
      rw [List.filter_cons]
      split
      · rw [insertCcc_first (filter_head h (show ccc d = 0 ∨ ccc c ≤ ccc d by omega))]
      · rfl

/-- Removing the reordered marks before or after canonical reordering is the same. -/
theorem order_filter (xs : PyStr) : (canonicalOrder xs).filter kept = canonicalOrder (xs.filter kept) := by
  induction xs with
  | nil => rfl
  | cons c cs ih =>
    rw [canonicalOrder, insertCcc_filter (order_ordered cs), ih, List.filter_cons]
    split <;> rfl

theorem mn_kept (xs : PyStr) : (xs.filter kept).filter (fun x => !isMn x) = xs.filter (fun x => !isMn x) := by
  rw [List.filter_filter]
  apply List.filter_congr
  intro x _
  unfold kept
  cases isMn x <;> simp

/-- What is left after dropping the marks depends on the characters other than reordered marks only. -/
theorem order_marks {xs ys : PyStr} (h : xs.filter kept = ys.filter kept) :
    (canonicalOrder xs).filter (fun x => !isMn x) = (canonicalOrder ys).filter (fun x => !isMn x) := by
  rw [← mn_kept (canonicalOrder xs), ← mn_kept (canonicalOrder ys), order_filter, order_filter, h]

/-- Two decomposed texts that cannot be told apart after reordering and dropping marks, in any context. -/
def SameBases (xs ys : PyStr) : Prop := ∀ u v : PyStr,
  (canonicalOrder (u ++ xs ++ v)).filter (fun x => !isMn x) = (canonicalOrder (u ++ ys ++ v)).filter (fun x => !isMn x)

theorem SameBases.refl (xs : PyStr) : SameBases xs xs := fun _ _ => rfl

theorem SameBases.symm {xs ys : PyStr} (h : SameBases xs ys) : SameBases ys xs := fun u v => (h u v).symm

theorem SameBases.append {a b c d : PyStr} (h : SameBases a b) (h' : SameBases c d) : SameBases (a ++ c) (b ++ d) := by
  intro u v
  have h1 := h u (c ++ v)
  have h2 := h' (u ++ b) v
  simp only [List.append_assoc] at h1 h2 ⊢
  exact h1.trans h2

theorem sameBases_kept {xs ys : PyStr} (h : xs.filter kept = ys.filter kept) : SameBases xs ys := by
  intro u v
  apply order_marks
  simp only [List.filter_append, h]

theorem order_starter (xs ys : PyStr) {b : Nat} (hb : ccc b = 0) :
    canonicalOrder (xs ++ b :: ys) = canonicalOrder xs ++ b :: canonicalOrder ys := by
  induction xs with
  | nil =>
    show insertCcc b (canonicalOrder ys) = _
    apply insertCcc_first
    cases canonicalOrder ys with
    | nil => trivial
    | cons d ds => exact Or.inr (by omega)
  | cons c cs ih =>
    rw [List.cons_append, canonicalOrder, ih, canonicalOrder]
    generalize canonicalOrder cs = zs
    generalize canonicalOrder ys = ws
    induction zs with
    | nil => simp [insertCcc, hb]
    | cons d ds ihd =>
      rw [List.cons_append, insertCcc, insertCcc]
      split
      · rw [ihd]; rfl
      · rfl

theorem sameBases_starter {b m : Nat} (hb : ccc b = 0) (hm : ccc m = 0) (hmn : isMn m = true) : SameBases [b, m] [b] := by
  intro u v
  rw [List.append_assoc, List.append_assoc, List.cons_append, List.singleton_append, List.singleton_append, order_starter _ _ hb,
    order_starter _ _ hb, ← List.nil_append (m :: v), order_starter _ _ hm]
  simp [canonicalOrder, List.filter_append, List.filter_cons, hmn]

/-! ### Word characters -/

/-- A character in lower case and decomposed. -/
def rawForm (c : Nat) : PyStr := (lowerChar c).flatMap decompChar

/-- What a character contributes to the comparison form, in order. -/
def contrib (c : Nat) : PyStr := ((lowerChar c).flatMap decompChar).filter (fun x => !isMn x)

/-- A sufficient condition for `SameBases`. -/
def sameBasesB (xs ys : PyStr) : Bool := xs.filter kept == ys.filter kept ||
  match xs, ys with
  | [b, m], [b'] => b == b' && ccc b == 0 && ccc m == 0 && isMn m
  | _, _ => false

theorem sameBasesB_sound {xs ys : PyStr} (h : sameBasesB xs ys = true) : SameBases xs ys := by
  unfold sameBasesB at h
  rw [Bool.or_eq_true] at h
  rcases h with h | h
  · exact sameBases_kept (by simpa using h)
  · split at h
    · rename_i b m b'
      simp only [Bool.and_eq_true, beq_iff_eq] at h
      obtain ⟨⟨⟨rfl, h1⟩, h2⟩, h3⟩ := h
      exact sameBases_starter h1 h2 h3
    · cases h

/-! ### Accented letters -/

def accentCheck (k : Nat) (v : List Nat) : Bool :=
  match canonicalOrder v with
  | b :: m :: ms => !isWord k || !isWord b || !(m :: ms).all isMn || (isCased k == isCased b && isCaseIgnorable k == isCaseIgnorable b &&
      !isNumericChar k && !isNumericChar b && b != 0x3a3 && k != 0x3a3 && sameBasesB (rawForm k) (rawForm b))
  | _ => true

theorem accent_check : nfdMap.all accentCheck = true := by decide +kernel

structure SameLetter (c b : Nat) : Prop where
  wordl : isWord c = true
  wordr : isWord b = true
  cased : isCased c = isCased b
  ign : isCaseIgnorable c = isCaseIgnorable b
  numl : isNumericChar c = false
  numr : isNumericChar b = false
  sigl : c ≠ 0x3a3
  sigr : b ≠ 0x3a3
  contr : SameBases (rawForm c) (rawForm b)

theorem SameLetter.symm {c b : Nat} (h : SameLetter c b) : SameLetter b c :=
  ⟨h.wordr, h.wordl, h.cased.symm, h.ign.symm, h.numr, h.numl, h.sigr, h.sigl, h.contr.symm⟩

theorem jamo_not_mn {c : Nat} (h1 : 0x1100 ≤ c) (h2 : c ≤ 0x11c2) : isMn c = false :=
  RTree.avoids_sound (lo := 0x1100) (hi := 0x11c2) (by decide +kernel) h1 h2

theorem accented_same {c b : Nat} (h : Accented c b) : SameLetter c b := by
  obtain ⟨h1, h2, m, ms, h3, h4⟩ := h
  unfold nfd at h3
  simp only [List.flatMap_cons, List.flatMap_nil, List.append_nil] at h3
  by_cases hr : 0xac00 ≤ c ∧ c ≤ 0xd7a3
  · have hm : m ∈ decompChar c := by rw [← mem_canonicalOrder, h3]; simp
    have := hangul_decomp hr.1 hr.2 hm
    have h5 := h4 m (by simp)
    rw [jamo_not_mn this.1 this.2] at h5; cases h5
  · unfold decompChar at h3
    rw [if_neg hr] at h3
    cases hf : nfdMap.find? c with
    | none => rw [hf] at h3; simp [canonicalOrder, insertCcc] at h3
    | some v =>
      rw [hf] at h3
      simp only [Option.getD_some] at h3
      have := MTree.all_sound accent_check hf
      unfold accentCheck at this
      rw [h3] at this
      have h4' : (m :: ms).all isMn = true := List.all_eq_true.mpr h4
      simp only [h1, h2, h4', Bool.not_true, Bool.false_or, Bool.and_eq_true, beq_iff_eq, bne_iff_ne, Bool.not_eq_true'] at this
      obtain ⟨⟨⟨⟨⟨⟨a1, a2⟩, a3⟩, a4⟩, a5⟩, a6⟩, a7⟩ := this
      exact ⟨h1, h2, a1, a2, a3, a4, a6, a5, sameBasesB_sound a7⟩

/-! ### Pairs of characters -/

def Pairs (ps : List (Nat × Nat)) : Prop := ∀ p ∈ ps, p.1 = p.2 ∨ SameLetter p.1 p.2

theorem same_pairs {s s' : PyStr} (h : SameUpToAccents s s') : ∃ ps, Pairs ps ∧ s = ps.map Prod.fst ∧ s' = ps.map Prod.snd := by
  induction h with
  | nil => exact ⟨[], (fun p hp => by cases hp), rfl, rfl⟩
  | @same c a b _ ih =>
    obtain ⟨ps, h1, rfl, rfl⟩ := ih
    exact ⟨(c, c) :: ps, fun p hp => (List.mem_cons.mp hp).elim (fun e => Or.inl (by rw [e])) (h1 p), rfl, rfl⟩
  | @drop c d a b ha _ ih =>
    obtain ⟨ps, h1, rfl, rfl⟩ := ih
    exact ⟨(c, d) :: ps, fun p hp => (List.mem_cons.mp hp).elim (fun e => Or.inr (by rw [e]; exact accented_same ha)) (h1 p), rfl, rfl⟩
  | @add c d a b ha _ ih =>
    obtain ⟨ps, h1, rfl, rfl⟩ := ih
    exact ⟨(c, d) :: ps, fun p hp => (List.mem_cons.mp hp).elim (fun e => Or.inr (by rw [e]; exact (accented_same ha).symm)) (h1 p), rfl, rfl⟩

/-- A function that does not distinguish the two letters of a pair. -/
theorem pair_inv {α : Type} {f : Nat → α} (hf : ∀ c b, SameLetter c b → f c = f b) {ps : List (Nat × Nat)} (h : Pairs ps) :
    ∀ p ∈ ps, f p.1 = f p.2 := fun p hp => (h p hp).elim (fun e => by rw [e]) (fun e => hf _ _ e)

theorem Pairs.tail {p : Nat × Nat} {ps : List (Nat × Nat)} (h : Pairs (p :: ps)) : Pairs ps := fun q hq => h q (List.mem_cons_of_mem _ hq)

theorem dropWhile_pairs {f : Nat → Bool} {ps : List (Nat × Nat)} (h : ∀ p ∈ ps, f p.1 = f p.2) :
    ∃ qs : List (Nat × Nat), (∀ q ∈ qs, q ∈ ps) ∧ (ps.map Prod.fst).dropWhile f = qs.map Prod.fst ∧ (ps.map Prod.snd).dropWhile f = qs.map Prod.snd := by
  induction ps with
  | nil => exact ⟨[], by simp, rfl, rfl⟩
  | cons p ps ih =>
    obtain ⟨qs, h1, h2, h3⟩ := ih (fun q hq => h q (List.mem_cons_of_mem _ hq))
    have hp := h p (by simp)
    cases hf : f p.1 with
    | true =>
      refine ⟨qs, fun q hq => List.mem_cons_of_mem _ (h1 q hq), ?_, ?_⟩
      · rw [List.map_cons, List.dropWhile_cons_of_pos hf, h2]
      · rw [List.map_cons, List.dropWhile_cons_of_pos (hp ▸ hf), h3]
    | false =>
      refine ⟨p :: ps, fun q hq => hq, ?_, ?_⟩
      · rw [List.map_cons, List.dropWhile_cons_of_neg (by simp [hf])]
      · rw [List.map_cons, List.dropWhile_cons_of_neg (by simp [← hp, hf])]

theorem casedNext_pairs {ps : List (Nat × Nat)} (h : Pairs ps) : casedNext (ps.map Prod.fst) = casedNext (ps.map Prod.snd) := by
  unfold casedNext
  obtain ⟨qs, h1, h2, h3⟩ := dropWhile_pairs (pair_inv (f := isCaseIgnorable) (fun _ _ e => e.ign) h)
  rw [h2, h3]
  cases qs with
  | nil => rfl
  | cons q qs => exact pair_inv (f := isCased) (fun _ _ e => e.cased) h q (h1 q (by simp))

theorem lowerGo_pairs {rs ps : List (Nat × Nat)} (hr : Pairs rs) (h : Pairs ps) :
    SameBases ((lowerGo (rs.map Prod.fst) (ps.map Prod.fst)).flatMap decompChar) ((lowerGo (rs.map Prod.snd) (ps.map Prod.snd)).flatMap decompChar) := by
  induction ps generalizing rs with
  | nil => exact .refl _
  | cons p ps ih =>
    simp only [List.map_cons, lowerGo, List.flatMap_append]
    have e := ih (rs := p :: rs) (fun q hq => (List.mem_cons.mp hq).elim (fun e => by rw [e]; exact h p (by simp)) (hr q)) h.tail
    simp only [List.map_cons] at e
    rw [casedNext_pairs hr, casedNext_pairs h.tail]
    refine SameBases.append ?_ e
    rcases h p (by simp) with hp | hp
    · rw [hp]; exact .refl _
    · rw [if_neg hp.sigl, if_neg hp.sigr]
      exact hp.contr

theorem norm_pairs {ps : List (Nat × Nat)} (h : Pairs ps) : norm (ps.map Prod.fst) = norm (ps.map Prod.snd) := by
  unfold norm stripAccents nfd lower
  have := lowerGo_pairs (rs := []) (by intro p hp; cases hp) h [] []
  simp only [List.nil_append, List.append_nil] at this
  exact this

/-! ### Tokens -/

/-- The tokeniser on pairs. -/
def splitG (w : Nat × Nat → Bool) : List (Nat × Nat) → List (List (Nat × Nat))
  | [] => [[]]
  | c :: cs =>
    if w c then
      match splitG w cs with
      | [] => [[c]]
      | t :: ts => (c :: t) :: ts
    else [] :: [c] :: splitG w cs

theorem splitG_map {w : Nat × Nat → Bool} {f : Nat × Nat → Nat} {ps : List (Nat × Nat)} (h : ∀ p ∈ ps, isWord (f p) = w p) :
    splitNonWord (ps.map f) = (splitG w ps).map (List.map f) := by
  induction ps with
  | nil => rfl
  | cons p ps ih =>
    have ih := ih (fun q hq => h q (List.mem_cons_of_mem _ hq))
    simp only [List.map_cons, splitNonWord, splitG, h p (by simp)]
    split
    · rw [ih]
      cases splitG w ps with
      | nil => rfl
      | cons t ts => rfl
    · rw [ih]; rfl

theorem splitG_tokens {w : Nat × Nat → Bool} {ps : List (Nat × Nat)} : ∀ t ∈ splitG w ps, (∀ p ∈ t, p ∈ ps) ∧ ((∀ p ∈ t, w p = true) ∨ ∃ p, t = [p] ∧ w p = false) := by
  induction ps with
  | nil => intro t ht; simp only [splitG, List.mem_singleton] at ht; subst ht; simp
  | cons p ps ih =>
    intro t ht
    simp only [splitG] at ht
    have old : t ∈ splitG w ps → (∀ q ∈ t, q ∈ p :: ps) ∧ ((∀ p ∈ t, w p = true) ∨ ∃ p, t = [p] ∧ w p = false) :=
      fun h => ⟨fun q hq => List.mem_cons_of_mem _ ((ih t h).1 q hq), (ih t h).2⟩
    split at ht
    · rename_i hw
      split at ht
      · simp only [List.mem_singleton] at ht; subst ht
        exact ⟨by simp, Or.inl (by simpa using hw)⟩
      · rename_i t0 ts e
        rcases List.mem_cons.mp ht with rfl | ht
        · obtain ⟨h1, h2⟩ := ih t0 (by rw [e]; simp)
          refine ⟨fun q hq => (List.mem_cons.mp hq).elim (fun e => by simp [e]) (fun hq => List.mem_cons_of_mem _ (h1 q hq)), ?_⟩
          rcases h2 with h2 | ⟨q, rfl, hq⟩
          · exact Or.inl (fun q hq => (List.mem_cons.mp hq).elim (fun e => e ▸ hw) (h2 q))
          · exfalso
            -- the first token consists of word characters
            have first : ∀ xs, ∀ a as, splitG w xs = a :: as → ∀ p ∈ a, w p = true := by
              intro xs
              induction xs with
              | nil => intro a as h; simp only [splitG, List.cons.injEq] at h; rw [← h.1]; simp
              | cons x xs ihx =>
                intro a as h
                simp only [splitG] at h
                split at h
                · rename_i hx
                  split at h
                  · simp only [List.cons.injEq] at h; rw [← h.1]; simpa using hx
                  · rename_i b bs eb
                    simp only [List.cons.injEq] at h
                    rw [← h.1]
                    exact fun q hq => (List.mem_cons.mp hq).elim (fun e => e ▸ hx) (ihx b bs eb q)
                · simp only [List.cons.injEq] at h; rw [← h.1]; simp
            rw [first ps _ _ e q (by simp)] at hq; cases hq
        · exact old (by rw [e]; exact List.mem_cons_of_mem _ ht)
    · rename_i hw
      rcases List.mem_cons.mp ht with rfl | ht
      · simp
      · rcases List.mem_cons.mp ht with rfl | ht
        · exact ⟨by simp, Or.inr ⟨p, rfl, by simpa using hw⟩⟩
        · exact old ht

theorem filter_pairs {f : Nat → Bool} {ps : List (Nat × Nat)} (h : ∀ p ∈ ps, f p.1 = f p.2) :
    (ps.map Prod.fst).filter f = (ps.filter (fun p => f p.1)).map Prod.fst ∧
    (ps.map Prod.snd).filter f = (ps.filter (fun p => f p.1)).map Prod.snd := by
  induction ps with
  | nil => exact ⟨rfl, rfl⟩
  | cons p ps ih =>
    obtain ⟨h1, h2⟩ := ih (fun q hq => h q (List.mem_cons_of_mem _ hq))
    have hp := h p (by simp)
    simp only [List.map_cons, List.filter_cons, ← hp, h1, h2]
    constructor <;> split <;> rfl

theorem Pairs.filter {ps : List (Nat × Nat)} (h : Pairs ps) (f : Nat × Nat → Bool) : Pairs (ps.filter f) :=
  fun p hp => h p (List.mem_filter.mp hp).1

theorem word_ne {c x : Nat} (h : isWord c = true) (hx : isWord x = false) : (c != x) = true := by
  rw [bne_iff_ne]; rintro rfl; rw [h] at hx; cases hx

theorem tokens_pairs {l : PyStr} (hl : l ≠ u!"hi") {ps : List (Nat × Nat)} (h : Pairs ps) :
    normalizeTokens (tokenize (ps.map Prod.fst) l) = normalizeTokens (tokenize (ps.map Prod.snd) l) := by
  rw [tokenize_eq, tokenize_eq]
  have hs := filter_pairs (f := fun c => c != 0xad) (ps := ps) (pair_inv (f := fun c => c != 0xad) (fun c b e => by
    show (c != 0xad) = (b != 0xad)
    rw [word_ne e.wordl (by decide +kernel), word_ne e.wordr (by decide +kernel)]) h)
  unfold noShy
  rw [hs.1, hs.2]
  have hq := h.filter (fun p => p.1 != 0xad)
  generalize ps.filter (fun p => p.1 != 0xad) = qs at hq
  have hns : RE_BUG_LANGUAGES.elem l = false := by
    cases he : RE_BUG_LANGUAGES.elem l with
    | false => rfl
    | true => simp [RE_BUG_LANGUAGES] at he; exact absurd he hl
  unfold split
  rw [hns]
  simp only [Bool.false_eq_true, if_false]
  have hw : ∀ p ∈ qs, isWord p.2 = isWord p.1 := fun p hp => (pair_inv (f := isWord) (fun _ _ e => e.wordl.trans e.wordr.symm) hq p hp).symm
  rw [splitG_map (w := fun p => isWord p.1) (f := Prod.fst) (fun _ _ => rfl), splitG_map (w := fun p => isWord p.1) (f := Prod.snd) hw]
  unfold normalizeTokens
  rw [List.map_map, List.map_map]
  apply List.map_congr_left
  intro t ht
  obtain ⟨h1, h2⟩ := splitG_tokens t ht
  show norm (t.map Prod.fst) = norm (t.map Prod.snd)
  rcases h2 with h2 | ⟨p, rfl, hp⟩
  · exact norm_pairs (fun p hp => hq p (h1 p hp))
  · rcases hq p (h1 p (by simp)) with e | e
    · simp [e]
    · rw [e.wordl] at hp; cases hp

/-- The Hindi tokeniser on pairs. -/
def splitSpG (w : Nat × Nat → Bool) : List (Nat × Nat) → List (List (Nat × Nat))
  | [] => [[]]
  | c :: cs =>
    if w c then
      match cs, splitSpG w cs with
      | d :: _, [] :: run :: ts => if w d then [] :: (c :: run) :: ts else [] :: [c] :: [] :: run :: ts
      | _, ts => [] :: [c] :: ts
    else
      match splitSpG w cs with
      | [] => [[c]]
      | t :: ts => (c :: t) :: ts

theorem splitSpG_map {w : Nat × Nat → Bool} {f : Nat × Nat → Nat} {ps : List (Nat × Nat)} (h : ∀ p ∈ ps, isSpace (f p) = w p) :
    splitSpaces (ps.map f) = (splitSpG w ps).map (List.map f) := by
  induction ps with
  | nil => rfl
  | cons p ps ih =>
    have ih := ih (fun q hq => h q (List.mem_cons_of_mem _ hq))
    simp only [List.map_cons, splitSpaces, splitSpG, h p (by simp)]
    split
    · rw [ih]
      cases ps with
      | nil => rfl
      | cons d ds =>
        rw [List.map_cons]
        cases hs : splitSpG w (d :: ds) with
        | nil => rfl
        | cons t ts =>
          cases t with
          | nil =>
            cases ts with
            | nil => rfl
            | cons run ts =>
              simp only [List.map_cons, h d (by simp), List.map_nil]
              split <;> rfl
          | cons x t => rfl
    · rw [ih]
      cases splitSpG w ps with
      | nil => rfl
      | cons t ts => rfl

theorem splitSpG_mem {w : Nat × Nat → Bool} {ps : List (Nat × Nat)} : ∀ t ∈ splitSpG w ps, ∀ p ∈ t, p ∈ ps := by
  induction ps with
  | nil => intro t ht; simp only [splitSpG, List.mem_singleton] at ht; subst ht; simp
  | cons p ps ih =>
    intro t ht q hq
    simp only [splitSpG] at ht
    split at ht
    · split at ht
      · rename_i d ds run ts e
        have hrun : ∀ x ∈ run, x ∈ d :: ds := ih run (by rw [e]; simp)
        have hts : ∀ y ∈ ts, ∀ x ∈ y, x ∈ d :: ds := fun y hy => ih y (by rw [e]; simp [hy])
        split at ht
        · simp only [List.mem_cons] at ht
          rcases ht with rfl | rfl | ht
          · cases hq
          · rcases List.mem_cons.mp hq with rfl | hq
            · simp
            · exact List.mem_cons_of_mem _ (hrun q hq)
          · exact List.mem_cons_of_mem _ (hts t ht q hq)
        · simp only [List.mem_cons] at ht
          rcases ht with rfl | rfl | rfl | rfl | ht
          · cases hq
          · simp at hq; simp [hq]
          · cases hq
          · exact List.mem_cons_of_mem _ (hrun q hq)
          · exact List.mem_cons_of_mem _ (hts t ht q hq)
      · simp only [List.mem_cons] at ht
        rcases ht with rfl | rfl | ht
        · cases hq
        · simp at hq; simp [hq]
        · exact List.mem_cons_of_mem _ (ih t ht q hq)
    · split at ht
      · simp only [List.mem_singleton] at ht; subst ht; simp at hq; simp [hq]
      · rename_i t0 ts e
        rcases List.mem_cons.mp ht with rfl | ht
        · rcases List.mem_cons.mp hq with rfl | hq
          · simp
          · exact List.mem_cons_of_mem _ (ih t0 (by rw [e]; simp) q hq)
        · exact List.mem_cons_of_mem _ (ih t (by rw [e]; simp [ht]) q hq)

theorem tokens_pairs_hi {ps : List (Nat × Nat)} (h : Pairs ps) :
    normalizeTokens (tokenize (ps.map Prod.fst) u!"hi") = normalizeTokens (tokenize (ps.map Prod.snd) u!"hi") := by
  rw [tokenize_eq, tokenize_eq]
  have hs := filter_pairs (f := fun c => c != 0xad) (ps := ps) (pair_inv (f := fun c => c != 0xad) (fun c b e => by
    show (c != 0xad) = (b != 0xad)
    rw [word_ne e.wordl (by decide +kernel), word_ne e.wordr (by decide +kernel)]) h)
  unfold noShy
  rw [hs.1, hs.2]
  have hq := h.filter (fun p => p.1 != 0xad)
  generalize ps.filter (fun p => p.1 != 0xad) = qs at hq
  unfold split
  rw [show RE_BUG_LANGUAGES.elem u!"hi" = true from rfl]
  simp only [if_true]
  have hw : ∀ p ∈ qs, isSpace p.2 = isSpace p.1 := fun p hp => (pair_inv (f := isSpace) (fun _ _ e => by
    rw [word_not_space e.wordl, word_not_space e.wordr]) hq p hp).symm
  rw [splitSpG_map (w := fun p => isSpace p.1) (f := Prod.fst) (fun _ _ => rfl), splitSpG_map (w := fun p => isSpace p.1) (f := Prod.snd) hw]
  unfold normalizeTokens
  rw [List.map_map, List.map_map]
  apply List.map_congr_left
  intro t ht
  have h1 := splitSpG_mem t ht
  show norm (t.map Prod.fst) = norm (t.map Prod.snd)
  exact norm_pairs (fun p hp => hq p (h1 p hp))

/-! ### The API -/

theorem pairs_blank {ps : List (Nat × Nat)} (h : Pairs ps) : Blank (ps.map Prod.fst) ↔ Blank (ps.map Prod.snd) := by
  have hw := pair_inv (f := isSpace) (fun _ _ e => by rw [word_not_space e.wordl, word_not_space e.wordr]) h
  unfold Blank
  constructor
  · intro hb c hc
    obtain ⟨p, hp, rfl⟩ := List.mem_map.mp hc
    rw [← hw p hp]; exact hb _ (List.mem_map.mpr ⟨p, hp, rfl⟩)
  · intro hb c hc
    obtain ⟨p, hp, rfl⟩ := List.mem_map.mp hc
    rw [hw p hp]; exact hb _ (List.mem_map.mpr ⟨p, hp, rfl⟩)

theorem pairs_numeric {ps : List (Nat × Nat)} (h : Pairs ps) (hn : NumericText (ps.map Prod.fst) ∨ NumericText (ps.map Prod.snd)) :
    ps.map Prod.fst = ps.map Prod.snd := by
  have key : ∀ {s : PyStr}, NumericText s → ∀ c ∈ s, isSpace c = true ∨ isNumericChar c = true := by
    rintro s ⟨a, t, b, rfl, ha, hb, _, ht⟩ c hc
    simp only [List.mem_append] at hc
    rcases hc with (hc | hc) | hc
    · exact Or.inl (ha c hc)
    · exact Or.inr (ht c hc)
    · exact Or.inl (hb c hc)
  apply List.map_congr_left
  intro p hp
  rcases h p hp with e | e
  · exact e
  · exfalso
    rcases hn with hn | hn
    · rcases key hn p.1 (List.mem_map.mpr ⟨p, hp, rfl⟩) with hx | hx
      · rw [word_not_space e.wordl] at hx; cases hx
      · rw [e.numl] at hx; cases hx
    · rcases key hn p.2 (List.mem_map.mpr ⟨p, hp, rfl⟩) with hx | hx
      · rw [word_not_space e.wordr] at hx; cases hx
      · rw [e.numr] at hx; cases hx

theorem pairs_apos {ps : List (Nat × Nat)} (h : Pairs ps) : ∃ qs, Pairs qs ∧ (∀ q ∈ qs, q ∈ ps) ∧
    withoutApostrophes (ps.map Prod.fst) = qs.map Prod.fst ∧ withoutApostrophes (ps.map Prod.snd) = qs.map Prod.snd := by
  have hs := filter_pairs (f := fun c => c != 0x27 && c != 0x2019) (ps := ps) (pair_inv (f := fun c => c != 0x27 && c != 0x2019) (fun c b e => by
    show (c != 0x27 && c != 0x2019) = (b != 0x27 && b != 0x2019)
    rw [word_ne e.wordl (by decide +kernel), word_ne e.wordr (by decide +kernel), word_ne e.wordl (by decide +kernel), word_ne e.wordr (by decide +kernel)]) h)
  exact ⟨_, h.filter _, fun q hq => (List.mem_filter.mp hq).1, hs.1, hs.2⟩

theorem tokens_pairs_any (l : PyStr) {ps : List (Nat × Nat)} (h : Pairs ps) :
    normalizeTokens (tokenize (ps.map Prod.fst) l) = normalizeTokens (tokenize (ps.map Prod.snd) l) := by
  by_cases hh : l = u!"hi"
  · subst hh; exact tokens_pairs_hi h
  · exact tokens_pairs hh h

theorem resolve_pairs {ps : List (Nat × Nat)} (h : Pairs ps) (lang : Option PyStr) :
    resolveLanguage (ps.map Prod.fst) lang = resolveLanguage (ps.map Prod.snd) lang := by
  have e : ∀ l, countValid (ps.map Prod.fst) l = countValid (ps.map Prod.snd) l := by
    intro l; unfold countValid; rw [tokens_pairs_any l h]
  cases lang with
  | some l => rfl
  | none =>
    show validTokensByLanguage _ = validTokensByLanguage _
    unfold validTokensByLanguage
    simp only [e]

end NumberParser
