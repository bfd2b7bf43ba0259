import Verif.Proofs.RoundTrip

/-! The usual texts of spelled numbers are renderings. -/

set_option linter.unusedSimpArgs false

namespace NumberParser
open Spec

set_option maxRecDepth 100000

/-- Every character of every word satisfies `p`. -/
def Chars (p : Nat → Bool) (ws : List PyStr) : Prop := ∀ w ∈ ws, ∀ c ∈ w, p c = true

theorem Chars.of_check {p : Nat → Bool} {ws : List PyStr} (h : ws.all (fun w => w.all p) = true) : Chars p ws := by
  intro w hw c hc
  exact List.all_eq_true.mp (List.all_eq_true.mp h w hw) c hc

theorem Chars.nth {p : Nat → Bool} {ws : List PyStr} (h : Chars p ws) (i : Nat) : ∀ c ∈ Spec.nth ws i, p c = true := by
  intro c hc
  unfold Spec.nth at hc
  by_cases hi : i < ws.length
  · have : ws.getD i [] ∈ ws := by
      rw [List.getD_eq_getElem?_getD, List.getElem?_eq_getElem hi]; exact List.getElem_mem hi
    exact h _ this c hc
  · rw [List.getD_eq_getElem?_getD, List.getElem?_eq_none (by omega)] at hc; cases hc

theorem Chars.nil (p : Nat → Bool) : Chars p [] := by intro w hw; cases hw
theorem Chars.cons {p : Nat → Bool} {w : PyStr} {ws : List PyStr} (h : ∀ c ∈ w, p c = true) (hs : Chars p ws) :
    Chars p (w :: ws) := by
  intro x hx
  rcases List.mem_cons.mp hx with rfl | hx
  · exact h
  · exact hs x hx
theorem Chars.append {p : Nat → Bool} {a b : List PyStr} (ha : Chars p a) (hb : Chars p b) : Chars p (a ++ b) := by
  intro x hx
  rcases List.mem_append.mp hx with h | h
  · exact ha x h
  · exact hb x h
theorem Chars.ite {p : Nat → Bool} {q : Prop} [Decidable q] {a b : List PyStr} (ha : Chars p a) (hb : Chars p b) :
    Chars p (if q then a else b) := by split <;> assumption
theorem Chars.periods {p : Nat → Bool} {b : Nat} {word : Nat → Nat → List PyStr} (h : ∀ k g, Chars p (word k g)) (k n : Nat) :
    Chars p (Spec.periods b word k n) := by
  induction k with
  | zero => exact Chars.nil p
  | succ k ih => exact Chars.append (Chars.ite (Chars.nil p) (h _ _)) ih

theorem iteC {p : Nat → Bool} {q : Prop} [Decidable q] {a b : PyStr} (ha : ∀ c ∈ a, p c = true) (hb : ∀ c ∈ b, p c = true) :
    ∀ c ∈ (if q then a else b), p c = true := by split <;> assumption

theorem litC {p : Nat → Bool} {a : PyStr} (h : a.all p = true) : ∀ c ∈ a, p c = true := List.all_eq_true.mp h

theorem en_chars100 (n : Nat) : Chars isWord (enBelow100 n) := by
  have h1 : Chars isWord enSmall := Chars.of_check (by decide +kernel)
  have h2 : Chars isWord enTens := Chars.of_check (by decide +kernel)
  exact Chars.ite (Chars.cons (h1.nth _) (Chars.nil _)) (Chars.ite (Chars.cons (h2.nth _) (Chars.nil _))
    (Chars.cons (h2.nth _) (Chars.cons (h1.nth _) (Chars.nil _))))

theorem en_chars1000 (n : Nat) : Chars isWord (enBelow1000 n) := by
  have h1 : Chars isWord enSmall := Chars.of_check (by decide +kernel)
  exact Chars.ite (en_chars100 n) (Chars.append (Chars.cons (h1.nth _) (Chars.cons (litC (by decide +kernel)) (Chars.nil _)))
    (Chars.ite (Chars.nil _) (en_chars100 _)))

theorem en_chars (n : Nat) : Chars isWord (enWords n) := by
  have h1 : Chars isWord enScale := Chars.of_check (by decide +kernel)
  exact Chars.ite (Chars.cons (litC (by decide +kernel)) (Chars.nil _))
    (Chars.append (Chars.periods (fun k g => Chars.append (en_chars1000 g) (Chars.cons (h1.nth k) (Chars.nil _))) _ _)
      (Chars.ite (Chars.nil _) (en_chars1000 _)))

theorem es_chars30 (s : Bool) (n : Nat) : ∀ c ∈ esBelow30 s n, isWord c = true := by
  have h1 : Chars isWord esSmall := Chars.of_check (by decide +kernel)
  exact iteC (litC (by decide +kernel)) (iteC (litC (by decide +kernel)) (h1.nth n))

theorem es_chars100 (s : Bool) (n : Nat) : Chars isWord (esBelow100 s n) := by
  have h2 : Chars isWord esTens := Chars.of_check (by decide +kernel)
  exact Chars.ite (Chars.cons (es_chars30 _ _) (Chars.nil _)) (Chars.ite (Chars.cons (h2.nth _) (Chars.nil _))
    (Chars.cons (h2.nth _) (Chars.cons (es_chars30 _ _) (Chars.nil _))))

theorem es_chars1000 (s : Bool) (n : Nat) : Chars isWord (esBelow1000 s n) := by
  have h2 : Chars isWord esHund := Chars.of_check (by decide +kernel)
  exact Chars.ite (es_chars100 s n) (Chars.ite (Chars.cons (litC (by decide +kernel)) (Chars.nil _))
    (Chars.cons (h2.nth _) (Chars.ite (Chars.nil _) (es_chars100 _ _))))

theorem es_chars1000000 (s : Bool) (n : Nat) : Chars isWord (esBelow1000000 s n) :=
  Chars.ite (es_chars1000 s n) (Chars.append (Chars.append (Chars.ite (Chars.nil _) (es_chars1000 _ _))
    (Chars.cons (litC (by decide +kernel)) (Chars.nil _))) (Chars.ite (Chars.nil _) (es_chars1000 _ _)))

theorem es_chars (n : Nat) : Chars isWord (esWords n) := by
  have h1 : Chars isWord esScale := Chars.of_check (by decide +kernel)
  have h2 : Chars isWord esScale1 := Chars.of_check (by decide +kernel)
  exact Chars.ite (Chars.cons (litC (by decide +kernel)) (Chars.nil _))
    (Chars.append (Chars.periods (fun k g => Chars.append (es_chars1000000 _ g)
      (Chars.cons (iteC (h2.nth k) (h1.nth k)) (Chars.nil _))) _ _)
      (Chars.ite (Chars.nil _) (es_chars1000000 _ _)))

theorem hi_chars1000 (n : Nat) : Chars hindiWordChar (hiBelow1000 n) := by
  have h1 : Chars hindiWordChar hiBelow100 := Chars.of_check (by decide +kernel)
  exact Chars.ite (Chars.cons (h1.nth _) (Chars.nil _))
    (Chars.append (Chars.cons (h1.nth _) (Chars.cons (litC (by decide +kernel)) (Chars.nil _)))
    (Chars.ite (Chars.nil _) (Chars.cons (h1.nth _) (Chars.nil _))))

theorem hi_chars (n : Nat) : Chars hindiWordChar (hiWords n) := by
  have h1 : Chars hindiWordChar hiScale := Chars.of_check (by decide +kernel)
  have h2 : Chars hindiWordChar hiBelow100 := Chars.of_check (by decide +kernel)
  exact Chars.ite (Chars.cons (litC (by decide +kernel)) (Chars.nil _))
    (Chars.append (Chars.periods (fun k g => Chars.cons (h2.nth g) (Chars.cons (h1.nth k) (Chars.nil _))) _ _)
      (Chars.ite (Chars.nil _) (hi_chars1000 _)))

theorem ru_chars20 (s : Bool) (n : Nat) : ∀ c ∈ ruBelow20 s n, isWord c = true := by
  have h1 : Chars isWord ruSmall := Chars.of_check (by decide +kernel)
  exact iteC (litC (by decide +kernel)) (iteC (litC (by decide +kernel)) (h1.nth n))

theorem ru_chars100 (s : Bool) (n : Nat) : Chars isWord (ruBelow100 s n) := by
  have h2 : Chars isWord ruTens := Chars.of_check (by decide +kernel)
  exact Chars.ite (Chars.cons (ru_chars20 _ _) (Chars.nil _)) (Chars.ite (Chars.cons (h2.nth _) (Chars.nil _))
    (Chars.cons (h2.nth _) (Chars.cons (ru_chars20 _ _) (Chars.nil _))))

theorem ru_chars1000 (s : Bool) (n : Nat) : Chars isWord (ruBelow1000 s n) := by
  have h2 : Chars isWord ruHund := Chars.of_check (by decide +kernel)
  exact Chars.ite (ru_chars100 s n) (Chars.cons (h2.nth _) (Chars.ite (Chars.nil _) (ru_chars100 _ _)))

theorem getD_chars {p : Nat → Bool} {ws : List (List PyStr)} (h : ws.all (fun l => l.all (fun w => w.all p)) = true) (k : Nat) :
    Chars p (ws.getD k []) := by
  by_cases hi : k < ws.length
  · have : ws.getD k [] ∈ ws := by
      rw [List.getD_eq_getElem?_getD, List.getElem?_eq_getElem hi]; exact List.getElem_mem hi
    exact Chars.of_check (List.all_eq_true.mp h _ this)
  · rw [List.getD_eq_getElem?_getD, List.getElem?_eq_none (by omega)]; exact Chars.nil p

theorem ru_chars (n : Nat) : Chars isWord (ruWords n) :=
  Chars.ite (Chars.cons (litC (by decide +kernel)) (Chars.nil _))
    (Chars.append (Chars.periods (fun k g => Chars.append (ru_chars1000 _ g)
      (Chars.cons ((getD_chars (by decide +kernel) k).nth _) (Chars.nil _))) _ _)
      (Chars.ite (Chars.nil _) (ru_chars1000 _ _)))

theorem uk_chars20 (s : Bool) (n : Nat) : ∀ c ∈ ukBelow20 s n, isWord c = true := by
  have h1 : Chars isWord ukSmall := Chars.of_check (by decide +kernel)
  exact iteC (litC (by decide +kernel)) (iteC (litC (by decide +kernel)) (h1.nth n))

theorem uk_chars100 (s : Bool) (n : Nat) : Chars isWord (ukBelow100 s n) := by
  have h2 : Chars isWord ukTens := Chars.of_check (by decide +kernel)
  exact Chars.ite (Chars.cons (uk_chars20 _ _) (Chars.nil _)) (Chars.ite (Chars.cons (h2.nth _) (Chars.nil _))
    (Chars.cons (h2.nth _) (Chars.cons (uk_chars20 _ _) (Chars.nil _))))

theorem uk_chars1000 (s : Bool) (n : Nat) : Chars isWord (ukBelow1000 s n) := by
  have h2 : Chars isWord ukHund := Chars.of_check (by decide +kernel)
  exact Chars.ite (uk_chars100 s n) (Chars.cons (h2.nth _) (Chars.ite (Chars.nil _) (uk_chars100 _ _)))

theorem uk_chars (n : Nat) : Chars isWord (ukWords n) :=
  Chars.ite (Chars.cons (litC (by decide +kernel)) (Chars.nil _))
    (Chars.append (Chars.periods (fun k g => Chars.append (uk_chars1000 _ g)
      (Chars.cons ((getD_chars (by decide +kernel) k).nth _) (Chars.nil _))) _ _)
      (Chars.ite (Chars.nil _) (uk_chars1000 _ _)))

/-! ### Non-emptiness -/

theorem words_ne_nil {ld : LangData} {mg n : Nat} {ws : List PyStr} (h : kindsValue mg (wordKinds ld ws) = some n) (hn : n ≠ 0) :
    ws ≠ [] := by
  intro he
  subst he
  have h' : some 0 = some n := h
  cases h'; exact hn rfl

theorem enWords_ne_nil {n : Nat} (h : n < 10 ^ 24) : enWords n ≠ [] := by
  by_cases h0 : n = 0
  · subst h0; decide
  · exact words_ne_nil (en_words h).1 h0
theorem esWords_ne_nil {n : Nat} (h : n < 10 ^ 60) : esWords n ≠ [] := by
  by_cases h0 : n = 0
  · subst h0; decide
  · exact words_ne_nil (es_words h).1 h0
theorem hiWords_ne_nil {n : Nat} (h : n < 10 ^ 13) : hiWords n ≠ [] := by
  by_cases h0 : n = 0
  · subst h0; decide
  · exact words_ne_nil (hi_words h).1 h0
theorem ruWords_ne_nil {n : Nat} (h : n < 10 ^ 24) : ruWords n ≠ [] := by
  by_cases h0 : n = 0
  · subst h0; decide
  · exact words_ne_nil (ru_words h).1 h0
theorem ukWords_ne_nil {n : Nat} (h : n < 10 ^ 18) : ukWords n ≠ [] := by
  by_cases h0 : n = 0
  · subst h0; decide
  · exact words_ne_nil (uk_words h).1 h0

/-! ### Texts -/

theorem phrase_text {σ : Style} {gap : PyStr → PyStr → PyStr} (hg : ∀ a b, Gap σ (gap a b)) {ws : List PyStr}
    (hw : Chars σ.wordChar ws) (hne : ws ≠ []) : Text σ ws (phrase gap ws) := by
  induction ws with
  | nil => exact absurd rfl hne
  | cons w ws ih =>
    have hww : Writes σ w w := ⟨hw w List.mem_cons_self, rfl⟩
    cases ws with
    | nil =>
      have := Text.last hww (trail := []) (by simp)
      simpa [phrase] using this
    | cons w' ws =>
      exact Text.cons hww (hg w w') (ih (fun x hx => hw x (List.mem_cons_of_mem _ hx)) (by simp))

theorem phrase_rendering {σ : Style} {gap : PyStr → PyStr → PyStr} (hg : ∀ a b, Gap σ (gap a b)) {ws : List PyStr}
    (hw : Chars σ.wordChar ws) (hne : ws ≠ []) : Rendering σ ws (phrase gap ws) :=
  ⟨[], _, by simp, phrase_text hg hw hne, rfl⟩

theorem gap_space {σ : Style} (h : σ.joiner 32 = true) : Gap σ u!" " :=
  Gap.sep (by simp) (by intro c hc; simp at hc; rw [hc]; exact h)

theorem enGap_ok (a b : PyStr) : Gap Spec.en (enGap a b) := by
  unfold enGap
  split
  · exact Gap.sep (by simp) (by decide)
  · split
    · exact Gap.filler (g := u!" ") (f := u!"and") (v := u!"and") (rest := u!" ") (by simp) (by decide) (by decide)
        ⟨by decide +kernel, rfl⟩ (gap_space (by decide))
    · exact gap_space (by decide)

theorem esGap_ok (a b : PyStr) : Gap Spec.es (esGap a b) := by
  unfold esGap
  split
  · exact Gap.filler (g := u!" ") (f := u!"y") (v := u!"y") (rest := u!" ") (by simp) (by decide) (by decide)
        ⟨by decide +kernel, rfl⟩ (gap_space (by decide))
  · exact gap_space (by decide)

theorem enText_text {n : Nat} (h : n < 10 ^ 24) : Text Spec.en (enWords n) (enText n) :=
  phrase_text enGap_ok (en_chars n) (enWords_ne_nil h)
theorem enText_rendering {n : Nat} (h : n < 10 ^ 24) : Rendering Spec.en (enWords n) (enText n) :=
  phrase_rendering enGap_ok (en_chars n) (enWords_ne_nil h)
theorem esText_rendering {n : Nat} (h : n < 10 ^ 60) : Rendering Spec.es (esWords n) (esText n) :=
  phrase_rendering esGap_ok (es_chars n) (esWords_ne_nil h)
theorem hiText_rendering {n : Nat} (h : n < 10 ^ 13) : Rendering Spec.hi (hiWords n) (hiText n) :=
  phrase_rendering (fun _ _ => gap_space (by decide)) (hi_chars n) (hiWords_ne_nil h)
theorem ruText_rendering {n : Nat} (h : n < 10 ^ 24) : Rendering Spec.ru (ruWords n) (ruText n) :=
  phrase_rendering (fun _ _ => gap_space (by decide)) (ru_chars n) (ruWords_ne_nil h)
theorem ukText_rendering {n : Nat} (h : n < 10 ^ 18) : Rendering Spec.uk (ukWords n) (ukText n) :=
  phrase_rendering (fun _ _ => gap_space (by decide)) (uk_chars n) (ukWords_ne_nil h)

end NumberParser
