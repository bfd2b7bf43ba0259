import Verif.Model.Emit

/-! Replacing whole words in a text. -/

set_option linter.unusedSimpArgs false

namespace NumberParser.Gen

open NumberParser

/-- Whether the last character is a word character; `before` for the empty text. -/
def lastWord (before : Bool) (a : PyStr) : Bool := (a.getLast?.map isWord).getD before

/-- `p` occurs as a whole word, after a text that ends as `before` says. -/
def OccursAsWord (p : PyStr) (before : Bool) (s : PyStr) : Prop :=
  ∃ a b, s = a ++ p ++ b ∧ lastWord before a = false ∧ b.head?.any isWord = false

theorem lastWord_cons (before : Bool) (c : Nat) (a : PyStr) : lastWord before (c :: a) = lastWord (isWord c) a := by
  unfold lastWord
  cases a with
  | nil => rfl
  | cons d a =>
    rw [List.getLast?_cons_cons]
    cases h : (d :: a).getLast? with
    | none => simp at h
    | some x => rfl

variable {p new : PyStr}

/-- Without an occurrence nothing happens. -/
theorem subWordGo_none (hp : p ≠ []) (before : Bool) (s : PyStr) (h : ¬ OccursAsWord p before s) : subWordGo p new before 0 s = s := by
  induction s generalizing before with
  | nil => cases before <;> rfl
  | cons c cs ih =>
    unfold subWordGo
    rw [if_neg, ih]
    · rintro ⟨a, b, he, h1, h2⟩
      exact h ⟨c :: a, b, by rw [he]; rfl, by rw [lastWord_cons]; exact h1, h2⟩
    · intro hm
      simp only [Bool.and_eq_true, Bool.not_eq_true'] at hm
      obtain ⟨⟨h1, h2⟩, h3⟩ := hm
      obtain ⟨b, hb⟩ := List.isPrefixOf_iff_prefix.mp h2
      refine h ⟨[], b, by rw [← hb]; rfl, h1, ?_⟩
      have : cs.drop (p.length - 1) = b := by
        obtain ⟨x, p', rfl⟩ := List.exists_cons_of_ne_nil hp
        rw [List.cons_append] at hb
        injection hb with _ hb
        rw [← hb]; simp
      rw [this] at h3; exact h3

theorem subWordGo_zero (before : Bool) (c : Nat) (cs : PyStr) : subWordGo p new before 0 (c :: cs) =
    if !before && p.isPrefixOf (c :: cs) && !((cs.drop (p.length - 1)).head?.any isWord) then
      new ++ subWordGo p new (isWord c) (p.length - 1) cs
    else c :: subWordGo p new (isWord c) 0 cs := by
  rw [subWordGo]

/-- A character that is no word character separates. -/
theorem subWordGo_sep (hp : ∀ c ∈ p, isWord c = true) (hp0 : p ≠ []) (a : PyStr) (c : Nat) (b : PyStr) (hc : isWord c = false) :
    ∀ (before : Bool) (skip : Nat), skip ≤ a.length →
      subWordGo p new before skip (a ++ c :: b) = subWordGo p new before skip a ++ c :: subWordGo p new false 0 b := by
  induction a with
  | nil =>
    intro before skip hs
    have : skip = 0 := by simpa using hs
    subst this
    show subWordGo p new before 0 (c :: b) = subWordGo p new before 0 [] ++ _
    rw [subWordGo_zero, if_neg, hc]
    · cases before <;> rfl
    · intro hm
      simp only [Bool.and_eq_true, Bool.not_eq_true'] at hm
      obtain ⟨r, hr⟩ := List.isPrefixOf_iff_prefix.mp hm.1.2
      obtain ⟨x, p', rfl⟩ := List.exists_cons_of_ne_nil hp0
      rw [List.cons_append] at hr
      injection hr with hr _
      have := hp x List.mem_cons_self
      rw [hr, hc] at this; cases this
  | cons x a ih =>
    intro before skip hs
    cases skip with
    | succ skip =>
      show subWordGo p new before (skip + 1) (x :: (a ++ c :: b)) = _
      rw [subWordGo, subWordGo]
      exact ih _ skip (by simpa using hs)
    | zero =>
      show subWordGo p new before 0 (x :: (a ++ c :: b)) = _
      rw [subWordGo, subWordGo]
      have hpre : p.isPrefixOf (x :: (a ++ c :: b)) = p.isPrefixOf (x :: a) := by
        rw [Bool.eq_iff_iff, List.isPrefixOf_iff_prefix, List.isPrefixOf_iff_prefix]
        constructor
        · rintro ⟨r, hr⟩
          rw [show x :: (a ++ c :: b) = (x :: a) ++ c :: b from rfl] at hr
          rcases List.append_eq_append_iff.mp hr with ⟨u, hu, _⟩ | ⟨u, hu, hu2⟩
          · exact ⟨u, hu.symm⟩
          · cases u with
            | nil => exact ⟨[], by simpa using hu⟩
            | cons y u =>
              rw [List.cons_append] at hu2
              injection hu2 with hu2 _
              have := hp y (by rw [hu]; simp)
              rw [← hu2, hc] at this; cases this
        · rintro ⟨r, hr⟩
          exact ⟨r ++ c :: b, by rw [← List.append_assoc, hr]; rfl⟩
      by_cases hm : p.isPrefixOf (x :: a) = true
      · have hlen : p.length - 1 ≤ a.length := by
          have := (List.isPrefixOf_iff_prefix.mp hm).length_le
          simp at this; omega
        have hhead : ((a ++ c :: b).drop (p.length - 1)).head?.any isWord = (a.drop (p.length - 1)).head?.any isWord := by
          rw [List.drop_append_of_le_length hlen]
          cases a.drop (p.length - 1) with
          | nil => simp [hc]
          | cons y r => rfl
        rw [hpre, hhead]
        split
        · rw [ih _ _ hlen, List.append_assoc]
        · rw [ih _ 0 (Nat.zero_le _)]; rfl
      · rw [hpre]
        have hm : p.isPrefixOf (x :: a) = false := Bool.eq_false_iff.mpr hm
        rw [hm]
        simp only [Bool.and_false, Bool.false_and, Bool.false_eq_true, if_false]
        rw [ih _ 0 (Nat.zero_le _)]; rfl

/-- The replacement changes `s` into `s'` between characters that are no word characters. -/
def Subs (p new s s' : PyStr) : Prop := ∀ c rest, isWord c = false →
  subWordGo p new false 0 (s ++ c :: rest) = s' ++ c :: subWordGo p new false 0 rest

theorem Subs.nil (hp : ∀ c ∈ p, isWord c = true) (hp0 : p ≠ []) : Subs p new [] [] := by
  intro c rest hc
  rw [subWordGo_sep hp hp0 [] c rest hc false 0 (Nat.le_refl _)]
  rfl

theorem Subs.same (hp : ∀ c ∈ p, isWord c = true) (hp0 : p ≠ []) {s : PyStr} (h : ¬ OccursAsWord p false s) : Subs p new s s := by
  intro c rest hc
  rw [subWordGo_sep hp hp0 s c rest hc false 0 (Nat.zero_le _), subWordGo_none hp0 false s h]

theorem Subs.word (hp : ∀ c ∈ p, isWord c = true) (hp0 : p ≠ []) : Subs p new p new := by
  intro c rest hc
  rw [subWordGo_sep hp hp0 p c rest hc false 0 (Nat.zero_le _)]
  congr 1
  obtain ⟨x, p', rfl⟩ := List.exists_cons_of_ne_nil hp0
  rw [subWordGo, if_pos]
  · have : ∀ (s : PyStr) (b : Bool), subWordGo (x :: p') new b s.length s = [] := by
      intro s
      induction s with
      | nil => intro b; cases b <;> rfl
      | cons y s ih => intro b; exact ih _
    have h2 := this p' (isWord x)
    simp only [List.length_cons, Nat.add_sub_cancel]
    rw [h2, List.append_nil]
  · simp

theorem Subs.append {s s' t t' : PyStr} {c : Nat} (hs : Subs p new s s') (hc : isWord c = false) (ht : Subs p new t t') :
    Subs p new (s ++ c :: t) (s' ++ c :: t') := by
  intro d rest hd
  rw [List.append_assoc, List.cons_append, hs c _ hc, ht d rest hd, List.append_assoc, List.cons_append]

theorem Subs.cons (hp : ∀ c ∈ p, isWord c = true) (hp0 : p ≠ []) {t t' : PyStr} {c : Nat} (hc : isWord c = false) (ht : Subs p new t t') :
    Subs p new (c :: t) (c :: t') := (Subs.nil hp hp0).append hc ht

/-- A character at the end. -/
theorem Subs.snoc (hp : ∀ c ∈ p, isWord c = true) (hp0 : p ≠ []) {s s' : PyStr} {c : Nat} (hs : Subs p new s s') (hc : isWord c = false) :
    Subs p new (s ++ [c]) (s' ++ [c]) := hs.append hc (Subs.nil hp hp0)

theorem Subs.subWord {s s' : PyStr} {c : Nat} (hs : Subs p new s s') (hc : isWord c = false) : subWord p new (s ++ [c]) = s' ++ [c] := by
  unfold Gen.subWord
  rw [hs c [] hc]
  rfl

/-- Characters that are all no word characters stay. -/
theorem Subs.blanks (hp : ∀ c ∈ p, isWord c = true) (hp0 : p ≠ []) {s : PyStr} (h : ∀ c ∈ s, isWord c = false) : Subs p new s s := by
  induction s with
  | nil => exact Subs.nil hp hp0
  | cons c s ih => exact Subs.cons hp hp0 (h c List.mem_cons_self) (ih (fun d hd => h d (List.mem_cons_of_mem _ hd)))

/-- A text, characters that separate, a text. -/
theorem Subs.sep (hp : ∀ c ∈ p, isWord c = true) (hp0 : p ≠ []) {s s' t t' m : PyStr} (hs : Subs p new s s') (hm : m ≠ [])
    (h : ∀ c ∈ m, isWord c = false) (ht : Subs p new t t') : Subs p new (s ++ m ++ t) (s' ++ m ++ t') := by
  obtain ⟨c, m, rfl⟩ := List.exists_cons_of_ne_nil hm
  have : Subs p new (m ++ t) (m ++ t') := by
    have hm' : ∀ c ∈ m, isWord c = false := fun d hd => h d (List.mem_cons_of_mem _ hd)
    clear h hm
    induction m with
    | nil => exact ht
    | cons d m ih =>
      exact Subs.cons hp hp0 (hm' d List.mem_cons_self) (ih (fun x hx => hm' x (List.mem_cons_of_mem _ hx)))
  have e := hs.append (h c List.mem_cons_self) this
  simpa using e

theorem Subs.join (hp : ∀ c ∈ p, isWord c = true) (hp0 : p ≠ []) {sep : PyStr} (hs0 : sep ≠ []) (hsep : ∀ c ∈ sep, isWord c = false)
    {α : Type} (f f' : α → PyStr) (l : List α) (h : ∀ x ∈ l, Subs p new (f x) (f' x)) :
    Subs p new (NumberParser.join sep (l.map f)) (NumberParser.join sep (l.map f')) := by
  induction l with
  | nil => exact Subs.nil hp hp0
  | cons x l ih =>
    have ih := ih (fun y hy => h y (List.mem_cons_of_mem _ hy))
    have hx := h x List.mem_cons_self
    cases l with
    | nil => exact hx
    | cons y l => exact Subs.sep hp hp0 hx hs0 hsep ih

end NumberParser.Gen
