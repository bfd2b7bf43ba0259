import Verif.Proofs.JsonValue
import Verif.Model.Files

/-! # Line breaks in JSON texts: `\r\n`, `\r` and `\n` are the same -/

namespace NumberParser

open Gen Spec

/-- The line breaks of the first text are written `\n` in the second one. -/
inductive Breaks : PyStr → PyStr → Prop where
  | nil : Breaks [] []
  | char {c : Nat} {s s' : PyStr} : c ≠ 13 → Breaks s s' → Breaks (c :: s) (c :: s')
  | cr {s s' : PyStr} : Breaks s s' → Breaks (13 :: s) (10 :: s')
  | crlf {s s' : PyStr} : Breaks s s' → Breaks (13 :: 10 :: s) (10 :: s')

theorem newlines_breaks (s : PyStr) : Breaks s (newlines s) := by
  have key : ∀ s, Breaks s (newlinesGo false s) ∧ (Breaks (13 :: s) (10 :: newlinesGo true s)) := by
    intro s
    induction s with
    | nil => exact ⟨.nil, .cr .nil⟩
    | cons c s ih =>
      rw [newlinesGo, newlinesGo]
      by_cases h13 : c = 13
      · subst h13
        rw [if_pos rfl, if_pos rfl]
        exact ⟨ih.2, .cr ih.2⟩
      · rw [if_neg h13, if_neg h13, if_neg (by rintro ⟨_, h⟩; cases h)]
        refine ⟨.char h13 ih.1, ?_⟩
        by_cases h10 : c = 10
        · subst h10
          rw [if_pos ⟨rfl, rfl⟩]; exact .crlf ih.1
        · rw [if_neg (fun h => h10 h.1)]; exact .cr (.char h13 ih.1)
  exact (key s).1

theorem breaks_id {s s' : PyStr} (h : Breaks s s') (hs : 10 ∉ s') : s = s' := by
  induction h with
  | nil => rfl
  | char _ _ ih => rw [ih (fun hm => hs (List.mem_cons_of_mem _ hm))]
  | cr => exact absurd (List.mem_cons_self) hs
  | crlf => exact absurd (List.mem_cons_self) hs

theorem breaks_id' {s s' : PyStr} (h : Breaks s s') (hs : 13 ∉ s) : s = s' := by
  induction h with
  | nil => rfl
  | char _ _ ih => rw [ih (fun hm => hs (List.mem_cons_of_mem _ hm))]
  | cr => exact absurd (List.mem_cons_self) hs
  | crlf => exact absurd (List.mem_cons_self) hs

theorem breaks_blanks {s s' : PyStr} (h : Breaks s s') : JsonBlanks s ↔ JsonBlanks s' := by
  unfold JsonBlanks
  induction h with
  | nil => simp
  | char _ _ ih => simp only [List.mem_cons, forall_eq_or_imp, ih]
  | cr _ ih => simp [List.mem_cons, forall_eq_or_imp, ih]
  | crlf _ ih => simp [List.mem_cons, forall_eq_or_imp, ih]

/-- Splitting the second text splits the first. -/
theorem breaks_split {s a b : PyStr} (h : Breaks s (a ++ b)) : ∃ x y, s = x ++ y ∧ Breaks x a ∧ Breaks y b := by
  induction a generalizing s with
  | nil => exact ⟨[], s, rfl, .nil, h⟩
  | cons c a ih =>
    generalize he : c :: a ++ b = z at h
    cases h with
    | nil => cases he
    | char hc h =>
      injection he with h1 h2
      subst h1; subst h2
      obtain ⟨x, y, rfl, hx, hy⟩ := ih h
      exact ⟨c :: x, y, rfl, .char hc hx, hy⟩
    | cr h =>
      injection he with h1 h2
      subst h1; subst h2
      obtain ⟨x, y, rfl, hx, hy⟩ := ih h
      exact ⟨13 :: x, y, rfl, .cr hx, hy⟩
    | crlf h =>
      injection he with h1 h2
      subst h1; subst h2
      obtain ⟨x, y, rfl, hx, hy⟩ := ih h
      exact ⟨13 :: 10 :: x, y, rfl, .crlf hx, hy⟩

theorem breaks_cons {s b : PyStr} {c : Nat} (h10 : c ≠ 10) (h : Breaks s (c :: b)) : ∃ y, s = c :: y ∧ Breaks y b := by
  cases h with
  | char _ h => exact ⟨_, rfl, h⟩
  | cr => exact absurd rfl h10
  | crlf => exact absurd rfl h10

/-- Splitting the first text splits the second, if the cut is not inside `\r\n`. -/
theorem breaks_split' {a b s' : PyStr} (hcut : a.getLast? ≠ some 13 ∨ b.head? ≠ some 10) (h : Breaks (a ++ b) s') :
    ∃ x y, s' = x ++ y ∧ Breaks a x ∧ Breaks b y := by
  induction a using List.rec generalizing s' with
  | nil => exact ⟨[], s', rfl, .nil, h⟩
  | cons c a ih =>
    have hcut' : a ≠ [] → (a.getLast? ≠ some 13 ∨ b.head? ≠ some 10) := by
      intro ha
      cases a with
      | nil => exact absurd rfl ha
      | cons d a => rw [List.getLast?_cons_cons] at hcut; exact hcut
    have ih' : ∀ {s'}, Breaks (a ++ b) s' → ∃ x y, s' = x ++ y ∧ Breaks a x ∧ Breaks b y := by
      intro s' h
      by_cases ha : a = []
      · subst ha; exact ⟨[], s', rfl, .nil, h⟩
      · exact ih (hcut' ha) h
    generalize he : c :: a ++ b = z at h
    cases h with
    | nil => cases he
    | char hc h =>
      injection he with h1 h2
      subst h1; subst h2
      obtain ⟨x, y, rfl, hx, hy⟩ := ih' h
      exact ⟨c :: x, y, rfl, .char hc hx, hy⟩
    | cr h =>
      injection he with h1 h2
      subst h1; subst h2
      obtain ⟨x, y, rfl, hx, hy⟩ := ih' h
      exact ⟨10 :: x, y, rfl, .cr hx, hy⟩
    | @crlf s s' h =>
      injection he with h1 h2
      subst h1
      cases a with
      | nil =>
        exfalso
        have h2 : b = 10 :: s := h2
        rw [h2] at hcut
        simp at hcut
      | cons d a =>
        injection h2 with h3 h4
        subst h3; subst h4
        -- the pair is inside `a`
        have : Breaks (10 :: (a ++ b)) (10 :: s') := .char (by decide) h
        obtain ⟨x, y, e, hx, hy⟩ := ih' this
        cases hx with
        | char _ hx =>
          injection e with _ e
          subst e
          exact ⟨10 :: _, y, rfl, .crlf hx, hy⟩

theorem breaks_cons' {s' b : PyStr} {c : Nat} (h13 : c ≠ 13) (h : Breaks (c :: b) s') : ∃ y, s' = c :: y ∧ Breaks b y := by
  cases h with
  | char _ h => exact ⟨_, rfl, h⟩
  | cr => exact absurd rfl h13
  | crlf => exact absurd rfl h13

/-! ## No line breaks inside strings and numbers -/

theorem hexDigit_ge {c v : Nat} (h : HexDigit c v) : 32 ≤ c := by unfold HexDigit at h; omega

theorem escape_ge {k : PyStr} {u : Nat} (h : UnicodeEscape k u) : ∀ c ∈ k, 32 ≤ c := by
  obtain ⟨a, b, c, d, _, _, _, _, rfl, h1, h2, h3, h4, _⟩ := h
  have := hexDigit_ge h1; have := hexDigit_ge h2; have := hexDigit_ge h3; have := hexDigit_ge h4
  intro x hx
  simp only [List.mem_cons, List.not_mem_nil, or_false] at hx
  omega

theorem chars_ge {t s : PyStr} (h : JsonChars t s) : ∀ c ∈ t, 32 ≤ c := by
  induction h with
  | nil => intro c h; cases h
  | plain h1 _ _ _ ih => intro c hc; rcases List.mem_cons.mp hc with rfl | hc; exact h1; exact ih c hc
  | @short e x t s hm _ ih =>
    intro c hc
    rcases List.mem_cons.mp hc with rfl | hc
    · decide
    rcases List.mem_cons.mp hc with rfl | hc
    · simp only [shortEscapes, List.mem_cons, Prod.mk.injEq, List.not_mem_nil, or_false] at hm; omega
    · exact ih c hc
  | unicode hk _ _ ih =>
    intro c hc
    rcases List.mem_append.mp hc with hc | hc
    · exact escape_ge hk c hc
    · exact ih c hc
  | pair hk _ hk' _ _ ih =>
    intro c hc
    rcases List.mem_append.mp hc with hc | hc
    · exact escape_ge hk c hc
    rcases List.mem_append.mp hc with hc | hc
    · exact escape_ge hk' c hc
    · exact ih c hc

theorem number_ge {t : PyStr} {v : Json} (h : JsonNumber t v) : ∀ c ∈ t, 32 ≤ c := by
  have hs : ∀ n : Bool, ∀ c ∈ signText n, 32 ≤ c := by intro n; cases n <;> decide
  have hd : ∀ {ds : PyStr}, JsonDigits ds → ∀ c ∈ ds, 32 ≤ c := fun h c hc => by have := h.2 c hc; omega
  have app : ∀ {a b : PyStr}, (∀ c ∈ a, 32 ≤ c) → (∀ c ∈ b, 32 ≤ c) → ∀ c ∈ a ++ b, 32 ≤ c := by
    intro a b h1 h2 c hc
    rcases List.mem_append.mp hc with hc | hc
    · exact h1 c hc
    · exact h2 c hc
  have cons : ∀ {x : Nat} {b : PyStr}, 32 ≤ x → (∀ c ∈ b, 32 ≤ c) → ∀ c ∈ x :: b, 32 ≤ c := by
    intro x b h1 h2 c hc
    rcases List.mem_cons.mp hc with rfl | hc
    · exact h1
    · exact h2 c hc
  have nil : ∀ c ∈ ([] : PyStr), 32 ≤ c := by intro c h; cases h
  cases h with
  | int negative hi _ => exact app (hs _) (hd hi.1)
  | float negative hi hf hx _ =>
    refine app (hs _) (app (hd hi.1) (app ?_ ?_))
    · rcases hf with ⟨rfl, rfl⟩ | ⟨rfl, h⟩
      · exact nil
      · exact cons (by decide) (hd h)
    · rcases hx with ⟨rfl, _⟩ | ⟨m, ds, hm, hds, ⟨rfl, _⟩ | ⟨rfl, _⟩ | ⟨rfl, _⟩⟩
      · exact nil
      · exact cons (by omega) (hd hds)
      · exact cons (by omega) (cons (by decide) (hd hds))
      · exact cons (by omega) (cons (by decide) (hd hds))

theorem ge_not {t : PyStr} (h : ∀ c ∈ t, 32 ≤ c) : 10 ∉ t ∧ 13 ∉ t :=
  ⟨fun hm => absurd (h _ hm) (by decide), fun hm => absurd (h _ hm) (by decide)⟩

theorem value_back {t : PyStr} {v : Json} (h : JsonValue t v) : t.getLast? ≠ some 13 := by
  cases h with
  | number h =>
    intro e
    exact (ge_not (number_ge h)).2 (List.mem_of_getLast? e)
  | null => decide
  | true => decide
  | false => decide
  | nan => decide
  | infinity => decide
  | minusInfinity => decide
  | string _ => simp [List.getLast?_cons]
  | emptyArray _ => simp [List.getLast?_cons]
  | array _ => simp [List.getLast?_cons]
  | emptyObject _ => simp [List.getLast?_cons]
  | object _ => simp [List.getLast?_cons]

/-! ## From the second text to the first -/

mutual

theorem value_breaks : ∀ {t : PyStr} {v : Json}, JsonValue t v → ∀ {s : PyStr}, Breaks s t → JsonValue s v
  | _, _, .null, s, h => by rw [breaks_id h (by decide)]; exact .null
  | _, _, .true, s, h => by rw [breaks_id h (by decide)]; exact .true
  | _, _, .false, s, h => by rw [breaks_id h (by decide)]; exact .false
  | _, _, .nan, s, h => by rw [breaks_id h (by decide)]; exact .nan
  | _, _, .infinity, s, h => by rw [breaks_id h (by decide)]; exact .infinity
  | _, _, .minusInfinity, s, h => by rw [breaks_id h (by decide)]; exact .minusInfinity
  | _, _, .number hn, s, h => by rw [breaks_id h (ge_not (number_ge hn)).1]; exact .number hn
  | _, _, .string (t := q) hq, s, h => by
    have : ∀ c ∈ 34 :: (q ++ [34]), 32 ≤ c := by
      intro c hc
      simp only [List.mem_cons, List.mem_append, List.not_mem_nil, or_false] at hc
      rcases hc with rfl | hc | rfl
      · decide
      · exact chars_ge hq c hc
      · decide
    rw [breaks_id h (ge_not this).1]; exact .string hq
  | _, _, .emptyArray (w := w) hw, s, h => by
    obtain ⟨y, rfl, h0⟩ := breaks_cons (by decide) h; clear h; have h := h0; clear h0
    obtain ⟨x, y, rfl, hx, hy⟩ := breaks_split h
    obtain ⟨z, rfl, hz⟩ := breaks_cons (by decide) hy
    cases hz
    exact .emptyArray ((breaks_blanks hx).mpr hw)
  | _, _, .emptyObject (w := w) hw, s, h => by
    obtain ⟨y, rfl, h0⟩ := breaks_cons (by decide) h; clear h; have h := h0; clear h0
    obtain ⟨x, y, rfl, hx, hy⟩ := breaks_split h
    obtain ⟨z, rfl, hz⟩ := breaks_cons (by decide) hy
    cases hz
    exact .emptyObject ((breaks_blanks hx).mpr hw)
  | _, _, .array (t := t) he, s, h => by
    obtain ⟨y, rfl, h0⟩ := breaks_cons (by decide) h; clear h; have h := h0; clear h0
    obtain ⟨x, y, rfl, hx, hy⟩ := breaks_split h
    obtain ⟨z, rfl, hz⟩ := breaks_cons (by decide) hy
    cases hz
    exact .array (elements_breaks he hx)
  | _, _, .object (t := t) he, s, h => by
    obtain ⟨y, rfl, h0⟩ := breaks_cons (by decide) h; clear h; have h := h0; clear h0
    obtain ⟨x, y, rfl, hx, hy⟩ := breaks_split h
    obtain ⟨z, rfl, hz⟩ := breaks_cons (by decide) hy
    cases hz
    exact .object (members_breaks he hx)

theorem elements_breaks : ∀ {t : PyStr} {vs : List Json}, JsonElements t vs → ∀ {s : PyStr}, Breaks s t → JsonElements s vs
  | _, _, .one hw hv hw', s, h => by
    obtain ⟨x, y, rfl, hx, hy⟩ := breaks_split h
    obtain ⟨z, u, rfl, hz, hu⟩ := breaks_split hy
    exact .one ((breaks_blanks hx).mpr hw) (value_breaks hv hz) ((breaks_blanks hu).mpr hw')
  | _, _, .more hw hv hw' he, s, h => by
    obtain ⟨x, y, rfl, hx, hy⟩ := breaks_split h
    obtain ⟨z, u, rfl, hz, hu⟩ := breaks_split hy
    obtain ⟨p, q, rfl, hp, hq⟩ := breaks_split hu
    obtain ⟨r, rfl, hr⟩ := breaks_cons (by decide) hq
    exact .more ((breaks_blanks hx).mpr hw) (value_breaks hv hz) ((breaks_blanks hp).mpr hw') (elements_breaks he hr)

theorem members_breaks : ∀ {t : PyStr} {ms : List (PyStr × Json)}, JsonMembers t ms → ∀ {s : PyStr}, Breaks s t → JsonMembers s ms
  | _, _, .one hw hk hw' hw'' hv hw''', s, h => by
    obtain ⟨x, y, rfl, hx, h⟩ := breaks_split h
    obtain ⟨y, rfl, h0⟩ := breaks_cons (by decide) h; clear h; have h := h0; clear h0
    obtain ⟨q, y, rfl, hq, h⟩ := breaks_split h
    obtain ⟨y, rfl, h0⟩ := breaks_cons (by decide) h; clear h; have h := h0; clear h0
    obtain ⟨w1, y, rfl, hw1, h⟩ := breaks_split h
    obtain ⟨y, rfl, h0⟩ := breaks_cons (by decide) h; clear h; have h := h0; clear h0
    obtain ⟨w2, y, rfl, hw2, h⟩ := breaks_split h
    obtain ⟨z, w3, rfl, hz, hw3⟩ := breaks_split h
    rw [breaks_id hq (ge_not (chars_ge hk)).1]
    exact .one ((breaks_blanks hx).mpr hw) hk ((breaks_blanks hw1).mpr hw') ((breaks_blanks hw2).mpr hw'') (value_breaks hv hz)
      ((breaks_blanks hw3).mpr hw''')
  | _, _, .more hw hk hw' hw'' hv hw''' hm, s, h => by
    obtain ⟨x, y, rfl, hx, h⟩ := breaks_split h
    obtain ⟨y, rfl, h0⟩ := breaks_cons (by decide) h; clear h; have h := h0; clear h0
    obtain ⟨q, y, rfl, hq, h⟩ := breaks_split h
    obtain ⟨y, rfl, h0⟩ := breaks_cons (by decide) h; clear h; have h := h0; clear h0
    obtain ⟨w1, y, rfl, hw1, h⟩ := breaks_split h
    obtain ⟨y, rfl, h0⟩ := breaks_cons (by decide) h; clear h; have h := h0; clear h0
    obtain ⟨w2, y, rfl, hw2, h⟩ := breaks_split h
    obtain ⟨z, y, rfl, hz, h⟩ := breaks_split h
    obtain ⟨w3, y, rfl, hw3, h⟩ := breaks_split h
    obtain ⟨y, rfl, h0⟩ := breaks_cons (by decide) h; clear h; have h := h0; clear h0
    rw [breaks_id hq (ge_not (chars_ge hk)).1]
    exact .more ((breaks_blanks hx).mpr hw) hk ((breaks_blanks hw1).mpr hw') ((breaks_blanks hw2).mpr hw'') (value_breaks hv hz)
      ((breaks_blanks hw3).mpr hw''') (members_breaks hm h)

end

/-! ## From the first text to the second -/

theorem head_ne {c : Nat} {x : PyStr} (h : c ≠ 10) : (c :: x).head? ≠ some 10 := by simp [h]

theorem value_head_ne {t : PyStr} {v : Json} (h : JsonValue t v) (r : PyStr) : (t ++ r).head? ≠ some 10 := by
  obtain ⟨c, x, rfl, h1, _⟩ := value_front h
  rw [List.cons_append]
  apply head_ne
  rintro rfl; revert h1; decide

mutual

theorem value_breaks' : ∀ {s : PyStr} {v : Json}, JsonValue s v → ∀ {t : PyStr}, Breaks s t → JsonValue t v
  | _, _, .null, s, h => by rw [← breaks_id' h (by decide)]; exact .null
  | _, _, .true, s, h => by rw [← breaks_id' h (by decide)]; exact .true
  | _, _, .false, s, h => by rw [← breaks_id' h (by decide)]; exact .false
  | _, _, .nan, s, h => by rw [← breaks_id' h (by decide)]; exact .nan
  | _, _, .infinity, s, h => by rw [← breaks_id' h (by decide)]; exact .infinity
  | _, _, .minusInfinity, s, h => by rw [← breaks_id' h (by decide)]; exact .minusInfinity
  | _, _, .number hn, s, h => by rw [← breaks_id' h (ge_not (number_ge hn)).2]; exact .number hn
  | _, _, .string (t := q) hq, s, h => by
    have : ∀ c ∈ 34 :: (q ++ [34]), 32 ≤ c := by
      intro c hc
      simp only [List.mem_cons, List.mem_append, List.not_mem_nil, or_false] at hc
      rcases hc with rfl | hc | rfl
      · decide
      · exact chars_ge hq c hc
      · decide
    rw [← breaks_id' h (ge_not this).2]; exact .string hq
  | _, _, .emptyArray (w := w) hw, s, h => by
    obtain ⟨y, rfl, h0⟩ := breaks_cons' (by decide) h; clear h; have h := h0; clear h0
    obtain ⟨x, y, rfl, hx, hy⟩ := breaks_split' (.inr (head_ne (by decide))) h
    obtain ⟨z, rfl, hz⟩ := breaks_cons' (by decide) hy
    cases hz
    exact .emptyArray ((breaks_blanks hx).mp hw)
  | _, _, .emptyObject (w := w) hw, s, h => by
    obtain ⟨y, rfl, h0⟩ := breaks_cons' (by decide) h; clear h; have h := h0; clear h0
    obtain ⟨x, y, rfl, hx, hy⟩ := breaks_split' (.inr (head_ne (by decide))) h
    obtain ⟨z, rfl, hz⟩ := breaks_cons' (by decide) hy
    cases hz
    exact .emptyObject ((breaks_blanks hx).mp hw)
  | _, _, .array (t := t) he, s, h => by
    obtain ⟨y, rfl, h0⟩ := breaks_cons' (by decide) h; clear h; have h := h0; clear h0
    obtain ⟨x, y, rfl, hx, hy⟩ := breaks_split' (.inr (head_ne (by decide))) h
    obtain ⟨z, rfl, hz⟩ := breaks_cons' (by decide) hy
    cases hz
    exact .array (elements_breaks' he hx)
  | _, _, .object (t := t) he, s, h => by
    obtain ⟨y, rfl, h0⟩ := breaks_cons' (by decide) h; clear h; have h := h0; clear h0
    obtain ⟨x, y, rfl, hx, hy⟩ := breaks_split' (.inr (head_ne (by decide))) h
    obtain ⟨z, rfl, hz⟩ := breaks_cons' (by decide) hy
    cases hz
    exact .object (members_breaks' he hx)

theorem elements_breaks' : ∀ {s : PyStr} {vs : List Json}, JsonElements s vs → ∀ {t : PyStr}, Breaks s t → JsonElements t vs
  | _, _, .one hw hv hw', s, h => by
    obtain ⟨x, y, rfl, hx, hy⟩ := breaks_split' (.inr (value_head_ne hv _)) h
    obtain ⟨z, u, rfl, hz, hu⟩ := breaks_split' (.inl (value_back hv)) hy
    exact .one ((breaks_blanks hx).mp hw) (value_breaks' hv hz) ((breaks_blanks hu).mp hw')
  | _, _, .more hw hv hw' he, s, h => by
    obtain ⟨x, y, rfl, hx, hy⟩ := breaks_split' (.inr (value_head_ne hv _)) h
    obtain ⟨z, u, rfl, hz, hu⟩ := breaks_split' (.inl (value_back hv)) hy
    obtain ⟨p, q, rfl, hp, hq⟩ := breaks_split' (.inr (head_ne (by decide))) hu
    obtain ⟨r, rfl, hr⟩ := breaks_cons' (by decide) hq
    exact .more ((breaks_blanks hx).mp hw) (value_breaks' hv hz) ((breaks_blanks hp).mp hw') (elements_breaks' he hr)

theorem members_breaks' : ∀ {s : PyStr} {ms : List (PyStr × Json)}, JsonMembers s ms → ∀ {t : PyStr}, Breaks s t → JsonMembers t ms
  | _, _, .one hw hk hw' hw'' hv hw''', s, h => by
    obtain ⟨x, y, rfl, hx, h0⟩ := breaks_split' (.inr (head_ne (by decide))) h; clear h; have h := h0; clear h0
    obtain ⟨y, rfl, h0⟩ := breaks_cons' (by decide) h; clear h; have h := h0; clear h0
    obtain ⟨q, y, rfl, hq, h0⟩ := breaks_split' (.inr (head_ne (by decide))) h; clear h; have h := h0; clear h0
    obtain ⟨y, rfl, h0⟩ := breaks_cons' (by decide) h; clear h; have h := h0; clear h0
    obtain ⟨w1, y, rfl, hw1, h0⟩ := breaks_split' (.inr (head_ne (by decide))) h; clear h; have h := h0; clear h0
    obtain ⟨y, rfl, h0⟩ := breaks_cons' (by decide) h; clear h; have h := h0; clear h0
    obtain ⟨w2, y, rfl, hw2, h0⟩ := breaks_split' (.inr (value_head_ne hv _)) h; clear h; have h := h0; clear h0
    obtain ⟨z, w3, rfl, hz, hw3⟩ := breaks_split' (.inl (value_back hv)) h
    rw [← breaks_id' hq (ge_not (chars_ge hk)).2]
    exact .one ((breaks_blanks hx).mp hw) hk ((breaks_blanks hw1).mp hw') ((breaks_blanks hw2).mp hw'') (value_breaks' hv hz)
      ((breaks_blanks hw3).mp hw''')
  | _, _, .more hw hk hw' hw'' hv hw''' hm, s, h => by
    obtain ⟨x, y, rfl, hx, h0⟩ := breaks_split' (.inr (head_ne (by decide))) h; clear h; have h := h0; clear h0
    obtain ⟨y, rfl, h0⟩ := breaks_cons' (by decide) h; clear h; have h := h0; clear h0
    obtain ⟨q, y, rfl, hq, h0⟩ := breaks_split' (.inr (head_ne (by decide))) h; clear h; have h := h0; clear h0
    obtain ⟨y, rfl, h0⟩ := breaks_cons' (by decide) h; clear h; have h := h0; clear h0
    obtain ⟨w1, y, rfl, hw1, h0⟩ := breaks_split' (.inr (head_ne (by decide))) h; clear h; have h := h0; clear h0
    obtain ⟨y, rfl, h0⟩ := breaks_cons' (by decide) h; clear h; have h := h0; clear h0
    obtain ⟨w2, y, rfl, hw2, h0⟩ := breaks_split' (.inr (value_head_ne hv _)) h; clear h; have h := h0; clear h0
    obtain ⟨z, y, rfl, hz, h0⟩ := breaks_split' (.inl (value_back hv)) h; clear h; have h := h0; clear h0
    obtain ⟨w3, y, rfl, hw3, h0⟩ := breaks_split' (.inr (head_ne (by decide))) h; clear h; have h := h0; clear h0
    obtain ⟨y, rfl, h0⟩ := breaks_cons' (by decide) h; clear h; have h := h0; clear h0
    rw [← breaks_id' hq (ge_not (chars_ge hk)).2]
    exact .more ((breaks_blanks hx).mp hw) hk ((breaks_blanks hw1).mp hw') ((breaks_blanks hw2).mp hw'') (value_breaks' hv hz)
      ((breaks_blanks hw3).mp hw''') (members_breaks' hm h)

end

/-- Line breaks do not matter for a JSON text. -/
theorem text_newlines (s : PyStr) (v : Json) : JsonText (newlines s) v ↔ JsonText s v := by
  have hb := newlines_breaks s
  constructor
  · rintro ⟨w, t, w', hw, hv, hw', e⟩
    rw [e] at hb
    obtain ⟨x, y, rfl, hx, hy⟩ := breaks_split hb
    obtain ⟨z, u, rfl, hz, hu⟩ := breaks_split hy
    exact ⟨x, z, u, (breaks_blanks hx).mpr hw, value_breaks hv hz, (breaks_blanks hu).mpr hw', rfl⟩
  · rintro ⟨w, t, w', hw, hv, hw', rfl⟩
    obtain ⟨x, y, e, hx, hy⟩ := breaks_split' (.inr (value_head_ne hv _)) hb
    obtain ⟨z, u, rfl, hz, hu⟩ := breaks_split' (.inl (value_back hv)) hy
    exact ⟨x, z, u, (breaks_blanks hx).mp hw, value_breaks' hv hz, (breaks_blanks hu).mp hw', e⟩

end NumberParser
