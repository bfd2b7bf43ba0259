import Verif.Spec.Json

/-! # `loads` reads exactly the grammar of Verif/Spec/Json.lean -/

namespace NumberParser

open Gen Spec

/-! ## White space -/

theorem jsonSpace_iff {c : Nat} : isJsonSpace c = true ↔ c = 32 ∨ c = 9 ∨ c = 10 ∨ c = 13 := by
  unfold isJsonSpace; simp [Bool.or_eq_true, or_assoc]

theorem skipWs_append {w r : PyStr} (hw : JsonBlanks w) : skipWs (w ++ r) = skipWs r := by
  induction w with
  | nil => rfl
  | cons c w ih =>
    rw [List.cons_append, skipWs, if_pos (jsonSpace_iff.mpr (hw c (by simp)))]
    exact ih (fun d hd => hw d (List.mem_cons_of_mem _ hd))

theorem skipWs_blanks {w : PyStr} (hw : JsonBlanks w) : skipWs w = [] := by
  have := skipWs_append (r := []) hw
  rw [List.append_nil] at this; exact this

theorem skipWs_split (s : PyStr) : ∃ w, JsonBlanks w ∧ s = w ++ skipWs s := by
  induction s with
  | nil => exact ⟨[], (by intro c h; cases h), rfl⟩
  | cons c r ih =>
    unfold skipWs
    split
    · rename_i h
      obtain ⟨w, hw, e⟩ := ih
      refine ⟨c :: w, ?_, by rw [List.cons_append, ← e]⟩
      intro d hd
      rcases List.mem_cons.mp hd with rfl | hd
      · exact jsonSpace_iff.mp h
      · exact hw d hd
    · exact ⟨[], (by intro c h; cases h), rfl⟩

theorem skipWs_stay {c : Nat} {r : PyStr} (h : isJsonSpace c = false) : skipWs (c :: r) = c :: r := by
  rw [skipWs, if_neg (by rw [h]; simp)]

/-! ## Strings -/

theorem hexValue_iff {c v : Nat} : hexValue c = some v ↔ HexDigit c v := by
  unfold hexValue HexDigit
  constructor
  · intro h
    split at h
    · rename_i h1; injection h with h; omega
    · split at h
      · rename_i h1; injection h with h; omega
      · split at h
        · rename_i h1; injection h with h; omega
        · cases h
  · rintro (h | h | h)
    · rw [if_pos (by omega)]; congr 1; omega
    · rw [if_neg (by omega), if_pos (by omega)]; congr 1; omega
    · rw [if_neg (by omega), if_neg (by omega), if_pos (by omega)]; congr 1; omega

theorem hex4_iff {a b c d u : Nat} : hex4 a b c d = some u ↔ UnicodeEscape [92, 117, a, b, c, d] u := by
  unfold hex4 UnicodeEscape
  constructor
  · intro h
    split at h
    · rename_i v1 v2 v3 v4 h1 h2 h3 h4
      injection h with h
      exact ⟨a, b, c, d, v1, v2, v3, v4, rfl, hexValue_iff.mp h1, hexValue_iff.mp h2, hexValue_iff.mp h3, hexValue_iff.mp h4, by omega⟩
    · cases h
  · rintro ⟨a', b', c', d', v1, v2, v3, v4, e, h1, h2, h3, h4, rfl⟩
    injection e with _ e; injection e with _ e; injection e with e1 e; injection e with e2 e; injection e with e3 e
    injection e with e4 _
    subst e1 e2 e3 e4
    rw [hexValue_iff.mpr h1, hexValue_iff.mpr h2, hexValue_iff.mpr h3, hexValue_iff.mpr h4]
    show some _ = some _
    congr 1; omega

theorem isHigh_iff {u : Nat} : isHigh u = true ↔ HighSurrogate u := by
  unfold isHigh HighSurrogate; rw [decide_eq_true_iff]; omega

theorem isLow_iff {u : Nat} : isLow u = true ↔ LowSurrogate u := by
  unfold isLow LowSurrogate; rw [decide_eq_true_iff]; omega

theorem lowAfter_iff {t : PyStr} {l : Nat} : lowAfter t = some l ↔ ∃ k t', UnicodeEscape k l ∧ LowSurrogate l ∧ t = k ++ t' := by
  constructor
  · intro h
    unfold lowAfter at h
    split at h
    · rename_i x y a b c d r
      split at h
      · rename_i hxy
        split at h
        · rename_i u hu
          split at h
          · rename_i hl
            injection h with h; subst h
            refine ⟨[92, 117, a, b, c, d], r, hex4_iff.mp hu, isLow_iff.mp hl, ?_⟩
            rw [hxy.1, hxy.2]; rfl
          · cases h
        · cases h
      · cases h
    · cases h
  · rintro ⟨k, t', hk, hl, rfl⟩
    have hk' := hk
    obtain ⟨a, b, c, d, _, _, _, _, rfl, _⟩ := hk'
    show lowAfter (92 :: 117 :: a :: b :: c :: d :: t') = some l
    unfold lowAfter
    simp only [and_self, if_true, hex4_iff.mpr hk, if_pos (isLow_iff.mpr hl)]

theorem lowAfter_none {t : PyStr} : lowAfter t = none ↔ ¬ ∃ k l t', UnicodeEscape k l ∧ LowSurrogate l ∧ t = k ++ t' := by
  constructor
  · rintro h ⟨k, l, t', h1, h2, h3⟩
    rw [lowAfter_iff.mpr ⟨k, t', h1, h2, h3⟩] at h; cases h
  · intro h
    cases e : lowAfter t with
    | none => rfl
    | some l =>
      obtain ⟨k, t', h1, h2, h3⟩ := lowAfter_iff.mp e
      exact (h ⟨k, l, t', h1, h2, h3⟩).elim

theorem simpleEscape_iff {e x : Nat} : simpleEscape e = some x ↔ (e, x) ∈ shortEscapes := by
  unfold simpleEscape shortEscapes
  constructor
  · intro h
    repeat' split at h
    all_goals first | (injection h with h; subst h; subst e; decide) | cases h
  · intro h
    simp only [List.mem_cons, Prod.mk.injEq, List.not_mem_nil, or_false] at h
    rcases h with ⟨rfl, rfl⟩ | ⟨rfl, rfl⟩ | ⟨rfl, rfl⟩ | ⟨rfl, rfl⟩ | ⟨rfl, rfl⟩ | ⟨rfl, rfl⟩ | ⟨rfl, rfl⟩ | ⟨rfl, rfl⟩ <;> rfl

theorem short_ne {e x : Nat} (h : (e, x) ∈ shortEscapes) : e ≠ 117 := by
  rintro rfl
  simp [shortEscapes] at h

/-- What follows a text between quotation marks does not make it start with an escape. -/
theorem escape_front {t s : PyStr} (h : JsonChars t s) {k r t' : PyStr} {l : Nat} (hk : UnicodeEscape k l) (e : t ++ 34 :: r = k ++ t') :
    ∃ t'', t = k ++ t'' := by
  obtain ⟨a, b, c, d, _, _, _, _, rfl, _⟩ := hk
  have e : t ++ 34 :: r = 92 :: 117 :: a :: b :: c :: d :: t' := e
  cases h with
  | nil => injection e with e _; exact absurd e (by decide)
  | plain _ _ h3 _ => injection e with e _; exact absurd e h3
  | short hm _ => injection e with _ e; injection e with e _; exact absurd e (short_ne hm)
  | @unicode k t s u hk2 _ _ =>
    obtain ⟨a', b', c', d', _, _, _, _, rfl, _⟩ := hk2
    have e : 92 :: 117 :: a' :: b' :: c' :: d' :: (t ++ 34 :: r) = 92 :: 117 :: a :: b :: c :: d :: t' := by
      rw [← e]; simp
    injection e with _ e; injection e with _ e; injection e with e1 e; injection e with e2 e; injection e with e3 e
    injection e with e4 _
    subst e1 e2 e3 e4
    exact ⟨t, rfl⟩
  | @pair k k' t s h l hk2 _ _ _ _ =>
    obtain ⟨a', b', c', d', _, _, _, _, rfl, _⟩ := hk2
    have e : 92 :: 117 :: a' :: b' :: c' :: d' :: (k' ++ t ++ 34 :: r) = 92 :: 117 :: a :: b :: c :: d :: t' := by
      rw [← e]; simp
    injection e with _ e; injection e with _ e; injection e with e1 e; injection e with e2 e; injection e with e3 e
    injection e with e4 _
    subst e1 e2 e3 e4
    exact ⟨k' ++ t, rfl⟩

theorem jstr_complete {t s : PyStr} (h : JsonChars t s) (r : PyStr) : jstr (t ++ 34 :: r) = some (s, r) := by
  induction h with
  | nil => rw [List.nil_append, jstr.eq_def]; simp
  | @plain c t s h1 h2 h3 h ih =>
    rw [List.cons_append, jstr.eq_def]
    simp only [if_neg h2, if_neg (show ¬ c < 32 by omega), if_neg h3, ih, pushChar]
  | @short e x t s hm h ih =>
    show jstr (92 :: e :: (t ++ 34 :: r)) = _
    rw [jstr.eq_def]
    simp only [if_neg (show ¬ (92 : Nat) = 34 by decide), if_neg (show ¬ (92 : Nat) < 32 by decide), if_neg (short_ne hm),
      if_true, simpleEscape_iff.mpr hm, ih, pushChar]
  | @unicode k t s u hk hn h ih =>
    have hk' := hk
    obtain ⟨a, b, c, d, _, _, _, _, rfl, _⟩ := hk'
    show jstr (92 :: 117 :: a :: b :: c :: d :: (t ++ 34 :: r)) = _
    rw [jstr.eq_def]
    simp only [if_neg (show ¬ (92 : Nat) = 34 by decide), if_neg (show ¬ (92 : Nat) < 32 by decide), if_true, hex4_iff.mpr hk]
    split
    · rename_i hh
      have : lowAfter (t ++ 34 :: r) = none := by
        rw [lowAfter_none]
        rintro ⟨k', l, t', h1, h2, h3⟩
        obtain ⟨t'', e⟩ := escape_front h h1 h3
        exact hn (isHigh_iff.mp hh) ⟨k', l, t'', h1, h2, e⟩
      simp only [this, ih, pushChar]
    · simp only [ih, pushChar]
  | @pair k k' t s hi l hk hh hk2 hl h ih =>
    have hk' := hk
    have hk2' := hk2
    obtain ⟨a, b, c, d, _, _, _, _, rfl, _⟩ := hk'
    obtain ⟨a', b', c', d', _, _, _, _, rfl, _⟩ := hk2'
    show jstr (92 :: 117 :: a :: b :: c :: d :: 92 :: 117 :: a' :: b' :: c' :: d' :: (t ++ 34 :: r)) = _
    have hl' : lowAfter (92 :: 117 :: a' :: b' :: c' :: d' :: (t ++ 34 :: r)) = some l :=
      lowAfter_iff.mpr ⟨[92, 117, a', b', c', d'], t ++ 34 :: r, hk2, hl, rfl⟩
    rw [jstr.eq_def]
    simp only [if_neg (show ¬ (92 : Nat) = 34 by decide), if_neg (show ¬ (92 : Nat) < 32 by decide), if_true, hex4_iff.mpr hk,
      if_pos (isHigh_iff.mpr hh), hl', ih, pushChar]
    rfl

theorem pushChar_some {c : Nat} {x : Option (PyStr × PyStr)} {s r : PyStr} (h : pushChar c x = some (s, r)) :
    ∃ s', x = some (s', r) ∧ s = c :: s' := by
  cases x with
  | none => cases h
  | some p =>
    obtain ⟨s', r'⟩ := p
    simp only [pushChar, Option.some.injEq, Prod.mk.injEq] at h
    exact ⟨s', by rw [h.2], h.1.symm⟩

theorem jstr_sound : ∀ (n : Nat) (t : PyStr), t.length ≤ n → ∀ s r, jstr t = some (s, r) → ∃ q, t = q ++ 34 :: r ∧ JsonChars q s := by
  intro n
  induction n with
  | zero =>
    intro t ht s r h
    cases t with
    | nil => cases h
    | cons c t => simp at ht
  | succ n ih =>
    intro t ht s r h
    cases t with
    | nil => cases h
    | cons c t =>
      rw [jstr.eq_def] at h
      simp only at h
      have hlen : t.length ≤ n := by simpa using ht
      split at h
      · rename_i hc
        simp only [Option.some.injEq, Prod.mk.injEq] at h
        obtain ⟨rfl, rfl⟩ := h
        exact ⟨[], by rw [hc]; rfl, .nil⟩
      rename_i h34
      split at h
      · cases h
      rename_i h32
      split at h
      · rename_i h92
        subst h92
        cases t with
        | nil => cases h
        | cons e t =>
          simp only at h
          have hlen : t.length ≤ n := by simp at hlen; omega
          split at h
          · rename_i he
            subst he
            split at h
            · rename_i _ a b c d t _
              split at h
              · cases h
              · rename_i u hu
                have hk := hex4_iff.mp hu
                split at h
                · rename_i hh
                  split at h
                  · rename_i hn
                    obtain ⟨s', h1, rfl⟩ := pushChar_some h
                    obtain ⟨q, hq, hc⟩ := ih _ (by simp at hlen; omega) _ _ h1
                    refine ⟨[92, 117, a, b, c, d] ++ q, by rw [hq]; rfl, .unicode hk ?_ hc⟩
                    rintro _ ⟨k', l, t', e1, e2, e3⟩
                    exact lowAfter_none.mp hn ⟨k', l, t' ++ 34 :: r, e1, e2, by rw [hq, e3]; simp⟩
                  · rename_i w hw
                    obtain ⟨k', t', e1, e2, e3⟩ := lowAfter_iff.mp hw
                    have e1' := e1
                    obtain ⟨a', b', c', d', _, _, _, _, rfl, _⟩ := e1'
                    subst e3
                    simp only [List.cons_append, List.nil_append] at h
                    obtain ⟨s', h1, rfl⟩ := pushChar_some h
                    obtain ⟨q, hq, hc⟩ := ih _ (by simp at hlen; omega) _ _ h1
                    refine ⟨[92, 117, a, b, c, d] ++ ([92, 117, a', b', c', d'] ++ q), by rw [hq]; simp, .pair hk (isHigh_iff.mp hh) e1 e2 hc⟩
                · rename_i hh
                  obtain ⟨s', h1, rfl⟩ := pushChar_some h
                  obtain ⟨q, hq, hc⟩ := ih _ (by simp at hlen; omega) _ _ h1
                  exact ⟨[92, 117, a, b, c, d] ++ q, by rw [hq]; rfl, .unicode hk (fun h' => absurd (isHigh_iff.mpr h') hh) hc⟩
            · cases h
          · rename_i he
            split at h
            · cases h
            · rename_i x hx
              obtain ⟨s', h1, rfl⟩ := pushChar_some h
              obtain ⟨q, hq, hc⟩ := ih _ hlen _ _ h1
              exact ⟨92 :: e :: q, by rw [hq]; rfl, .short (simpleEscape_iff.mp hx) hc⟩
      · rename_i h92
        obtain ⟨s', h1, rfl⟩ := pushChar_some h
        obtain ⟨q, hq, hc⟩ := ih _ hlen _ _ h1
        exact ⟨c :: q, by rw [hq]; rfl, .plain (by omega) h34 h92 hc⟩

end NumberParser
