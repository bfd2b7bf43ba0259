import Verif.Proofs.JsonNumber

/-! # Values of JSON -/

namespace NumberParser

open Gen Spec

/-- What may follow a value: the end, white space, a comma, a closing bracket or brace -/
def StopVal (r : PyStr) : Prop := ∀ c x, r = c :: x → isJsonSpace c = true ∨ c = 44 ∨ c = 93 ∨ c = 125

theorem stop_num {r : PyStr} (h : StopVal r) : StopNum r := by
  intro c x e
  have hd : ∀ {c : Nat}, ¬ (48 ≤ c ∧ c ≤ 57) → isDigit c = false := by
    intro c h; cases hh : isDigit c with
    | false => rfl
    | true => exact absurd (isDigit_iff.mp hh) h
  rcases h c x e with h | h | h | h
  · rw [jsonSpace_iff] at h
    exact ⟨hd (by omega), by omega, by omega, by omega⟩
  all_goals exact ⟨hd (by omega), by omega, by omega, by omega⟩

theorem stop_blanks {w r : PyStr} (hw : JsonBlanks w) (hr : StopVal r) : StopVal (w ++ r) := by
  cases w with
  | nil => exact hr
  | cons c w =>
    intro d x e
    injection e with e _
    rw [← e]; exact .inl (jsonSpace_iff.mpr (hw c (by simp)))

theorem stop_cons {c : Nat} {r : PyStr} (h : c = 44 ∨ c = 93 ∨ c = 125) : StopVal (c :: r) := by
  intro d x e
  injection e with e _
  rw [← e]; exact .inr h

/-- The first character of a value is not white space and not a closing bracket. -/
theorem value_front {t : PyStr} {v : Json} (h : JsonValue t v) : ∃ c x, t = c :: x ∧ isJsonSpace c = false ∧ c ≠ 93 ∧ c ≠ 125 := by
  cases h with
  | null => exact ⟨_, _, rfl, by decide, by decide, by decide⟩
  | true => exact ⟨_, _, rfl, by decide, by decide, by decide⟩
  | false => exact ⟨_, _, rfl, by decide, by decide, by decide⟩
  | nan => exact ⟨_, _, rfl, by decide, by decide, by decide⟩
  | infinity => exact ⟨_, _, rfl, by decide, by decide, by decide⟩
  | minusInfinity => exact ⟨_, _, rfl, by decide, by decide, by decide⟩
  | number h =>
    have key : ∀ (negative : Bool) {i y : PyStr}, JsonInt i →
        ∃ c x, signText negative ++ (i ++ y) = c :: x ∧ isJsonSpace c = false ∧ c ≠ 93 ∧ c ≠ 125 := by
      intro negative i y hi
      obtain ⟨hd, _⟩ := hi
      cases i with
      | nil => exact absurd rfl hd.1
      | cons c i' =>
        have hc := hd.2 c (by simp)
        cases negative with
        | true => exact ⟨45, _, rfl, by decide, by decide, by decide⟩
        | false =>
          refine ⟨c, _, rfl, ?_, by omega, by omega⟩
          cases hh : isJsonSpace c with
          | false => rfl
          | true => rw [jsonSpace_iff] at hh; omega
    cases h with
    | @int i negative hi hl =>
      have := key negative (y := []) hi
      rw [List.append_nil] at this; exact this
    | @float i f ds x e negative hi hf hx hne => exact key negative hi
  | string _ => exact ⟨_, _, rfl, by decide, by decide, by decide⟩
  | emptyArray _ => exact ⟨_, _, rfl, by decide, by decide, by decide⟩
  | array _ => exact ⟨_, _, rfl, by decide, by decide, by decide⟩
  | emptyObject _ => exact ⟨_, _, rfl, by decide, by decide, by decide⟩
  | object _ => exact ⟨_, _, rfl, by decide, by decide, by decide⟩

theorem elements_front {t : PyStr} {vs : List Json} (h : JsonElements t vs) (r : PyStr) :
    ∃ c x, skipWs (t ++ r) = c :: x ∧ c ≠ 93 := by
  cases h with
  | @one w t w' v hw hv hw' =>
    obtain ⟨c, x, rfl, h1, h2, _⟩ := value_front hv
    refine ⟨c, x ++ w' ++ r, ?_, h2⟩
    rw [List.append_assoc, skipWs_append hw]
    simp only [List.cons_append, List.append_assoc]
    exact skipWs_stay h1
  | @more w t w' r' v vs hw hv hw' _ =>
    obtain ⟨c, x, rfl, h1, h2, _⟩ := value_front hv
    refine ⟨c, x ++ (w' ++ 44 :: (r' ++ r)), ?_, h2⟩
    rw [List.append_assoc, skipWs_append hw]
    simp only [List.cons_append, List.append_assoc]
    exact skipWs_stay h1

theorem members_front {t : PyStr} {ms : List (PyStr × Json)} (h : JsonMembers t ms) (r : PyStr) :
    ∃ x, skipWs (t ++ r) = 34 :: x := by
  cases h with
  | one hw _ _ _ _ _ => exact ⟨_, by rw [List.append_assoc, skipWs_append hw]; rfl⟩
  | more hw _ _ _ _ _ _ => exact ⟨_, by rw [List.append_assoc, skipWs_append hw]; rfl⟩

theorem jvalue_const {fuel : Nat} {t r : PyStr} {v : Json} {c : Nat} {x : PyStr} (e : t = c :: x) (h1 : c ≠ 34) (h2 : c ≠ 123) (h3 : c ≠ 91)
    (h : jconst (t ++ r) = some (v, r)) : jvalue (fuel + 1) (t ++ r) = some (v, r) := by
  subst e
  rw [List.cons_append, jvalue, if_neg h1, if_neg h2, if_neg h3, ← List.cons_append, h]

mutual

theorem jvalue_complete : ∀ {t : PyStr} {v : Json}, JsonValue t v → ∀ (fuel : Nat) (r : PyStr), 2 * t.length ≤ fuel → StopVal r →
    jvalue fuel (t ++ r) = some (v, r)
  | _, _, .null, fuel, r, hf, _ => by
    obtain ⟨f, rfl⟩ : ∃ f, fuel = f + 1 := ⟨fuel - 1, by simp at hf; omega⟩
    exact jvalue_const rfl (by decide) (by decide) (by decide) rfl
  | _, _, .true, fuel, r, hf, _ => by
    obtain ⟨f, rfl⟩ : ∃ f, fuel = f + 1 := ⟨fuel - 1, by simp at hf; omega⟩
    exact jvalue_const rfl (by decide) (by decide) (by decide) rfl
  | _, _, .false, fuel, r, hf, _ => by
    obtain ⟨f, rfl⟩ : ∃ f, fuel = f + 1 := ⟨fuel - 1, by simp at hf; omega⟩
    exact jvalue_const rfl (by decide) (by decide) (by decide) rfl
  | _, _, .nan, fuel, r, hf, _ => by
    obtain ⟨f, rfl⟩ : ∃ f, fuel = f + 1 := ⟨fuel - 1, by simp at hf; omega⟩
    exact jvalue_const rfl (by decide) (by decide) (by decide) rfl
  | _, _, .infinity, fuel, r, hf, _ => by
    obtain ⟨f, rfl⟩ : ∃ f, fuel = f + 1 := ⟨fuel - 1, by simp at hf; omega⟩
    exact jvalue_const rfl (by decide) (by decide) (by decide) rfl
  | _, _, .minusInfinity, fuel, r, hf, _ => by
    obtain ⟨f, rfl⟩ : ∃ f, fuel = f + 1 := ⟨fuel - 1, by simp at hf; omega⟩
    exact jvalue_const rfl (by decide) (by decide) (by decide) rfl
  | t, v, .number h, fuel, r, hf, hr => by
    have hc := jconst_number (r := r) h
    have hn := jnum_complete h (stop_num hr)
    have hne : ∃ c x, t = c :: x ∧ c ≠ 34 ∧ c ≠ 123 ∧ c ≠ 91 := by
      have key : ∀ (negative : Bool) {i y : PyStr}, JsonInt i →
          ∃ c x, signText negative ++ (i ++ y) = c :: x ∧ c ≠ 34 ∧ c ≠ 123 ∧ c ≠ 91 := by
        intro negative i y hi
        obtain ⟨hd, _⟩ := hi
        cases i with
        | nil => exact absurd rfl hd.1
        | cons c i' =>
          have hc := hd.2 c (by simp)
          cases negative with
          | true => exact ⟨45, _, rfl, by decide, by decide, by decide⟩
          | false => exact ⟨c, _, rfl, by omega, by omega, by omega⟩
      cases h with
      | @int i negative hi hl =>
        have := key negative (y := []) hi
        rw [List.append_nil] at this; exact this
      | @float i f ds x e negative hi hf hx hne => exact key negative hi
    obtain ⟨c, x, rfl, h1, h2, h3⟩ := hne
    obtain ⟨f, rfl⟩ : ∃ f, fuel = f + 1 := ⟨fuel - 1, by simp at hf; omega⟩
    rw [List.cons_append] at hc hn
    rw [List.cons_append, jvalue, if_neg h1, if_neg h2, if_neg h3, hc]
    exact hn
  | _, _, .string (t := q) (s := s) h, fuel, r, hf, _ => by
    obtain ⟨f, rfl⟩ : ∃ f, fuel = f + 1 := ⟨fuel - 1, by simp at hf; omega⟩
    have : 34 :: (q ++ [34]) ++ r = 34 :: (q ++ 34 :: r) := by simp
    rw [this, jvalue, if_pos rfl, jstr_complete h r]
  | _, _, .emptyArray (w := w) h, fuel, r, hf, _ => by
    obtain ⟨f, rfl⟩ : ∃ f, fuel = f + 1 := ⟨fuel - 1, by simp at hf; omega⟩
    have : 91 :: (w ++ [93]) ++ r = 91 :: (w ++ 93 :: r) := by simp
    rw [this, jvalue, if_neg (by decide), if_neg (by decide), if_pos rfl, skipWs_append h, skipWs_stay (by decide)]
    simp
  | _, _, .emptyObject (w := w) h, fuel, r, hf, _ => by
    obtain ⟨f, rfl⟩ : ∃ f, fuel = f + 1 := ⟨fuel - 1, by simp at hf; omega⟩
    have : 123 :: (w ++ [125]) ++ r = 123 :: (w ++ 125 :: r) := by simp
    rw [this, jvalue, if_neg (by decide), if_pos rfl, skipWs_append h, skipWs_stay (by decide)]
    simp
  | _, _, .array (t := b) (vs := vs) h, fuel, r, hf, _ => by
    obtain ⟨f, rfl⟩ : ∃ f, fuel = f + 1 := ⟨fuel - 1, by simp at hf; omega⟩
    have : 91 :: (b ++ [93]) ++ r = 91 :: (b ++ 93 :: r) := by simp
    obtain ⟨c, x, e, hc⟩ := elements_front h (93 :: r)
    have ih := jelements_complete h f r (by simp at hf; omega)
    rw [e] at ih
    rw [this, jvalue, if_neg (by decide), if_neg (by decide), if_pos rfl, e]
    simp only [if_neg hc, ih]
  | _, _, .object (t := b) (ms := ms) h, fuel, r, hf, _ => by
    obtain ⟨f, rfl⟩ : ∃ f, fuel = f + 1 := ⟨fuel - 1, by simp at hf; omega⟩
    have : 123 :: (b ++ [125]) ++ r = 123 :: (b ++ 125 :: r) := by simp
    obtain ⟨x, e⟩ := members_front h (125 :: r)
    have ih := jmembers_complete h f r (by simp at hf; omega)
    rw [e] at ih
    rw [this, jvalue, if_neg (by decide), if_pos rfl, e]
    simp only [if_neg (show ¬ (34 : Nat) = 125 by decide), ih]
    rfl

theorem jelements_complete : ∀ {t : PyStr} {vs : List Json}, JsonElements t vs → ∀ (fuel : Nat) (r : PyStr), 2 * t.length + 1 ≤ fuel →
    jelements fuel (skipWs (t ++ 93 :: r)) = some (vs, r)
  | _, _, .one (w := w) (t := t) (w' := w') (v := v) hw hv hw', fuel, r, hf => by
    obtain ⟨f, rfl⟩ : ∃ f, fuel = f + 1 := ⟨fuel - 1, by omega⟩
    have ih := jvalue_complete hv f (w' ++ 93 :: r) (by simp at hf; omega) (stop_blanks hw' (stop_cons (by simp)))
    obtain ⟨c, x, e, h1, _, _⟩ := value_front hv
    have es : skipWs (w ++ (t ++ w') ++ 93 :: r) = t ++ (w' ++ 93 :: r) := by
      rw [List.append_assoc, skipWs_append hw, List.append_assoc, e, List.cons_append, skipWs_stay h1]
    rw [es, jelements, ih]
    simp only [skipWs_append hw', skipWs_stay (show isJsonSpace 93 = false by decide), if_true]
  | _, _, .more (w := w) (t := t) (w' := w') (r := r') (v := v) (vs := vs) hw hv hw' he, fuel, r, hf => by
    obtain ⟨f, rfl⟩ : ∃ f, fuel = f + 1 := ⟨fuel - 1, by omega⟩
    have ih := jvalue_complete hv f (w' ++ 44 :: (r' ++ 93 :: r)) (by simp at hf; omega) (stop_blanks hw' (stop_cons (by simp)))
    have ih2 := jelements_complete he f r (by simp at hf; omega)
    obtain ⟨c, x, e, h1, _, _⟩ := value_front hv
    have es : skipWs (w ++ (t ++ (w' ++ 44 :: r')) ++ 93 :: r) = t ++ (w' ++ 44 :: (r' ++ 93 :: r)) := by
      rw [List.append_assoc, skipWs_append hw, List.append_assoc, e, List.cons_append, skipWs_stay h1]; simp
    rw [es, jelements, ih]
    simp only [skipWs_append hw', skipWs_stay (show isJsonSpace 44 = false by decide), if_true, if_neg (show ¬ (44 : Nat) = 93 by decide), ih2]

theorem jmembers_complete : ∀ {t : PyStr} {ms : List (PyStr × Json)}, JsonMembers t ms → ∀ (fuel : Nat) (r : PyStr), 2 * t.length + 1 ≤ fuel →
    jmembers fuel (skipWs (t ++ 125 :: r)) = some (ms, r)
  | _, _, .one (w := w) (q := q) (k := k) (w' := w') (w'' := w'') (t := t) (w''' := w''') (v := v) hw hk hw' hw'' hv hw''', fuel, r, hf => by
    obtain ⟨f, rfl⟩ : ∃ f, fuel = f + 1 := ⟨fuel - 1, by omega⟩
    have ih := jvalue_complete hv f (w''' ++ 125 :: r) (by simp at hf; omega) (stop_blanks hw''' (stop_cons (by simp)))
    obtain ⟨c, x, e, h1, _, _⟩ := value_front hv
    have es : skipWs (w ++ 34 :: (q ++ 34 :: (w' ++ 58 :: (w'' ++ (t ++ w''')))) ++ 125 :: r) =
        34 :: (q ++ 34 :: (w' ++ 58 :: (w'' ++ (t ++ (w''' ++ 125 :: r))))) := by
      rw [List.append_assoc, skipWs_append hw, List.cons_append, skipWs_stay (by decide)]; simp
    have et : skipWs (w'' ++ (t ++ (w''' ++ 125 :: r))) = t ++ (w''' ++ 125 :: r) := by
      rw [skipWs_append hw'', e, List.cons_append, skipWs_stay h1]
    rw [es, jmembers, if_pos rfl, jstr_complete hk]
    simp only [skipWs_append hw', skipWs_stay (show isJsonSpace 58 = false by decide), if_true, et, ih, skipWs_append hw''',
      skipWs_stay (show isJsonSpace 125 = false by decide)]
  | _, _, .more (w := w) (q := q) (k := k) (w' := w') (w'' := w'') (t := t) (w''' := w''') (r := r') (v := v) (ms := ms) hw hk hw' hw'' hv hw''' hm, fuel, r, hf => by
    obtain ⟨f, rfl⟩ : ∃ f, fuel = f + 1 := ⟨fuel - 1, by omega⟩
    have ih := jvalue_complete hv f (w''' ++ 44 :: (r' ++ 125 :: r)) (by simp at hf; omega) (stop_blanks hw''' (stop_cons (by simp)))
    have ih2 := jmembers_complete hm f r (by simp at hf; omega)
    obtain ⟨c, x, e, h1, _, _⟩ := value_front hv
    have es : skipWs (w ++ 34 :: (q ++ 34 :: (w' ++ 58 :: (w'' ++ (t ++ (w''' ++ 44 :: r'))))) ++ 125 :: r) =
        34 :: (q ++ 34 :: (w' ++ 58 :: (w'' ++ (t ++ (w''' ++ 44 :: (r' ++ 125 :: r)))))) := by
      rw [List.append_assoc, skipWs_append hw, List.cons_append, skipWs_stay (by decide)]; simp
    have et : skipWs (w'' ++ (t ++ (w''' ++ 44 :: (r' ++ 125 :: r)))) = t ++ (w''' ++ 44 :: (r' ++ 125 :: r)) := by
      rw [skipWs_append hw'', e, List.cons_append, skipWs_stay h1]
    rw [es, jmembers, if_pos rfl, jstr_complete hk]
    simp only [skipWs_append hw', skipWs_stay (show isJsonSpace 58 = false by decide), if_true, et, ih, skipWs_append hw''',
      skipWs_stay (show isJsonSpace 44 = false by decide), if_neg (show ¬ (44 : Nat) = 125 by decide), ih2]

end

/-- Splitting off white space -/
theorem skipWs_cons {s r : PyStr} {c : Nat} (h : skipWs s = c :: r) : ∃ w, JsonBlanks w ∧ s = w ++ c :: r := by
  obtain ⟨w, hw, e⟩ := skipWs_split s
  exact ⟨w, hw, by rw [← h]; exact e⟩

theorem json_sound (fuel : Nat) :
    (∀ s v r, jvalue fuel s = some (v, r) → ∃ t, s = t ++ r ∧ JsonValue t v) ∧
    (∀ s vs r w, JsonBlanks w → jelements fuel s = some (vs, r) → ∃ t, w ++ s = t ++ 93 :: r ∧ JsonElements t vs) ∧
    (∀ s ms r w, JsonBlanks w → jmembers fuel s = some (ms, r) → ∃ t, w ++ s = t ++ 125 :: r ∧ JsonMembers t ms) := by
  induction fuel with
  | zero =>
    refine ⟨?_, ?_, ?_⟩
    · intro s v r h; rw [jvalue] at h; cases h
    · intro s v r w _ h; rw [jelements] at h; cases h
    · intro s v r w _ h; rw [jmembers] at h; cases h
  | succ fuel ih =>
    obtain ⟨ih1, ih2, ih3⟩ := ih
    refine ⟨?_, ?_, ?_⟩
    · intro s v r h
      cases s with
      | nil => rw [jvalue] at h; cases h
      | cons c s =>
        rw [jvalue] at h
        split at h
        · rename_i hc
          subst hc
          split at h
          · rename_i q r' hq
            simp only [Option.some.injEq, Prod.mk.injEq] at h; obtain ⟨rfl, rfl⟩ := h
            obtain ⟨t, e, ht⟩ := jstr_sound _ _ (Nat.le_refl _) _ _ hq
            exact ⟨34 :: (t ++ [34]), by rw [e]; simp, .string ht⟩
          · cases h
        split at h
        · rename_i _ hc
          subst hc
          split at h
          · cases h
          · rename_i d s' hs
            obtain ⟨w, hw, e⟩ := skipWs_cons hs
            split at h
            · rename_i hd
              subst hd
              simp only [Option.some.injEq, Prod.mk.injEq] at h; obtain ⟨rfl, rfl⟩ := h
              exact ⟨123 :: (w ++ [125]), by rw [e]; simp, .emptyObject hw⟩
            · split at h
              · rename_i ms r' hm
                simp only [Option.some.injEq, Prod.mk.injEq] at h; obtain ⟨rfl, rfl⟩ := h
                obtain ⟨t, e2, ht⟩ := ih3 _ _ _ w hw hm
                exact ⟨123 :: (t ++ [125]), by rw [e, e2]; simp, .object ht⟩
              · cases h
        split at h
        · rename_i _ _ hc
          subst hc
          split at h
          · cases h
          · rename_i d s' hs
            obtain ⟨w, hw, e⟩ := skipWs_cons hs
            split at h
            · rename_i hd
              subst hd
              simp only [Option.some.injEq, Prod.mk.injEq] at h; obtain ⟨rfl, rfl⟩ := h
              exact ⟨91 :: (w ++ [93]), by rw [e]; simp, .emptyArray hw⟩
            · split at h
              · rename_i ms r' hm
                simp only [Option.some.injEq, Prod.mk.injEq] at h; obtain ⟨rfl, rfl⟩ := h
                obtain ⟨t, e2, ht⟩ := ih2 _ _ _ w hw hm
                exact ⟨91 :: (t ++ [93]), by rw [e, e2]; simp, .array ht⟩
              · cases h
        split at h
        · rename_i x hx
          injection h with h; subst h
          exact jconst_sound hx
        · obtain ⟨t, e, ht⟩ := jnum_sound h
          exact ⟨t, e, .number ht⟩
    · intro s vs r w hw h
      rw [jelements] at h
      split at h
      · cases h
      rename_i v r1 hv
      obtain ⟨t, e, ht⟩ := ih1 _ _ _ hv
      split at h
      · cases h
      rename_i c r2 hs
      obtain ⟨w', hw', e2⟩ := skipWs_cons hs
      split at h
      · rename_i hc
        subst hc
        simp only [Option.some.injEq, Prod.mk.injEq] at h; obtain ⟨rfl, rfl⟩ := h
        exact ⟨w ++ (t ++ w'), by rw [e, e2]; simp, .one hw ht hw'⟩
      split at h
      · rename_i _ hc
        subst hc
        split at h
        · rename_i vs' r3 hm
          simp only [Option.some.injEq, Prod.mk.injEq] at h; obtain ⟨rfl, rfl⟩ := h
          obtain ⟨w2, hw2, e3⟩ := skipWs_split r2
          obtain ⟨t2, e4, ht2⟩ := ih2 _ _ _ w2 hw2 hm
          exact ⟨w ++ (t ++ (w' ++ 44 :: t2)), by rw [e, e2, e3, e4]; simp, .more hw ht hw' ht2⟩
        · cases h
      · cases h
    · intro s ms r w hw h
      cases s with
      | nil => rw [jmembers] at h; cases h
      | cons q s =>
        rw [jmembers] at h
        split at h
        · rename_i hq
          subst hq
          split at h
          · cases h
          rename_i k r0 hk
          obtain ⟨tk, ek, htk⟩ := jstr_sound _ _ (Nat.le_refl _) _ _ hk
          split at h
          · cases h
          rename_i c r1 hs1
          obtain ⟨w1, hw1, e1⟩ := skipWs_cons hs1
          split at h
          · rename_i hc
            subst hc
            split at h
            · cases h
            rename_i v r2 hv
            obtain ⟨w2, hw2, e2⟩ := skipWs_split r1
            obtain ⟨t, e3, ht⟩ := ih1 _ _ _ hv
            split at h
            · cases h
            rename_i c r4 hs
            obtain ⟨w3, hw3, e4⟩ := skipWs_cons hs
            split at h
            · rename_i hc
              subst hc
              simp only [Option.some.injEq, Prod.mk.injEq] at h; obtain ⟨rfl, rfl⟩ := h
              exact ⟨_, by rw [ek, e1, e2, e3, e4]; simp, .one hw htk hw1 hw2 ht hw3⟩
            split at h
            · rename_i _ hc
              subst hc
              split at h
              · rename_i ms' r5 hm
                simp only [Option.some.injEq, Prod.mk.injEq] at h; obtain ⟨rfl, rfl⟩ := h
                obtain ⟨w4, hw4, e5⟩ := skipWs_split r4
                obtain ⟨t2, e6, ht2⟩ := ih3 _ _ _ w4 hw4 hm
                exact ⟨_, by rw [ek, e1, e2, e3, e4, e5, e6]; simp, .more hw htk hw1 hw2 ht hw3 ht2⟩
              · cases h
            · cases h
          · cases h
        · cases h

theorem value_head {t : PyStr} {v : Json} (h : JsonValue t v) (r : PyStr) : (t ++ r).head? ≠ some 0xFEFF := by
  cases h with
  | number h =>
    have key : ∀ (negative : Bool) {i y : PyStr}, JsonInt i → (signText negative ++ (i ++ y) ++ r).head? ≠ some 0xFEFF := by
      intro negative i y hi
      obtain ⟨hd, _⟩ := hi
      cases i with
      | nil => exact absurd rfl hd.1
      | cons c i' =>
        have hc := hd.2 c (by simp)
        cases negative with
        | true => simp [signText]
        | false => simp [signText]; omega
    cases h with
    | @int i negative hi hl =>
      have := key negative (y := []) hi
      rw [List.append_nil] at this; exact this
    | @float i f ds x e negative hi hf hx hne => exact key negative hi
  | _ => simp

/-- `json.loads` reads exactly the JSON texts, as what they mean. -/
theorem loads_iff (s : PyStr) (v : Json) : loads s = some v ↔ JsonText s v := by
  unfold loads
  constructor
  · intro h
    split at h
    · cases h
    split at h
    · rename_i v' r hv
      split at h
      · rename_i hr
        injection h with h; subst h
        obtain ⟨w, hw, e⟩ := skipWs_split s
        obtain ⟨w', hw', e'⟩ := skipWs_split r
        obtain ⟨t, e2, ht⟩ := (json_sound _).1 _ _ _ hv
        refine ⟨w, t, w', hw, ht, hw', ?_⟩
        rw [hr, List.append_nil] at e'
        rw [e, e2, ← e']
      · cases h
    · cases h
  · rintro ⟨w, t, w', hw, ht, hw', rfl⟩
    have hb : (w ++ (t ++ w')).head? ≠ some 0xFEFF := by
      cases w with
      | nil => exact value_head ht w'
      | cons c w =>
        have := hw c (by simp)
        simp; omega
    rw [if_neg hb]
    obtain ⟨c, x, e, h1, _, _⟩ := value_front ht
    have es : skipWs (w ++ (t ++ w')) = t ++ w' := by
      rw [skipWs_append hw, e, List.cons_append, skipWs_stay h1]
    have stop : StopVal w' := by
      have := stop_blanks hw' (r := []) (by intro c x h; cases h)
      rw [List.append_nil] at this; exact this
    rw [es, jvalue_complete ht _ w' (by simp; omega) stop]
    simp only [skipWs_blanks hw', if_true]

end NumberParser
