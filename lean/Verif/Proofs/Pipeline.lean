import Verif.Model.Pipeline
import Verif.Spec.Module
import Verif.Proofs.Dict
import Verif.Proofs.Tokens
import Verif.Proofs.NumberText

namespace NumberParser
open Spec

theorem lists_nil (f : PyStr) : ¬ Lists [] f := by rintro ⟨_, h, _⟩; cases h

theorem normalizeDict_snoc (d : Dict) (e : PyStr × Nat) :
    normalizeDict (d ++ [e]) = Dict.set (normalizeDict d) (stripAccents e.1) e.2 := by
  simp [normalizeDict, List.foldl_append]

theorem normalize_none (f : PyStr) : ∀ (d : List (PyStr × Nat)), Dict.get? (normalizeDict d.reverse) f = none ↔ ¬ Lists d.reverse f
  | [] => by simp [normalizeDict, Dict.get?, lists_nil]
  | e :: d => by
    rw [List.reverse_cons, normalizeDict_snoc, Dict.get?_set]
    have ih := normalize_none f d
    by_cases h : stripAccents e.1 = f
    · subst h
      simp [Lists]
    · simp only [h, if_false, ih, Lists, List.mem_append, List.mem_singleton, not_exists, not_and]
      constructor
      · rintro hx x (hx' | rfl)
        · exact hx x hx'
        · exact h
      · intro hx x hx'
        exact hx x (.inl hx')

theorem normalize_some (f : PyStr) (v : Nat) : ∀ (d : List (PyStr × Nat)),
    Dict.get? (normalizeDict d.reverse) f = some v ↔ LastEntry d.reverse f v
  | [] => by
    simp only [normalizeDict, List.reverse_nil, List.foldl_nil, Dict.get?]
    constructor
    · intro h; simp at h
    · rintro ⟨a, w, b, h, _⟩; simp at h
  | e :: d => by
    rw [List.reverse_cons, normalizeDict_snoc, Dict.get?_set]
    have ih := normalize_some f v d
    by_cases h : stripAccents e.1 = f
    · rw [if_pos (by simp [h])]
      constructor
      · intro hv
        injection hv with hv
        exact ⟨d.reverse, e.1, [], by rw [← hv], h, lists_nil f⟩
      · rintro ⟨a, w, b, hd, hw, hb⟩
        rcases List.eq_nil_or_concat b with rfl | ⟨b', x, rfl⟩
        · have := List.append_inj_right' hd (by simp)
          simp only [List.cons.injEq, and_true] at this
          rw [this]
        · have hd' : d.reverse ++ [e] = (a ++ (w, v) :: b') ++ [x] := by rw [hd]; simp
          have := List.append_inj_right' hd' rfl
          simp only [List.cons.injEq, and_true] at this
          exact absurd ⟨x, by simp, by rw [← this]; exact h⟩ hb
    · rw [if_neg (by simpa using fun h' => h (by first | exact h'.symm | exact h')), ih]
      constructor
      · rintro ⟨a, w, b, hd, hw, hb⟩
        refine ⟨a, w, b ++ [e], by rw [hd]; simp, hw, ?_⟩
        rintro ⟨x, hx, hx'⟩
        rcases List.mem_append.mp hx with hx | hx
        · exact hb ⟨x, hx, hx'⟩
        · rw [List.mem_singleton] at hx; subst hx; exact h hx'
      · rintro ⟨a, w, b, hd, hw, hb⟩
        rcases List.eq_nil_or_concat b with rfl | ⟨b', x, rfl⟩
        · have := List.append_inj_right' hd (by simp)
          simp only [List.cons.injEq, and_true] at this
          exact absurd (by rw [this]; exact hw) h
        · have hd' : d.reverse ++ [e] = (a ++ (w, v) :: b') ++ [x] := by rw [hd]; simp
          refine ⟨a, w, b', List.append_inj_left' hd' rfl, hw, ?_⟩
          rintro ⟨y, hy, hy'⟩
          exact hb ⟨y, by simp [hy], hy'⟩

theorem normalize_get_none {d : Dict} {f : PyStr} : Dict.get? (normalizeDict d) f = none ↔ ¬ Lists d f := by
  have := normalize_none f d.reverse
  rwa [List.reverse_reverse] at this

theorem normalize_get_some {d : Dict} {f : PyStr} {v : Nat} : Dict.get? (normalizeDict d) f = some v ↔ LastEntry d f v := by
  have := normalize_some f v d.reverse
  rwa [List.reverse_reverse] at this

/-- The value the tables give to a form -/
def meaning (i : Info) (f : PyStr) : Option Nat :=
  (Dict.get? (normalizeDict i.directNumbers) f).or ((Dict.get? (normalizeDict i.unitNumbers) f).or
    ((Dict.get? (normalizeDict i.tens) f).or ((Dict.get? (normalizeDict i.hundreds) f).or (Dict.get? (normalizeDict i.bigPowersOfTen) f))))

/-- The first of the tables that knows the form decides. -/
def firstOf (f : PyStr) : List (List (PyStr × Nat)) → Option Nat
  | [] => none
  | t :: ts => (Dict.get? (normalizeDict t) f).or (firstOf f ts)

theorem firstOf_none (f : PyStr) : ∀ ts, firstOf f ts = none ↔ ∀ t ∈ ts, ¬ Lists t f
  | [] => by simp [firstOf]
  | t :: ts => by
    simp only [firstOf, Option.or_eq_none_iff, normalize_get_none, firstOf_none f ts, List.mem_cons, forall_eq_or_imp]

theorem lastEntry_lists {t : List (PyStr × Nat)} {f : PyStr} {v : Nat} (h : LastEntry t f v) : Lists t f := by
  obtain ⟨a, w, b, rfl, hw, _⟩ := h
  exact ⟨(w, v), by simp, hw⟩

theorem firstOf_some (f : PyStr) (v : Nat) : ∀ ts, firstOf f ts = some v ↔
    ∃ earlier t later, ts = earlier ++ t :: later ∧ LastEntry t f v ∧ ∀ t' ∈ earlier, ¬ Lists t' f
  | [] => by simp [firstOf]
  | t :: ts => by
    simp only [firstOf, Option.or_eq_some_iff, normalize_get_none, normalize_get_some, firstOf_some f v ts]
    constructor
    · rintro (h | ⟨h, e, t', l, rfl, h1, h2⟩)
      · exact ⟨[], t, ts, rfl, h, by simp⟩
      · exact ⟨t :: e, t', l, rfl, h1, by simpa using ⟨h, h2⟩⟩
    · rintro ⟨e, t', l, he, h1, h2⟩
      cases e with
      | nil =>
        simp only [List.nil_append, List.cons.injEq] at he
        obtain ⟨rfl, rfl⟩ := he
        exact .inl h1
      | cons x e =>
        simp only [List.cons_append, List.cons.injEq] at he
        obtain ⟨rfl, rfl⟩ := he
        exact .inr ⟨h2 _ (by simp), e, t', l, rfl, h1, fun t' ht' => h2 t' (by simp [ht'])⟩

theorem meaning_first (i : Info) (f : PyStr) :
    meaning i f = firstOf f [i.directNumbers, i.unitNumbers, i.tens, i.hundreds, i.bigPowersOfTen] := by
  simp [meaning, firstOf]

theorem meaning_some {i : Info} {f : PyStr} {v : Nat} : meaning i f = some v ↔ Means i f v := by
  rw [meaning_first, firstOf_some]; rfl

theorem meaning_none {i : Info} {f : PyStr} : meaning i f = none ↔ MeansNothing i f := by
  rw [meaning_first, firstOf_none]; rfl

theorem all_mem {i : Info} {f : PyStr} : (mkLangData i).allNumbers.mem f = true ↔ ∃ v, meaning i f = some v := by
  rw [Dict.mem_iff]
  simp only [mkLangData, Dict.get?_merge' _ (normalizeDict_nodup _), meaning]
  generalize Dict.get? (normalizeDict i.directNumbers) f = a
  generalize Dict.get? (normalizeDict i.unitNumbers) f = b
  generalize Dict.get? (normalizeDict i.tens) f = c
  generalize Dict.get? (normalizeDict i.hundreds) f = d
  generalize Dict.get? (normalizeDict i.bigPowersOfTen) f = e
  cases a <;> cases b <;> cases c <;> cases d <;> cases e <;> simp [Dict.get?]

theorem one_step {i : Info} {f : PyStr} {v : Nat} (hb : blank f = false) (hs : f ∉ i.skipTokens) (h : meaning i f = some v) :
    buildItems (mkLangData i) [f] = [.num v] := by
  have hsk : (mkLangData i).skipTokens.elem f = false := by
    show i.skipTokens.elem f = false
    simpa using hs
  have hst : buildStep (mkLangData i) BState.init f = addToken (mkLangData i) BState.init f := by
    unfold buildStep
    simp only [hb, hsk, Bool.false_eq_true, if_false]
    simp [checkLargeMultiplier, BState.init, checkValidity]
  unfold buildItems
  simp only [List.foldl_cons, List.foldl_nil, hst]
  unfold addToken
  have e1 : (mkLangData i).unitAndDirectNumbers.get? f =
      (Dict.get? (normalizeDict i.directNumbers) f).or (Dict.get? (normalizeDict i.unitNumbers) f) := by
    simp only [mkLangData, Dict.get?_merge' _ (normalizeDict_nodup _)]
    simp [Dict.get?]
  have e2 : (mkLangData i).tens.get? f = Dict.get? (normalizeDict i.tens) f := rfl
  have e3 : (mkLangData i).hundreds.get? f = Dict.get? (normalizeDict i.hundreds) f := rfl
  have e4 : (mkLangData i).bigPowersOfTen.get? f = Dict.get? (normalizeDict i.bigPowersOfTen) f := rfl
  rw [e1, e2, e3, e4]
  simp only [meaning] at h
  revert h
  generalize (mkLangData i).maximumGroupValue = mx
  generalize Dict.get? (normalizeDict i.directNumbers) f = a
  generalize Dict.get? (normalizeDict i.unitNumbers) f = b
  generalize Dict.get? (normalizeDict i.tens) f = c
  generalize Dict.get? (normalizeDict i.hundreds) f = d
  generalize Dict.get? (normalizeDict i.bigPowersOfTen) f = e
  intro h
  cases a with
  | some a => simp at h; subst h; simp [BState.init]
  | none =>
    cases b with
    | some b => simp at h; subst h; simp [BState.init]
    | none =>
      cases c with
      | some c => simp at h; subst h; simp [BState.init]
      | none =>
        cases d with
        | some d => simp at h; subst h; simp [BState.init]
        | none =>
          simp at h; subst h
          by_cases hm : v > mx <;> simp [BState.init, hm]

theorem skip_step {i : Info} {f : PyStr} (hb : blank f = false) (hs : f ∈ i.skipTokens) : buildItems (mkLangData i) [f] = [.num 0] := by
  have hsk : (mkLangData i).skipTokens.elem f = true := by
    show i.skipTokens.elem f = true
    simpa using hs
  have hst : buildStep (mkLangData i) BState.init f = { BState.init with usedSkip := [] ++ [f] } := by
    unfold buildStep
    simp only [hb, hsk, Bool.false_eq_true, if_false, if_true]
    rfl
  unfold buildItems
  simp only [List.foldl_cons, List.foldl_nil, hst]
  rfl

/-- `parse_number` on one token, for any tables -/
theorem numberWith_one (i : Info) (l s t : PyStr) (hs : WordInput s) (ht : Tokens l (withoutApostrophes s) [t]) (hb : ¬ BlankForm t)
    (hv : ∀ v, meaning i (form t) = some v → v < 10 ^ 4300) :
    parseNumberWith (mkLangData i) s l = .ok (if form t ∈ i.skipTokens then (meaning i (form t)).map (fun _ => 0) else meaning i (form t)) := by
  have hn := (wordInput_iff s).mp hs
  have htok : normalizeTokens (tokenize (dropApos s) l) = [form t] := by
    rw [dropApos_eq, ← (tokens_iff _ _ _).mp ht]; rfl
  have hbf : blank (form t) = false := by
    cases h : blank (form t) with
    | false => rfl
    | true => exact absurd ((blank_spec _).mp h) hb
  have hne : form t ≠ [] := by rintro h; rw [h] at hbf; cases hbf
  unfold parseNumberWith
  simp only [hn.1, hn.2, Bool.false_eq_true, if_false, replace_apos, htok]
  have hok : tokensOk (mkLangData i) 0 [form t] = (mkLangData i).allNumbers.mem (form t) := by
    obtain ⟨c, r, hcr⟩ := List.exists_cons_of_ne_nil hne
    simp only [tokensOk, isCardinalToken, hbf]
    cases (mkLangData i).allNumbers.mem (form t) <;> simp [truthy, hcr]
  rw [hok]
  cases hm : meaning i (form t) with
  | none =>
    have : (mkLangData i).allNumbers.mem (form t) ≠ true := by
      rw [Ne, all_mem, hm]; simp
    rw [if_neg this]
    simp [pure, Except.pure]
  | some v =>
    rw [if_pos (all_mem.mpr ⟨v, hm⟩)]
    have key : ∀ n, n < 10 ^ 4300 → buildItems (mkLangData i) [form t] = [.num n] →
        buildNumber (mkLangData i) [form t] = .ok [decDigits n] := by
      intro n hl hi
      unfold buildNumber
      rw [hi]
      simp [renderItem, strInt_ok hl, bind, Except.bind, pure, Except.pure]
    by_cases hsk : form t ∈ i.skipTokens
    · have h0 : (0 : Nat) < 10 ^ 4300 := Nat.pos_of_ne_zero (by simp)
      rw [key 0 h0 (skip_step hbf hsk)]
      simp only [bind, Except.bind, pyInt_decDigits h0, hsk, if_true, Option.map_some]
      rfl
    · rw [key v (hv v hm) (one_step hbf hsk hm)]
      simp only [bind, Except.bind, pyInt_decDigits (hv v hm), hsk, if_false]
      rfl

end NumberParser
