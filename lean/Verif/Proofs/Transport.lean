import Verif.Proofs.Convert
import Verif.Proofs.Case
import Verif.Proofs.Accents

/-! Conversion of texts whose tokens have the same comparison forms (C57). -/

set_option linter.unusedSimpArgs false

namespace NumberParser
open Spec UnicodeData

/-- Tokens with the same comparison forms, related by `R`. -/
inductive Similar (R : PyStr → PyStr → Prop) : List PyStr → List PyStr → Prop where
  | nil : Similar R [] []
  | cons {t t' : PyStr} {ts ts' : List PyStr} : form t = form t' → R t t' → Similar R ts ts' → Similar R (t :: ts) (t' :: ts')

theorem similar_append {R : PyStr → PyStr → Prop} {a b c : List PyStr} (h : Similar R (a ++ b) c) :
    ∃ a' b', c = a' ++ b' ∧ Similar R a a' ∧ Similar R b b' := by
  induction a generalizing c with
  | nil => exact ⟨[], c, rfl, .nil, h⟩
  | cons t a ih =>
    cases h with
    | cons h1 h2 h3 =>
      obtain ⟨a', b', rfl, h4, h5⟩ := ih h3
      exact ⟨_ :: a', b', rfl, .cons h1 h2 h4, h5⟩

theorem similar_cons {R : PyStr → PyStr → Prop} {t : PyStr} {b c : List PyStr} (h : Similar R (t :: b) c) :
    ∃ t' b', c = t' :: b' ∧ form t = form t' ∧ R t t' ∧ Similar R b b' := by
  cases h with
  | cons h1 h2 h3 => exact ⟨_, _, rfl, h1, h2, h3⟩

theorem blankForm_congr {t t' : PyStr} (h : form t = form t') : BlankForm t ↔ BlankForm t' := by unfold BlankForm; rw [h]
theorem mark_congr {t t' : PyStr} (h : form t = form t') : Mark t ↔ Mark t' := by unfold Mark; rw [h]
theorem skip_congr {l t t' : PyStr} (h : form t = form t') : Skip l t ↔ Skip l t' := by unfold Skip; rw [h]
theorem word_congr {l : PyStr} {k : Class} {v : Nat} {t t' : PyStr} (h : form t = form t') : Word l k v t ↔ Word l k v t' := by unfold Word; rw [h]
theorem cardinal_congr {l t t' : PyStr} (h : form t = form t') : Cardinal l t ↔ Cardinal l t' := by
  unfold Cardinal Word; rw [h]
theorem ordinary_congr {l t t' : PyStr} (h : form t = form t') : Ordinary l t ↔ Ordinary l t' := by
  unfold Ordinary NumberWord Skip; rw [h]
theorem ordinalWord_congr {l : PyStr} {k : Class} {v : Nat} {t t' : PyStr} (h : form t = form t') :
    OrdinalWord l k v t ↔ OrdinalWord l k v t' := by
  unfold OrdinalWord; rw [cardinal_congr h, h]

theorem runTokens_similar {R : PyStr → PyStr → Prop} {l : PyStr} {ts ts' : List PyStr} {is : List RunItem} (h : Similar R ts ts')
    (hr : RunTokens l ts is) : RunTokens l ts' is := by
  induction hr generalizing ts' with
  | nil => cases h; exact .nil
  | word hw _ ih =>
    obtain ⟨t', b', rfl, h1, _, h3⟩ := similar_cons h
    exact .word ((word_congr h1).mp hw) (ih h3)
  | conj hw _ ih =>
    obtain ⟨t', b', rfl, h1, _, h3⟩ := similar_cons h
    rw [h1]
    exact .conj ((skip_congr h1).mp hw) (ih h3)
  | blank hw _ ih =>
    obtain ⟨t', b', rfl, h1, _, h3⟩ := similar_cons h
    exact .blank ((blankForm_congr h1).mp hw) (ih h3)

theorem run_similar {R : PyStr → PyStr → Prop} {l : PyStr} {ts ts' : List PyStr} {is : List RunItem} (h : Similar R ts ts')
    (hr : Run l ts is) : Run l ts' is := by
  obtain ⟨h1, t, ts0, rfl, h2⟩ := hr
  refine ⟨runTokens_similar h h1, ?_⟩
  obtain ⟨t', b', rfl, h3, _, _⟩ := similar_cons h
  exact ⟨t', b', rfl, (cardinal_congr h3).mp h2⟩

theorem similar_last {R : PyStr → PyStr → Prop} {a : List PyStr} {t : PyStr} {c : List PyStr} (h : Similar R (a ++ [t]) c) :
    ∃ a' t', c = a' ++ [t'] ∧ form t = form t' := by
  obtain ⟨a', b', rfl, _, h2⟩ := similar_append h
  obtain ⟨t', b'', rfl, h3, _, h4⟩ := similar_cons h2
  cases h4
  exact ⟨a', t', rfl, h3⟩

theorem endsBlank_similar {R : PyStr → PyStr → Prop} {ts ts' : List PyStr} (h : Similar R ts ts') : EndsBlank ts ↔ EndsBlank ts' := by
  constructor
  · rintro ⟨a, t, rfl, hb⟩
    obtain ⟨a', t', rfl, h1⟩ := similar_last h
    exact ⟨a', t', rfl, (blankForm_congr h1).mp hb⟩
  · rintro ⟨a, t, rfl, hb⟩
    have : Similar (fun x y => R y x) (a ++ [t]) ts := by
      clear hb
      generalize a ++ [t] = c at h
      induction h with
      | nil => exact .nil
      | cons h1 h2 _ ih => exact .cons h1.symm h2 ih
    obtain ⟨a', t', rfl, h1⟩ := similar_last this
    exact ⟨a', t', rfl, (blankForm_congr h1).mp hb⟩

/-- The conversions of similar token lists correspond. -/
theorem converted_similar {R : PyStr → PyStr → Prop} (hrefl : ∀ x, R x x) (happ : ∀ {a b c d}, R a b → R c d → R (a ++ c) (b ++ d))
    {l : PyStr} {ts ts' : List PyStr} {out : PyStr} (h : Similar R ts ts') (hc : Converted l ts out) :
    ∃ out', Converted l ts' out' ∧ R out out' := by
  induction hc generalizing ts' with
  | nil => cases h; exact ⟨[], .nil, hrefl _⟩
  | keep hk _ ih =>
    obtain ⟨t', b', rfl, h1, h2, h3⟩ := similar_cons h
    obtain ⟨o, ho, hr⟩ := ih h3
    refine ⟨t' ++ o, .keep ?_ ho, happ h2 hr⟩
    rw [← blankForm_congr h1, ← mark_congr h1, ← skip_congr h1, ← ordinary_congr h1]; exact hk
  | ending hrun hcut => exact ⟨_, .ending (run_similar h hrun) hcut, hrefl _⟩
  | mark hrun hcut hm he _ ih =>
    obtain ⟨a', b', rfl, h1, h2⟩ := similar_append h
    obtain ⟨t', b'', rfl, h3, h4, h5⟩ := similar_cons h2
    obtain ⟨o, ho, hr⟩ := ih h5
    exact ⟨_, .mark (run_similar h1 hrun) hcut ((mark_congr h3).mp hm) ((endsBlank_similar h1).mp he) ho, happ (happ (hrefl _) h4) hr⟩
  | markTight hrun hcut hm he _ ih =>
    obtain ⟨a', b', rfl, h1, h2⟩ := similar_append h
    obtain ⟨t', b'', rfl, h3, h4, h5⟩ := similar_cons h2
    obtain ⟨o, ho, hr⟩ := ih h5
    exact ⟨_, .markTight (run_similar h1 hrun) hcut ((mark_congr h3).mp hm) (fun e => he ((endsBlank_similar h1).mpr e)) ho,
      happ (happ (hrefl _) h4) hr⟩
  | word hrun hl hcut ho hm _ ih =>
    obtain ⟨a', b', rfl, h1, h2⟩ := similar_append h
    obtain ⟨t', b'', rfl, h3, h4, h5⟩ := similar_cons h2
    obtain ⟨o, ho', hr⟩ := ih h5
    exact ⟨_, .word (run_similar h1 hrun) hl hcut ((ordinary_congr h3).mp ho) (fun e => hm ((mark_congr h3).mpr e)) ho',
      happ (happ (hrefl _) h4) hr⟩
  | conjWord hrun hcut ho hm _ ih =>
    obtain ⟨a', b', rfl, h1, h2⟩ := similar_append h
    obtain ⟨t', b'', rfl, h3, h4, h5⟩ := similar_cons h2
    obtain ⟨o, ho', hr⟩ := ih h5
    exact ⟨_, .conjWord (run_similar h1 hrun) hcut ((ordinary_congr h3).mp ho) (fun e => hm ((mark_congr h3).mpr e)) ho',
      happ (happ (hrefl _) h4) hr⟩
  | ordinal hrun ho hcut _ ih =>
    obtain ⟨a', b', rfl, h1, h2⟩ := similar_append h
    obtain ⟨t', b'', rfl, h3, h4, h5⟩ := similar_cons h2
    obtain ⟨o, ho', hr⟩ := ih h5
    refine ⟨_, .ordinal ?_ ((ordinalWord_congr h3).mp ho) hcut ho', happ (hrefl _) hr⟩
    rcases hrun with ⟨rfl, rfl⟩ | hrun
    · cases h1; exact Or.inl ⟨rfl, rfl⟩
    · exact Or.inr (run_similar h1 hrun)

/-! ### Case -/

theorem similar_al {ts ts' : List PyStr} (h : ts.map al = ts'.map al) : Similar SameUpToCase ts ts' := by
  induction ts generalizing ts' with
  | nil => cases ts' with
    | nil => exact .nil
    | cons _ _ => cases h
  | cons t ts ih => cases ts' with
    | nil => cases h
    | cons t' ts' =>
      injection h with h1 h2
      refine .cons ?_ h1 (ih h2)
      show norm t = norm t'
      rw [← norm_al t, ← norm_al t', h1]

theorem tokenize_al (l : PyStr) {s s' : PyStr} (h : SameUpToCase s s') : Similar SameUpToCase (tokenize s l) (tokenize s' l) := by
  apply similar_al
  have h : al s = al s' := h
  rw [tokenize_eq, tokenize_eq, ← split_al, ← split_al, ← noShy_al, ← noShy_al, h]

theorem strip_case {a b : PyStr} (h : SameUpToCase a b) : SameUpToCase (strip a) (strip b) := by
  have h : al a = al b := h
  show al (strip a) = al (strip b)
  rw [← strip_al, ← strip_al, h]

theorem case_append {a b c d : PyStr} (h : SameUpToCase a b) (h' : SameUpToCase c d) : SameUpToCase (a ++ c) (b ++ d) := by
  unfold SameUpToCase at *; rw [List.map_append, List.map_append, h, h']

/-! ### Accents -/

theorem accents_refl (s : PyStr) : SameUpToAccents s s := by
  induction s with
  | nil => exact .nil
  | cons c s ih => exact .same ih

theorem accents_append {a b c d : PyStr} (h : SameUpToAccents a b) (h' : SameUpToAccents c d) : SameUpToAccents (a ++ c) (b ++ d) := by
  induction h with
  | nil => exact h'
  | same _ ih => exact .same ih
  | drop h _ ih => exact .drop h ih
  | add h _ ih => exact .add h ih

def AccentPair (p : Nat × Nat) : Prop := p.1 = p.2 ∨ Accented p.1 p.2 ∨ Accented p.2 p.1

theorem accents_iff (s s' : PyStr) : SameUpToAccents s s' ↔ ∃ ps : List (Nat × Nat), (∀ p ∈ ps, AccentPair p) ∧ s = ps.map Prod.fst ∧ s' = ps.map Prod.snd := by
  constructor
  · intro h
    have cons : ∀ {c d : Nat} {a b : PyStr}, AccentPair (c, d) →
        (∃ ps : List (Nat × Nat), (∀ p ∈ ps, AccentPair p) ∧ a = ps.map Prod.fst ∧ b = ps.map Prod.snd) →
        ∃ ps : List (Nat × Nat), (∀ p ∈ ps, AccentPair p) ∧ c :: a = ps.map Prod.fst ∧ d :: b = ps.map Prod.snd := by
      rintro c d a b h ⟨ps, h1, rfl, rfl⟩
      exact ⟨(c, d) :: ps, fun p hp => (List.mem_cons.mp hp).elim (fun e => by rw [e]; exact h) (h1 p), rfl, rfl⟩
    induction h with
    | nil => exact ⟨[], by simp, rfl, rfl⟩
    | same _ ih => exact cons (Or.inl rfl) ih
    | drop h _ ih => exact cons (Or.inr (Or.inl h)) ih
    | add h _ ih => exact cons (Or.inr (Or.inr h)) ih
  · rintro ⟨ps, h, rfl, rfl⟩
    induction ps with
    | nil => exact .nil
    | cons p ps ih =>
      have ih := ih (fun q hq => h q (List.mem_cons_of_mem _ hq))
      obtain ⟨c, d⟩ := p
      rcases h (c, d) (by simp) with e | e | e
      · have e : c = d := e
        subst e; exact .same ih
      · exact .drop e ih
      · exact .add e ih

theorem accentPair_pairs {ps : List (Nat × Nat)} (h : ∀ p ∈ ps, AccentPair p) : Pairs ps := by
  intro p hp
  rcases h p hp with e | e | e
  · exact Or.inl e
  · exact Or.inr (accented_same e)
  · exact Or.inr (accented_same e).symm

theorem accents_space {ps : List (Nat × Nat)} (h : ∀ p ∈ ps, AccentPair p) : ∀ p ∈ ps, isSpace p.1 = isSpace p.2 :=
  pair_inv (f := isSpace) (fun _ _ e => by rw [word_not_space e.wordl, word_not_space e.wordr]) (accentPair_pairs h)

theorem strip_accents {a b : PyStr} (h : SameUpToAccents a b) : SameUpToAccents (strip a) (strip b) := by
  obtain ⟨ps, hp, rfl, rfl⟩ := (accents_iff _ _).mp h
  unfold strip rdropWhile
  obtain ⟨qs, h1, h2, h3⟩ := dropWhile_pairs (accents_space hp)
  rw [h2, h3, ← List.map_reverse, ← List.map_reverse]
  obtain ⟨rs, h4, h5, h6⟩ := dropWhile_pairs (f := isSpace) (ps := qs.reverse)
    (accents_space (fun p hq => hp p (h1 p (by simpa using hq))))
  rw [h5, h6, ← List.map_reverse, ← List.map_reverse, accents_iff]
  exact ⟨rs.reverse, fun p hq => hp p (h1 p (by simpa using h4 p (by simpa using hq))), rfl, rfl⟩

theorem similar_of_pairs {ls : List (List (Nat × Nat))} (h : ∀ t ∈ ls, ∀ p ∈ t, AccentPair p)
    (hf : ∀ t ∈ ls, form (t.map Prod.fst) = form (t.map Prod.snd)) :
    Similar SameUpToAccents (ls.map (List.map Prod.fst)) (ls.map (List.map Prod.snd)) := by
  induction ls with
  | nil => exact .nil
  | cons t ls ih =>
    exact .cons (hf t (by simp)) ((accents_iff _ _).mpr ⟨t, h t (by simp), rfl, rfl⟩)
      (ih (fun x hx => h x (List.mem_cons_of_mem _ hx)) (fun x hx => hf x (List.mem_cons_of_mem _ hx)))

theorem tokenize_accents {l : PyStr} {s s' : PyStr} (h : SameUpToAccents s s') :
    Similar SameUpToAccents (tokenize s l) (tokenize s' l) := by
  obtain ⟨ps, hp, rfl, rfl⟩ := (accents_iff _ _).mp h
  have hpp := accentPair_pairs hp
  have hforms : normalizeTokens (tokenize (ps.map Prod.fst) l) = normalizeTokens (tokenize (ps.map Prod.snd) l) := by
    exact tokens_pairs_any l hpp
  obtain ⟨ls, h1, e1, e2⟩ : ∃ ls : List (List (Nat × Nat)), (∀ t ∈ ls, ∀ p ∈ t, p ∈ ps) ∧
      tokenize (ps.map Prod.fst) l = ls.map (List.map Prod.fst) ∧ tokenize (ps.map Prod.snd) l = ls.map (List.map Prod.snd) := by
    rw [tokenize_eq, tokenize_eq]
    have hs := filter_pairs (f := fun c => c != 0xad) (ps := ps) (pair_inv (f := fun c => c != 0xad) (fun c b e => by
      show (c != 0xad) = (b != 0xad)
      rw [word_ne e.wordl (by decide +kernel), word_ne e.wordr (by decide +kernel)]) hpp)
    unfold noShy
    rw [hs.1, hs.2]
    have hq := hpp.filter (fun p => p.1 != 0xad)
    have hm : ∀ p ∈ ps.filter (fun p => p.1 != 0xad), p ∈ ps := fun p hp => (List.mem_filter.mp hp).1
    generalize ps.filter (fun p => p.1 != 0xad) = qs at hq hm
    unfold split
    split
    · have hw : ∀ p ∈ qs, isSpace p.2 = isSpace p.1 := fun p hp => (pair_inv (f := isSpace) (fun _ _ e => by
        rw [word_not_space e.wordl, word_not_space e.wordr]) hq p hp).symm
      refine ⟨_, fun t ht p hp => hm p (splitSpG_mem t ht p hp), splitSpG_map (w := fun p => isSpace p.1) (f := Prod.fst) (fun _ _ => rfl),
        splitSpG_map (w := fun p => isSpace p.1) (f := Prod.snd) hw⟩
    · have hw : ∀ p ∈ qs, isWord p.2 = isWord p.1 := fun p hp =>
        (pair_inv (f := isWord) (fun _ _ e => e.wordl.trans e.wordr.symm) hq p hp).symm
      refine ⟨_, fun t ht p hp => hm p ((splitG_tokens t ht).1 p hp), splitG_map (w := fun p => isWord p.1) (f := Prod.fst) (fun _ _ => rfl),
        splitG_map (w := fun p => isWord p.1) (f := Prod.snd) hw⟩
  rw [e1, e2] at hforms ⊢
  refine similar_of_pairs (fun t ht p hq => hp p (h1 t ht p hq)) ?_
  unfold normalizeTokens at hforms
  rw [List.map_map, List.map_map] at hforms
  intro t ht
  exact List.map_inj_left.mp hforms t ht

end NumberParser
