import Verif.Proofs.SpacingConvert
import Verif.Proofs.VocabularyText
import Verif.Spec.VocabularyPieces

/-! Conversion of composed and of similar texts, with the vocabulary of any data module (C92). -/

set_option linter.unusedSimpArgs false

namespace NumberParser
open Spec

set_option maxRecDepth 100000

theorem cardinal_not_blankOf {I : Info} (hi : Tidy I) {t : PyStr} (h : CardinalOf I t) : ¬ BlankForm t := by
  intro hb
  rw [blankForm_iff] at hb
  rw [show blank (norm t) = false from listed_blank hi h] at hb; cases hb

theorem cardinal_not_skipOf {I : Info} (hi : Tidy I) {t : PyStr} (h : CardinalOf I t) : ¬ SkipOf I t :=
  fun hs => skip_unlisted hi hs h

theorem skip_not_blankOf {I : Info} (hi : Tidy I) {t : PyStr} (h : SkipOf I t) : ¬ BlankForm t := by
  intro hb
  rw [blankForm_iff] at hb
  rw [show blank (norm t) = false from skip_blankOf hi h] at hb; cases hb

theorem mark_not_cardinalOf {I : Info} (hi : Tidy I) {t : PyStr} (h : Mark t) : ¬ CardinalOf I t := by
  intro hc
  have := hi.wordNoMark _ hc
  rcases h with h | h
  · exact this.1 h
  · exact this.2 h

/-- A full stop or comma is an ordinary word. -/
theorem mark_ordinaryOf {I : Info} (hi : Tidy I) {t : PyStr} (h : Mark t) : OrdinaryOf I t := by
  refine ⟨?_, mark_not_cardinalOf hi h, ?_, ?_⟩
  · rcases h with h | h
    · exact ⟨0x2e, by rw [h]; simp, by decide⟩
    · exact ⟨0x2c, by rw [h]; simp, by decide⟩
  · rintro ⟨k, v, _, c, _, hst⟩
    have := (numberTokenOf_iff hi).mpr hst
    rw [show isNumberToken (form t) (mkLangData I) = none from mark_noNumber hi h] at this; cases this
  · intro hs
    have := hi.conjunctionNoMark _ hs
    rcases h with h | h
    · exact this.1 h
    · exact this.2 h

theorem closing_factsOf {I : Info} (hi : Tidy I) {t : PyStr} (h : ClosingOf I t) : ¬ CardinalOf I t ∧ ¬ SkipOf I t ∧ ¬ BlankForm t := by
  rcases h with h | ⟨k, v, hn, c, hf, hst⟩
  · refine ⟨h.2.1, h.2.2.2, ?_⟩
    intro hb
    obtain ⟨c, hc, hs⟩ := h.1
    rw [hb c hc] at hs; cases hs
  · refine ⟨hn, fun hs => hi.conjunctionNoNumber _ hs c hst, ?_⟩
    intro hb
    rw [blankForm_iff] at hb
    have := (numberTokenOf_iff hi).mpr hst
    rw [show isNumberToken (form t) (mkLangData I) = none from blank_noNumber hi hb] at this; cases this

theorem endsClosed_suffixOf {I : Info} {a b : List PyStr} (h : EndsClosedOf I (a ++ b)) : EndsClosedOf I b := by
  rcases h with h | ⟨x, t, bl, e, h, hb⟩
  · exact Or.inl (fun x hx => h x (List.mem_append_right _ hx))
  · rcases List.append_eq_append_iff.mp e with ⟨z, rfl, e2⟩ | ⟨z, rfl, e2⟩
    · exact Or.inr ⟨z, t, bl, e2, h, hb⟩
    · cases z with
      | nil => exact Or.inr ⟨[], t, bl, by simpa using e2.symm, h, hb⟩
      | cons d z =>
        injection e2 with e1 e2
        left
        intro x hx
        exact hb x (by rw [e2]; exact List.mem_append_right _ hx)

theorem runTokens_openOf {I : Info} (hi : Tidy I) {ts : List PyStr} {is : List RunItem} (h : RunTokensOf I ts is) :
    ∀ t ∈ ts, ¬ ClosingOf I t := by
  induction h with
  | nil => simp
  | word hw _ ih =>
    intro x hx hc
    rcases List.mem_cons.mp hx with rfl | hx
    · exact (closing_factsOf hi hc).1 (last_listed hw)
    · exact ih x hx hc
  | conj hw _ ih =>
    intro x hx hc
    rcases List.mem_cons.mp hx with rfl | hx
    · exact (closing_factsOf hi hc).2.1 hw
    · exact ih x hx hc
  | blank hw _ ih =>
    intro x hx hc
    rcases List.mem_cons.mp hx with rfl | hx
    · exact (closing_factsOf hi hc).2.2 hw
    · exact ih x hx hc

theorem run_not_closedOf {I : Info} (hi : Tidy I) {ts : List PyStr} {is : List RunItem} (h : RunOf I ts is) : ¬ EndsClosedOf I ts := by
  obtain ⟨h1, t, ts', rfl, hc⟩ := h
  rintro (he | ⟨a, x, bl, e, hx, _⟩)
  · exact cardinal_not_blankOf hi hc (he t (by simp))
  · exact runTokens_openOf hi h1 x (by rw [e]; simp) hx

/-- What comes after a closing token does not influence what is before it, and conversely. -/
theorem converted_appendOf {I : Info} (hi : Tidy I) {a b : List PyStr} {x y : PyStr} (ha : ConvertedOf I a x) (he : EndsClosedOf I a)
    (hb : ConvertedOf I b y) : ConvertedOf I (a ++ b) (x ++ y) := by
  induction ha with
  | nil => exact hb
  | @keep t ts out hk _ ih =>
    rw [List.append_assoc]
    exact .keep hk (ih (endsClosed_suffixOf (a := [t]) he))
  | ending hrun hcut => exact absurd he (run_not_closedOf hi hrun)
  | @mark run is xs t ts out hrun hcut hm hbl _ ih =>
    rw [List.append_assoc, List.append_assoc]
    exact .mark hrun hcut hm hbl (ih (endsClosed_suffixOf (a := run ++ [t]) (by simpa using he)))
  | @markTight run is xs t ts out hrun hcut hm hbl _ ih =>
    rw [List.append_assoc, List.append_assoc]
    exact .markTight hrun hcut hm hbl (ih (endsClosed_suffixOf (a := run ++ [t]) (by simpa using he)))
  | @word run is xs t ts out hrun hlast hcut ho hm _ ih =>
    rw [List.append_assoc, List.append_assoc]
    exact .word hrun hlast hcut ho hm (ih (endsClosed_suffixOf (a := run ++ [t]) (by simpa using he)))
  | @conjWord run is f xs t ts out hrun hcut ho hm _ ih =>
    rw [List.append_assoc, List.append_assoc]
    exact .conjWord hrun hcut ho hm (ih (endsClosed_suffixOf (a := run ++ [t]) (by simpa using he)))
  | @ordinal run is xs t k v ts out hrun ho hcut _ ih =>
    rw [List.append_assoc, List.append_assoc]
    exact .ordinal hrun ho hcut (ih (endsClosed_suffixOf (a := run ++ [t]) (by simpa using he)))

theorem cut_lastOf {I : Info} {is : List RunItem} {xs : List PyStr} (h : CutOf I is xs) : ∃ ys n, xs = ys ++ [decDigits n] := by
  induction h with
  | @last is n _ => exact ⟨[], n, rfl⟩
  | more _ _ _ _ ih =>
    obtain ⟨ys, n, rfl⟩ := ih
    exact ⟨_, n, (List.append_assoc _ _ _).symm⟩

theorem converted_emptyOf {I : Info} (hi : Tidy I) {ts : List PyStr} {x : PyStr} (h : ConvertedOf I ts x) (he : ts.flatten = []) : x = [] := by
  have hb : ∀ t : PyStr, t = [] → BlankForm t := by rintro t rfl; exact blankForm_nil
  have hc : ConvertedOf I ts [] := by
    clear h
    induction ts with
    | nil => exact .nil
    | cons t ts ih =>
      rw [List.flatten_cons] at he
      obtain ⟨e1, e2⟩ := List.append_eq_nil_iff.mp he
      subst e1
      exact ConvertedOf.keep (Or.inl (hb [] rfl)) (ih e2)
  rw [← converted_piecesOf hi h, converted_piecesOf hi hc]

/-- The end of the conversion of a text that ends solid. -/
theorem converted_endsNSOf {I : Info} (hi : Tidy I) {ts : List PyStr} {x : PyStr} (h : ConvertedOf I ts x) (he : EndsClosedOf I ts)
    (hs : EndsNS ts.flatten) : EndsNS x := by
  have tail : ∀ {pre ts : List PyStr} {t : PyStr} {o q out : PyStr}, EndsNS (pre ++ t :: ts).flatten → (EndsNS ts.flatten → EndsNS out) →
      (EndsNS t → EndsNS (o ++ q)) → (t = [] → EndsNS (o ++ q)) → ConvertedOf I ts out → EndsNS (o ++ q ++ out) := by
    intro pre ts t o q out hs ih ht ht' hc
    rw [List.flatten_append, List.flatten_cons, ← List.append_assoc] at hs
    by_cases hf : ts.flatten = []
    · rw [converted_emptyOf hi hc hf, List.append_nil]
      rw [hf, List.append_nil] at hs
      by_cases h0 : t = []
      · exact ht' h0
      · exact ht (endsNS_tail hs h0)
    · exact endsNS_append (ih (endsNS_tail hs hf))
  induction h with
  | nil => obtain ⟨y, c, e, _⟩ := hs; cases y <;> cases e
  | @keep t ts out hk hc ih =>
    rw [List.flatten_cons] at hs
    by_cases hf : ts.flatten = []
    · rw [converted_emptyOf hi hc hf]
      rwa [hf] at hs
    · exact endsNS_append (ih (endsClosed_suffixOf (a := [t]) he) (endsNS_tail hs hf))
  | ending hrun hcut => exact absurd he (run_not_closedOf hi hrun)
  | @mark run is xs t ts out hrun hcut hm hbl hc ih =>
    exact tail hs (ih (endsClosed_suffixOf (a := run ++ [t]) (by simpa using he))) endsNS_append (fun h => absurd h (mark_text hm)) hc
  | @markTight run is xs t ts out hrun hcut hm hbl hc ih =>
    exact tail hs (ih (endsClosed_suffixOf (a := run ++ [t]) (by simpa using he))) endsNS_append (fun h => absurd h (mark_text hm)) hc
  | @word run is xs t ts out hrun hlast hcut ho hm hc ih =>
    exact tail hs (ih (endsClosed_suffixOf (a := run ++ [t]) (by simpa using he))) endsNS_append
      (fun h => by obtain ⟨⟨c, h', _⟩, _⟩ := ho; rw [h] at h'; cases h') hc
  | @conjWord run is f xs t ts out hrun hcut ho hm hc ih =>
    exact tail hs (ih (endsClosed_suffixOf (a := run ++ [t]) (by simpa using he))) endsNS_append
      (fun h => by obtain ⟨⟨c, h', _⟩, _⟩ := ho; rw [h] at h'; cases h') hc
  | @ordinal run is xs t k v ts out hrun ho hcut hc ih =>
    obtain ⟨ys, n, rfl⟩ := cut_lastOf hcut
    have hd := endsNS_spaced (xs := ys) (digits_endsNS n)
    have := tail (o := spaced (ys ++ [decDigits n])) (q := []) hs (ih (endsClosed_suffixOf (a := run ++ [t]) (by simpa using he)))
      (fun _ => by simpa using hd) (fun _ => by simpa using hd) hc
    simpa using this

theorem keep_blanksOf {I : Info} {mid tb : List PyStr} {y : PyStr} (hm : ∀ t ∈ mid, ∀ c ∈ t, isSpace c = true) (h : ConvertedOf I tb y) :
    ConvertedOf I (mid ++ tb) (mid.flatten ++ y) := by
  induction mid with
  | nil => exact h
  | cons t mid ih =>
    rw [List.flatten_cons, List.append_assoc]
    refine .keep (Or.inl ?_) (ih (fun x hx => hm x (List.mem_cons_of_mem _ hx)))
    rw [blankForm_iff]
    exact blank_norm ((blank_spec t).mpr (hm t (by simp)))

theorem converted_nonemptyOf {I : Info} {ts : List PyStr} {x : PyStr} (h : ConvertedOf I ts x) (hx : x = []) : ts.flatten = [] := by
  have ne : ∀ {I : Info} {is : List RunItem} {xs : List PyStr}, CutOf I is xs → withSpaces xs ≠ [] ∧ spaced xs ≠ [] := by
    intro l is xs hc
    constructor
    · cases xs with
      | nil => exact absurd rfl (cut_neOf hc)
      | cons y ys => intro e; simp [withSpaces] at e
    · obtain ⟨ys, n, rfl⟩ := cut_lastOf hc
      obtain ⟨y, c, e, _⟩ := endsNS_spaced (xs := ys) (digits_endsNS n)
      rw [e]; simp
  induction h with
  | nil => rfl
  | keep _ _ ih =>
    obtain ⟨e1, e2⟩ := List.append_eq_nil_iff.mp hx
    rw [List.flatten_cons, e1, ih e2]; rfl
  | ending _ hcut => exact absurd hx (ne hcut).1
  | mark _ hcut _ _ _ _ => exact absurd (List.append_eq_nil_iff.mp (List.append_eq_nil_iff.mp hx).1).1 (ne hcut).1
  | markTight _ hcut _ _ _ _ => exact absurd (List.append_eq_nil_iff.mp (List.append_eq_nil_iff.mp hx).1).1 (ne hcut).2
  | word _ _ hcut _ _ _ _ => exact absurd (List.append_eq_nil_iff.mp (List.append_eq_nil_iff.mp hx).1).1 (ne hcut).1
  | conjWord _ hcut _ _ _ _ => simp at hx
  | ordinal _ _ hcut _ _ => exact absurd (List.append_eq_nil_iff.mp hx).1 (ne hcut).2


/-! ### A text that ends with a number word -/

theorem endsNumber_tailOf {I : Info} {pre ts : List PyStr} {t : PyStr} (h : EndsNumberOf I (pre ++ t :: ts)) (ht : ¬ CardinalOf I t)
    (hp : pre = [] ∨ ¬ BlankForm t) : EndsNumberOf I ts := by
  obtain ⟨a, u, bl, e, hu, hb⟩ := h
  rcases List.append_eq_append_iff.mp e with ⟨z, e1, e2⟩ | ⟨z, e1, e2⟩
  · cases z with
    | nil => injection e2 with e2 e3; subst e2; exact absurd hu ht
    | cons d z =>
      injection e2 with e2 e3
      exact ⟨z, u, bl, e3, hu, hb⟩
  · cases z with
    | nil => injection e2 with e2 e3; subst e2; exact absurd hu ht
    | cons d z =>
      injection e2 with e2 e3
      rcases hp with rfl | hp
      · simp at e1
      · exact absurd (hb t (by rw [e3]; simp)) hp

theorem runTokens_splitOf {I : Info} {a b : List PyStr} {is : List RunItem} (h : RunTokensOf I (a ++ b) is) :
    ∃ x y, RunTokensOf I a x ∧ RunTokensOf I b y ∧ is = x ++ y := by
  induction a generalizing is with
  | nil => exact ⟨[], is, .nil, h, rfl⟩
  | cons t a ih =>
    cases h with
    | word hw h => obtain ⟨x, y, h1, h2, rfl⟩ := ih h; exact ⟨_, y, .word hw h1, h2, rfl⟩
    | conj hw h => obtain ⟨x, y, h1, h2, rfl⟩ := ih h; exact ⟨_, y, .conj hw h1, h2, rfl⟩
    | blank hw h => obtain ⟨x, y, h1, h2, rfl⟩ := ih h; exact ⟨_, y, .blank hw h1, h2, rfl⟩

theorem blanks_itemsOf {I : Info} (hi : Tidy I) {bl : List PyStr} {is : List RunItem} (hb : ∀ x ∈ bl, BlankForm x) (h : RunTokensOf I bl is) :
    is = [] := by
  induction h with
  | nil => rfl
  | word hw _ _ => exact absurd (hb _ (by simp)) (cardinal_not_blankOf hi (last_listed hw))
  | @conj t ts is hw _ _ => exact absurd (hb t (by simp)) (skip_not_blankOf hi hw)
  | blank _ _ ih => exact ih (fun x hx => hb x (List.mem_cons_of_mem _ hx))

theorem run_endsNumberOf {I : Info} (hi : Tidy I) {ts : List PyStr} {is : List RunItem} (h : RunTokensOf I ts is) (he : EndsNumberOf I ts) :
    ∃ is' k v, is = is' ++ [.word k v] := by
  obtain ⟨a, t, bl, rfl, hc, hb⟩ := he
  obtain ⟨x, y, _, h2, rfl⟩ := runTokens_splitOf h
  cases h2 with
  | word hw h2 => rw [blanks_itemsOf hi hb h2]; exact ⟨x, _, _, rfl⟩
  | conj hw h2 => exact absurd hw (cardinal_not_skipOf hi hc)
  | blank hw h2 => exact absurd hw (cardinal_not_blankOf hi hc)

/-- The conversion of a text that ends with a number word, blank tokens and an ordinary word. -/
theorem converted_openOf {I : Info} (hi : Tidy I) {a mid ts : List PyStr} {x u out : PyStr} (ha : ConvertedOf I a x) (he : EndsNumberOf I a)
    (hm : ∀ t ∈ mid, BlankForm t) (hne : mid ≠ [] ∨ ¬ Mark u) (hu : OrdinaryOf I u) (ho : ConvertedOf I ts out) :
    ConvertedOf I (a ++ mid ++ u :: ts) (x ++ (u ++ out)) ∧ ∃ z, x = z ++ u!" " ∧ EndsNS z := by
  have snoc : ∀ {w p out : PyStr}, (∃ z, out = z ++ u!" " ∧ EndsNS z) → ∃ z, w ++ p ++ out = z ++ u!" " ∧ EndsNS z := by
    rintro w p out ⟨z, rfl, hz⟩
    exact ⟨w ++ p ++ z, by simp, endsNS_append hz⟩
  induction ha with
  | nil => obtain ⟨a, t, bl, e, _⟩ := he; simp at e
  | @keep t ts' out' hk _ ih =>
    have hnc : ¬ CardinalOf I t := by
      intro hc
      rcases hk with h | h | h | h
      · exact cardinal_not_blankOf hi hc h
      · exact mark_not_cardinalOf hi h hc
      · exact cardinal_not_skipOf hi hc h
      · exact (closing_factsOf hi (Or.inl h)).1 hc
    obtain ⟨h1, z, rfl, hz⟩ := ih (endsNumber_tailOf (pre := []) he hnc (Or.inl rfl))
    refine ⟨?_, t ++ z, by simp, endsNS_append hz⟩
    rw [List.append_assoc t]
    exact .keep hk h1
  | @ending run is xs hrun hcut =>
    have hb : ∀ {b : List PyStr}, (∀ t ∈ b, BlankForm t) → RunTokensOf I b [] := by
      intro b hb
      induction b with
      | nil => exact .nil
      | cons t b ih => exact .blank (hb t (by simp)) (ih (fun x hx => hb x (List.mem_cons_of_mem _ hx)))
    have hrun' : RunOf I (run ++ mid) is := by
      obtain ⟨h1, t, ts', e, hc⟩ := hrun
      refine ⟨by simpa using runTokens_appendOf h1 (hb hm), t, ts' ++ mid, by rw [e]; rfl, hc⟩
    have hlast := run_endsNumberOf hi hrun.1 he
    refine ⟨?_, ?_⟩
    · rw [← List.append_assoc]
      by_cases hmk : Mark u
      · refine .mark hrun' hcut hmk ?_ ho
        rcases List.eq_nil_or_concat mid with e | ⟨m, t, rfl⟩
        · rcases hne with h | h
          · exact absurd e h
          · exact absurd hmk h
        · exact ⟨run ++ m, t, by simp, hm t (by simp)⟩
      · exact .word hrun' hlast hcut hu hmk ho
    · obtain ⟨ys, n, rfl⟩ := cut_lastOf hcut
      exact ⟨_, withSpaces_snoc _ _, endsNS_spaced (digits_endsNS n)⟩
  | @mark run is xs t ts' out' hrun hcut hmk hbl _ ih =>
    obtain ⟨h1, hz⟩ := ih (endsNumber_tailOf he (mark_not_cardinalOf hi hmk) (Or.inr (mark_not_blank hmk)))
    refine ⟨?_, snoc hz⟩
    have := ConvertedOf.mark hrun hcut hmk hbl h1
    simpa using this
  | @markTight run is xs t ts' out' hrun hcut hmk hbl _ ih =>
    obtain ⟨h1, hz⟩ := ih (endsNumber_tailOf he (mark_not_cardinalOf hi hmk) (Or.inr (mark_not_blank hmk)))
    refine ⟨?_, snoc hz⟩
    have := ConvertedOf.markTight hrun hcut hmk hbl h1
    simpa using this
  | @word run is xs t ts' out' hrun hlast hcut hord hmk _ ih =>
    have hc := closing_factsOf hi (Or.inl hord)
    obtain ⟨h1, hz⟩ := ih (endsNumber_tailOf he hc.1 (Or.inr hc.2.2))
    refine ⟨?_, snoc hz⟩
    have := ConvertedOf.word hrun hlast hcut hord hmk h1
    simpa using this
  | @conjWord run is f xs t ts' out' hrun hcut hord hmk _ ih =>
    have hc := closing_factsOf hi (Or.inl hord)
    obtain ⟨h1, hz⟩ := ih (endsNumber_tailOf he hc.1 (Or.inr hc.2.2))
    refine ⟨?_, snoc hz⟩
    have := ConvertedOf.conjWord hrun hcut hord hmk h1
    simpa using this
  | @ordinal run is xs t k v ts' out' hrun hord hcut _ ih =>
    have hc := closing_factsOf hi (Or.inr ⟨k, v, hord⟩)
    obtain ⟨h1, hz⟩ := ih (endsNumber_tailOf he hc.1 (Or.inr hc.2.2))
    refine ⟨?_, ?_⟩
    · have := ConvertedOf.ordinal hrun hord hcut h1
      simpa using this
    · have := snoc (w := spaced xs) (p := []) hz
      simpa using this


/-! ### Similar texts -/

theorem skip_congrOf {I : Info} {t t' : PyStr} (h : form t = form t') : SkipOf I t ↔ SkipOf I t' := by unfold SkipOf; rw [h]
theorem word_congrOf {I : Info} {k : Class} {v : Nat} {t t' : PyStr} (h : form t = form t') : WordOf I k v t ↔ WordOf I k v t' := by unfold WordOf; rw [h]
theorem cardinal_congrOf {I : Info} {t t' : PyStr} (h : form t = form t') : CardinalOf I t ↔ CardinalOf I t' := by
  unfold CardinalOf; rw [h]
theorem ordinary_congrOf {I : Info} {t t' : PyStr} (h : form t = form t') : OrdinaryOf I t ↔ OrdinaryOf I t' := by
  unfold OrdinaryOf OrdinalOf CardinalOf SkipOf; rw [h]
theorem ordinalWord_congrOf {I : Info} {k : Class} {v : Nat} {t t' : PyStr} (h : form t = form t') :
    OrdinalOf I k v t ↔ OrdinalOf I k v t' := by
  unfold OrdinalOf; rw [cardinal_congrOf h, h]

theorem runTokens_similarOf {R : PyStr → PyStr → Prop} {I : Info} {ts ts' : List PyStr} {is : List RunItem} (h : Similar R ts ts')
    (hr : RunTokensOf I ts is) : RunTokensOf I ts' is := by
  induction hr generalizing ts' with
  | nil => cases h; exact .nil
  | word hw _ ih =>
    obtain ⟨t', b', rfl, h1, _, h3⟩ := similar_cons h
    exact .word ((word_congrOf h1).mp hw) (ih h3)
  | conj hw _ ih =>
    obtain ⟨t', b', rfl, h1, _, h3⟩ := similar_cons h
    rw [h1]
    exact .conj ((skip_congrOf h1).mp hw) (ih h3)
  | blank hw _ ih =>
    obtain ⟨t', b', rfl, h1, _, h3⟩ := similar_cons h
    exact .blank ((blankForm_congr h1).mp hw) (ih h3)

theorem run_similarOf {R : PyStr → PyStr → Prop} {I : Info} {ts ts' : List PyStr} {is : List RunItem} (h : Similar R ts ts')
    (hr : RunOf I ts is) : RunOf I ts' is := by
  obtain ⟨h1, t, ts0, rfl, h2⟩ := hr
  refine ⟨runTokens_similarOf h h1, ?_⟩
  obtain ⟨t', b', rfl, h3, _, _⟩ := similar_cons h
  exact ⟨t', b', rfl, (cardinal_congrOf h3).mp h2⟩

/-- The conversions of similar token lists correspond. -/
theorem converted_similarOf {R : PyStr → PyStr → Prop} (hrefl : ∀ x, R x x) (happ : ∀ {a b c d}, R a b → R c d → R (a ++ c) (b ++ d))
    {I : Info} {ts ts' : List PyStr} {out : PyStr} (h : Similar R ts ts') (hc : ConvertedOf I ts out) :
    ∃ out', ConvertedOf I ts' out' ∧ R out out' := by
  induction hc generalizing ts' with
  | nil => cases h; exact ⟨[], .nil, hrefl _⟩
  | keep hk _ ih =>
    obtain ⟨t', b', rfl, h1, h2, h3⟩ := similar_cons h
    obtain ⟨o, ho, hr⟩ := ih h3
    refine ⟨t' ++ o, .keep ?_ ho, happ h2 hr⟩
    rw [← blankForm_congr h1, ← mark_congr h1, ← skip_congrOf h1, ← ordinary_congrOf h1]; exact hk
  | ending hrun hcut => exact ⟨_, .ending (run_similarOf h hrun) hcut, hrefl _⟩
  | mark hrun hcut hm he _ ih =>
    obtain ⟨a', b', rfl, h1, h2⟩ := similar_append h
    obtain ⟨t', b'', rfl, h3, h4, h5⟩ := similar_cons h2
    obtain ⟨o, ho, hr⟩ := ih h5
    exact ⟨_, .mark (run_similarOf h1 hrun) hcut ((mark_congr h3).mp hm) ((endsBlank_similar h1).mp he) ho, happ (happ (hrefl _) h4) hr⟩
  | markTight hrun hcut hm he _ ih =>
    obtain ⟨a', b', rfl, h1, h2⟩ := similar_append h
    obtain ⟨t', b'', rfl, h3, h4, h5⟩ := similar_cons h2
    obtain ⟨o, ho, hr⟩ := ih h5
    exact ⟨_, .markTight (run_similarOf h1 hrun) hcut ((mark_congr h3).mp hm) (fun e => he ((endsBlank_similar h1).mpr e)) ho,
      happ (happ (hrefl _) h4) hr⟩
  | word hrun hi hcut ho hm _ ih =>
    obtain ⟨a', b', rfl, h1, h2⟩ := similar_append h
    obtain ⟨t', b'', rfl, h3, h4, h5⟩ := similar_cons h2
    obtain ⟨o, ho', hr⟩ := ih h5
    exact ⟨_, .word (run_similarOf h1 hrun) hi hcut ((ordinary_congrOf h3).mp ho) (fun e => hm ((mark_congr h3).mpr e)) ho',
      happ (happ (hrefl _) h4) hr⟩
  | conjWord hrun hcut ho hm _ ih =>
    obtain ⟨a', b', rfl, h1, h2⟩ := similar_append h
    obtain ⟨t', b'', rfl, h3, h4, h5⟩ := similar_cons h2
    obtain ⟨o, ho', hr⟩ := ih h5
    exact ⟨_, .conjWord (run_similarOf h1 hrun) hcut ((ordinary_congrOf h3).mp ho) (fun e => hm ((mark_congr h3).mpr e)) ho',
      happ (happ (hrefl _) h4) hr⟩
  | ordinal hrun ho hcut _ ih =>
    obtain ⟨a', b', rfl, h1, h2⟩ := similar_append h
    obtain ⟨t', b'', rfl, h3, h4, h5⟩ := similar_cons h2
    obtain ⟨o, ho', hr⟩ := ih h5
    refine ⟨_, .ordinal ?_ ((ordinalWord_congrOf h3).mp ho) hcut ho', happ (hrefl _) hr⟩
    rcases hrun with ⟨rfl, rfl⟩ | hrun
    · cases h1; exact Or.inl ⟨rfl, rfl⟩
    · exact Or.inr (run_similarOf h1 hrun)


/-! ### White space -/

theorem whites_runOf {I : Info} {b : List PyStr} (hb : ∀ t ∈ b, WhiteToken t) : RunTokensOf I b [] := by
  induction b with
  | nil => exact .nil
  | cons t b ih => exact .blank (white_blankForm (hb t (by simp))) (ih (fun x hx => hb x (List.mem_cons_of_mem _ hx)))

theorem runTokens_simGOf {I : Info} (hi : Tidy I) {G : PyStr → PyStr → Prop} {e : Bool} {ts ts' : List PyStr} {is : List RunItem}
    (h : SimG G e ts ts') (hr : RunTokensOf I ts is) : RunTokensOf I ts' is := by
  induction h generalizing is with
  | nil => exact hr
  | same _ ih =>
    cases hr with
    | word hw h => exact .word hw (ih h)
    | conj hw h => exact .conj hw (ih h)
    | blank hw h => exact .blank hw (ih h)
  | gap h1 h2 h3 h4 h5 h6 ih =>
    obtain ⟨x, y, k1, k2, rfl⟩ := runTokens_splitOf hr
    rw [blanks_itemsOf hi (fun t ht => white_blankForm (h3 t ht)) k1]
    exact runTokens_appendOf (whites_runOf h4) (ih k2)
  | trail _ h1 h2 =>
    rw [blanks_itemsOf hi (fun t ht => white_blankForm (h1 t ht)) hr]
    exact whites_runOf h2

theorem run_simGOf {I : Info} (hi : Tidy I) {G : PyStr → PyStr → Prop} {e : Bool} {ts ts' : List PyStr} {is : List RunItem}
    (h : SimG G e ts ts') (hr : RunOf I ts is) : RunOf I ts' is := by
  obtain ⟨h1, t, ts0, rfl, hc⟩ := hr
  obtain ⟨a', b', e1, h2, _⟩ := simG_split (a := []) (cardinal_not_blankOf hi hc) h
  have := simG_nil h2
  subst this
  exact ⟨runTokens_simGOf hi h h1, t, b', e1, hc⟩

theorem converted_whitesOf {I : Info} (hi : Tidy I) {gs ts : List PyStr} {out : PyStr} (hg : ∀ t ∈ gs, WhiteToken t) (h : ConvertedOf I (gs ++ ts) out) :
    ∃ o, out = gs.flatten ++ o ∧ ConvertedOf I ts o := by
  obtain ⟨o, ho⟩ := converted_existsOf hi ts
  exact ⟨o, converted_uniqueOf hi h (keep_blanksOf hg ho), ho⟩

/-- Converting token lists that differ in white space. -/
theorem converted_spacingOf {R G : PyStr → PyStr → Prop} {e : Bool} (hfix : ∀ p {x y}, R x y → R (p ++ x) (p ++ y)) (hnil : R [] [])
    (hgap : ∀ {g g' x y}, WhiteToken g → WhiteToken g' → G g g' → R x y → R (g ++ x) (g' ++ y))
    (htrail : e = true → ∀ {g g'}, WhiteToken g → WhiteToken g' → R g g')
    {I : Info} (hi : Tidy I) : ∀ (n : Nat) {ts ts' : List PyStr} {out : PyStr}, ts.length ≤ n → SimG G e ts ts' → ConvertedOf I ts out →
      ∃ out', ConvertedOf I ts' out' ∧ R out out' := by
  have flat : ∀ {gs : List PyStr}, (∀ t ∈ gs, WhiteToken t) → WhiteToken gs.flatten := by
    intro gs h c hc
    obtain ⟨t, ht, hct⟩ := List.mem_flatten.mp hc
    exact h t ht c hct
  have whole : ∀ {gs : List PyStr}, (∀ t ∈ gs, WhiteToken t) → ConvertedOf I gs gs.flatten := by
    intro gs h
    have := keep_blanksOf h (ConvertedOf.nil (i := I))
    simpa using this
  intro n
  induction n with
  | zero =>
    intro ts ts' out hn hs hc
    have : ts = [] := List.length_eq_zero_iff.mp (by omega)
    subst this
    have e0 := converted_uniqueOf hi hc .nil
    subst e0
    generalize hx : ([] : List PyStr) = xs at hs
    cases hs with
    | nil => exact ⟨[], .nil, hnil⟩
    | same _ => cases hx
    | gap h1 _ _ _ _ _ => exact absurd (List.append_eq_nil_iff.mp hx.symm).1 h1
    | trail he h1 h2 => exact ⟨_, whole h2, htrail he (by intro c hc; cases hc) (flat h2)⟩
  | succ n ih =>
    intro ts ts' out hn hs hc
    have hs0 := hs
    have tailLen : ∀ {run ts0 : List PyStr} {t : PyStr}, (run ++ t :: ts0).length ≤ n + 1 → ts0.length ≤ n := by
      intro run ts0 t h
      simp at h; omega
    cases hc with
    | nil =>
      exact ih (by simp) hs .nil
    | @keep t ts0 out0 hk hc =>
      generalize hx : t :: ts0 = xs at hs
      cases hs with
      | nil => cases hx
      | same h =>
        injection hx with h1 h2; subst h1 h2
        obtain ⟨o, ho, hR⟩ := ih (by simpa using hn) h hc
        exact ⟨t ++ o, .keep hk ho, hfix t hR⟩
      | @gap gs gs' ts1 ts1' h1 h2 h3 h4 h5 h6 =>
        have hc' : ConvertedOf I (gs ++ ts1) (t ++ out0) := hx ▸ .keep hk hc
        obtain ⟨o, e1, ho⟩ := converted_whitesOf hi h3 hc'
        have hlen : ts1.length ≤ n := by
          have := congrArg List.length hx
          have hg : 0 < gs.length := by
            cases gs with
            | nil => exact absurd rfl h1
            | cons _ _ => simp
          rw [List.length_append] at this
          rw [this] at hn
          omega
        obtain ⟨o', ho', hR⟩ := ih hlen h6 ho
        rw [e1]
        exact ⟨gs'.flatten ++ o', keep_blanksOf h4 ho', hgap (flat h3) (flat h4) h5 hR⟩
      | trail he h1 h2 =>
        have hc' : ConvertedOf I ts' ts'.flatten := whole h2
        have e1 := converted_uniqueOf hi (hx ▸ ConvertedOf.keep hk hc) (whole h1)
        rw [e1]
        exact ⟨_, hc', htrail he (flat h1) (flat h2)⟩
    | @ending run is xs hrun hcut =>
      refine ⟨withSpaces xs, .ending (run_simGOf hi hs hrun) hcut, ?_⟩
      have := hfix (withSpaces xs) hnil
      simpa using this
    | @mark run is xs t ts0 out0 hrun hcut hm hbl hc =>
      obtain ⟨a', b', rfl, h1, h2⟩ := simG_split (mark_not_blank hm) hs
      obtain ⟨o, ho, hR⟩ := ih (tailLen hn) h2 hc
      exact ⟨_, .mark (run_simGOf hi h1 hrun) hcut hm ((endsBlank_simG h1).mp hbl) ho, hfix _ hR⟩
    | @markTight run is xs t ts0 out0 hrun hcut hm hbl hc =>
      obtain ⟨a', b', rfl, h1, h2⟩ := simG_split (mark_not_blank hm) hs
      obtain ⟨o, ho, hR⟩ := ih (tailLen hn) h2 hc
      exact ⟨_, .markTight (run_simGOf hi h1 hrun) hcut hm (fun h => hbl ((endsBlank_simG h1).mpr h)) ho, hfix _ hR⟩
    | @word run is xs t ts0 out0 hrun hlast hcut ho hm hc =>
      obtain ⟨a', b', rfl, h1, h2⟩ := simG_split (closing_factsOf hi (Or.inl ho)).2.2 hs
      obtain ⟨o, ho', hR⟩ := ih (tailLen hn) h2 hc
      exact ⟨_, .word (run_simGOf hi h1 hrun) hlast hcut ho hm ho', hfix _ hR⟩
    | @conjWord run is f xs t ts0 out0 hrun hcut ho hm hc =>
      obtain ⟨a', b', rfl, h1, h2⟩ := simG_split (closing_factsOf hi (Or.inl ho)).2.2 hs
      obtain ⟨o, ho', hR⟩ := ih (tailLen hn) h2 hc
      exact ⟨_, .conjWord (run_simGOf hi h1 hrun) hcut ho hm ho', hfix _ hR⟩
    | @ordinal run is xs t k v ts0 out0 hrun ho hcut hc =>
      obtain ⟨a', b', rfl, h1, h2⟩ := simG_split (closing_factsOf hi (Or.inr ⟨k, v, ho⟩)).2.2 hs
      obtain ⟨o, ho', hR⟩ := ih (tailLen hn) h2 hc
      refine ⟨_, .ordinal (is := is) (k := k) (v := v) (xs := xs) ?_ ho hcut ho', hfix _ hR⟩
      rcases hrun with ⟨rfl, rfl⟩ | hrun
      · exact Or.inl ⟨simG_nil h1, rfl⟩
      · exact Or.inr (run_simGOf hi h1 hrun)

/-- `parse` (before stripping) of texts that differ in white space. -/
theorem converted_sameSpacingOf {I : Info} (hi : Tidy I) {l s s' out : PyStr} (h : SameSpacing s s') (hc : ConvertedOf I (tokenize s l) out) :
    ∃ out', ConvertedOf I (tokenize s' l) out' ∧ SameSpacing out out' := by
  have h := sameSpacing_noShy h
  have fix : ∀ (p : PyStr) {x y : PyStr}, SameSpacing x y → SameSpacing (p ++ x) (p ++ y) := by
    intro p x y h
    induction p with
    | nil => exact h
    | cons c p ih => exact .char ih
  have main : ∀ {p : Nat → Bool} {out : PyStr}, (∀ c, isSpace c = true → p c = true) → ConvertedOf I (splitAtChars p (noShy s)) out →
      ∃ out', ConvertedOf I (splitAtChars p (noShy s')) out' ∧ SameSpacing out out' := by
    intro p out hp hc
    obtain ⟨hd, ta, tb, e1, e2, hs⟩ := splitAtChars_spacing hp h
    rw [e1] at hc
    rw [e2]
    exact converted_spacingOf (R := SameSpacing) (G := BothNonempty) (e := true) fix (.trail (by intro c h; cases h) (by intro c h; cases h))
      (fun h1 h2 hg hr => .gap hg.1 hg.2 h1 h2 hr) (fun _ {g g'} h1 h2 => .trail h1 h2) hi _ (Nat.le_refl _) (.same hs) hc
  rw [tokenize_eq] at hc ⊢
  unfold split at hc ⊢
  by_cases hh : RE_BUG_LANGUAGES.elem l = true
  · rw [if_pos hh] at hc ⊢
    have eqs : ∀ {a b : List PyStr} {out : PyStr}, SimG Eq false a b → ConvertedOf I a out → ConvertedOf I b out := by
      intro a b out hs hc
      obtain ⟨o, ho, e⟩ := converted_spacingOf (R := Eq) (G := Eq) (e := false) (fun p x y h => by rw [h]) rfl
        (fun _ _ hg hr => by rw [hg, hr]) (fun h => by cases h) hi _ (Nat.le_refl _) hs hc
      rw [e]; exact ho
    obtain ⟨hd, ta, tb, e1, e2, hs, _⟩ := splitSpaces_chars (noShy s)
    obtain ⟨hd', ta', tb', e1', e2', hs', _⟩ := splitSpaces_chars (noShy s')
    rw [e1] at hc
    have hc2 := eqs (.same hs) hc
    rw [← e2] at hc2
    obtain ⟨o, ho, hr⟩ := main (fun _ h => h) hc2
    rw [e2'] at ho
    refine ⟨o, ?_, hr⟩
    rw [e1']
    exact eqs (.same hs'.symm) ho
  · rw [if_neg hh] at hc ⊢
    rw [← splitAtChars_nonWord] at hc ⊢
    exact main (fun c hc => by simp [space_not_word hc]) hc

/-- Leading white space. -/
theorem converted_leadingOf {I : Info} (hi : Tidy I) {l g s out : PyStr} (hg : WhiteToken g) (hc : ConvertedOf I (tokenize s l) out) :
    ConvertedOf I (tokenize (g ++ s) l) (g ++ out) := by
  by_cases h0 : g = []
  · subst h0; exact hc
  have hn : noShy (g ++ s) = g ++ noShy s := by
    unfold noShy
    rw [List.filter_append, List.filter_eq_self.mpr (fun c h => (space_not_apos (hg c h)).2.2)]
  have main : ∀ {p : Nat → Bool} {out : PyStr}, (∀ c, isSpace c = true → p c = true) → ConvertedOf I (splitAtChars p (noShy s)) out →
      ConvertedOf I (splitAtChars p (g ++ noShy s)) (g ++ out) := by
    intro p out hp hc
    obtain ⟨gs, e, h1, h2, h3⟩ := splitAtChars_gap hp hg h0 (noShy s)
    rw [e]
    have := keep_blanksOf (mid := [] :: gs) (by
      intro t ht
      rcases List.mem_cons.mp ht with rfl | ht
      · intro c h; cases h
      · exact h2 t ht) hc
    simpa [h3] using this
  rw [tokenize_eq] at hc ⊢
  rw [hn]
  unfold split at hc ⊢
  by_cases hh : RE_BUG_LANGUAGES.elem l = true
  · rw [if_pos hh] at hc ⊢
    have eqs : ∀ {a b : List PyStr} {out : PyStr}, SimG Eq false a b → ConvertedOf I a out → ConvertedOf I b out := by
      intro a b out hs hc
      obtain ⟨o, ho, e⟩ := converted_spacingOf (R := Eq) (G := Eq) (e := false) (fun p x y h => by rw [h]) rfl
        (fun _ _ hg hr => by rw [hg, hr]) (fun h => by cases h) hi _ (Nat.le_refl _) hs hc
      rw [e]; exact ho
    obtain ⟨hd, ta, tb, e1, e2, hs, _⟩ := splitSpaces_chars (noShy s)
    obtain ⟨hd', ta', tb', e1', e2', hs', _⟩ := splitSpaces_chars (g ++ noShy s)
    rw [e1] at hc
    have hc2 := eqs (.same hs) hc
    rw [← e2] at hc2
    have ho := main (fun _ h => h) hc2
    rw [e2'] at ho
    rw [e1']
    exact eqs (.same hs'.symm) ho
  · rw [if_neg hh] at hc ⊢
    rw [← splitAtChars_nonWord] at hc ⊢
    exact main (fun c hc => by simp [space_not_word hc]) hc


/-! ### Texts -/

theorem cut_headOf {I : Info} {is : List RunItem} {xs : List PyStr} (h : CutOf I is xs) : ∃ n ys, xs = decDigits n :: ys := by
  cases h with
  | @last is n _ => exact ⟨n, [], rfl⟩
  | more _ _ _ _ => exact ⟨_, _, rfl⟩

theorem converted_startsNSOf {I : Info} {ts : List PyStr} {x : PyStr} (h : ConvertedOf I ts x) (hs : StartsNS ts.flatten) : StartsNS x := by
  have hd : ∀ {is : List RunItem} {xs : List PyStr}, CutOf I is xs → ∃ c y z, withSpaces xs = c :: y ∧ spaced xs = c :: z ∧ isSpace c = false := by
    intro is xs hc
    obtain ⟨n, ys, rfl⟩ := cut_headOf hc
    obtain ⟨h1, h2⟩ := decDigits_isDigit n
    cases hdd : decDigits n with
    | nil => exact absurd hdd h1
    | cons c ds =>
      rw [hdd] at h2
      have hsp := isSpace_ascii_digit (h2 c (by simp))
      cases ys with
      | nil => exact ⟨c, _, _, rfl, rfl, hsp⟩
      | cons y ys => exact ⟨c, _, _, rfl, rfl, hsp⟩
  have pre : ∀ {c : Nat} {y z : PyStr}, isSpace c = false → StartsNS (c :: y ++ z) := by
    intro c y z h d e he
    injection he with he _
    rw [← he]; exact h
  induction h with
  | nil => intro c cs e; cases e
  | @keep t ts out hk _ ih =>
    cases t with
    | nil => exact ih hs
    | cons c t =>
      have hc := hs c (t ++ ts.flatten) rfl
      exact pre hc
  | ending hrun hcut =>
    obtain ⟨c, y, _, e, _, hc⟩ := hd hcut
    rw [e]; simpa using pre (z := []) hc
  | mark hrun hcut _ _ _ _ =>
    obtain ⟨c, y, _, e, _, hc⟩ := hd hcut
    rw [e, List.append_assoc]; exact pre hc
  | markTight hrun hcut _ _ _ _ =>
    obtain ⟨c, _, y, _, e, hc⟩ := hd hcut
    rw [e, List.append_assoc]; exact pre hc
  | word hrun _ hcut _ _ _ _ =>
    obtain ⟨c, y, _, e, _, hc⟩ := hd hcut
    rw [e, List.append_assoc]; exact pre hc
  | conjWord hrun hcut _ _ _ _ =>
    obtain ⟨c, y, _, e, _, hc⟩ := hd hcut
    rw [e, List.append_assoc, List.append_assoc, List.append_assoc]; exact pre hc
  | ordinal hrun _ hcut _ _ =>
    obtain ⟨c, _, y, _, e, hc⟩ := hd hcut
    rw [e]; exact pre hc

/-- A text that ends closed, a gap of white space and another text. -/
theorem converted_gapOf {I : Info} (hi : Tidy I) {l a g b ra rb : PyStr} {ta tb : List PyStr} (ha : Tokens l a ta) (he : EndsClosedOf I ta)
    (hg : ∀ c ∈ g, isSpace c = true) (hne : g ≠ []) (hb : Tokens l b tb)
    (hae : EndsNS (withoutSoftHyphens a)) (hbs : StartsNS (withoutSoftHyphens b)) (hb0 : withoutSoftHyphens b ≠ [])
    (hra : ConvertedOf I ta ra) (hrb : ConvertedOf I tb rb) :
    ∃ ts raw, Tokens l (a ++ g ++ b) ts ∧ ConvertedOf I ts raw ∧ strip raw = strip ra ++ g ++ strip rb := by
  obtain ⟨mid, hm, hmf, hms⟩ := tokens_gap ha hb hg hne hae hbs
  have hr := converted_appendOf hi hra he (keep_blanksOf hms hrb)
  rw [hmf, ← List.append_assoc, ← List.append_assoc] at hr
  refine ⟨_, _, hm, hr, ?_⟩
  apply strip_gap (converted_endsNSOf hi hra he (by rw [ha.1]; exact hae)) (converted_startsNSOf hrb (by rw [hb.1]; exact hbs))
  intro e
  apply hb0
  rw [← hb.1]; exact converted_nonemptyOf hrb e

/-- A text that ends with a number word, a gap of white space and a text that begins with an ordinary word. -/
theorem converted_open_gapOf {I : Info} (hi : Tidy I) {l a g b ra rb : PyStr} {ta tb : List PyStr} (ha : Tokens l a ta) (he : EndsNumberOf I ta)
    (hg : ∀ c ∈ g, isSpace c = true) (hne : g ≠ []) (hb : Tokens l b tb) (hbo : BeginsOrdinaryOf I tb)
    (hae : EndsNS (withoutSoftHyphens a)) (hbs : StartsNS (withoutSoftHyphens b))
    (hra : ConvertedOf I ta ra) (hrb : ConvertedOf I tb rb) :
    ∃ ts raw, Tokens l (a ++ g ++ b) ts ∧ ConvertedOf I ts raw ∧ strip raw = strip ra ++ u!" " ++ strip rb := by
  obtain ⟨mid, hm, hmf, hms⟩ := tokens_gap ha hb hg hne hae hbs
  obtain ⟨e, u, ts, rfl, hempty, hu⟩ := hbo
  obtain ⟨out, hout⟩ := converted_existsOf hi ts
  have hblank : ∀ t ∈ mid ++ e, BlankForm t := by
    intro t ht
    rcases List.mem_append.mp ht with ht | ht
    · rw [blankForm_iff]; exact blank_norm ((blank_spec t).mpr (hms t ht))
    · rw [hempty t ht]; exact blankForm_nil
  have hmne : mid ++ e ≠ [] := by
    intro h
    have : mid = [] := (List.append_eq_nil_iff.mp h).1
    rw [this] at hmf
    exact hne hmf.symm
  obtain ⟨hr, z, rfl, hz⟩ := converted_openOf hi hra he hblank (Or.inl hmne) hu hout
  have hrb' : ConvertedOf I (e ++ u :: ts) (u ++ out) := by
    have h1 : ConvertedOf I (u :: ts) (u ++ out) := .keep (Or.inr (Or.inr (Or.inr hu))) hout
    have h2 := keep_blanksOf (mid := e) (by intro t ht; rw [hempty t ht]; simp) h1
    have : e.flatten = [] := List.flatten_eq_nil_iff.mpr hempty
    rwa [this] at h2
  have := converted_uniqueOf hi hrb hrb'
  subst this
  rw [show ta ++ (mid ++ e) ++ u :: ts = ta ++ mid ++ (e ++ u :: ts) by simp] at hr
  refine ⟨_, _, hm, hr, ?_⟩
  have hsb : StartsNS (u ++ out) := converted_startsNSOf hrb (by rw [hb.1]; exact hbs)
  have hun : u ++ out ≠ [] := by
    intro h
    have : u = [] := (List.append_eq_nil_iff.mp h).1
    obtain ⟨⟨c, h', _⟩, _⟩ := hu
    rw [this] at h'; cases h'
  rw [strip_gap hz hsb hun]
  have : strip (z ++ u!" ") = strip z := by
    unfold strip
    rw [(dropWhile_endsNS hz u!" ").1]
    unfold rdropWhile
    simp
    rw [List.dropWhile_cons_of_pos (by decide)]
  rw [this]

/-- A text ending with a full stop or a comma, and another text. -/
theorem converted_concatOf {I : Info} (hi : Tidy I) {l a b x y : PyStr} (hh : l ≠ u!"hi") {c : Nat} (hc : c = 0x2e ∨ c = 0x2c)
    (hb : StartsNS (withoutSoftHyphens b)) (hx : ConvertedOf I (tokenize (a ++ [c]) l) x) (hy : ConvertedOf I (tokenize b l) y) :
    ConvertedOf I (tokenize (a ++ [c] ++ b) l) (x ++ y) ∧ strip (x ++ y) = strip x ++ strip y := by
  have hcs : noShy [c] = [c] := by rcases hc with rfl | rfl <;> rfl
  have ht : tokenize (a ++ [c] ++ b) l = split l (noShy a) ++ [c] :: tokenize b l := by
    rw [tokenize_eq, noShy_append, noShy_append, hcs, List.append_assoc, tokenize_eq]
    exact split_append_sep hh _ _ (sep_mark hh hc)
  have hta : tokenize (a ++ [c]) l = split l (noShy a) ++ [c] :: [[]] := by
    rw [tokenize_eq, noShy_append, hcs]
    rw [split_append_sep hh _ [] (sep_mark hh hc), nonhi_split hh []]; rfl
  have hm : Mark [c] := by
    rw [mark_elem]; rcases hc with rfl | rfl <;> decide +kernel
  have hcl : EndsClosedOf I (split l (noShy a) ++ [[c]]) :=
    Or.inr ⟨_, [c], [], rfl, Or.inl (mark_ordinaryOf hi hm), by simp⟩
  obtain ⟨x', hx'⟩ := converted_existsOf hi (split l (noShy a) ++ [[c]])
  have h0 : ConvertedOf I [[]] [] := .keep (t := []) (Or.inl blankForm_nil) .nil
  have h1 := converted_appendOf hi hx' hcl h0
  rw [List.append_nil, List.append_assoc] at h1
  rw [hta] at hx
  have := converted_uniqueOf hi hx h1
  subst this
  have h2 := converted_appendOf hi hx' hcl hy
  rw [List.append_assoc] at h2
  refine ⟨by rw [ht]; exact h2, ?_⟩
  have hsp : isSpace c = false := by rcases hc with rfl | rfl <;> decide
  have hns : EndsNS x := converted_endsNSOf hi hx' hcl ⟨(split l (noShy a)).flatten, c, by simp, hsp⟩
  obtain ⟨z, d, e, hd⟩ := hns
  apply strip_append
  · intro d' ds' he
    rw [e] at he
    have := (List.append_inj' he rfl).2
    injection this with this
    rw [← this]; exact hd
  · rw [e]; simp
  · refine converted_startsNSOf hy ?_
    rw [(tokens_tokenize l b).1]; exact hb

theorem onlyWords_runOf {I : Info} {ts : List PyStr} {ws : List (Class × Nat)} (h : OnlyWordsOf I ts ws) :
    ∃ is, RunTokensOf I ts is ∧ runWords is = ws := by
  induction h with
  | nil => exact ⟨[], .nil, rfl⟩
  | word hw _ ih =>
    obtain ⟨is, h1, h2⟩ := ih
    exact ⟨_, .word hw h1, by rw [← h2]; rfl⟩
  | other ho _ ih =>
    obtain ⟨is, h1, h2⟩ := ih
    rcases ho with ho | ho
    · exact ⟨is, .blank ho h1, h2⟩
    · exact ⟨_, .conj ho h1, by rw [← h2]; rfl⟩

/-- A text that is read as a number, beginning with a number word. -/
theorem converted_numberOf {I : Info} {t : PyStr} {ts : List PyStr} {ws : List (Class × Nat)} {n : Nat} (hc : CardinalOf I t)
    (h : OnlyWordsOf I (t :: ts) ws) (hr : ReadAs I ws n) : ∃ raw, ConvertedOf I (t :: ts) raw ∧ strip raw = decDigits n := by
  obtain ⟨is, h1, h2⟩ := onlyWords_runOf h
  refine ⟨_, .ending ⟨h1, t, ts, rfl, hc⟩ (.last (n := n) (by rw [h2]; exact hr)), ?_⟩
  have hz : EndsNS (decDigits n) := digits_endsNS n
  have hd := decDigits_isDigit n
  show strip (decDigits n ++ u!" " ++ []) = _
  rw [List.append_nil]
  unfold strip
  rw [(dropWhile_endsNS hz u!" ").1]
  have e : (decDigits n).dropWhile isSpace = decDigits n := by
    cases hdd : decDigits n with
    | nil => rfl
    | cons c ds =>
      rw [hdd] at hd
      rw [List.dropWhile_cons_of_neg]
      simp [isSpace_ascii_digit (hd.2 c (by simp))]
  rw [e]
  have := rdropWhile_endsNS hz
  unfold rdropWhile at this ⊢
  simp
  rw [List.dropWhile_cons_of_pos (by decide)]
  exact this

end NumberParser
