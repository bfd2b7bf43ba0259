import Verif.Proofs.Vocabulary
import Verif.Proofs.Convert
import Verif.Spec.VocabularyText

/-! `parse` and the rules for cutting runs and converting texts, for any vocabulary. -/

set_option linter.unusedSimpArgs false
set_option exponentiation.threshold 5000

namespace NumberParser
open Spec

/-! ## Number words, conjunctions, ordinals -/

theorem mem_listed {I : Info} {f : PyStr} : (mkLangData I).allNumbers.mem f = true ↔ Listed I f := all_listed

theorem last_listed {I : Info} {k : Class} {f : PyStr} {v : Nat} (h : LastEntry (tableOf I k) f v) : Listed I f := ⟨k, last_lists h⟩

theorem listed_last {I : Info} {f : PyStr} (h : Listed I f) : ∃ k v, LastEntry (tableOf I k) f v := by
  obtain ⟨k, h⟩ := h
  obtain ⟨v, h⟩ := lists_last h
  exact ⟨k, v, h⟩

theorem listed_blank {I : Info} (hi : Tidy I) {f : PyStr} (h : Listed I f) : blank f = false := by
  obtain ⟨k, h⟩ := h
  exact blank_false (hi.wordNotBlank k f h)

theorem listed_skip {I : Info} (hi : Tidy I) {f : PyStr} (h : Listed I f) : isSkipToken f (mkLangData I) = false := by
  obtain ⟨k, h⟩ := h
  cases hs : isSkipToken f (mkLangData I) with
  | false => rfl
  | true => exact absurd (skip_mem.mp hs) (hi.noConjunction k f h)

theorem sep_false {f : PyStr} (h : f ≠ u!"." ∧ f ≠ u!",") : SENTENCE_SEPARATORS.elem f = false := by
  cases hs : SENTENCE_SEPARATORS.elem f with
  | false => rfl
  | true =>
    have := List.elem_iff.mp hs
    simp only [SENTENCE_SEPARATORS, List.mem_cons, List.not_mem_nil, or_false] at this
    rcases this with rfl | rfl
    · exact absurd rfl h.1
    · exact absurd rfl h.2

theorem skip_blankOf {I : Info} (hi : Tidy I) {f : PyStr} (h : f ∈ I.skipTokens) : blank f = false :=
  blank_false (hi.conjunctionNotBlank f h)

theorem skip_unlisted {I : Info} (hi : Tidy I) {f : PyStr} (h : f ∈ I.skipTokens) : ¬ Listed I f := by
  rintro ⟨k, hk⟩
  exact hi.noConjunction k f hk h

theorem cardinal_isSome {I : Info} {f : PyStr} : (isCardinalToken f (mkLangData I)).isSome = true ↔ Listed I f := by
  unfold isCardinalToken
  rw [← mem_listed]
  split <;> simp_all

theorem cands_total (g : PyStr) : ∃ cs, Candidates g cs := by
  by_cases h : ∃ u, g = u ++ u!"ieth"
  · obtain ⟨u, rfl⟩ := h; exact ⟨_, .ieth u⟩
  by_cases h' : ∃ u, g = u ++ u!"th"
  · obtain ⟨u, rfl⟩ := h'; exact ⟨_, .th u (fun v e => h ⟨v, e⟩)⟩
  · exact ⟨_, .other g (fun u e => h' ⟨u, e⟩)⟩

theorem cands_unique {g : PyStr} {cs cs' : List PyStr} (h : Candidates g cs) (h' : Candidates g cs') : cs = cs' := by
  have key : ∀ stem : PyStr, stem ++ u!"ieth" = (stem ++ u!"ie") ++ u!"th" := by intro s; simp
  generalize hg : g = g' at h'
  cases h with
  | ieth stem =>
    cases h' with
    | ieth stem' => rw [List.append_cancel_right hg]
    | th stem' hn => exact absurd hg.symm (hn stem)
    | other _ hn => rw [key] at hg; exact absurd hg.symm (hn _)
  | th stem hn =>
    cases h' with
    | ieth stem' => exact absurd hg (hn stem')
    | th stem' _ => rw [List.append_cancel_right hg]
    | other _ hn' => exact absurd hg.symm (hn' stem)
  | other _ hn =>
    cases h' with
    | ieth stem' => rw [key] at hg; exact absurd hg (hn _)
    | th stem' _ => exact absurd hg (hn _)
    | other _ _ => rw [hg]

/-- The first listed candidate. -/
theorem stands_iff {I : Info} {g c : PyStr} {cs : List PyStr} (h : Candidates g cs) :
    StandsForOf I g c ↔ ∃ a b, cs = a ++ c :: b ∧ Listed I c ∧ ∀ x ∈ a, ¬ Listed I x := by
  constructor
  · rintro ⟨a, b, h1, h2⟩
    exact ⟨a, b, cands_unique h h1, h2⟩
  · rintro ⟨a, b, rfl, h2⟩
    exact ⟨a, b, h, h2⟩

theorem first_one {P : PyStr → Prop} {x c : PyStr} : (∃ a b, [x] = a ++ c :: b ∧ P c ∧ ∀ y ∈ a, ¬ P y) ↔ c = x ∧ P x := by
  constructor
  · rintro ⟨a, b, h, hc, _⟩
    cases a with
    | nil => simp at h; rw [← h.1] at hc; exact ⟨h.1.symm, hc⟩
    | cons y a => simp at h
  · rintro ⟨rfl, h⟩; exact ⟨[], [], rfl, h, by simp⟩

theorem first_cons {P : PyStr → Prop} {x c : PyStr} {xs : List PyStr} :
    (∃ a b, x :: xs = a ++ c :: b ∧ P c ∧ ∀ y ∈ a, ¬ P y) ↔
      (c = x ∧ P x) ∨ (¬ P x ∧ ∃ a b, xs = a ++ c :: b ∧ P c ∧ ∀ y ∈ a, ¬ P y) := by
  constructor
  · rintro ⟨a, b, h, hc, hn⟩
    cases a with
    | nil => simp at h; rw [← h.1] at hc; exact Or.inl ⟨h.1.symm, hc⟩
    | cons y a =>
      simp only [List.cons_append, List.cons.injEq] at h
      refine Or.inr ⟨by rw [h.1]; exact hn y List.mem_cons_self, a, b, h.2, hc, fun z hz => hn z (List.mem_cons_of_mem _ hz)⟩
  · rintro (⟨rfl, h⟩ | ⟨hx, a, b, rfl, hc, hn⟩)
    · exact ⟨[], xs, rfl, h, by simp⟩
    · refine ⟨x :: a, b, rfl, hc, fun y hy => ?_⟩
      rcases List.mem_cons.mp hy with rfl | hy
      · exact hx
      · exact hn y hy

theorem numberTokenOf_iff {I : Info} (hi : Tidy I) {f w : PyStr} :
    isNumberToken f (mkLangData I) = some w ↔ StandsForOf I (irregular f) w := by
  have hirr : applyCardinalConversion f (mkLangData I) =
      if (isCardinalToken (subEnd u!"ieth" u!"y" (irregular f)) (mkLangData I)).isSome = true
      then subEnd u!"ieth" u!"y" (irregular f)
      else if (isCardinalToken (subEnd u!"th" [] (irregular f)) (mkLangData I)).isSome = true
      then subEnd u!"th" [] (irregular f) else irregular f := rfl
  have nl : ∀ {x : PyStr}, ¬ Listed I (x ++ [10]) := fun h => hi.wordOneLine _ h (by simp)
  have hcard : ∀ x, isCardinalToken x (mkLangData I) = some w ↔ w = x ∧ Listed I x := by
    intro x
    unfold isCardinalToken
    rw [← mem_listed]
    split
    · rename_i h; simp [h, eq_comm]
    · rename_i h; simp [h]
  have hirr' : applyCardinalConversion f (mkLangData I) =
      @ite _ (Listed I (subEnd u!"ieth" u!"y" (irregular f))) (Classical.propDecidable _) (subEnd u!"ieth" u!"y" (irregular f))
        (@ite _ (Listed I (subEnd u!"th" [] (irregular f))) (Classical.propDecidable _) (subEnd u!"th" [] (irregular f)) (irregular f)) := by
    rw [hirr]
    split
    · rename_i h; rw [if_pos (cardinal_isSome.mp h)]
    · rename_i h
      rw [if_neg (fun h' => h (cardinal_isSome.mpr h'))]
      split
      · rename_i h; rw [if_pos (cardinal_isSome.mp h)]
      · rename_i h; rw [if_neg (fun h' => h (cardinal_isSome.mpr h'))]
  unfold isNumberToken
  rw [hcard, hirr']
  generalize irregular f = g
  obtain ⟨cs, hcs⟩ := cands_total g
  rw [stands_iff hcs]
  cases hcs with
  | ieth stem =>
    have e1 : subEnd u!"ieth" u!"y" (stem ++ u!"ieth") = stem ++ u!"y" := subEnd_suffix _ _ _
    have e2 : subEnd u!"th" [] (stem ++ u!"ieth") = stem ++ u!"ie" := by
      have := subEnd_suffix u!"th" [] (stem ++ u!"ie")
      simpa using this
    rw [e1, e2, first_cons, first_cons, first_one]
    by_cases h1 : Listed I (stem ++ u!"y")
    · simp [h1]
    · by_cases h2 : Listed I (stem ++ u!"ie") <;> simp [h1, h2]
  | th stem hn =>
    rw [first_cons, first_one, subEnd_suffix, List.append_nil]
    rcases subEnd_cases u!"ieth" u!"y" (stem ++ u!"th") with ⟨u, hg, _⟩ | ⟨u, hg, _⟩ | hs
    · exact absurd hg (hn u)
    · exfalso
      have : (stem ++ u!"th").getLast? = (u ++ u!"ieth" ++ [10]).getLast? := by rw [hg]
      simp at this
    · rw [hs]
      by_cases h1 : Listed I (stem ++ u!"th")
      · simp [h1]
      · by_cases h2 : Listed I stem <;> simp [h1, h2]
  | other _ hn =>
    rw [first_one]
    have h1 : Listed I (subEnd u!"ieth" u!"y" g) → subEnd u!"ieth" u!"y" g = g := by
      intro h
      rcases subEnd_cases u!"ieth" u!"y" g with ⟨u, hg, _⟩ | ⟨u, _, hs⟩ | hs
      · exact absurd (by simpa using hg) (hn (u ++ u!"ie"))
      · rw [hs] at h; exact absurd h nl
      · exact hs
    have h2 : Listed I (subEnd u!"th" [] g) → subEnd u!"th" [] g = g := by
      intro h
      rcases subEnd_cases u!"th" [] g with ⟨u, hg, _⟩ | ⟨u, _, hs⟩ | hs
      · exact absurd hg (hn u)
      · rw [hs] at h; exact absurd h nl
      · exact hs
    by_cases a1 : Listed I (subEnd u!"ieth" u!"y" g)
    · rw [if_pos a1, h1 a1]
    · rw [if_neg a1]
      by_cases a2 : Listed I (subEnd u!"th" [] g)
      · rw [if_pos a2, h2 a2]
      · rw [if_neg a2]

theorem stands_listed {I : Info} {g c : PyStr} (h : StandsForOf I g c) : Listed I c := by
  obtain ⟨_, _, _, h, _⟩ := h; exact h

theorem stands_unique {I : Info} {g c c' : PyStr} (hi : Tidy I) (h : StandsForOf I (irregular g) c) (h' : StandsForOf I (irregular g) c') :
    c = c' := by
  have := (numberTokenOf_iff hi).mpr h
  rw [(numberTokenOf_iff hi).mpr h'] at this
  injection this with e; exact e.symm

theorem ordinalTokenOf_iff {I : Info} (hi : Tidy I) {t w : PyStr} :
    isOrdinalToken (norm t) (mkLangData I) = some w ↔ ¬ CardinalOf I t ∧ StandsForOf I (irregular (form t)) w := by
  unfold isOrdinalToken isCardinalToken CardinalOf
  rw [← mem_listed, ← numberTokenOf_iff hi]
  split
  · rename_i h
    split at h
    · cases h
    · rename_i h'
      have e : (mkLangData I).allNumbers.mem (form t) = false := Bool.eq_false_iff.mpr h'
      show isNumberToken (form t) _ = _ ↔ _
      simp [e]
  · rename_i h
    split at h
    · rename_i h'; simp [show (mkLangData I).allNumbers.mem (form t) = true from h']
    · cases h

theorem blank_noNumber {I : Info} (hi : Tidy I) {t : PyStr} (hb : blank t = true) : isNumberToken t (mkLangData I) = none := by
  have hb' := hb
  rw [blank_iff, List.all_eq_true] at hb
  unfold isNumberToken
  rw [conv_noletters _ (fun c hc => by
    cases ha : isAz c with
    | false => rfl
    | true => have := az_word ha; rw [space_not_word (hb c hc)] at this; cases this)]
  unfold isCardinalToken
  rw [if_neg]
  intro hm
  rw [listed_blank hi (mem_listed.mp hm)] at hb'; cases hb'

theorem mark_noNumber {I : Info} (hi : Tidy I) {t : PyStr} (hm : Mark t) : isNumberToken (norm t) (mkLangData I) = none := by
  have h1 : norm t = u!"." ∨ norm t = u!"," := hm
  unfold isNumberToken
  rw [conv_noletters _ (by
    intro c hc
    rcases h1 with h | h <;> rw [h] at hc <;> simp at hc <;> subst hc <;> decide)]
  unfold isCardinalToken
  rw [if_neg]
  intro hl
  have := hi.wordNoMark _ (mem_listed.mp hl)
  rcases h1 with h | h
  · exact this.1 h
  · exact this.2 h

/-! ## Classes of tokens -/

theorem ordinal_none_of {I : Info} {t : PyStr} (h : isNumberToken (norm t) (mkLangData I) = none) :
    isOrdinalToken (norm t) (mkLangData I) = none := by
  unfold isOrdinalToken
  split
  · exact h
  · rfl

theorem classify_cardOf {I : Info} (hi : Tidy I) {t : PyStr} (ht : CardinalOf I t) : classify (mkLangData I) t = .card (norm t) := by
  have hm : (mkLangData I).allNumbers.mem (norm t) = true := mem_listed.mpr ht
  have ho : isOrdinalToken (norm t) (mkLangData I) = none := by
    unfold isOrdinalToken isCardinalToken; rw [if_pos hm]
  unfold classify
  simp only [listed_blank hi ht, sep_false (hi.wordNoMark _ ht), ho, hm, Bool.false_eq_true, if_false, if_true,
    show blank (norm t) = false from listed_blank hi ht, show SENTENCE_SEPARATORS.elem (norm t) = false from sep_false (hi.wordNoMark _ ht)]

theorem classify_skipOf {I : Info} (hi : Tidy I) {t : PyStr} (ht : SkipOf I t) : classify (mkLangData I) t = .skip (norm t) := by
  have hs : isSkipToken (norm t) (mkLangData I) = true := skip_mem.mpr ht
  have hm : (mkLangData I).allNumbers.mem (norm t) = false := by
    cases h : (mkLangData I).allNumbers.mem (norm t) with
    | false => rfl
    | true => exact absurd (mem_listed.mp h) (skip_unlisted hi ht)
  have ho : isOrdinalToken (norm t) (mkLangData I) = none := by
    apply ordinal_none_of
    cases h : isNumberToken (norm t) (mkLangData I) with
    | none => rfl
    | some w => exact absurd ((numberTokenOf_iff hi).mp h) (hi.conjunctionNoNumber _ ht w)
  unfold classify
  simp only [ho, hm, hs, Bool.false_eq_true, if_false, if_true,
    show blank (norm t) = false from skip_blankOf hi ht,
    show SENTENCE_SEPARATORS.elem (norm t) = false from sep_false (hi.conjunctionNoMark _ ht)]

theorem classify_ordOf {I : Info} (hi : Tidy I) {t w : PyStr}
    (h : isOrdinalToken (norm t) (mkLangData I) = some w) : classify (mkLangData I) t = .ord w := by
  have hn : isNumberToken (norm t) (mkLangData I) = some w := by
    unfold isOrdinalToken at h
    split at h
    · exact h
    · cases h
  have hb : blank (norm t) = false := by
    cases hb : blank (norm t) with
    | false => rfl
    | true => rw [blank_noNumber hi hb] at hn; cases hn
  have hs : SENTENCE_SEPARATORS.elem (norm t) = false := by
    cases hs : SENTENCE_SEPARATORS.elem (norm t) with
    | false => rfl
    | true => rw [mark_noNumber hi (mark_elem.mpr hs)] at hn; cases hn
  unfold classify
  simp only [hb, hs, h, Bool.false_eq_true, if_false]

theorem classify_wordOf {I : Info} (hi : Tidy I) {t : PyStr} (h : OrdinaryOf I t) (hm : ¬ Mark t) :
    classify (mkLangData I) t = .word := by
  obtain ⟨h1, h2, h3, h4⟩ := h
  have hb : blank (norm t) = false := blank_false h1
  have hs : SENTENCE_SEPARATORS.elem (norm t) = false := by
    rw [mark_elem] at hm; simpa using hm
  have ho : isOrdinalToken (norm t) (mkLangData I) = none := by
    cases ho : isOrdinalToken (norm t) (mkLangData I) with
    | none => rfl
    | some w =>
      obtain ⟨hc, hst⟩ := (ordinalTokenOf_iff hi).mp ho
      obtain ⟨k, v, hl⟩ := listed_last (stands_listed hst)
      exact absurd ⟨k, v, hc, w, hl, hst⟩ h3
  have hmem : (mkLangData I).allNumbers.mem (norm t) = false := by
    cases hx : (mkLangData I).allNumbers.mem (norm t) with
    | false => rfl
    | true => exact absurd (mem_listed.mp hx) h2
  have hk : isSkipToken (norm t) (mkLangData I) = false := by
    cases hx : isSkipToken (norm t) (mkLangData I) with
    | false => rfl
    | true => exact absurd (skip_mem.mp hx) h4
  unfold classify
  simp only [hb, hs, ho, hmem, hk, Bool.false_eq_true, if_false]

/-- Every token is of one of these classes. -/
theorem token_casesOf (I : Info) (t : PyStr) :
    BlankForm t ∨ Mark t ∨ (∃ k v, OrdinalOf I k v t) ∨ (∃ k v, WordOf I k v t) ∨ SkipOf I t ∨ (OrdinaryOf I t ∧ ¬ Mark t) := by
  by_cases hb : BlankForm t
  · exact Or.inl hb
  by_cases hm : Mark t
  · exact Or.inr (Or.inl hm)
  by_cases hc : CardinalOf I t
  · exact Or.inr (Or.inr (Or.inr (Or.inl (listed_last hc))))
  by_cases hn : ∃ k v, OrdinalOf I k v t
  · exact Or.inr (Or.inr (Or.inl hn))
  by_cases hs : SkipOf I t
  · exact Or.inr (Or.inr (Or.inr (Or.inr (Or.inl hs))))
  · refine Or.inr (Or.inr (Or.inr (Or.inr (Or.inr ⟨⟨?_, hc, hn, hs⟩, hm⟩))))
    apply Classical.byContradiction
    intro h
    apply hb
    intro c hc
    cases hsp : isSpace c with
    | true => rfl
    | false => exact absurd ⟨c, hc, hsp⟩ h

/-! ## Steps -/

theorem stepQ_card {I : Info} (hi : Tidy I) (q : QState) {t : PyStr} (ht : CardinalOf I t) :
    stepQ (mkLangData I) q t = ⟨q.out, q.taken ++ nbs [t], true⟩ := by
  unfold stepQ
  rw [classify_cardOf hi ht]
  simp [nbs, show blank (norm t) = false from listed_blank hi ht]

theorem stepQ_inRun {I : Info} (hi : Tidy I) (q : QState) (hq : q.taken ≠ []) {t : PyStr} (ht : tokOkB (mkLangData I) (norm t) = true) :
    stepQ (mkLangData I) q t = ⟨q.out, q.taken ++ nbs [t], !blank (norm t)⟩ := by
  have he : q.taken.isEmpty = false := by cases hq' : q.taken <;> simp_all
  by_cases hb : blank (norm t) = true
  · unfold stepQ
    rw [classify_blank.mpr hb]
    simp [he, nbs, hb]
  · simp only [Bool.not_eq_true] at hb
    unfold tokOkB at ht
    rw [hb, Bool.or_false, Bool.or_eq_true] at ht
    rcases ht with ht | ht
    · rw [stepQ_card hi q (mem_listed.mp ht), hb]; rfl
    · unfold stepQ
      rw [classify_skipOf hi (skip_mem.mp ht)]
      simp [he, nbs, hb]

theorem runQ_numbers {I : Info} (hi : Tidy I) (ts : List PyStr) : ∀ (q : QState), q.taken ≠ [] →
    (∀ t ∈ ts, tokOkB (mkLangData I) (norm t) = true) →
    (runQ (mkLangData I) ts q).out = q.out ∧ (runQ (mkLangData I) ts q).taken = q.taken ++ nbs ts ∧
      (∀ t, ts.getLast? = some t → (runQ (mkLangData I) ts q).pop = !blank (norm t)) := by
  induction ts with
  | nil => intro q hq _; exact ⟨rfl, by simp [runQ], by simp⟩
  | cons t ts ih =>
    intro q hq hts
    have hs := stepQ_inRun hi q hq (hts t List.mem_cons_self)
    have hq' : (stepQ (mkLangData I) q t).taken ≠ [] := by rw [hs]; simp [hq]
    obtain ⟨h1, h2, h3⟩ := ih _ hq' (fun t' ht' => hts t' (List.mem_cons_of_mem _ ht'))
    refine ⟨?_, ?_, ?_⟩
    · rw [runQ_cons, h1, hs]
    · rw [runQ_cons, h2, hs, nbs_cons t ts, List.append_assoc]
    · intro t' ht'
      rw [runQ_cons]
      cases ts with
      | nil => simp at ht'; subst ht'; show (stepQ _ q t).pop = _; rw [hs]
      | cons a as => rw [List.getLast?_cons_cons] at ht'; exact h3 t' ht'

theorem runQ_start {I : Info} (hi : Tidy I) (t : PyStr) (ts : List PyStr) (q : QState) (hq : q.taken = [])
    (ht : CardinalOf I t) (hts : ∀ t ∈ ts, tokOkB (mkLangData I) (norm t) = true) :
    (runQ (mkLangData I) (t :: ts) q).out = q.out ∧ (runQ (mkLangData I) (t :: ts) q).taken = nbs (t :: ts) ∧
      (∀ x, (t :: ts).getLast? = some x → (runQ (mkLangData I) (t :: ts) q).pop = !blank (norm x)) := by
  have hb : blank (norm t) = false := listed_blank hi ht
  have hs := stepQ_card hi q ht
  have hne : (stepQ (mkLangData I) q t).taken ≠ [] := by
    rw [hs]; simp [nbs, hb]
  obtain ⟨h1, h2, h3⟩ := runQ_numbers hi ts _ hne hts
  refine ⟨?_, ?_, ?_⟩
  · rw [runQ_cons, h1, hs]
  · rw [runQ_cons, h2, hs, hq, nbs_cons t ts]; simp
  · intro x hx
    rw [runQ_cons]
    cases ts with
    | nil => simp at hx; subst hx; show (stepQ _ q t).pop = _; rw [hs, hb]; rfl
    | cons a as => rw [List.getLast?_cons_cons] at hx; exact h3 x hx

/-! ## Cutting -/

theorem cut_itemsOf {I : Info} {is : List RunItem} {xs : List PyStr} (h : CutOf I is xs) (hp : PosScale (runWords is)) :
    (symItems (mkLangData I).maximumGroupValue (is.map symOfItem)).map renderPure = xs := by
  induction h with
  | @last is n hr =>
    obtain ⟨r, h1, h2⟩ := (readAs_run hp).mp hr
    rw [← symKinds_items] at h1
    rw [symItems_run _ h1, ← h2]; rfl
  | @more is rest cs n k v xs hr hlast hno _ ih =>
    obtain ⟨is', k', v', rfl⟩ := hlast
    rw [runWords_append, runWords_append, runWords_conj, List.append_nil] at hp
    have hp1 : PosScale (runWords (is' ++ [.word k' v'])) := fun p h => hp p (List.mem_append.mpr (Or.inl h))
    have hp2 : PosScale (runWords (.word k v :: rest)) := fun p h => hp p (List.mem_append.mpr (Or.inr h))
    have hp3 : PosScale (runWords (is' ++ [.word k' v']) ++ [(k, v)]) := by
      intro p h
      rcases List.mem_append.mp h with h | h
      · exact hp1 p h
      · exact hp2 p (by simp only [List.mem_singleton] at h; rw [h]; exact List.mem_cons_self)
    obtain ⟨r, h1, h2⟩ := (readAs_run hp1).mp hr
    have h3 : stepR (mkLangData I).maximumGroupValue r (kindOfClass k v) = none := by
      cases hs : stepR (mkLangData I).maximumGroupValue r (kindOfClass k v) with
      | none => rfl
      | some r' =>
        exfalso
        apply hno r'.value
        rw [readAs_run hp3, kindsOf_append]
        exact ⟨r', runR_snoc.mpr ⟨r, h1, hs⟩, rfl⟩
    rw [← symKinds_items, List.map_append] at h1
    have := symItems_cut (is'.map symOfItem) (rest.map symOfItem) cs (kindOfClass k' v') (kindOfClass k v) r h1 h3
    have e : (is' ++ [RunItem.word k' v'] ++ cs.map RunItem.conj ++ RunItem.word k v :: rest).map symOfItem =
        is'.map symOfItem ++ [.num (kindOfClass k' v')] ++ cs.map .skip ++ .num (kindOfClass k v) :: rest.map symOfItem := by
      simp [symOfItem, Function.comp_def]
    rw [e, this, List.map_append, List.map_append]
    have := ih hp2
    rw [List.map_cons] at this
    rw [show symOfItem (.word k v) = .num (kindOfClass k v) from rfl] at this
    rw [this]
    simp [renderPure, h2, Function.comp_def]

/-- Every run can be cut. -/
theorem cut_existsOf {I : Info} (k : Class) (v : Nat) (rest : List RunItem) :
    ∃ xs, CutOf I (.word k v :: rest) xs := by
  have single : ∀ k v, ∃ n, ReadAs I [(k, v)] n := by
    intro k v
    by_cases hk : k = .scale
    · subst hk
      by_cases hm : v ≤ (if I.useLongScale then 10000 else 100)
      · exact ⟨_, _, _, _, Reading.multiplyGroup (ws := []) .start (by simp) (by simp) (by simp) hm, rfl⟩
      · exact ⟨_, _, _, _, Reading.closeGroup (ws := []) .start (by simp) (by simp) (by simp) (by omega), rfl⟩
    · exact ⟨_, _, _, _, Reading.add (ws := []) .start hk (Or.inl rfl), rfl⟩
  have gen : ∀ (rest pre : List RunItem) (j : Class) (u : Nat) (cs : List PyStr),
      (∃ n, ReadAs I (runWords (pre ++ [.word j u])) n) → ∃ xs, CutOf I (pre ++ [.word j u] ++ cs.map .conj ++ rest) xs := by
    intro rest
    induction rest with
    | nil =>
      rintro pre j u cs ⟨n, hn⟩
      refine ⟨[decDigits n], .last ?_⟩
      rw [List.append_nil, runWords_append, runWords_conj, List.append_nil]; exact hn
    | cons i rest ih =>
      rintro pre j u cs ⟨n, hn⟩
      cases i with
      | conj f =>
        obtain ⟨xs, hx⟩ := ih pre j u (cs ++ [f]) ⟨n, hn⟩
        exact ⟨xs, by simpa using hx⟩
      | word k v =>
        by_cases hc : ∃ m, ReadAs I (runWords (pre ++ [.word j u]) ++ [(k, v)]) m
        · obtain ⟨xs, hx⟩ := ih (pre ++ [.word j u] ++ cs.map .conj) k v [] (by
            rw [runWords_append, runWords_append _ (cs.map .conj), runWords_conj, List.append_nil]; exact hc)
          exact ⟨xs, by simpa using hx⟩
        · obtain ⟨xs, hx⟩ := ih [] k v [] (single k v)
          exact ⟨_, CutOf.more hn ⟨pre, j, u, rfl⟩ (fun m hm => hc ⟨m, hm⟩) (by simpa using hx)⟩
  obtain ⟨xs, hx⟩ := gen rest [] k v [] (single k v)
  exact ⟨xs, by simpa using hx⟩

/-! ## Runs of tokens -/

theorem runTokens_appendOf {I : Info} {a b : List PyStr} {is js : List RunItem} (h : RunTokensOf I a is) (h' : RunTokensOf I b js) :
    RunTokensOf I (a ++ b) (is ++ js) := by
  induction h with
  | nil => exact h'
  | word hw _ ih => exact .word hw ih
  | conj hw _ ih => exact .conj hw ih
  | blank hb _ ih => exact .blank hb ih

theorem word_symOf {I : Info} (hi : Tidy I) {k : Class} {v : Nat} {f : PyStr} (h : LastEntry (tableOf I k) f v) :
    symOf (mkLangData I) f = some (.num (kindOfClass k v)) := by
  have hl := last_listed h
  have h2 : (mkLangData I).skipTokens.elem f = false := listed_skip hi hl
  unfold symOf; rw [listed_blank hi hl, h2, kindOf_entry hi.toSensible h]; rfl

theorem entry_pos {I : Info} (hi : Tidy I) {k : Class} {v p : Nat} {f : PyStr} (h : LastEntry (tableOf I k) f v)
    (e : ((Class.scale, p) : Class × Nat) = (k, v)) : 0 < p := by
  obtain ⟨rfl, rfl⟩ := Prod.mk.inj e
  rcases Nat.eq_zero_or_pos p with rfl | h0
  · exact absurd h (hi.scaleNotZero _)
  · exact h0

theorem runTokens_factsOf {I : Info} (hi : Tidy I) {ts : List PyStr} {is : List RunItem} (h : RunTokensOf I ts is) :
    (nbs ts).filterMap (symOf (mkLangData I)) = is.map symOfItem ∧
    (∀ t ∈ ts, tokOkB (mkLangData I) (norm t) = true) ∧ PosScale (runWords is) := by
  induction h with
  | nil => exact ⟨rfl, by simp, by intro p hp; simp [runWords] at hp⟩
  | @word t k v ts is hw _ ih =>
    have hl : Listed I (norm t) := last_listed hw
    refine ⟨?_, ?_, ?_⟩
    · rw [nbs_cons, List.filterMap_append, ih.1]
      have : symOf (mkLangData I) (norm t) = some (.num (kindOfClass k v)) := word_symOf hi hw
      simp [nbs, listed_blank hi hl, this, symOfItem]
    · intro x hx
      rcases List.mem_cons.mp hx with rfl | hx
      · unfold tokOkB; rw [mem_listed.mpr hl]; rfl
      · exact ih.2.1 x hx
    · intro p hp
      rcases List.mem_cons.mp hp with hp | hp
      · exact entry_pos hi hw hp
      · exact ih.2.2 p hp
  | @conj t ts is hw _ ih =>
    have hs : isSkipToken (norm t) (mkLangData I) = true := skip_mem.mpr hw
    have hb : blank (norm t) = false := skip_blankOf hi hw
    refine ⟨?_, ?_, ih.2.2⟩
    · rw [nbs_cons, List.filterMap_append, ih.1]
      have : symOf (mkLangData I) (norm t) = some (.skip (norm t)) := by
        have h2 : (mkLangData I).skipTokens.elem (norm t) = true := hs
        unfold symOf; rw [hb, h2]; rfl
      simp [nbs, hb, this, symOfItem]; rfl
    · intro x hx
      rcases List.mem_cons.mp hx with rfl | hx
      · unfold tokOkB; rw [hs, Bool.or_true]
      · exact ih.2.1 x hx
  | @blank t ts is hb _ ih =>
    rw [blankForm_iff] at hb
    refine ⟨?_, ?_, ih.2.2⟩
    · rw [nbs_cons, List.filterMap_append, ih.1]
      simp [nbs, hb]
    · intro x hx
      rcases List.mem_cons.mp hx with rfl | hx
      · unfold tokOkB; rw [hb]; simp
      · exact ih.2.1 x hx

theorem run_headOf {I : Info} (hi : Tidy I) {ts : List PyStr} {is : List RunItem} (h : RunOf I ts is) :
    ∃ k v is', is = .word k v :: is' := by
  obtain ⟨h, t, ts', rfl, hc⟩ := h
  cases h with
  | word => exact ⟨_, _, _, rfl⟩
  | conj hs => exact absurd hc (skip_unlisted hi hs)
  | blank hb =>
    have : blank (norm t) = false := listed_blank hi hc
    rw [blankForm_iff, this] at hb; cases hb

theorem nbs_run_neOf {I : Info} (hi : Tidy I) {ts : List PyStr} {is : List RunItem} (h : RunOf I ts is) : nbs ts ≠ [] := by
  obtain ⟨h, t, ts', rfl, hc⟩ := h
  have : blank (norm t) = false := listed_blank hi hc
  rw [nbs_cons]
  simp [nbs, this]

/-- The run is processed. -/
theorem run_stateOf {I : Info} (hi : Tidy I) {ts : List PyStr} {is : List RunItem} (h : RunOf I ts is) (q : QState) (hq : q.taken = []) :
    (runQ (mkLangData I) ts q).out = q.out ∧ (runQ (mkLangData I) ts q).taken = nbs ts ∧
      ((runQ (mkLangData I) ts q).pop = false ↔ EndsBlank ts) := by
  have hf := runTokens_factsOf hi h.1
  obtain ⟨_, t, ts', rfl, hc⟩ := h
  obtain ⟨h1, h2, h3⟩ := runQ_start hi t ts' q hq hc (fun x hx => hf.2.1 x (List.mem_cons_of_mem _ hx))
  refine ⟨h1, h2, ?_⟩
  cases hg : (t :: ts').getLast? with
  | none => simp at hg
  | some x =>
    obtain ⟨ys, hys⟩ := List.getLast?_eq_some_iff.mp hg
    rw [h3 x hg]
    unfold EndsBlank
    rw [hys]
    constructor
    · intro hb; exact ⟨ys, x, rfl, (blankForm_iff x).mpr (by simpa using hb)⟩
    · rintro ⟨ys', x', he, hb⟩
      have := List.append_inj' he rfl
      simp only [List.cons.injEq, and_true] at this
      rw [this.2, (blankForm_iff x').mp hb]; rfl

theorem cut_neOf {I : Info} {is : List RunItem} {xs : List PyStr} (h : CutOf I is xs) : xs ≠ [] := by
  cases h <;> simp

/-- The pieces of a run of which the items are known. -/
theorem nums_cutOf {I : Info} (hi : Tidy I) {fs : List PyStr} {is : List RunItem} {xs : List PyStr} (hne : fs ≠ [])
    (hs : fs.filterMap (symOf (mkLangData I)) = is.map symOfItem) (hp : PosScale (runWords is)) (hc : CutOf I is xs) :
    nums (mkLangData I) fs = xs.flatMap (fun n => [n, u!" "]) := by
  unfold nums
  have : fs.isEmpty = false := by cases fs <;> simp_all
  rw [this, buildItems_eq (sensible_disjoint hi.toSensible), hs, cut_itemsOf hc hp]; rfl

theorem pieces_consOf {I : Info} (hi : Tidy I) {t : PyStr} {ts : List PyStr}
    (h : BlankForm t ∨ Mark t ∨ SkipOf I t ∨ OrdinaryOf I t) :
    pieces (mkLangData I) (t :: ts) = t :: pieces (mkLangData I) ts := by
  have hs : (stepQ (mkLangData I) QState.init t).out = [t] ∧ (stepQ (mkLangData I) QState.init t).taken = [] := by
    unfold stepQ
    have hsep : Mark t → classify (mkLangData I) t = .sep := mark_classify
    have hcases : classify (mkLangData I) t = .blank ∨ classify (mkLangData I) t = .sep ∨ (∃ w, classify (mkLangData I) t = .skip w) ∨
        classify (mkLangData I) t = .word := by
      rcases h with h | h | h | h
      · exact Or.inl (classify_blank.mpr ((blankForm_iff t).mp h))
      · exact Or.inr (Or.inl (hsep h))
      · exact Or.inr (Or.inr (Or.inl ⟨_, classify_skipOf hi h⟩))
      · by_cases hm : Mark t
        · exact Or.inr (Or.inl (hsep hm))
        · exact Or.inr (Or.inr (Or.inr (classify_wordOf hi h hm)))
    rcases hcases with hc | hc | ⟨w, hc⟩ | hc <;> rw [hc]
    · simp [QState.init]
    · have : flushed (mkLangData I) [] true = [] := by unfold flushed nums; rfl
      simp [QState.init, this]
    · simp [QState.init]
    · simp [QState.init, flushedWord]
  unfold pieces
  rw [runQ_cons, finish_shift _ _ _ hs.2, hs.1]; rfl

/-- What happens after a run. -/
theorem pieces_runOf {I : Info} (hi : Tidy I) {run : List PyStr} {is : List RunItem} (h : RunOf I run is) (t : PyStr) (ts : List PyStr)
    (o : List PyStr) (ho : ∀ q : QState, q.out = [] → q.taken = nbs run → (q.pop = false ↔ EndsBlank run) →
      (stepQ (mkLangData I) q t).out = o ∧ (stepQ (mkLangData I) q t).taken = []) :
    pieces (mkLangData I) (run ++ t :: ts) = o ++ pieces (mkLangData I) ts := by
  obtain ⟨h1, h2, h3⟩ := run_stateOf hi h QState.init rfl
  obtain ⟨h4, h5⟩ := ho _ h1 h2 h3
  unfold pieces
  rw [runQ_append, runQ_cons, finish_shift _ _ _ h5, h4]; rfl

/-- The rules describe what `parse` does. -/
theorem converted_piecesOf {I : Info} (hi : Tidy I) {ts : List PyStr} {out : PyStr} (h : ConvertedOf I ts out) :
    (pieces (mkLangData I) ts).flatten = out := by
  induction h with
  | nil => rfl
  | keep ht _ ih => rw [pieces_consOf hi ht, List.flatten_cons, ih]
  | @ending run is xs hr hc =>
    obtain ⟨h1, h2, _⟩ := run_stateOf hi hr QState.init rfl
    obtain ⟨f1, _, f3⟩ := runTokens_factsOf hi hr.1
    unfold pieces finishQ
    rw [h1, h2, nums_cutOf hi (nbs_run_neOf hi hr) f1 f3 hc, ← flatMap_withSpaces]; rfl
  | @mark run is xs t ts out hr hc hm he _ ih =>
    obtain ⟨f1, _, f3⟩ := runTokens_factsOf hi hr.1
    rw [pieces_runOf hi hr t ts (xs.flatMap (fun n => [n, u!" "]) ++ [t]), List.flatten_append, List.flatten_append, flatMap_withSpaces, ih]
    · simp
    · intro q h1 h2 h3
      unfold stepQ
      rw [mark_classify hm]
      simp only [h1, h2, flushed, h3.mpr he, nums_cutOf hi (nbs_run_neOf hi hr) f1 f3 hc]
      simp
  | @markTight run is xs t ts out hr hc hm he _ ih =>
    obtain ⟨f1, _, f3⟩ := runTokens_factsOf hi hr.1
    rw [pieces_runOf hi hr t ts ((xs.flatMap (fun n => [n, u!" "])).dropLast ++ [t]), List.flatten_append, List.flatten_append, flatMap_spaced, ih]
    · simp
    · intro q h1 h2 h3
      unfold stepQ
      rw [mark_classify hm]
      have hp : q.pop = true := by
        cases hp : q.pop with
        | true => rfl
        | false => exact absurd (h3.mp hp) he
      simp only [h1, h2, flushed, hp, nums_cutOf hi (nbs_run_neOf hi hr) f1 f3 hc]
      simp
  | @word run is xs t ts out hr hlast hc ho hm _ ih =>
    obtain ⟨f1, _, f3⟩ := runTokens_factsOf hi hr.1
    rw [pieces_runOf hi hr t ts (xs.flatMap (fun n => [n, u!" "]) ++ [t]), List.flatten_append, List.flatten_append, flatMap_withSpaces, ih]
    · simp
    · intro q h1 h2 _
      unfold stepQ
      rw [classify_wordOf hi ho hm]
      refine ⟨?_, rfl⟩
      simp only [h1, h2, List.nil_append]
      congr 1
      unfold flushedWord
      cases hg : (nbs run).getLast? with
      | none => rw [List.getLast?_eq_none_iff] at hg; exact absurd hg (nbs_run_neOf hi hr)
      | some x =>
        have : isSkipToken x (mkLangData I) = false := by
          obtain ⟨ys, hys⟩ := List.getLast?_eq_some_iff.mp hg
          obtain ⟨is', k, v, rfl⟩ := hlast
          rw [hys, List.filterMap_append, List.map_append] at f1
          have hx : blank x = false := by
            have : x ∈ nbs run := by rw [hys]; simp
            have := (List.mem_filter.mp this).2; simpa using this
          cases hk : isSkipToken x (mkLangData I) with
          | false => rfl
          | true =>
            have h2 : (mkLangData I).skipTokens.elem x = true := hk
            have : symOf (mkLangData I) x = some (.skip x) := by unfold symOf; rw [hx, h2]; rfl
            simp only [List.filterMap_cons, this, List.filterMap_nil, List.map_cons, List.map_nil, symOfItem] at f1
            have := List.append_inj' f1 rfl
            simp at this
        simp only [this, Bool.false_eq_true, if_false]
        exact nums_cutOf hi (nbs_run_neOf hi hr) f1 f3 hc
  | @conjWord run is f xs t ts out hr hc ho hm _ ih =>
    obtain ⟨f1, _, f3⟩ := runTokens_factsOf hi hr.1
    rw [pieces_runOf hi hr t ts (xs.flatMap (fun n => [n, u!" "]) ++ [f, u!" "] ++ [t]), List.flatten_append, List.flatten_append,
      List.flatten_append, flatMap_withSpaces, ih]
    · simp
    · intro q h1 h2 _
      unfold stepQ
      rw [classify_wordOf hi ho hm]
      refine ⟨?_, rfl⟩
      simp only [h1, h2, List.nil_append]
      congr 1
      unfold flushedWord
      cases hg : (nbs run).getLast? with
      | none => rw [List.getLast?_eq_none_iff] at hg; exact absurd hg (nbs_run_neOf hi hr)
      | some x =>
        obtain ⟨ys, hys⟩ := List.getLast?_eq_some_iff.mp hg
        have hx : blank x = false := by
          have : x ∈ nbs run := by rw [hys]; simp
          have := (List.mem_filter.mp this).2; simpa using this
        rw [hys, List.filterMap_append, List.map_append] at f1
        have hk : (mkLangData I).skipTokens.elem x = true ∧ x = f ∧ ys.filterMap (symOf (mkLangData I)) = is.map symOfItem := by
          cases hk : (mkLangData I).skipTokens.elem x with
          | true =>
            have : symOf (mkLangData I) x = some (.skip x) := by unfold symOf; rw [hx, hk]; rfl
            simp only [List.filterMap_cons, this, List.filterMap_nil, List.map_cons, List.map_nil, symOfItem] at f1
            have := List.append_inj' f1 rfl
            simp only [List.cons.injEq, Sym.skip.injEq, and_true] at this
            exact ⟨rfl, this.2, this.1⟩
          | false =>
            have : symOf (mkLangData I) x = some (.num (kindOf (mkLangData I) x)) := by unfold symOf; rw [hx, hk]; rfl
            simp only [List.filterMap_cons, this, List.filterMap_nil, List.map_cons, List.map_nil, symOfItem] at f1
            have := List.append_inj' f1 rfl
            simp at this
        obtain ⟨hk1, rfl, hk3⟩ := hk
        have hk2 : isSkipToken x (mkLangData I) = true := hk1
        simp only [hk2, hys, List.dropLast_concat, if_true]
        have hyne : ys ≠ [] := by
          rintro rfl
          obtain ⟨k, v, is', e⟩ := run_headOf hi hr
          cases is with
          | nil => simp at e
          | cons i is => simp at hk3
        rw [nums_cutOf hi hyne hk3 (by
          intro p hp; apply f3 p; rw [runWords_append]; exact List.mem_append.mpr (Or.inl hp)) hc]
  | @ordinal run is xs t k v ts out hr hw hc _ ih =>
    obtain ⟨hnc, c, hf, hs⟩ := hw
    have ho := (ordinalTokenOf_iff hi (t := t) (w := c)).mpr ⟨hnc, hs⟩
    have hcl := classify_ordOf hi ho
    have hsym : symOf (mkLangData I) c = some (.num (kindOfClass k v)) := word_symOf hi hf
    have key : ∀ fs : List PyStr, fs.filterMap (symOf (mkLangData I)) = is.map symOfItem → PosScale (runWords is) →
        nums (mkLangData I) (fs ++ [c]) = xs.flatMap (fun n => [n, u!" "]) := by
      intro fs h1 h2
      refine nums_cutOf hi (by simp) ?_ ?_ hc
      · rw [List.filterMap_append, h1]; simp [hsym, symOfItem]
      · intro p hp
        rw [runWords_append] at hp
        rcases List.mem_append.mp hp with hp | hp
        · exact h2 p hp
        · simp only [runWords, List.mem_singleton] at hp
          exact entry_pos hi hf hp
    rcases hr with ⟨rfl, rfl⟩ | hr
    · have : pieces (mkLangData I) (t :: ts) = (xs.flatMap (fun n => [n, u!" "])).dropLast ++ pieces (mkLangData I) ts := by
        unfold pieces
        rw [runQ_cons]
        have h1 : stepQ (mkLangData I) QState.init t = ⟨(xs.flatMap (fun n => [n, u!" "])).dropLast, [], true⟩ := by
          unfold stepQ
          rw [hcl]
          simp only [QState.init, flushed, if_true, List.nil_append]
          have := key [] rfl (by intro p hp; simp [runWords] at hp)
          rw [List.nil_append] at this
          rw [this]
        rw [finish_shift _ _ _ (by rw [h1]), h1]; rfl
      rw [List.nil_append, this, List.flatten_append, flatMap_spaced, ih]
    · obtain ⟨f1, _, f3⟩ := runTokens_factsOf hi hr.1
      rw [pieces_runOf hi hr t ts (xs.flatMap (fun n => [n, u!" "])).dropLast, List.flatten_append, flatMap_spaced, ih]
      intro q h1 h2 _
      unfold stepQ
      rw [hcl]
      simp only [h1, h2, flushed, key _ f1 f3, if_true, List.nil_append, and_self]

/-- Every text can be converted. -/
theorem converted_existsOf {I : Info} (hi : Tidy I) (ts : List PyStr) : ∃ out, ConvertedOf I ts out := by
  have cut : ∀ {run : List PyStr} {is : List RunItem}, RunOf I run is → ∀ js, ∃ xs, CutOf I (is ++ js) xs := by
    intro run is h js
    obtain ⟨k, v, is', rfl⟩ := run_headOf hi h
    exact cut_existsOf k v (is' ++ js)
  have gen : ∀ (ts run : List PyStr) (is : List RunItem), (run = [] ∧ is = [] ∨ RunOf I run is) → ∃ out, ConvertedOf I (run ++ ts) out := by
    intro ts
    induction ts with
    | nil =>
      rintro run is (⟨rfl, rfl⟩ | hr)
      · exact ⟨_, .nil⟩
      · obtain ⟨xs, hx⟩ := cut hr []
        rw [List.append_nil] at hx ⊢
        exact ⟨_, .ending hr hx⟩
    | cons t ts ih =>
      intro run is hr
      obtain ⟨out, hout⟩ := ih [] [] (Or.inl ⟨rfl, rfl⟩)
      rw [List.nil_append] at hout
      have more : ∀ js, RunTokensOf I [t] js → RunOf I run is → ∃ out, ConvertedOf I (run ++ t :: ts) out := by
        intro js hj hr
        obtain ⟨out, ho⟩ := ih (run ++ [t]) (is ++ js) (Or.inr ⟨runTokens_appendOf hr.1 hj, by
          obtain ⟨_, a, b, rfl, hc⟩ := hr; exact ⟨a, b ++ [t], rfl, hc⟩⟩)
        exact ⟨out, by simpa using ho⟩
      rcases token_casesOf I t with h | h | ⟨k, v, h⟩ | ⟨k, v, h⟩ | h | h
      · rcases hr with ⟨rfl, rfl⟩ | hr
        · exact ⟨_, .keep (Or.inl h) hout⟩
        · exact more [] (.blank h .nil) hr
      · rcases hr with ⟨rfl, rfl⟩ | hr
        · exact ⟨_, .keep (Or.inr (Or.inl h)) hout⟩
        · obtain ⟨xs, hx⟩ := cut hr []
          rw [List.append_nil] at hx
          by_cases he : EndsBlank run
          · exact ⟨_, .mark hr hx h he hout⟩
          · exact ⟨_, .markTight hr hx h he hout⟩
      · have : ∃ xs, CutOf I (is ++ [.word k v]) xs := by
          rcases hr with ⟨rfl, rfl⟩ | hr
          · exact cut_existsOf k v []
          · exact cut hr _
        obtain ⟨xs, hx⟩ := this
        exact ⟨_, .ordinal hr h hx hout⟩
      · rcases hr with ⟨rfl, rfl⟩ | hr
        · obtain ⟨out, ho⟩ := ih [t] [.word k v] (Or.inr ⟨.word h .nil, t, [], rfl, last_listed h⟩)
          exact ⟨out, ho⟩
        · exact more [.word k v] (.word h .nil) hr
      · rcases hr with ⟨rfl, rfl⟩ | hr
        · exact ⟨_, .keep (Or.inr (Or.inr (Or.inl h))) hout⟩
        · exact more [.conj (form t)] (.conj h .nil) hr
      · rcases hr with ⟨rfl, rfl⟩ | hr
        · exact ⟨_, .keep (Or.inr (Or.inr (Or.inr h.1))) hout⟩
        · obtain ⟨k, v, is', e⟩ := run_headOf hi hr
          have hne : is ≠ [] := by rw [e]; simp
          rcases List.eq_nil_or_concat is with he | ⟨js, j, he⟩
          · exact absurd he hne
          · rw [List.concat_eq_append] at he
            cases j with
            | word k' v' =>
              obtain ⟨xs, hx⟩ := cut hr []
              rw [List.append_nil] at hx
              exact ⟨_, .word hr ⟨js, k', v', he⟩ hx h.1 h.2 hout⟩
            | conj f =>
              cases js with
              | nil => rw [he] at e; simp at e
              | cons j js =>
                rw [e] at he
                simp only [List.cons_append, List.cons.injEq] at he
                obtain ⟨xs, hx⟩ := cut_existsOf (I := I) k v js
                rw [he.1] at hx
                refine ⟨_, .conjWord (is := j :: js) (f := f) ?_ hx h.1 h.2 hout⟩
                rw [e, he.1, he.2] at hr; exact hr
  obtain ⟨out, h⟩ := gen ts [] [] (Or.inl ⟨rfl, rfl⟩)
  exact ⟨out, h⟩


/-! ## `parse` -/

theorem buildNumber_cases (ld : LangData) (ts : List PyStr) :
    buildNumber ld ts = .ok ((buildItems ld ts).map renderPure) ∨ ∃ e, buildNumber ld ts = .error e := by
  cases h : buildNumber ld ts with
  | error e => exact Or.inr ⟨e, rfl⟩
  | ok xs =>
    left
    have gen : ∀ (is : List Item) (xs : List PyStr), is.mapM renderItem = .ok xs → xs = is.map renderPure := by
      intro is
      induction is with
      | nil => intro xs h; cases h; rfl
      | cons i is ih =>
        intro xs h
        rw [List.mapM_cons] at h
        cases h1 : renderItem i with
        | error e => rw [h1] at h; cases h
        | ok x =>
          rw [h1] at h
          cases h2 : is.mapM renderItem with
          | error e => rw [h2] at h; cases h
          | ok ys =>
            rw [h2] at h; cases h
            rw [List.map_cons, ih ys h2]
            congr 1
            cases i with
            | num n => exact (strInt_iff.mp h1).2
            | skip t => cases h1; rfl
    rw [gen _ _ h]

theorem buildAndAdd_cases (ld : LangData) (s : PState) (pop : Bool) :
    buildAndAdd ld s pop = .ok ⟨s.final, s.current ++ flushed ld s.taken pop, [], s.pop⟩ ∨ ∃ e, buildAndAdd ld s pop = .error e := by
  unfold buildAndAdd
  by_cases he : s.taken.isEmpty = true
  · left
    rw [if_pos he]
    have : s.taken = [] := List.isEmpty_iff.mp he
    cases s; simp only at this; subst this
    cases pop <;> simp [flushed, nums]
  · rw [if_neg he]
    rcases buildNumber_cases ld s.taken with h | ⟨e, h⟩
    · left
      rw [h]
      have hn : nums ld s.taken = ((buildItems ld s.taken).map renderPure).flatMap (fun n => [n, u!" "]) := by
        unfold nums; rw [if_neg he]
      have hne : nums ld s.taken ≠ [] := nums_ne_nil (fun h => he (by rw [h]; rfl))
      cases pop
      · simp [bind, Except.bind, pure, Except.pure, flushed, hn]
      · simp only [bind, Except.bind, pure, Except.pure, flushed, if_true]
        rw [← hn, List.dropLast_append_of_ne_nil hne]
    · right; exact ⟨e, by rw [h]; rfl⟩

/-- What `parse` does with a token, if it does not fail. -/
theorem parseStep_of {ld : LangData} (hk : ∀ t, ld.allNumbers.mem t = true → t ≠ []) (s s' : PState) (q : QState) (hr : Rel s q)
    (t : PyStr) (h : parseStep ld s t = .ok s') : Rel s' (stepQ ld q t) := by
  obtain ⟨hr1, hr2, hr3⟩ := hr
  have htr : ∀ w, ld.allNumbers.mem w = true → truthy (some w) = true := by
    intro w hw
    have := hk w hw
    cases w with
    | nil => exact absurd rfl this
    | cons c cs => rfl
  have hba : ∀ (s s' : PState) pop, buildAndAdd ld s pop = .ok s' → s' = ⟨s.final, s.current ++ flushed ld s.taken pop, [], s.pop⟩ := by
    intro s s' pop h
    rcases buildAndAdd_cases ld s pop with h' | ⟨e, h'⟩
    · rw [h'] at h; cases h; rfl
    · rw [h'] at h; cases h
  unfold stepQ classify
  unfold parseStep at h
  simp only [show stripAccents (lower t) = norm t from rfl] at h
  by_cases hb : blank (norm t) = true
  · simp only [hb, if_true] at h ⊢
    rw [hr2]
    by_cases he : s.taken.isEmpty = true
    · rw [if_pos he] at h ⊢; cases h
      exact ⟨by simp [hr1], rfl, rfl⟩
    · rw [if_neg he] at h ⊢; cases h
      exact ⟨hr1, rfl, rfl⟩
  simp only [hb] at h ⊢
  by_cases hs : SENTENCE_SEPARATORS.elem (norm t) = true
  · simp only [hs, if_true, Bool.false_eq_true, if_false] at h ⊢
    cases h1 : buildAndAdd ld s s.pop with
    | error e => rw [h1] at h; cases h
    | ok s1 =>
      rw [h1] at h; cases h
      rw [hba _ _ _ h1]
      exact ⟨by simp [hr1, hr2, hr3], rfl, hr3⟩
  simp only [hs, Bool.false_eq_true, if_false] at h ⊢
  cases ho : isOrdinalToken (norm t) ld with
  | some w =>
    simp only [ho, htr w (ordinal_mem ho), if_true, Option.getD_some] at h
    cases h1 : buildAndAdd ld { s with taken := s.taken ++ [w] } true with
    | error e => simp only [h1, bind, Except.bind] at h; cases h
    | ok s1 =>
      simp only [h1, bind, Except.bind, pure, Except.pure] at h
      cases h
      rw [hba _ _ _ h1]
      exact ⟨by simp [hr1, hr2], rfl, rfl⟩
  | none =>
    simp only [ho, show truthy none = false from rfl, Bool.false_eq_true, if_false] at h ⊢
    have htc : truthy (isCardinalToken (norm t) ld) = ld.allNumbers.mem (norm t) := by
      unfold isCardinalToken
      by_cases ht : ld.allNumbers.mem (norm t) = true
      · rw [if_pos ht, ht]; exact htr _ ht
      · rw [if_neg ht]; simp [truthy, ht]
    rw [htc] at h
    by_cases hc : ld.allNumbers.mem (norm t) = true
    · simp only [hc, Bool.true_or, if_true] at h ⊢
      cases h
      exact ⟨hr1, by simp only [hr2], rfl⟩
    simp only [Bool.not_eq_true] at hc
    simp only [hc, Bool.false_or, Bool.false_eq_true, if_false] at h ⊢
    by_cases hk : isSkipToken (norm t) ld = true
    · simp only [hk, Bool.true_and, if_true] at h ⊢
      by_cases he : s.taken.isEmpty = true
      · have hte : s.taken = [] := List.isEmpty_iff.mp he
        simp only [he, Bool.not_true, Bool.false_eq_true, if_false, hte, List.getLast?_nil, bind, Except.bind, pure, Except.pure] at h
        cases h1 : buildAndAdd ld s false with
        | error e => rw [h1] at h; cases h
        | ok s1 =>
          rw [h1] at h; cases h
          rw [hba _ _ _ h1, hr2, hte]
          refine ⟨?_, ?_, rfl⟩
          · simp [hr1, flushed, nums]
          · simp [hr2, hte]
      · simp only [he, Bool.not_false, if_true] at h
        cases h
        simp only [hr2, he, Bool.false_eq_true, if_false]
        exact ⟨hr1, rfl, rfl⟩
    · simp only [Bool.not_eq_true] at hk
      simp only [hk, Bool.false_and, Bool.false_eq_true, if_false] at h ⊢
      simp only [flushedWord, hr2]
      cases hl : s.taken.getLast? with
      | none =>
        have hte : s.taken = [] := List.getLast?_eq_none_iff.mp hl
        simp only [hl, bind, Except.bind, pure, Except.pure] at h
        cases h1 : buildAndAdd ld s false with
        | error e => rw [h1] at h; cases h
        | ok s1 =>
          rw [h1] at h; cases h
          rw [hba _ _ _ h1]
          refine ⟨?_, rfl, rfl⟩
          simp [hr1, hte, flushed, nums]
      | some last =>
        simp only [hl] at h
        by_cases hls : isSkipToken last ld = true
        · simp only [hls, if_true, bind, Except.bind, pure, Except.pure] at h ⊢
          cases h1 : buildAndAdd ld { s with taken := s.taken.dropLast } false with
          | error e => rw [h1] at h; cases h
          | ok s1 =>
            rw [h1] at h
            simp only at h
            cases h2 : buildAndAdd ld { s1 with current := s1.current ++ [last, u!" "] } false with
            | error e => rw [h2] at h; cases h
            | ok s2 =>
              rw [h2] at h; cases h
              rw [hba _ _ _ h2, hba _ _ _ h1]
              refine ⟨?_, rfl, rfl⟩
              simp [hr1, flushed, nums]
        · simp only [Bool.not_eq_true] at hls
          simp only [hls, Bool.false_eq_true, if_false, bind, Except.bind, pure, Except.pure] at h ⊢
          cases h1 : buildAndAdd ld s false with
          | error e => rw [h1] at h; cases h
          | ok s1 =>
            rw [h1] at h; cases h
            rw [hba _ _ _ h1]
            refine ⟨?_, rfl, rfl⟩
            simp [hr1, flushed]

/-- What `parse` returns, if it does not fail. -/
theorem parseRaw_of {ld : LangData} (hk : ∀ t, ld.allNumbers.mem t = true → t ≠ []) (ts : List PyStr) (x : PyStr)
    (h : parseRaw ld ts = .ok x) : x = (pieces ld ts).flatten := by
  have fold : ∀ (ts : List PyStr) (s s' : PState) (q : QState), Rel s q → ts.foldlM (parseStep ld) s = .ok s' → Rel s' (runQ ld ts q) := by
    intro ts
    induction ts with
    | nil => intro s s' q hr h; cases h; exact hr
    | cons t ts ih =>
      intro s s' q hr h
      rw [List.foldlM_cons] at h
      cases h1 : parseStep ld s t with
      | error e => rw [h1] at h; cases h
      | ok s1 =>
        rw [h1] at h
        exact ih s1 s' _ (parseStep_of hk s s1 q hr t h1) h
  unfold parseRaw at h
  cases h1 : ts.foldlM (parseStep ld) PState.init with
  | error e => rw [h1] at h; cases h
  | ok s =>
    obtain ⟨a, b, _⟩ := fold ts _ s QState.init ⟨rfl, rfl, rfl⟩ h1
    rw [h1] at h
    simp only [bind, Except.bind, pure, Except.pure] at h
    rcases buildAndAdd_cases ld s false with h2 | ⟨e, h2⟩
    · rw [h2] at h
      cases h
      simp only [pieces, finishQ, flushed, a, b]
      simp
    · rw [h2] at h; cases h

theorem parseWith_of {I : Info} (hi : Tidy I) {l s : PyStr} {ts : List PyStr} (hts : Tokens l s ts) {out : PyStr}
    (h : parseWith (mkLangData I) s l = .ok out) : ∃ raw, ConvertedOf I ts raw ∧ out = strip raw := by
  have ht := (tokens_iff _ _ _).mp hts
  unfold parseWith at h
  rw [← ht] at h
  cases h1 : parseRaw (mkLangData I) ts with
  | error e => rw [h1] at h; cases h
  | ok x =>
    rw [h1] at h; cases h
    obtain ⟨raw, hr⟩ := converted_existsOf hi ts
    refine ⟨raw, hr, ?_⟩
    rw [parseRaw_of (fun t ht => by
      have := listed_blank hi (mem_listed.mp ht)
      rintro rfl; cases this) ts x h1, converted_piecesOf hi hr]

/-! ### Moderate values -/

theorem moderate_kind {I : Info} (hi : Tidy I) (hm : Moderate I) {f : PyStr} (h : Listed I f) :
    KindOK (10 ^ 2000) (kindOf (mkLangData I) f) := by
  obtain ⟨k, v, hv⟩ := listed_last h
  rw [kindOf_entry hi.toSensible hv]
  obtain ⟨a, w, b, hab, _, _⟩ := hv
  have := hm k w v (by rw [hab]; simp)
  cases k with
  | scale =>
    simp only [if_true] at this
    obtain ⟨e, he, rfl⟩ := this
    exact ⟨⟨e, rfl⟩, Nat.pow_le_pow_right (by omega) he⟩
  | unit | direct | tens | hundreds =>
    show v ≤ 900
    simpa using this

theorem moderate_bound {I : Info} (hi : Tidy I) (hm : Moderate I) (ts : List PyStr) (ht : ∀ t ∈ ts, TokOK (mkLangData I) t) (n : Nat)
    (hn : Item.num n ∈ buildItems (mkLangData I) ts) : n < 10 ^ 4300 := by
  rw [buildItems_eq (sensible_disjoint hi.toSensible)] at hn
  have hsym : ∀ y ∈ ts.filterMap (symOf (mkLangData I)), SymOK (10 ^ 2000) y := by
    intro y hy
    obtain ⟨t, htm, hty⟩ := List.mem_filterMap.mp hy
    unfold symOf at hty
    by_cases hb : blank t = true
    · simp [hb] at hty
    · by_cases hs : (mkLangData I).skipTokens.elem t = true
      · rw [if_neg hb, if_pos hs] at hty; cases hty; trivial
      · rw [if_neg hb, if_neg hs] at hty; cases hty
        rcases ht t htm with h1 | h1 | h1
        · exact absurd h1 hb
        · exact absurd h1 hs
        · exact moderate_kind hi hm (mem_listed.mp h1)
  have := symItems_bound (mg := (mkLangData I).maximumGroupValue) _ hsym _ hn
  simp only [ItemOK] at this
  refine Nat.lt_of_le_of_lt this ?_
  have hg : (mkLangData I).maximumGroupValue = 10000 ∨ (mkLangData I).maximumGroupValue = 100 := by
    show (if I.useLongScale then 10000 else 100) = 10000 ∨ (if I.useLongScale then 10000 else 100) = 100
    cases I.useLongScale <;> simp
  rcases hg with h | h <;> rw [h] <;> unfold valueBound
  · decide +kernel
  · decide +kernel

theorem moderate_builds {I : Info} (hi : Tidy I) (hm : Moderate I) : (mkLangData I).Builds where
  nonempty := fun t ht => by
    have := listed_blank hi (mem_listed.mp ht)
    rintro rfl; cases this
  build := fun ts ht => mapM_render _ (moderate_bound hi hm ts ht)

/-- With moderate values `parse` never fails. -/
theorem parseWith_moderate {I : Info} (hi : Tidy I) (hm : Moderate I) {l s : PyStr} {ts : List PyStr} (hts : Tokens l s ts) (out : PyStr) :
    parseWith (mkLangData I) s l = .ok out ↔ ∃ raw, ConvertedOf I ts raw ∧ out = strip raw := by
  refine ⟨parseWith_of hi hts, ?_⟩
  rintro ⟨raw, hr, rfl⟩
  unfold parseWith
  rw [← (tokens_iff _ _ _).mp hts, parseRaw_eq (moderate_builds hi hm), converted_piecesOf hi hr]
  rfl

/-- The rules convert a text in one way. -/
theorem converted_uniqueOf {I : Info} (hi : Tidy I) {ts : List PyStr} {x y : PyStr} (hx : ConvertedOf I ts x) (hy : ConvertedOf I ts y) : x = y := by
  rw [← converted_piecesOf hi hx, ← converted_piecesOf hi hy]

/-! ### Checking a data module -/

/-- The candidates of a word -/
def candidatesB (g : PyStr) : List PyStr :=
  if (u!"ieth").isSuffixOf g then [g.take (g.length - 4) ++ u!"y", g.take (g.length - 2), g]
  else if (u!"th").isSuffixOf g then [g, g.take (g.length - 2)]
  else [g]

theorem candidatesB_sound {g : PyStr} {cs : List PyStr} (h : Candidates g cs) : cs = candidatesB g := by
  unfold candidatesB
  cases h with
  | ieth stem =>
    rw [if_pos (List.isSuffixOf_iff_suffix.mpr ⟨stem, rfl⟩)]
    have h1 : (stem ++ u!"ieth").length - 4 = stem.length := by simp
    have h2 : (stem ++ u!"ieth").take ((stem ++ u!"ieth").length - 2) = stem ++ u!"ie" := by
      have e : stem ++ u!"ieth" = (stem ++ u!"ie") ++ u!"th" := by simp
      rw [e]
      exact List.take_left' (by simp)
    rw [h1, h2]; simp
  | th stem hn =>
    rw [if_neg (fun h => by
      obtain ⟨u, hu⟩ := List.isSuffixOf_iff_suffix.mp h
      exact hn u hu.symm), if_pos (List.isSuffixOf_iff_suffix.mpr ⟨stem, rfl⟩)]
    have h1 : (stem ++ u!"th").length - 2 = stem.length := by simp
    rw [h1]; simp
  | other _ hn =>
    rw [if_neg (fun h => by
      obtain ⟨u, hu⟩ := List.isSuffixOf_iff_suffix.mp h
      exact hn (u ++ u!"ie") (by rw [← hu]; simp)), if_neg (fun h => by
      obtain ⟨u, hu⟩ := List.isSuffixOf_iff_suffix.mp h
      exact hn u hu.symm)]

def allForms (i : Info) : List PyStr :=
  wordForms i.unitNumbers ++ wordForms i.directNumbers ++ wordForms i.tens ++ wordForms i.hundreds ++ wordForms i.bigPowersOfTen

theorem listed_forms {I : Info} {f : PyStr} : Listed I f ↔ f ∈ allForms I := by
  unfold Listed allForms
  simp only [List.mem_append, ← wordForms_mem]
  constructor
  · rintro ⟨k, h⟩; cases k <;> simp_all [tableOf]
  · rintro ((((h | h) | h) | h) | h)
    · exact ⟨.unit, h⟩
    · exact ⟨.direct, h⟩
    · exact ⟨.tens, h⟩
    · exact ⟨.hundreds, h⟩
    · exact ⟨.scale, h⟩

def tidyB (i : Info) : Bool :=
  let fs := allForms i
  sensibleB i && fs.all (fun f => !f.elem 10 && f != u!"." && f != u!",") &&
    i.skipTokens.all (fun f => f != u!"." && f != u!"," && (candidatesB (irregular f)).all (fun c => !fs.elem c))

theorem tidyB_sound {i : Info} (h : tidyB i = true) : Tidy i := by
  unfold tidyB at h
  simp only [Bool.and_eq_true, List.all_eq_true, Bool.not_eq_true', bne_iff_ne, ne_eq] at h
  obtain ⟨⟨h1, h2⟩, h3⟩ := h
  refine { toSensible := sensibleB_sound h1, wordOneLine := ?_, wordNoMark := ?_, conjunctionNoMark := ?_, conjunctionNoNumber := ?_ }
  · intro f hf hm
    have := (h2 f (listed_forms.mp hf)).1.1
    rw [List.elem_iff.mpr hm] at this; cases this
  · intro f hf
    have := h2 f (listed_forms.mp hf)
    exact ⟨this.1.2, this.2⟩
  · intro f hf
    exact (h3 f hf).1
  · rintro f hf c ⟨a, b, hc, hl, _⟩
    have := (h3 f hf).2 c (by rw [← candidatesB_sound hc]; simp)
    rw [List.elem_iff.mpr (listed_forms.mp hl)] at this; cases this

def moderateB (i : Info) : Bool :=
  i.unitNumbers.all (fun e => e.2 ≤ 900) && i.directNumbers.all (fun e => e.2 ≤ 900) && i.tens.all (fun e => e.2 ≤ 900) &&
    i.hundreds.all (fun e => e.2 ≤ 900) && i.bigPowersOfTen.all (fun e => e.2 == 10 ^ ((decDigits e.2).length - 1) && (decDigits e.2).length ≤ 2001)

theorem moderateB_sound {i : Info} (h : moderateB i = true) : Moderate i := by
  unfold moderateB at h
  simp only [Bool.and_eq_true, List.all_eq_true, decide_eq_true_eq, beq_iff_eq] at h
  obtain ⟨⟨⟨⟨h1, h2⟩, h3⟩, h4⟩, h5⟩ := h
  intro k w v hv
  cases k with
  | scale =>
    simp only [if_true]
    obtain ⟨a, b⟩ := h5 _ hv
    exact ⟨_, by omega, a⟩
  | unit => simpa using h1 _ hv
  | direct => simpa using h2 _ hv
  | tens => simpa using h3 _ hv
  | hundreds => simpa using h4 _ hv

end NumberParser
