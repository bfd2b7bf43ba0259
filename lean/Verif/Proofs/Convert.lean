import Verif.Proofs.Reading
import Verif.Proofs.SentenceParse

/-! `parse` and the rules for cutting runs and converting texts. -/

set_option linter.unusedSimpArgs false

namespace NumberParser
open Spec

/-! ## Ordinals -/

def allClasses : List Class := [.unit, .direct, .tens, .hundreds, .scale]

theorem mem_allClasses (k : Class) : k ∈ allClasses := by cases k <;> decide

set_option maxRecDepth 100000 in
theorem ending_check : supported.all (fun l => allClasses.all (fun k => (entries l k).all (fun e =>
    !(u!"th").isSuffixOf (form e.1) && !(u!"ie").isSuffixOf (form e.1)))) = true := by decide +kernel

theorem form_ending {l : PyStr} (hl : l ∈ supported) {k : Class} {v : Nat} {f : PyStr} (h : FormOf l k v f) (u : PyStr) :
    f ≠ u ++ u!"th" ∧ f ≠ u ++ u!"ie" := by
  obtain ⟨w, hw, rfl⟩ := h
  have := List.all_eq_true.mp (List.all_eq_true.mp (List.all_eq_true.mp ending_check l hl) k (mem_allClasses k)) _ hw
  simp only [Bool.and_eq_true, Bool.not_eq_true'] at this
  refine ⟨fun e => ?_, fun e => ?_⟩
  · have h1 : (u!"th").isSuffixOf (form w) = true := List.isSuffixOf_iff_suffix.mpr ⟨u, e.symm⟩
    rw [this.1] at h1; cases h1
  · have h1 : (u!"ie").isSuffixOf (form w) = true := List.isSuffixOf_iff_suffix.mpr ⟨u, e.symm⟩
    rw [this.2] at h1; cases h1

/-- The three ways in which a form stands for a cardinal. -/
def StandsFor (f c : PyStr) : Prop :=
  irregular f = c ∨ irregular f = c ++ u!"th" ∨ ∃ stem, c = stem ++ u!"y" ∧ irregular f = stem ++ u!"ieth"

theorem standsFor_unique {l : PyStr} (hl : l ∈ supported) {f c c' : PyStr} (hc : ∃ k v, FormOf l k v c) (hc' : ∃ k v, FormOf l k v c')
    (h : StandsFor f c) (h' : StandsFor f c') : c = c' := by
  obtain ⟨k, v, hc⟩ := hc
  obtain ⟨k', v', hc'⟩ := hc'
  have key : ∀ stem : PyStr, stem ++ u!"ieth" = (stem ++ u!"ie") ++ u!"th" := by intro s; simp
  rcases h with h | h | ⟨s, rfl, h⟩ <;> rcases h' with h' | h' | ⟨s', rfl, h'⟩ <;> rw [h] at h'
  · exact h'
  · exact absurd h' (form_ending hl hc _).1
  · rw [key] at h'; exact absurd h' (form_ending hl hc _).1
  · exact absurd h'.symm (form_ending hl hc' _).1
  · exact List.append_cancel_right h'
  · rw [key] at h'; exact absurd (List.append_cancel_right h') (form_ending hl hc _).2
  · rw [key] at h'; exact absurd h'.symm (form_ending hl hc' _).1
  · rw [key] at h'; exact absurd (List.append_cancel_right h').symm (form_ending hl hc' _).2
  · rw [List.append_cancel_right h']

theorem numberToken_stands {l : PyStr} (hl : l ∈ supported) {f w : PyStr} (h : isNumberToken f (mkLangData (file l)) = some w) :
    (∃ k v, FormOf l k v w) ∧ StandsFor f w := by
  have hc : ∀ t, (isCardinalToken t (mkLangData (file l))).isSome = true ↔ ∃ k v, FormOf l k v t := by
    intro t
    unfold isCardinalToken
    rw [← allNumbers_iff hl]
    split <;> simp_all
  have hirr : applyCardinalConversion f (mkLangData (file l)) =
      if (isCardinalToken (subEnd u!"ieth" u!"y" (irregular f)) (mkLangData (file l))).isSome = true
      then subEnd u!"ieth" u!"y" (irregular f)
      else if (isCardinalToken (subEnd u!"th" [] (irregular f)) (mkLangData (file l))).isSome = true
      then subEnd u!"th" [] (irregular f) else irregular f := rfl
  unfold isNumberToken at h
  have hw : (∃ k v, FormOf l k v w) ∧ w = applyCardinalConversion f (mkLangData (file l)) := by
    have h1 := h
    unfold isCardinalToken at h1
    split at h1
    · rename_i hm
      cases h1
      exact ⟨(allNumbers_iff hl _).mp hm, rfl⟩
    · cases h1
  refine ⟨hw.1, ?_⟩
  have nl : ∀ {x : PyStr}, ¬ ∃ k v, FormOf l k v (x ++ [10]) := by
    rintro x ⟨k, v, hx⟩
    exact formOf_no_newline hl hx (by simp)
  obtain ⟨h1, h2⟩ := hw
  unfold StandsFor
  rw [hirr] at h2
  generalize irregular f = g at h2
  split at h2
  · rcases subEnd_cases u!"ieth" u!"y" g with ⟨u, hg, hs⟩ | ⟨u, hg, hs⟩ | hs
    · exact Or.inr (Or.inr ⟨u, h2.trans hs, hg⟩)
    · rw [h2, hs] at h1; exact absurd h1 nl
    · exact Or.inl (h2.trans hs).symm
  · split at h2
    · rcases subEnd_cases u!"th" [] g with ⟨u, hg, hs⟩ | ⟨u, hg, hs⟩ | hs
      · exact Or.inr (Or.inl (by rw [h2, hs]; simpa using hg))
      · rw [h2, hs] at h1; exact absurd h1 nl
      · exact Or.inl (h2.trans hs).symm
    · exact Or.inl h2.symm

theorem numberToken_iff {l : PyStr} (hl : l ∈ supported) {f w : PyStr} :
    isNumberToken f (mkLangData (file l)) = some w ↔ (∃ k v, FormOf l k v w) ∧ StandsFor f w := by
  refine ⟨numberToken_stands hl, fun ⟨hw, hs⟩ => ?_⟩
  obtain ⟨k, v, hf⟩ := hw
  have := (isNumberToken_iff' hl f).mpr ⟨k, v, w, hf, hs⟩
  cases h : isNumberToken f (mkLangData (file l)) with
  | none => rw [h] at this; cases this
  | some w' =>
    obtain ⟨h1, h2⟩ := numberToken_stands hl h
    rw [standsFor_unique hl h1 ⟨k, v, hf⟩ h2 hs]

theorem ordinalToken_iff {l : PyStr} (hl : l ∈ supported) {t w : PyStr} :
    isOrdinalToken (norm t) (mkLangData (file l)) = some w ↔
      ¬ Cardinal l t ∧ (∃ k v, FormOf l k v w) ∧ StandsFor (norm t) w := by
  unfold isOrdinalToken isCardinalToken
  rw [cardinal_iff hl, ← numberToken_iff hl]
  split
  · rename_i h
    split at h
    · cases h
    · rename_i h'; simp [h']
  · rename_i h
    split at h
    · rename_i h'; simp [h']
    · cases h

theorem ordinalWord_iff {l : PyStr} {k : Class} {v : Nat} {t : PyStr} :
    OrdinalWord l k v t ↔ ¬ Cardinal l t ∧ ∃ c, FormOf l k v c ∧ StandsFor (norm t) c := Iff.rfl

/-! ## Classes of tokens -/

theorem mark_elem {t : PyStr} : Mark t ↔ SENTENCE_SEPARATORS.elem (norm t) = true := by
  rw [List.elem_iff]
  show _ ↔ norm t ∈ [u!".", u!","]
  unfold Mark
  simp only [List.mem_cons, List.not_mem_nil, or_false]; rfl

theorem mark_classify {ld : LangData} {t : PyStr} (h : Mark t) : classify ld t = .sep := by
  unfold classify
  have hb : blank (norm t) = false := by
    rcases h with h | h <;> (rw [show norm t = _ from h]; decide)
  simp only [hb, mark_elem.mp h, Bool.false_eq_true, if_false, if_true]

theorem ord_classify {l : PyStr} (hl : l ∈ supported) {t w : PyStr}
    (h : isOrdinalToken (norm t) (mkLangData (file l)) = some w) : classify (mkLangData (file l)) t = .ord w := by
  have hn : isNumberToken (norm t) (mkLangData (file l)) = some w := by
    unfold isOrdinalToken at h
    split at h
    · exact h
    · cases h
  have hb : blank (norm t) = false := by
    cases hb : blank (norm t) with
    | false => rfl
    | true => rw [(blank_not_number (supported_data hl) hb).1] at hn; cases hn
  have hs : SENTENCE_SEPARATORS.elem (norm t) = false := by
    cases hs : SENTENCE_SEPARATORS.elem (norm t) with
    | false => rfl
    | true => have := (sep_not_number (supported_data hl) hs); rw [this.1] at hn; cases hn
  unfold classify
  simp only [hb, hs, h, Bool.false_eq_true, if_false]

theorem word_classify {l : PyStr} (hl : l ∈ supported) {t : PyStr} (h : Ordinary l t) (hm : ¬ Mark t) :
    classify (mkLangData (file l)) t = .word := by
  obtain ⟨⟨c, hc, hs⟩, h2, h3⟩ := h
  have hb : blank (norm t) = false := by
    cases hb : blank (norm t) with
    | false => rfl
    | true => have := (blankForm_iff t).mpr hb c hc; rw [hs] at this; cases this
  have hn : isNumberToken (norm t) (mkLangData (file l)) = none := by
    rw [numberWord_iff hl] at h2; simpa using h2
  rw [skip_iff] at h3
  rw [mark_elem] at hm
  rcases classify_cases (supported_data hl) hn with h | h | ⟨w, h⟩ | h
  · rw [classify_blank] at h; rw [h] at hb; cases hb
  · exact absurd (classify_sep h) hm
  · exact absurd (classify_skip_mem h).2.1 h3
  · exact h

/-- Every token is of one of these classes. -/
theorem token_cases (l t : PyStr) :
    BlankForm t ∨ Mark t ∨ (∃ k v, OrdinalWord l k v t) ∨ (∃ k v, Word l k v t) ∨ Skip l t ∨ (Ordinary l t ∧ ¬ Mark t) := by
  by_cases hb : BlankForm t
  · exact Or.inl hb
  by_cases hm : Mark t
  · exact Or.inr (Or.inl hm)
  by_cases hc : Cardinal l t
  · exact Or.inr (Or.inr (Or.inr (Or.inl hc)))
  by_cases hn : NumberWord l t
  · obtain ⟨k, v, c, hf, hs⟩ := hn
    exact Or.inr (Or.inr (Or.inl ⟨k, v, hc, c, hf, hs⟩))
  by_cases hs : Skip l t
  · exact Or.inr (Or.inr (Or.inr (Or.inr (Or.inl hs))))
  · refine Or.inr (Or.inr (Or.inr (Or.inr (Or.inr ⟨⟨?_, hn, hs⟩, hm⟩))))
    apply Classical.byContradiction
    intro h
    apply hb
    intro c hc
    cases hsp : isSpace c with
    | true => rfl
    | false => exact absurd ⟨c, hc, hsp⟩ h

/-! ## Cutting -/

def symOfItem : RunItem → Sym
  | .word k v => .num (kindOfClass k v)
  | .conj f => .skip f

theorem runWords_append (a b : List RunItem) : runWords (a ++ b) = runWords a ++ runWords b := by
  induction a with
  | nil => rfl
  | cons i a ih => cases i <;> simp [runWords, ih]

theorem runWords_conj (cs : List PyStr) : runWords (cs.map .conj) = [] := by
  induction cs with
  | nil => rfl
  | cons c cs ih => exact ih

theorem symKinds_items (is : List RunItem) : symKinds (is.map symOfItem) = kindsOf (runWords is) := by
  induction is with
  | nil => rfl
  | cons i is ih => cases i <;> simp [symOfItem, runWords, kindsOf, ih] <;> rfl

/-- The output so far is only added to. -/
theorem symFold_shift {mg : Nat} (ys : List Sym) : ∀ (s : KState) (o : List Item),
    ys.foldl (symStep mg) { s with out := o ++ s.out } = { (ys.foldl (symStep mg) s) with out := o ++ (ys.foldl (symStep mg) s).out } := by
  induction ys with
  | nil => intro s o; rfl
  | cons y ys ih =>
    intro s o
    have : symStep mg { s with out := o ++ s.out } y = { (symStep mg s y) with out := o ++ (symStep mg s y).out } := by
      cases y with
      | skip t => rfl
      | num k =>
        show numStep mg { s with out := o ++ s.out } k = { (numStep mg s k) with out := o ++ (numStep mg s k).out }
        have ha : ∀ s : KState, addK mg { s with out := o ++ s.out } k = { (addK mg s k) with out := o ++ (addK mg s k).out } := by
          intro s
          unfold addK
          cases k with
          | big p => simp only; split <;> rfl
          | _ => rfl
        unfold numStep
        cases largeK k s.total s.grp with
        | some p => rfl
        | none =>
          simp only
          split
          · exact ha s
          · have : flushK { s with out := o ++ s.out } = { (flushK s) with out := o ++ (flushK s).out } := by
              unfold flushK; simp
            rw [this]; exact ha _
    rw [List.foldl_cons, this, ih, List.foldl_cons]

theorem symFold_skips {mg : Nat} (cs : List PyStr) : ∀ s : KState,
    (cs.map Sym.skip).foldl (symStep mg) s = { s with used := s.used ++ cs } := by
  induction cs with
  | nil => intro s; simp
  | cons c cs ih =>
    intro s
    rw [List.map_cons, List.foldl_cons, ih]
    simp [symStep]

/-- After a number word nothing is pending. -/
theorem numStep_used {mg : Nat} (s : KState) (k : Kind) : (numStep mg s k).used = [] := by
  unfold numStep
  cases largeK k s.total s.grp with
  | some p => rfl
  | none =>
    have ha : ∀ s : KState, (addK mg s k).used = [] := by
      intro s; unfold addK
      cases k with
      | big p => simp only; split <;> rfl
      | _ => rfl
    simp only
    split <;> exact ha _

theorem numStep_init (mg : Nat) (k : Kind) : numStep mg KState.init k = addK mg KState.init k := by
  unfold numStep
  have : largeK k KState.init.total KState.init.grp = none := by
    unfold largeK; cases k <;> first | rfl | simp [KState.init]
  rw [this]
  rfl

theorem addK_flush (mg : Nat) (s : KState) (k : Kind) :
    addK mg (flushK s) k = { (addK mg KState.init k) with out := s.out ++ [.num (s.total + s.grp)] ++ s.used.map .skip } := by
  unfold addK flushK KState.init
  cases k with
  | big p => simp only; split <;> rfl
  | _ => simp

/-- Items of a run that is cut. -/
theorem symItems_cut {mg : Nat} (a rest : List Sym) (cs : List PyStr) (j k : Kind) (r : RState)
    (h1 : runR mg (symKinds (a ++ [.num j])) RState.init = some r) (h2 : stepR mg r k = none) :
    symItems mg (a ++ [.num j] ++ cs.map .skip ++ .num k :: rest) =
      [.num r.value] ++ cs.map .skip ++ symItems mg (.num k :: rest) := by
  obtain ⟨e1, e2⟩ := symFold_red (mg := mg) (a ++ [.num j]) KState.init h1
  have e3 : ((a ++ [Sym.num j]).foldl (symStep mg) KState.init).used = [] := by
    rw [List.foldl_append]; exact numStep_used (mg := mg) _ j
  unfold symItems
  rw [List.foldl_append, List.foldl_append, symFold_skips, List.foldl_cons, List.foldl_cons]
  generalize hS : List.foldl (symStep mg) KState.init (a ++ [Sym.num j]) = S at e1 e2 e3
  have hstep : symStep mg { S with used := S.used ++ cs } (.num k) =
      { (symStep mg KState.init (.num k)) with out := ([.num r.value] ++ cs.map .skip) ++ (symStep mg KState.init (.num k)).out } := by
    simp only [symStep]
    rw [numStep_flush (s := { S with used := S.used ++ cs }) (by
      show stepR mg S.red k = none
      rw [e1]; exact h2), addK_flush, numStep_init]
    have : (addK mg KState.init k).out = [] := by
      unfold addK; cases k with
      | big p => simp only; split <;> rfl
      | _ => rfl
    rw [this]
    simp only [e2, e3, KState.init, List.nil_append, List.append_nil]
    rw [← e1]; rfl
  rw [hstep, symFold_shift]
  unfold KState.items
  simp

theorem cut_items {l : PyStr} {is : List RunItem} {xs : List PyStr} (h : Cut l is xs) (hp : PosScale (runWords is)) :
    (symItems (mkLangData (file l)).maximumGroupValue (is.map symOfItem)).map renderPure = xs := by
  induction h with
  | @last is n hr =>
    obtain ⟨r, h1, h2⟩ := (readsAs_run hp).mp hr
    rw [← symKinds_items] at h1
    rw [symItems_run _ h1, ← h2]; rfl
  | @more is rest cs n k v xs hr hlast hno _ ih =>
    obtain ⟨is', k', v', rfl⟩ := hlast
    rw [runWords_append, runWords_append, runWords_conj, List.append_nil] at hp
    have hp1 : PosScale (runWords (is' ++ [.word k' v'])) := fun p h => hp p (List.mem_append.mpr (Or.inl h))
    have hp2 : PosScale (runWords (.word k v :: rest)) := fun p h => hp p (List.mem_append.mpr (Or.inr h))
    have hp3 : PosScale (runWords (is' ++ [.word k' v']) ++ [(k, v)]) := by
      intro p h
      rcases List.mem_append.mp h with h | h
      · exact hp1 p h
      · exact hp2 p (by simp only [List.mem_singleton] at h; rw [h]; exact List.mem_cons_self)
    obtain ⟨r, h1, h2⟩ := (readsAs_run hp1).mp hr
    have h3 : stepR (mkLangData (file l)).maximumGroupValue r (kindOfClass k v) = none := by
      cases hs : stepR (mkLangData (file l)).maximumGroupValue r (kindOfClass k v) with
      | none => rfl
      | some r' =>
        exfalso
        apply hno r'.value
        rw [readsAs_run hp3, kindsOf_append]
        exact ⟨r', runR_snoc.mpr ⟨r, h1, hs⟩, rfl⟩
    rw [← symKinds_items, List.map_append] at h1
    have := symItems_cut (is'.map symOfItem) (rest.map symOfItem) cs (kindOfClass k' v') (kindOfClass k v) r h1 h3
    have e : (is' ++ [RunItem.word k' v'] ++ cs.map RunItem.conj ++ RunItem.word k v :: rest).map symOfItem =
        is'.map symOfItem ++ [.num (kindOfClass k' v')] ++ cs.map .skip ++ .num (kindOfClass k v) :: rest.map symOfItem := by
      simp [symOfItem, Function.comp_def]
    rw [e, this, List.map_append, List.map_append]
    have := ih hp2
    rw [List.map_cons] at this
    rw [show symOfItem (.word k v) = .num (kindOfClass k v) from rfl] at this
    rw [this]
    simp [renderPure, h2, Function.comp_def]

/-- Every run can be cut. -/
theorem cut_exists {l : PyStr} (k : Class) (v : Nat) (rest : List RunItem) :
    ∃ xs, Cut l (.word k v :: rest) xs := by
  have single : ∀ k v, ∃ n, ReadsAs l [(k, v)] n := by
    intro k v
    by_cases hk : k = .scale
    · subst hk
      by_cases hm : v ≤ groupLimit l
      · exact ⟨_, _, _, _, Reading.multiplyGroup (ws := []) .start (by simp) (by simp) (by simp) hm, rfl⟩
      · exact ⟨_, _, _, _, Reading.closeGroup (ws := []) .start (by simp) (by simp) (by simp) (by omega), rfl⟩
    · exact ⟨_, _, _, _, Reading.add (ws := []) .start hk (Or.inl rfl), rfl⟩
  have gen : ∀ (rest pre : List RunItem) (j : Class) (u : Nat) (cs : List PyStr),
      (∃ n, ReadsAs l (runWords (pre ++ [.word j u])) n) → ∃ xs, Cut l (pre ++ [.word j u] ++ cs.map .conj ++ rest) xs := by
    intro rest
    induction rest with
    | nil =>
      rintro pre j u cs ⟨n, hn⟩
      refine ⟨[decDigits n], .last ?_⟩
      rw [List.append_nil, runWords_append, runWords_conj, List.append_nil]; exact hn
    | cons i rest ih =>
      rintro pre j u cs ⟨n, hn⟩
      cases i with
      | conj f =>
        obtain ⟨xs, hx⟩ := ih pre j u (cs ++ [f]) ⟨n, hn⟩
        exact ⟨xs, by simpa using hx⟩
      | word k v =>
        by_cases hc : ∃ m, ReadsAs l (runWords (pre ++ [.word j u]) ++ [(k, v)]) m
        · obtain ⟨xs, hx⟩ := ih (pre ++ [.word j u] ++ cs.map .conj) k v [] (by
            rw [runWords_append, runWords_append _ (cs.map .conj), runWords_conj, List.append_nil]; exact hc)
          exact ⟨xs, by simpa using hx⟩
        · obtain ⟨xs, hx⟩ := ih [] k v [] (single k v)
          exact ⟨_, Cut.more hn ⟨pre, j, u, rfl⟩ (fun m hm => hc ⟨m, hm⟩) (by simpa using hx)⟩
  obtain ⟨xs, hx⟩ := gen rest [] k v [] (single k v)
  exact ⟨xs, by simpa using hx⟩

/-! ## Runs of tokens -/

theorem runTokens_append {l : PyStr} {a b : List PyStr} {is js : List RunItem} (h : RunTokens l a is) (h' : RunTokens l b js) :
    RunTokens l (a ++ b) (is ++ js) := by
  induction h with
  | nil => exact h'
  | word hw _ ih => exact .word hw ih
  | conj hw _ ih => exact .conj hw ih
  | blank hb _ ih => exact .blank hb ih

theorem runTokens_facts {l : PyStr} (hl : l ∈ supported) {ts : List PyStr} {is : List RunItem} (h : RunTokens l ts is) :
    (nbs ts).filterMap (symOf (mkLangData (file l))) = is.map symOfItem ∧
    (∀ t ∈ ts, tokOkB (mkLangData (file l)) (norm t) = true) ∧ PosScale (runWords is) := by
  have hwf := languageData_wf (supported_data hl)
  induction h with
  | nil => exact ⟨rfl, by simp, by intro p hp; simp [runWords] at hp⟩
  | @word t k v ts is hw _ ih =>
    have hm := (allNumbers_iff hl (norm t)).mpr ⟨k, v, hw⟩
    refine ⟨?_, ?_, ?_⟩
    · rw [nbs_cons, List.filterMap_append, ih.1]
      have : symOf (mkLangData (file l)) (norm t) = some (.num (kindOfClass k v)) := by
        have h2 : (mkLangData (file l)).skipTokens.elem (norm t) = false := key_skip hwf hm
        unfold symOf; rw [key_blank hwf hm, h2, kindOf_class hl (f := norm t) hw]; rfl
      simp [nbs, key_blank hwf hm, this, symOfItem]
    · intro x hx
      rcases List.mem_cons.mp hx with rfl | hx
      · unfold tokOkB; rw [hm]; rfl
      · exact ih.2.1 x hx
    · intro p hp
      rcases List.mem_cons.mp hp with hp | hp
      · cases hp; exact scale_pos hl hw
      · exact ih.2.2 p hp
  | @conj t ts is hw _ ih =>
    rw [skip_iff] at hw
    refine ⟨?_, ?_, ih.2.2⟩
    · rw [nbs_cons, List.filterMap_append, ih.1]
      have : symOf (mkLangData (file l)) (norm t) = some (.skip (norm t)) := by
        have h2 : (mkLangData (file l)).skipTokens.elem (norm t) = true := hw
        unfold symOf; rw [skip_blank hwf hw, h2]; rfl
      simp [nbs, skip_blank hwf hw, this, symOfItem]; rfl
    · intro x hx
      rcases List.mem_cons.mp hx with rfl | hx
      · unfold tokOkB; rw [hw, Bool.or_true]
      · exact ih.2.1 x hx
  | @blank t ts is hb _ ih =>
    rw [blankForm_iff] at hb
    refine ⟨?_, ?_, ih.2.2⟩
    · rw [nbs_cons, List.filterMap_append, ih.1]
      simp [nbs, hb]
    · intro x hx
      rcases List.mem_cons.mp hx with rfl | hx
      · unfold tokOkB; rw [hb]; simp
      · exact ih.2.1 x hx

theorem run_head {l : PyStr} (hl : l ∈ supported) {ts : List PyStr} {is : List RunItem} (h : Run l ts is) :
    ∃ k v is', is = .word k v :: is' := by
  obtain ⟨h, t, ts', rfl, hc⟩ := h
  have hwf := languageData_wf (supported_data hl)
  rw [cardinal_iff hl] at hc
  cases h with
  | word => exact ⟨_, _, _, rfl⟩
  | conj hs =>
    rw [skip_iff] at hs
    have h2 : isSkipToken (norm t) (mkLangData (file l)) = false := key_skip hwf hc
    rw [h2] at hs; cases hs
  | blank hb =>
    rw [blankForm_iff, key_blank hwf hc] at hb; cases hb

theorem nbs_run_ne {l : PyStr} (hl : l ∈ supported) {ts : List PyStr} {is : List RunItem} (h : Run l ts is) : nbs ts ≠ [] := by
  obtain ⟨h, t, ts', rfl, hc⟩ := h
  have hwf := languageData_wf (supported_data hl)
  rw [cardinal_iff hl] at hc
  rw [nbs_cons]
  simp [nbs, key_blank hwf hc]

/-- The run is processed. -/
theorem run_state {l : PyStr} (hl : l ∈ supported) {ts : List PyStr} {is : List RunItem} (h : Run l ts is) (q : QState) (hq : q.taken = []) :
    (runQ (mkLangData (file l)) ts q).out = q.out ∧ (runQ (mkLangData (file l)) ts q).taken = nbs ts ∧
      ((runQ (mkLangData (file l)) ts q).pop = false ↔ EndsBlank ts) := by
  have hf := runTokens_facts hl h.1
  obtain ⟨_, t, ts', rfl, hc⟩ := h
  have hwf := languageData_wf (supported_data hl)
  rw [cardinal_iff hl] at hc
  obtain ⟨h1, h2, h3⟩ := run_start hwf t ts' q hq hc (fun x hx => hf.2.1 x (List.mem_cons_of_mem _ hx))
  refine ⟨h1, h2, ?_⟩
  cases hg : (t :: ts').getLast? with
  | none => simp at hg
  | some x =>
    obtain ⟨ys, hys⟩ := List.getLast?_eq_some_iff.mp hg
    rw [h3 x hg]
    unfold EndsBlank
    rw [hys]
    constructor
    · intro hb; exact ⟨ys, x, rfl, (blankForm_iff x).mpr (by simpa using hb)⟩
    · rintro ⟨ys', x', he, hb⟩
      have := List.append_inj' he rfl
      simp only [List.cons.injEq, and_true] at this
      rw [this.2, (blankForm_iff x').mp hb]; rfl

theorem cut_ne {l : PyStr} {is : List RunItem} {xs : List PyStr} (h : Cut l is xs) : xs ≠ [] := by
  cases h <;> simp

theorem flatMap_withSpaces (xs : List PyStr) : (xs.flatMap (fun n => [n, u!" "])).flatten = withSpaces xs := by
  induction xs with
  | nil => rfl
  | cons x xs ih => simp [List.flatMap_cons, withSpaces, ← ih]

theorem flatMap_spaced (xs : List PyStr) : ((xs.flatMap (fun n => [n, u!" "])).dropLast).flatten = spaced xs := by
  induction xs with
  | nil => rfl
  | cons x xs ih =>
    cases xs with
    | nil => simp [spaced]
    | cons y ys =>
      rw [List.flatMap_cons, List.dropLast_append_of_ne_nil (by simp), List.flatten_append, ih]
      simp [spaced]

/-- The pieces of a run of which the items are known. -/
theorem nums_cut {l : PyStr} (hl : l ∈ supported) {fs : List PyStr} {is : List RunItem} {xs : List PyStr} (hne : fs ≠ [])
    (hs : fs.filterMap (symOf (mkLangData (file l))) = is.map symOfItem) (hp : PosScale (runWords is)) (hc : Cut l is xs) :
    nums (mkLangData (file l)) fs = xs.flatMap (fun n => [n, u!" "]) := by
  have hwf := languageData_wf (supported_data hl)
  unfold nums
  have : fs.isEmpty = false := by cases fs <;> simp_all
  rw [this, buildItems_eq hwf.toDisjoint, hs, cut_items hc hp]; rfl

theorem pieces_cons {l : PyStr} (hl : l ∈ supported) {t : PyStr} {ts : List PyStr}
    (h : BlankForm t ∨ Mark t ∨ Skip l t ∨ Ordinary l t) :
    pieces (mkLangData (file l)) (t :: ts) = t :: pieces (mkLangData (file l)) ts := by
  have hd := supported_data hl
  have hwf := languageData_wf hd
  have hn : isNumberToken (norm t) (mkLangData (file l)) = none := by
    rcases h with h | h | h | h
    · exact (blank_not_number hd ((blankForm_iff t).mp h)).1
    · exact (sep_not_number hd (mark_elem.mp h)).1
    · exact skip_number hwf ((skip_iff l t).mp h)
    · have := h.2.1; rw [numberWord_iff hl] at this; simpa using this
  obtain ⟨h1, h2⟩ := run_plain hd [t] (by simpa using hn) QState.init rfl
  have := finish_shift (mkLangData (file l)) ts (runQ (mkLangData (file l)) [t] QState.init) h2
  rw [h1] at this
  exact this

/-- What happens after a run. -/
theorem pieces_run {l : PyStr} (hl : l ∈ supported) {run : List PyStr} {is : List RunItem} (h : Run l run is) (t : PyStr) (ts : List PyStr)
    (o : List PyStr) (ho : ∀ q : QState, q.out = [] → q.taken = nbs run → (q.pop = false ↔ EndsBlank run) →
      (stepQ (mkLangData (file l)) q t).out = o ∧ (stepQ (mkLangData (file l)) q t).taken = []) :
    pieces (mkLangData (file l)) (run ++ t :: ts) = o ++ pieces (mkLangData (file l)) ts := by
  obtain ⟨h1, h2, h3⟩ := run_state hl h QState.init rfl
  obtain ⟨h4, h5⟩ := ho _ h1 h2 h3
  unfold pieces
  rw [runQ_append, runQ_cons, finish_shift _ _ _ h5, h4]; rfl

/-- The rules describe what `parse` does. -/
theorem converted_pieces {l : PyStr} (hl : l ∈ supported) {ts : List PyStr} {out : PyStr} (h : Converted l ts out) :
    (pieces (mkLangData (file l)) ts).flatten = out := by
  have hd := supported_data hl
  have hwf := languageData_wf hd
  induction h with
  | nil => rfl
  | keep ht _ ih => rw [pieces_cons hl ht, List.flatten_cons, ih]
  | @ending run is xs hr hc =>
    obtain ⟨h1, h2, _⟩ := run_state hl hr QState.init rfl
    obtain ⟨f1, _, f3⟩ := runTokens_facts hl hr.1
    unfold pieces finishQ
    rw [h1, h2, nums_cut hl (nbs_run_ne hl hr) f1 f3 hc, ← flatMap_withSpaces]; rfl
  | @mark run is xs t ts out hr hc hm he _ ih =>
    obtain ⟨f1, _, f3⟩ := runTokens_facts hl hr.1
    rw [pieces_run hl hr t ts (xs.flatMap (fun n => [n, u!" "]) ++ [t]), List.flatten_append, List.flatten_append, flatMap_withSpaces, ih]
    · simp
    · intro q h1 h2 h3
      unfold stepQ
      rw [mark_classify hm]
      simp only [h1, h2, flushed, h3.mpr he, nums_cut hl (nbs_run_ne hl hr) f1 f3 hc]
      simp
  | @markTight run is xs t ts out hr hc hm he _ ih =>
    obtain ⟨f1, _, f3⟩ := runTokens_facts hl hr.1
    rw [pieces_run hl hr t ts ((xs.flatMap (fun n => [n, u!" "])).dropLast ++ [t]), List.flatten_append, List.flatten_append, flatMap_spaced, ih]
    · simp
    · intro q h1 h2 h3
      unfold stepQ
      rw [mark_classify hm]
      have hp : q.pop = true := by
        cases hp : q.pop with
        | true => rfl
        | false => exact absurd (h3.mp hp) he
      simp only [h1, h2, flushed, hp, nums_cut hl (nbs_run_ne hl hr) f1 f3 hc]
      simp
  | @word run is xs t ts out hr hlast hc ho hm _ ih =>
    obtain ⟨f1, _, f3⟩ := runTokens_facts hl hr.1
    rw [pieces_run hl hr t ts (xs.flatMap (fun n => [n, u!" "]) ++ [t]), List.flatten_append, List.flatten_append, flatMap_withSpaces, ih]
    · simp
    · intro q h1 h2 _
      unfold stepQ
      rw [word_classify hl ho hm]
      refine ⟨?_, rfl⟩
      simp only [h1, h2, List.nil_append]
      congr 1
      unfold flushedWord
      cases hg : (nbs run).getLast? with
      | none => rw [List.getLast?_eq_none_iff] at hg; exact absurd hg (nbs_run_ne hl hr)
      | some x =>
        have : isSkipToken x (mkLangData (file l)) = false := by
          obtain ⟨ys, hys⟩ := List.getLast?_eq_some_iff.mp hg
          obtain ⟨is', k, v, rfl⟩ := hlast
          rw [hys, List.filterMap_append, List.map_append] at f1
          have hx : blank x = false := by
            have : x ∈ nbs run := by rw [hys]; simp
            have := (List.mem_filter.mp this).2; simpa using this
          cases hk : isSkipToken x (mkLangData (file l)) with
          | false => rfl
          | true =>
            have h2 : (mkLangData (file l)).skipTokens.elem x = true := hk
            have : symOf (mkLangData (file l)) x = some (.skip x) := by unfold symOf; rw [hx, h2]; rfl
            simp only [List.filterMap_cons, this, List.filterMap_nil, List.map_cons, List.map_nil, symOfItem] at f1
            have := List.append_inj' f1 rfl
            simp at this
        simp only [this, Bool.false_eq_true, if_false]
        exact nums_cut hl (nbs_run_ne hl hr) f1 f3 hc
  | @conjWord run is f xs t ts out hr hc ho hm _ ih =>
    obtain ⟨f1, _, f3⟩ := runTokens_facts hl hr.1
    rw [pieces_run hl hr t ts (xs.flatMap (fun n => [n, u!" "]) ++ [f, u!" "] ++ [t]), List.flatten_append, List.flatten_append,
      List.flatten_append, flatMap_withSpaces, ih]
    · simp
    · intro q h1 h2 _
      unfold stepQ
      rw [word_classify hl ho hm]
      refine ⟨?_, rfl⟩
      simp only [h1, h2, List.nil_append]
      congr 1
      unfold flushedWord
      cases hg : (nbs run).getLast? with
      | none => rw [List.getLast?_eq_none_iff] at hg; exact absurd hg (nbs_run_ne hl hr)
      | some x =>
        obtain ⟨ys, hys⟩ := List.getLast?_eq_some_iff.mp hg
        have hx : blank x = false := by
          have : x ∈ nbs run := by rw [hys]; simp
          have := (List.mem_filter.mp this).2; simpa using this
        rw [hys, List.filterMap_append, List.map_append] at f1
        have hk : (mkLangData (file l)).skipTokens.elem x = true ∧ x = f ∧ ys.filterMap (symOf (mkLangData (file l))) = is.map symOfItem := by
          cases hk : (mkLangData (file l)).skipTokens.elem x with
          | true =>
            have : symOf (mkLangData (file l)) x = some (.skip x) := by unfold symOf; rw [hx, hk]; rfl
            simp only [List.filterMap_cons, this, List.filterMap_nil, List.map_cons, List.map_nil, symOfItem] at f1
            have := List.append_inj' f1 rfl
            simp only [List.cons.injEq, Sym.skip.injEq, and_true] at this
            exact ⟨rfl, this.2, this.1⟩
          | false =>
            have : symOf (mkLangData (file l)) x = some (.num (kindOf (mkLangData (file l)) x)) := by unfold symOf; rw [hx, hk]; rfl
            simp only [List.filterMap_cons, this, List.filterMap_nil, List.map_cons, List.map_nil, symOfItem] at f1
            have := List.append_inj' f1 rfl
            simp at this
        obtain ⟨hk1, rfl, hk3⟩ := hk
        have hk2 : isSkipToken x (mkLangData (file l)) = true := hk1
        simp only [hk2, hys, List.dropLast_concat, if_true]
        have hyne : ys ≠ [] := by
          rintro rfl
          obtain ⟨k, v, is', e⟩ := run_head hl hr
          cases is with
          | nil => simp at e
          | cons i is => simp at hk3
        rw [nums_cut hl hyne hk3 (by
          intro p hp; apply f3 p; rw [runWords_append]; exact List.mem_append.mpr (Or.inl hp)) hc]
  | @ordinal run is xs t k v ts out hr hw hc _ ih =>
    obtain ⟨hnc, c, hf, hs⟩ := hw
    have ho := (ordinalToken_iff hl (t := t) (w := c)).mpr ⟨hnc, ⟨k, v, hf⟩, hs⟩
    have hcl := ord_classify hl ho
    have hm := (allNumbers_iff hl c).mpr ⟨k, v, hf⟩
    have hsym : symOf (mkLangData (file l)) c = some (.num (kindOfClass k v)) := by
      have h2 : (mkLangData (file l)).skipTokens.elem c = false := key_skip hwf hm
      unfold symOf; rw [key_blank hwf hm, h2, kindOf_class hl hf]; rfl
    have key : ∀ fs : List PyStr, fs.filterMap (symOf (mkLangData (file l))) = is.map symOfItem → PosScale (runWords is) →
        nums (mkLangData (file l)) (fs ++ [c]) = xs.flatMap (fun n => [n, u!" "]) := by
      intro fs h1 h2
      refine nums_cut hl (by simp) ?_ ?_ hc
      · rw [List.filterMap_append, h1]; simp [hsym, symOfItem]
      · intro p hp
        rw [runWords_append] at hp
        rcases List.mem_append.mp hp with hp | hp
        · exact h2 p hp
        · simp only [runWords, List.mem_singleton] at hp
          cases hp; exact scale_pos hl hf
    rcases hr with ⟨rfl, rfl⟩ | hr
    · have : pieces (mkLangData (file l)) (t :: ts) = (xs.flatMap (fun n => [n, u!" "])).dropLast ++ pieces (mkLangData (file l)) ts := by
        unfold pieces
        rw [runQ_cons]
        have h1 : stepQ (mkLangData (file l)) QState.init t = ⟨(xs.flatMap (fun n => [n, u!" "])).dropLast, [], true⟩ := by
          unfold stepQ
          rw [hcl]
          simp only [QState.init, flushed, if_true, List.nil_append]
          have := key [] rfl (by intro p hp; simp [runWords] at hp)
          rw [List.nil_append] at this
          rw [this]
        rw [finish_shift _ _ _ (by rw [h1]), h1]; rfl
      rw [List.nil_append, this, List.flatten_append, flatMap_spaced, ih]
    · obtain ⟨f1, _, f3⟩ := runTokens_facts hl hr.1
      rw [pieces_run hl hr t ts (xs.flatMap (fun n => [n, u!" "])).dropLast, List.flatten_append, flatMap_spaced, ih]
      intro q h1 h2 _
      unfold stepQ
      rw [hcl]
      simp only [h1, h2, flushed, key _ f1 f3, if_true, List.nil_append, and_self]

/-- Every text can be converted. -/
theorem converted_exists {l : PyStr} (hl : l ∈ supported) (ts : List PyStr) : ∃ out, Converted l ts out := by
  have cut : ∀ {run : List PyStr} {is : List RunItem}, Run l run is → ∀ js, ∃ xs, Cut l (is ++ js) xs := by
    intro run is h js
    obtain ⟨k, v, is', rfl⟩ := run_head hl h
    exact cut_exists k v (is' ++ js)
  have gen : ∀ (ts run : List PyStr) (is : List RunItem), (run = [] ∧ is = [] ∨ Run l run is) → ∃ out, Converted l (run ++ ts) out := by
    intro ts
    induction ts with
    | nil =>
      rintro run is (⟨rfl, rfl⟩ | hr)
      · exact ⟨_, .nil⟩
      · obtain ⟨xs, hx⟩ := cut hr []
        rw [List.append_nil] at hx ⊢
        exact ⟨_, .ending hr hx⟩
    | cons t ts ih =>
      intro run is hr
      obtain ⟨out, hout⟩ := ih [] [] (Or.inl ⟨rfl, rfl⟩)
      rw [List.nil_append] at hout
      have more : ∀ js, RunTokens l [t] js → Run l run is → ∃ out, Converted l (run ++ t :: ts) out := by
        intro js hj hr
        obtain ⟨out, ho⟩ := ih (run ++ [t]) (is ++ js) (Or.inr ⟨runTokens_append hr.1 hj, by
          obtain ⟨_, a, b, rfl, hc⟩ := hr; exact ⟨a, b ++ [t], rfl, hc⟩⟩)
        exact ⟨out, by simpa using ho⟩
      rcases token_cases l t with h | h | ⟨k, v, h⟩ | ⟨k, v, h⟩ | h | h
      · rcases hr with ⟨rfl, rfl⟩ | hr
        · exact ⟨_, .keep (Or.inl h) hout⟩
        · exact more [] (.blank h .nil) hr
      · rcases hr with ⟨rfl, rfl⟩ | hr
        · exact ⟨_, .keep (Or.inr (Or.inl h)) hout⟩
        · obtain ⟨xs, hx⟩ := cut hr []
          rw [List.append_nil] at hx
          by_cases he : EndsBlank run
          · exact ⟨_, .mark hr hx h he hout⟩
          · exact ⟨_, .markTight hr hx h he hout⟩
      · have : ∃ xs, Cut l (is ++ [.word k v]) xs := by
          rcases hr with ⟨rfl, rfl⟩ | hr
          · exact cut_exists k v []
          · exact cut hr _
        obtain ⟨xs, hx⟩ := this
        exact ⟨_, .ordinal hr h hx hout⟩
      · rcases hr with ⟨rfl, rfl⟩ | hr
        · obtain ⟨out, ho⟩ := ih [t] [.word k v] (Or.inr ⟨.word h .nil, t, [], rfl, k, v, h⟩)
          exact ⟨out, ho⟩
        · exact more [.word k v] (.word h .nil) hr
      · rcases hr with ⟨rfl, rfl⟩ | hr
        · exact ⟨_, .keep (Or.inr (Or.inr (Or.inl h))) hout⟩
        · exact more [.conj (form t)] (.conj h .nil) hr
      · rcases hr with ⟨rfl, rfl⟩ | hr
        · exact ⟨_, .keep (Or.inr (Or.inr (Or.inr h.1))) hout⟩
        · obtain ⟨k, v, is', e⟩ := run_head hl hr
          have hne : is ≠ [] := by rw [e]; simp
          rcases List.eq_nil_or_concat is with he | ⟨js, j, he⟩
          · exact absurd he hne
          · rw [List.concat_eq_append] at he
            cases j with
            | word k' v' =>
              obtain ⟨xs, hx⟩ := cut hr []
              rw [List.append_nil] at hx
              exact ⟨_, .word hr ⟨js, k', v', he⟩ hx h.1 h.2 hout⟩
            | conj f =>
              cases js with
              | nil => rw [he] at e; simp at e
              | cons j js =>
                rw [e] at he
                simp only [List.cons_append, List.cons.injEq] at he
                obtain ⟨xs, hx⟩ := cut_exists (l := l) k v js
                rw [he.1] at hx
                refine ⟨_, .conjWord (is := j :: js) (f := f) ?_ hx h.1 h.2 hout⟩
                rw [e, he.1, he.2] at hr; exact hr
  obtain ⟨out, h⟩ := gen ts [] [] (Or.inl ⟨rfl, rfl⟩)
  exact ⟨out, h⟩

end NumberParser
