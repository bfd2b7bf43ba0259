import Verif.Spec.VocabularyAgreement
import Verif.Proofs.VocabularyPieces
import Verif.Proofs.VocabularyOrdinal
import Verif.Proofs.VocabularyNumeral
import Verif.Props.Agreement

/-! Agreement of the functions, with any vocabulary. -/

namespace NumberParser
open Gen Spec

theorem cut_singleOf {I : Info} {is : List RunItem} {xs : List PyStr} (h : CutOf I is xs) {n : Nat} (e : spaced xs = decDigits n) :
    ReadAs I (runWords is) n := by
  cases h with
  | last hr => rw [← Props.decDigits_unique (m := _) (n := n) e]; exact hr
  | @more is rest cs m k v xs hr he _ hc =>
    exfalso
    have h1 : 0x20 ∈ spaced (decDigits m :: cs ++ xs) := by
      rw [List.cons_append]
      cases hq : cs ++ xs with
      | nil => exact absurd (List.append_eq_nil_iff.mp hq).2 (cut_neOf hc)
      | cons y ys => exact Props.spaced_two
    rw [e] at h1
    have := (decDigits_isDigit n).2 _ h1
    omega

theorem spaced_solidOf {I : Info} {is : List RunItem} {xs : List PyStr} (h : CutOf I is xs) :
    (∀ c cs, spaced xs = c :: cs → isSpace c = false) ∧ (∀ c cs, spaced xs = cs ++ [c] → isSpace c = false) ∧ spaced xs ≠ [] := by
  have hd : ∀ m, ∀ c ∈ decDigits m, isSpace c = false := fun m c hc => isSpace_ascii_digit ((decDigits_isDigit m).2 c hc)
  obtain ⟨m, ys, e⟩ := cut_headOf h
  obtain ⟨zs, n, e'⟩ := cut_lastOf h
  obtain ⟨c0, cs0, hm⟩ : ∃ c cs, decDigits m = c :: cs := by
    cases hq : decDigits m with
    | nil => exact absurd hq (decDigits_isDigit m).1
    | cons c cs => exact ⟨c, cs, rfl⟩
  obtain ⟨q, hs⟩ : ∃ q, spaced xs = c0 :: q := by
    rw [e, hm]
    cases ys with
    | nil => exact ⟨cs0, rfl⟩
    | cons y ys => exact ⟨cs0 ++ u!" " ++ spaced (y :: ys), by simp only [spaced, List.cons_append]⟩
  obtain ⟨q', hl⟩ : ∃ q, spaced xs = q ++ decDigits n := by
    rw [e']
    clear e e' hs h
    induction zs with
    | nil => exact ⟨[], rfl⟩
    | cons z zs ih =>
      obtain ⟨q, hq⟩ := ih
      cases zs with
      | nil => exact ⟨z ++ u!" ", by simp [spaced]⟩
      | cons w zs =>
        refine ⟨z ++ u!" " ++ q, ?_⟩
        simp only [List.cons_append, spaced] at hq ⊢
        rw [hq]; simp
  refine ⟨?_, ?_, by rw [hs]; simp⟩
  · intro c cs hc
    rw [hs] at hc; cases hc
    exact hd m c0 (by rw [hm]; simp)
  · intro c cs hc
    rw [hl] at hc
    rcases List.eq_nil_or_concat (decDigits n) with hn | ⟨y, d, hn⟩
    · exact absurd hn (decDigits_isDigit n).1
    · rw [hn, List.concat_eq_append, ← List.append_assoc] at hc
      have := (List.append_inj_right' hc rfl)
      simp only [List.cons.injEq, and_true] at this
      subst this
      exact hd n d (by rw [hn]; simp)

theorem runTokens_ofOf {I : Info} {ts : List PyStr} (h : ∀ t ∈ ts, CardinalOf I t ∨ SkipOf I t ∨ BlankForm t) : ∃ is, RunTokensOf I ts is := by
  induction ts with
  | nil => exact ⟨[], .nil⟩
  | cons t ts ih =>
    obtain ⟨is, hi⟩ := ih (fun x hx => h x (by simp [hx]))
    rcases h t (by simp) with hw | hs | hb
    · obtain ⟨k, v, hv⟩ := listed_last hw
      exact ⟨_, .word hv hi⟩
    · exact ⟨_, .conj hs hi⟩
    · exact ⟨_, .blank hb hi⟩

theorem runTokens_wordsOf {I : Info} {ts : List PyStr} {is : List RunItem} (h : RunTokensOf I ts is) : OnlyWordsOf I ts (runWords is) := by
  induction h with
  | nil => exact .nil
  | word hw _ ih => exact .word hw ih
  | conj hs _ ih => exact .other (Or.inr hs) ih
  | blank hb _ ih => exact .other (Or.inl hb) ih

theorem onlyWords_blanksOf {I : Info} {lead ts : List PyStr} {ws : List (Class × Nat)} (h : ∀ t ∈ lead, BlankForm t)
    (hw : OnlyWordsOf I ts ws) : OnlyWordsOf I (lead ++ ts) ws := by
  induction lead with
  | nil => exact hw
  | cons t lead ih => exact .other (Or.inl (h t (by simp))) (ih (fun x hx => h x (by simp [hx])))

/-- A run of number words -/
theorem run_ofOf {I : Info} (hi : Tidy I) {w : PyStr} {rest : List PyStr} (hw : CardinalOf I w)
    (hr : ∀ t ∈ rest, CardinalOf I t ∨ SkipOf I t ∨ BlankForm t) : ∃ is xs, RunOf I (w :: rest) is ∧ CutOf I is xs := by
  obtain ⟨is, h⟩ := runTokens_ofOf (I := I) (ts := w :: rest) (fun t ht => by
    rcases List.mem_cons.mp ht with rfl | ht
    · exact Or.inl hw
    · exact hr t ht)
  have hrun : RunOf I (w :: rest) is := ⟨h, w, rest, rfl, hw⟩
  cases h with
  | word hv h' =>
    obtain ⟨xs, hx⟩ := cut_existsOf (I := I) _ _ _
    exact ⟨_, xs, hrun, hx⟩
  | conj hs _ => exact absurd hs (cardinal_not_skipOf hi hw)
  | blank hb _ => exact absurd hb (cardinal_not_blankOf hi hw)

/-! ### Ordinals -/

theorem onlyOrdinals_readAs {I : Info} (hi : Plain I) {l s : PyStr} (hhi : l ≠ u!"hi" ∨ noApos s = true) {ts : List PyStr} (hts : ∀ t ∈ ts, t ∈ tokenize s l)
    {ws ws' : List (Class × Nat)} (h : OnlyOrdinalsOf I ts ws) (h' : OnlyOrdinalsOf I ts ws') {n : Nat} (hr : ReadAs I ws n) : ReadAs I ws' n := by
  rw [readAs_run (onlyOrdinalsOf_pos hi.toSensible h), ← (onlyOrdinalsOf_kinds hi hhi hts h).1, (onlyOrdinalsOf_kinds hi hhi hts h').1] at hr
  exact (readAs_run (onlyOrdinalsOf_pos hi.toSensible h')).mpr hr

theorem onlyOrdinals_moderate {I : Info} (hi : Plain I) (hm : Moderate I) {l s : PyStr} (hhi : l ≠ u!"hi" ∨ noApos s = true) {ts : List PyStr}
    (hts : ∀ t ∈ ts, t ∈ tokenize s l) {ws : List (Class × Nat)} (h : OnlyOrdinalsOf I ts ws) {n : Nat} (hr : ReadAs I ws n) : n < 10 ^ 4300 := by
  have hD := sensible_disjoint hi.toSensible
  obtain ⟨h1, h2⟩ := onlyOrdinalsOf_kinds hi hhi hts h
  obtain ⟨r, h3, h4⟩ := (readAs_run (onlyOrdinalsOf_pos hi.toSensible h)).mp hr
  generalize piecesOf I l ts = ps at h1 h2
  have hall : ∀ t ∈ ps, TokOK (mkLangData I) t := by
    intro t ht
    have := List.all_eq_true.mp h2 t ht
    simp only [numOrSkip, Bool.or_eq_true] at this
    rcases this with h | h
    · exact Or.inr (Or.inr h)
    · exact Or.inr (Or.inl h)
  have hb : numberOfItems (buildItems (mkLangData I) ps) = some n := by
    rw [buildItems_eq hD, numberOfItems_symItems]
    show Option.map _ (runR (mkLangData I).maximumGroupValue (kinds (mkLangData I) ps) RState.init) = _
    rw [h1, h3, ← h4]; rfl
  obtain ⟨is, m, hlast⟩ := buildItems_last (mkLangData I) ps
  rw [hlast] at hb
  obtain ⟨rfl, rfl⟩ := numberOfItems_last.mp hb
  exact moderate_bound hi.toTidy hm ps hall m (by rw [hlast]; simp)

theorem onlyOrdinals_blanksOf {I : Info} {lead ts : List PyStr} {ws : List (Class × Nat)} (h : ∀ t ∈ lead, BlankForm t)
    (hw : OnlyOrdinalsOf I ts ws) : OnlyOrdinalsOf I (lead ++ ts) ws := by
  induction lead with
  | nil => exact hw
  | cons t lead ih => exact .other (Or.inl (h t (by simp))) (ih (fun x hx => h x (by simp [hx])))

/-- Number words are also read as ordinals. -/
theorem onlyWords_ordinalsOf {I : Info} (hf : Faithful I) {ts : List PyStr} {ws : List (Class × Nat)} (h : OnlyWordsOf I ts ws)
    {rest : List PyStr} {ws' : List (Class × Nat)} (hr : OnlyOrdinalsOf I rest ws') : OnlyOrdinalsOf I (ts ++ rest) (ws ++ ws') := by
  induction h with
  | nil => exact hr
  | word hw _ ih => exact .word (hf.words _ (last_listed hw)) hw ih
  | other ho _ ih =>
    refine .other ?_ ih
    rcases ho with h | h
    · exact Or.inl h
    · exact Or.inr (Or.inr (hf.conjunctions _ h))

/-- A first token that stands for a number word or is blank is no conjunction. -/
theorem stands_noSkip {I : Info} (hi : Plain I) {t c : PyStr} (h : StandsForOf I (irregular (form t)) c) : irregular (form t) ∉ I.skipTokens :=
  fun hs => hi.conjunctionStands _ hs c h

theorem blank_noSkipOf {I : Info} (hi : Plain I) {t : PyStr} (h : BlankForm t) : irregular (form t) ∉ I.skipTokens := by
  intro hs
  have h1 : blank (form t) = true := (blankForm_iff t).mp h
  rw [← irregular_blank] at h1
  rw [skip_blankOf hi.toTidy hs] at h1
  cases h1

theorem stands_not_blank {I : Info} (hi : Plain I) {t c : PyStr} (h : StandsForOf I (irregular (form t)) c) : ¬ BlankForm t := by
  intro hb
  have := blank_noNumber hi.toTidy (t := form t) ((blankForm_iff t).mp hb)
  rw [(numberTokenOf_iff hi.toTidy).mpr h] at this
  cases this

theorem stands_not_numeral {I : Info} (hi : Plain I) {t c : PyStr} (h : StandsForOf I (irregular (form t)) c) :
    ∃ x ∈ form t, isNumericChar x = false := by
  refine Classical.byContradiction fun hno => ?_
  have hnum : ∀ x ∈ form t, isNumericChar x = true := fun x hx => by
    cases hn : isNumericChar x with
    | true => rfl
    | false => exact absurd ⟨x, hx, hn⟩ hno
  rw [Props.irregular_numeric hnum] at h
  have hl := stands_listed h
  obtain ⟨a, b, hc, _, _⟩ := h
  have ht : isNumericChar 0x74 = false := by decide +kernel
  generalize form t = g at *
  generalize hcs : a ++ c :: b = cs at hc
  cases hc with
  | ieth stem => rw [hnum 0x74 (by simp)] at ht; cases ht
  | th stem _ => rw [hnum 0x74 (by simp)] at ht; cases ht
  | other _ _ =>
    have e : c = g := by
      have : c ∈ [g] := by rw [← hcs]; simp
      simpa using this
    subst e
    obtain ⟨x, hx, hn⟩ := hi.wordNotNumeric c hl
    exact hno ⟨x, hx, hn⟩

/-- A text with a token that stands for a number word is neither blank nor a single numeral. -/
theorem stands_text {I : Info} (hi : Plain I) {ts : List PyStr} {t c : PyStr} (ht : t ∈ ts) (h : StandsForOf I (irregular (form t)) c) :
    (∃ x ∈ ts, ¬ BlankForm x) ∧ ¬ SingleNumeral ts := by
  have hnb := stands_not_blank hi h
  refine ⟨⟨t, ht, hnb⟩, ?_⟩
  rintro ⟨a, u, b, rfl, ha, hb, _, hn⟩
  rcases List.mem_append.mp ht with h1 | h1
  · exact hnb (ha t h1)
  · rcases List.mem_cons.mp h1 with rfl | h1
    · obtain ⟨x, hx, hxn⟩ := stands_not_numeral hi h
      rw [hn x hx] at hxn; cases hxn
    · exact hnb (hb t h1)

end NumberParser
