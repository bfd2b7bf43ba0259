import Verif.Spec.VocabularyNamesInText
import Verif.Props.VocabularyOrdinalNames
import Verif.Props.VocabularyPieces
import Verif.Props.PackageFraction
import Verif.Proofs.Occurs

/-!
# C105: named numbers in fractions and sentences, with any vocabulary

What C07, C59 and C62 say of the numbers of the five languages holds for all numbers whose names a data module lists (C93, C104).
Specification: Verif/Spec/VocabularyNamesInText.lean.
-/

namespace NumberParser.Props
open NumberParser Gen Spec

/-! ## Fractions -/

/-- **C105** If the two sides of a text are written names of `a` and `b`, then `parse_fraction` gives "a/b", unreduced. -/
theorem c105_fraction (p : Package) (l : PyStr) (i : Info) (h : Knows p l i) (N : NumberNames) (top : Nat) (powers : List Nat)
    (hN : Names i N top powers) (a b : Nat) (ha : a < top) (hb : b < top) (s A B : PyStr) (hs : FractionParts s A B)
    (t t' : PyStr) (ts ts' : List PyStr) (hA : WordInput A) (hB : WordInput B)
    (htA : Tokens l (withoutApostrophes A) (t :: ts)) (htB : Tokens l (withoutApostrophes B) (t' :: ts')) (hf : ¬ SkipOf i t) (hf' : ¬ SkipOf i t')
    (hwA : Written i (t :: ts) (N.name powers a)) (hwB : Written i (t' :: ts') (N.name powers b)) :
    parseFractionIn p s (some l) = .ok (some (decDigits a ++ u!"/" ++ decDigits b)) :=
  (c84_fraction p s l _).mpr ⟨A, B, a, b, hs, c93_written p l i h N top powers hN a ha A t ts hA htA hf hwA,
    c93_written p l i h N top powers hN b hb B t' ts' hB htB hf' hwB, rfl⟩

theorem spaced_occurs {x : PyStr} (h32 : 32 ∉ x) (hne : x ≠ []) : ∀ {ws : List PyStr}, Occurs x (spaced ws) → ∃ w ∈ ws, Occurs x w
  | [], ⟨a, b, e⟩ => by
    exfalso
    have : (spaced ([] : List PyStr)) = [] := rfl
    rw [this] at e
    have := List.append_eq_nil_iff.mp e.symm
    exact hne (List.append_eq_nil_iff.mp this.1).2
  | [w], h => ⟨w, by simp, h⟩
  | w :: w' :: ws, ⟨a, b, e⟩ => by
    rw [show spaced (w :: w' :: ws) = w ++ 32 :: spaced (w' :: ws) by simp [spaced]] at e
    rcases occurrence_cases h32 hne e with ⟨b', h⟩ | ⟨_, h⟩
    · exact ⟨w, by simp, a, b', h⟩
    · obtain ⟨y, hy, ho⟩ := spaced_occurs h32 hne h
      exact ⟨y, by simp [List.mem_cons.mp hy], ho⟩

theorem words_notNumeric {l : PyStr} {ws : List PyStr} (hne : ws ≠ []) (h : ∀ w ∈ ws, FractionWord l w) {s : PyStr}
    (hs : ∀ c ∈ spaced ws, c ∈ s) : WordInput s := by
  obtain ⟨w, ws', rfl⟩ := List.exists_cons_of_ne_nil hne
  obtain ⟨ho, ⟨c, hc, hn⟩, _⟩ := h w (by simp)
  have hm : c ∈ s := by
    apply hs
    obtain ⟨r, hr⟩ := between_cons w ws'
    rw [← between_flatten, hr]
    simp [hc]
  have hsp := (ho.2 c hc).1
  refine ⟨fun hb => ?_, ?_⟩
  · have := hb c hm
    rw [hsp] at this; cases this
  · rintro ⟨a, t, b, rfl, ha, hb, _, ht⟩
    simp only [List.mem_append] at hm
    rcases hm with (hm | hm) | hm
    · have := ha c hm; rw [hsp] at this; cases this
    · have := ht c hm; rw [hn] at this; cases this
    · have := hb c hm; rw [hsp] at this; cases this

theorem tokens_trailing {l s : PyStr} {ts : List PyStr} (h : Tokens l s ts) (hl : ∀ a w, ts = a ++ [w] → w ≠ []) :
    Tokens l (s ++ u!" ") (ts ++ [u!" ", []]) := by
  obtain ⟨h1, h2⟩ := h
  refine ⟨?_, ?_⟩
  · rw [List.flatten_append, h1]
    unfold withoutSoftHyphens
    rw [List.filter_append]; rfl
  · by_cases hh : l = u!"hi"
    · rw [if_pos hh] at h2 ⊢
      clear h1
      induction h2 with
      | last hw => exact .cons hw (by decide) (by decide) (fun _ => rfl) (.last (by simp))
      | @cons w g w' ts hw hg hgs he _ ih =>
        refine .cons hw hg hgs (fun e => ?_) (ih fun a x e => hl (w :: g :: a) x (by rw [e]; rfl))
        exact absurd e (hl [w, g] w' (by rw [he e]; rfl))
    · rw [if_neg hh] at h2 ⊢
      clear h1
      induction h2 with
      | last hw => exact .cons hw (by decide +kernel) (.last (by simp))
      | @cons w c ts hw hc _ ih => exact .cons hw hc (ih fun a x e => hl (w :: [c] :: a) x (by rw [e]; rfl))

theorem tokens_leading {l s : PyStr} {ts : List PyStr} (h : Tokens l s ts) (hl : ∀ w a, ts = w :: a → w ≠ []) :
    Tokens l (u!" " ++ s) ([] :: u!" " :: ts) := by
  obtain ⟨h1, h2⟩ := h
  refine ⟨?_, ?_⟩
  · unfold withoutSoftHyphens at *
    rw [List.filter_append, ← h1]; rfl
  · by_cases hh : l = u!"hi"
    · rw [if_pos hh] at h2 ⊢
      cases ts with
      | nil => cases h2
      | cons w a => exact .cons (by simp) (by decide) (by decide) (fun e => absurd e (hl w a rfl)) h2
    · rw [if_neg hh] at h2 ⊢
      exact .cons (by simp) (by decide +kernel) h2

theorem written_append {i : Info} {ts us ws vs : List PyStr} (h : Written i ts ws) (h' : Written i us vs) : Written i (ts ++ us) (ws ++ vs) := by
  induction h with
  | nil => exact h'
  | word he _ ih => exact .word he ih
  | other ho _ ih => exact .other ho ih

theorem spacedTokens_last (w' : PyStr) (ws : List PyStr) : ∃ ts, spacedTokens (ws ++ [w']) = ts ++ [w'] := by
  obtain ⟨ts, h, _⟩ := spacedTokens_snoc w' ws
  exact ⟨ts, h⟩

theorem without_space (s : PyStr) : withoutApostrophes (s ++ u!" ") = withoutApostrophes s ++ u!" " ∧
    withoutApostrophes (u!" " ++ s) = u!" " ++ withoutApostrophes s := by
  unfold withoutApostrophes
  rw [List.filter_append, List.filter_append]
  exact ⟨rfl, rfl⟩

/-- Two names with single spaces and a separator between them -/
theorem fraction_spaced {p : Package} {l : PyStr} {i : Info} (h : Knows p l i) {wsA wsB : List PyStr} {ca cb : List (Class × Nat)} {a b : Nat}
    (a1 : Valued i wsA ca) (a2 : CardinalName (limitOf i) ca a) (b1 : Valued i wsB cb) (b2 : CardinalName (limitOf i) cb b)
    (hwa : ∀ w ∈ wsA, FractionWord l w) (hwb : ∀ w ∈ wsB, FractionWord l w) {sep : PyStr} (hsep : sep ∈ separators) :
    parseFractionIn p (spaced wsA ++ u!" " ++ sep ++ u!" " ++ spaced wsB) (some l) = .ok (some (decDigits a ++ u!"/" ++ decDigits b)) := by
  obtain ⟨w, wa, ea, hca⟩ := valued_first a1 (cardinalName_ne a2)
  obtain ⟨v, wb, eb, hcb⟩ := valued_first b1 (cardinalName_ne b2)
  have hbl : BlankForm u!" " := by unfold BlankForm; decide +kernel
  have hbe : BlankForm [] := by unfold BlankForm; decide +kernel
  have hfree : ∀ {ws : List PyStr}, (∀ w ∈ ws, FractionWord l w) → ∀ x ∈ sepWords, ¬ Occurs x (spaced ws) := by
    intro ws hw x hx ho
    have h1 : ∀ x ∈ sepWords, 32 ∉ x ∧ x ≠ [] := by decide
    obtain ⟨y, hy, hyo⟩ := spaced_occurs (h1 x hx).1 (h1 x hx).2 ho
    exact (hw y hy).2.2 x hx hyo
  have hna : wsA ≠ [] := by rw [ea]; simp
  have hnb : wsB ≠ [] := by rw [eb]; simp
  have ta := between_tokens hna fun w hw => (hwa w hw).1
  have tb := between_tokens hnb fun w hw => (hwb w hw).1
  have pa := spaced_apos fun w hw => (hwa w hw).1
  have pb := spaced_apos fun w hw => (hwb w hw).1
  have wra := written_append (i := i) (between_written wsA) (.other (Or.inl hbl) (.other (Or.inl hbe) .nil))
  have wrb := Written.other (Or.inl hbe) (.other (Or.inl hbl) (between_written (i := i) wsB))
  rw [List.append_nil] at wra
  obtain ⟨ra, hra⟩ := between_cons w wa
  have ta' := tokens_trailing ta (by
    intro x y e
    obtain ⟨z, hz⟩ := spacedTokens_last (wsA.getLast hna) wsA.dropLast
    rw [List.dropLast_concat_getLast, e] at hz
    have := (List.append_inj' hz rfl).2
    injection this with this
    rw [this]
    exact (hwa _ (List.getLast_mem hna)).1.1)
  have tb' := tokens_leading tb (by
    intro x y e
    obtain ⟨rb, hrb⟩ := between_cons v wb
    rw [eb, hrb] at e
    injection e with e _
    rw [← e]
    exact (hwb v (by rw [eb]; simp)).1.1)
  have es : spacedTokens wsA ++ [u!" ", []] = w :: (ra ++ [u!" ", []]) := by rw [ea, hra]; rfl
  rw [es] at ta' wra
  have hskip : ¬ SkipOf i [] := fun hs => skip_not_blankOf h.tidy hs hbe
  have hma := words_notNumeric hna hwa (s := spaced wsA ++ u!" ") (by simp +contextual)
  have hmb := words_notNumeric hnb hwb (s := u!" " ++ spaced wsB) (by simp +contextual)
  have oa := written_only wra a1
  have ob := written_only wrb b1
  refine (c84_fraction p _ l _).mpr ⟨_, _, a, b, fractionParts_of_free (hfree hwa) (hfree hwb) hsep,
    c93_number p h.distinct l i h.mem h.tidy.toSensible _ w _ hma (by rw [(without_space _).1, pa]; exact ta') (cardinal_noSkip h.tidy.toSensible hca)
      ca oa a a2 (readAs_moderate h.tidy h.moderate oa (numeral_readAs a2)),
    c93_number p h.distinct l i h.mem h.tidy.toSensible _ [] _ hmb (by rw [(without_space _).2, pb]; exact tb') hskip
      cb ob b b2 (readAs_moderate h.tidy h.moderate ob (numeral_readAs b2)), rfl⟩

/-- **C105** In particular it does so for two names written with single spaces and any of the separators between them. -/
theorem c105_fraction_text (p : Package) (l : PyStr) (i : Info) (h : Knows p l i) (N : NumberNames) (top : Nat) (powers : List Nat)
    (hN : Names i N top powers) (a b : Nat) (ha : a < top) (hb : b < top) (hwa : ∀ w ∈ N.name powers a, FractionWord l w)
    (hwb : ∀ w ∈ N.name powers b, FractionWord l w) (sep : PyStr) (hsep : sep ∈ separators) :
    parseFractionIn p (spaced (N.name powers a) ++ u!" " ++ sep ++ u!" " ++ spaced (N.name powers b)) (some l) =
      .ok (some (decDigits a ++ u!"/" ++ decDigits b)) := by
  obtain ⟨ca, a1, a2⟩ := names_numeral hN ha
  obtain ⟨cb, b1, b2⟩ := names_numeral hN hb
  exact fraction_spaced h a1 a2 b1 b2 hwa hwb hsep

/-! ## Sentences -/

theorem onePiece_solid {l : PyStr} {ws : List PyStr} (hne : ws ≠ []) (h : ∀ w ∈ ws, OnePiece l w) : SolidStart (spaced ws) ∧ SolidEnd (spaced ws) := by
  have hs := spaced_soft h
  constructor
  · obtain ⟨w, ws', rfl⟩ := List.exists_cons_of_ne_nil hne
    have hw := h w (by simp)
    obtain ⟨c, x, rfl⟩ := List.exists_cons_of_ne_nil hw.1
    obtain ⟨r, hr⟩ := between_cons (c :: x) ws'
    exact ⟨c, x ++ r.flatten, by rw [hs, ← between_flatten, hr]; simp, (hw.2 c (by simp)).1⟩
  · have hw := h _ (List.getLast_mem hne)
    obtain ⟨ts, ht⟩ := spacedTokens_last (ws.getLast hne) ws.dropLast
    rw [List.dropLast_concat_getLast] at ht
    have e := List.dropLast_concat_getLast hw.1
    exact ⟨ts.flatten ++ (ws.getLast hne).dropLast, (ws.getLast hne).getLast hw.1, by
      rw [hs, ← between_flatten, ht, List.flatten_append, List.append_assoc, e]; simp, (hw.2 _ (List.getLast_mem hw.1)).1⟩

/-- **C105** In a sentence the name of a number is replaced by its digits and the rest converted on its own, if an ordinary word or an
ordinal comes before it and an ordinary word after it. -/
theorem c105_number (p : Package) (l : PyStr) (i : Info) (h : Knows p l i) (N : NumberNames) (top : Nat) (powers : List Nat)
    (hN : Names i N top powers) (n : Nat) (hn : n < top) (ho : ∀ w ∈ N.name powers n, OnePiece l w)
    (hs : ¬ NumericText (spaced (N.name powers n))) (a g g' b : PyStr) (ta tb : List PyStr) (hta : Tokens l a ta) (hca : EndsClosedOf i ta)
    (ha : SolidEnd a) (hg : WhiteSpace g) (hg' : WhiteSpace g') (htb : Tokens l b tb) (hob : BeginsOrdinaryOf i tb) (hb : SolidStart b)
    (x y : PyStr) (hx : parseIn p a (some l) = .ok x) (hy : parseIn p b (some l) = .ok y) :
    parseIn p (a ++ g ++ (spaced (N.name powers n) ++ g' ++ b)) (some l) = .ok (x ++ g ++ (decDigits n ++ u!" " ++ y)) := by
  obtain ⟨cs, h1, h2⟩ := names_numeral hN hn
  obtain ⟨w, rest, he, hc⟩ := valued_first h1 (cardinalName_ne h2)
  have hne : N.name powers n ≠ [] := by rw [he]; simp
  have hrt := c93_round_trip p l i h N top powers hN n hn ho hs
  obtain ⟨r, hr⟩ := between_cons w rest
  have htok := between_tokens hne ho
  rw [show spacedTokens (N.name powers n) = w :: r by rw [he, hr]] at htok
  have hsol := onePiece_solid hne ho
  have hend : EndsNumberOf i (w :: r) := by
    obtain ⟨ts, ht⟩ := spacedTokens_last ((N.name powers n).getLast hne) (N.name powers n).dropLast
    rw [List.dropLast_concat_getLast, show spacedTokens (N.name powers n) = w :: r by rw [he, hr]] at ht
    refine ⟨ts, _, [], ht, ?_, by simp⟩
    have e := List.dropLast_concat_getLast hne
    rw [← e] at h1
    obtain ⟨⟨k, v, hv⟩, _⟩ := valued_snoc h1
    exact last_listed hv
  refine c92_inside p l i h _ w r htok hc hend ?_ ⟨?_, hs⟩ n hrt.1 hsol.1 hsol.2 a g g' b ta tb hta hca ha hg hg' htb hob hb x y hx hy
  · constructor
    · exact fun hm => spaced_chars (P := fun c => c ≠ 0x27) (by decide) (fun w hw c hc => ((ho w hw).2 c hc).2.2.1) _ hm rfl
    · exact fun hm => spaced_chars (P := fun c => c ≠ 0x2019) (by decide) (fun w hw c hc => ((ho w hw).2 c hc).2.2.2.1) _ hm rfl
  · intro hbl
    obtain ⟨c, z, e, hc⟩ := hsol.1
    rw [spaced_soft ho] at e
    have := hbl c (by rw [e]; simp)
    rw [hc] at this; cases this

/-- **C105** The same for the name of an ordinal; here any words may follow it. -/
theorem c105_ordinal (p : Package) (l : PyStr) (i : Info) (h : Knows p l i) (hi : Plain i) (hf : Faithful i) (N : NumberNames) (top : Nat)
    (powers : List Nat) (hN : Names i N top powers) (n : Nat) (hn : n < top) (ws : List PyStr) (w w' : PyStr)
    (hname : N.name powers n = ws ++ [w]) (hw' : OrdinalWordOf i w w') (ho : ∀ x ∈ ws ++ [w'], OnePiece l x)
    (a g g' b : PyStr) (ta : List PyStr) (hta : Tokens l a ta) (hca : EndsClosedOf i ta) (ha : SolidEnd a) (hg : WhiteSpace g)
    (hg' : WhiteSpace g') (hb : SolidStart b) (x y : PyStr) (hx : parseIn p a (some l) = .ok x) (hy : parseIn p b (some l) = .ok y) :
    parseIn p (a ++ g ++ (spaced (ws ++ [w']) ++ g' ++ b)) (some l) = .ok (x ++ g ++ (decDigits n ++ g' ++ y)) := by
  have hrt := (c104_round_trip p l i h hi hf N top powers hN n hn ws w w' hname hw' ho).2
  have hsol := onePiece_solid (by simp) ho
  have htok := between_tokens (by simp) ho
  obtain ⟨ts, ht⟩ := spacedTokens_last w' ws
  rw [ht] at htok
  obtain ⟨cs, h1, _⟩ := names_numeral hN hn
  rw [hname] at h1
  obtain ⟨⟨k, v, hv⟩, _⟩ := valued_snoc h1
  have hend : EndsClosedOf i (ts ++ [w']) := Or.inr ⟨ts, w', [], rfl, Or.inr ⟨k, v, hw'.1, form w, hv, hw'.2⟩, by simp⟩
  have h1 := c92_pieces p l i h _ g' b _ htok hend hsol.2 hg' hb _ y hrt hy
  refine c92_pieces p l i h a g _ ta hta hca ha hg ?_ x _ hx h1
  obtain ⟨c, z, e, hs⟩ := hsol.1
  refine ⟨c, z ++ withoutSoftHyphens (g' ++ b), ?_, hs⟩
  unfold withoutSoftHyphens at *
  rw [List.append_assoc, List.filter_append, e]; rfl

/-! ## Indian English -/

theorem indian_fraction_words : ∀ w ∈ indianVocabulary, FractionWord u!"en-IN" w := by
  have hv : ∀ w ∈ indianVocabulary, w ≠ [] ∧ ∀ c ∈ w, 97 ≤ c ∧ c ≤ 122 := by decide
  have hc : ∀ w ∈ indianVocabulary, (w.any (fun c => !isNumericChar c) && sepWords.all (fun x => !occursB x w)) = true := by decide +kernel
  intro w hw
  have h1 := hc w hw
  simp only [Bool.and_eq_true, List.any_eq_true, List.all_eq_true, Bool.not_eq_true'] at h1
  refine ⟨(lower_case_words u!"en-IN" [w] (by simpa using hv w hw)).1 w (by simp), h1.1, fun x hx ho => ?_⟩
  have := h1.2 x hx
  rw [(occursB_iff x w).mpr ho] at this; cases this

/-- **C105** With the data for Indian English, every fraction of numbers below 10^10 is read from their names. -/
theorem c105_indian (p : Package) (hp : Distinct p) (h : (u!"en-IN", indianEnglish) ∈ p) (a b : Nat) (ha : a < 10 ^ 10) (hb : b < 10 ^ 10)
    (sep : PyStr) (hsep : sep ∈ separators) :
    parseFractionIn p (spaced (indianNames.name [10 ^ 7, 10 ^ 5, 10 ^ 3] a) ++ u!" " ++ sep ++ u!" " ++
      spaced (indianNames.name [10 ^ 7, 10 ^ 5, 10 ^ 3] b)) (some u!"en-IN") = .ok (some (decDigits a ++ u!"/" ++ decDigits b)) :=
  c105_fraction_text p u!"en-IN" indianEnglish ⟨hp, h, indian_plain.1, indian_plain.2⟩ indianNames _ _ c93_indian a b ha hb
    (fun w hw => indian_fraction_words w (indian_name_words ha w hw)) (fun w hw => indian_fraction_words w (indian_name_words hb w hw)) sep hsep

/-- An ordinary word, checked -/
theorem ordinary_check {i : Info} (hi : Tidy i) {t : PyStr} (h : (blank (form t) = false ∧ isNumberToken (form t) (mkLangData i) = none) ∧
    isSkipToken (form t) (mkLangData i) = false ∧ (mkLangData i).allNumbers.mem (form t) = false) : OrdinaryOf i t := by
  obtain ⟨⟨h1, h2⟩, h3, h4⟩ := h
  refine ⟨?_, ?_, ?_, ?_⟩
  · apply Classical.byContradiction
    intro hn
    have hb : BlankForm t := by
      intro c hc
      cases hs : isSpace c with
      | true => rfl
      | false => exact absurd ⟨c, hc, hs⟩ hn
    have := (blankForm_iff t).mp hb
    rw [show blank (norm t) = false from h1] at this; cases this
  · intro hc
    rw [show (mkLangData i).allNumbers.mem (form t) = true from mem_listed.mpr hc] at h4; cases h4
  · rintro ⟨k, v, _, c, _, hst⟩
    have := (numberTokenOf_iff hi).mpr hst
    rw [h2] at this; cases this
  · intro hs
    rw [show isSkipToken (form t) (mkLangData i) = true from skip_mem.mpr hs] at h3; cases h3

/-- The list of languages of the examples -/
def indianPackage : Package := [(u!"en-IN", indianEnglish)]

theorem knows_indian : Knows indianPackage u!"en-IN" indianEnglish :=
  ⟨by unfold Distinct; decide +kernel, by simp [indianPackage], indian_plain.1, indian_plain.2⟩

set_option maxRecDepth 100000 in
/-- Sentences about any number or ordinal below 10^10 -/
theorem c105_indian_sentences (n : Nat) (hn : n < 10 ^ 10) :
    parseIn indianPackage (u!"they won" ++ u!" " ++ (spaced (indianNames.name [10 ^ 7, 10 ^ 5, 10 ^ 3] n) ++ u!" " ++ u!"rupees")) (some u!"en-IN") =
      .ok (u!"they won" ++ u!" " ++ (decDigits n ++ u!" " ++ u!"rupees")) ∧
    parseIn indianPackage (u!"this is the" ++ u!" " ++ (spaced (enOrdinalOf (indianNames.name [10 ^ 7, 10 ^ 5, 10 ^ 3] n)) ++ u!" " ++ u!"of them"))
      (some u!"en-IN") = .ok (u!"this is the" ++ u!" " ++ (decDigits n ++ u!" " ++ u!"of them")) := by
  have hv : ∀ w ∈ indianVocabulary, (w ≠ [] ∧ ∀ c ∈ w, 97 ≤ c ∧ c ≤ 122) ∧ enOrdinal w ≠ [] ∧ ∀ c ∈ enOrdinal w, 97 ≤ c ∧ c ≤ 122 := by decide
  have hws := indian_name_words hn
  have hord : ∀ t ∈ [u!"won", u!"the", u!"rupees"], OrdinaryOf indianEnglish t := by
    have k : ∀ t ∈ [u!"won", u!"the", u!"rupees"], (blank (form t) = false ∧ isNumberToken (form t) (mkLangData indianEnglish) = none) ∧
      isSkipToken (form t) (mkLangData indianEnglish) = false ∧ (mkLangData indianEnglish).allNumbers.mem (form t) = false := by decide +kernel
    exact fun t ht => ordinary_check indian_plain.1 (k t ht)
  constructor
  · obtain ⟨h1, h2⟩ := lower_case_words u!"en-IN" _ fun w hw => (hv w (hws w hw)).1
    exact c105_number indianPackage u!"en-IN" indianEnglish knows_indian indianNames _ _ c93_indian n hn h1 h2
      u!"they won" u!" " u!" " u!"rupees" [u!"they", u!" ", u!"won"] [u!"rupees"] ((tokens_iff _ _ _).mpr (by decide +kernel))
      (Or.inr ⟨[u!"they", u!" "], u!"won", [], rfl, Or.inl (hord _ (by simp)), by simp⟩) ⟨u!"they wo", 110, by decide +kernel, by decide +kernel⟩
      ⟨by simp, by decide⟩ ⟨by simp, by decide⟩ ((tokens_iff _ _ _).mpr (by decide +kernel))
      ⟨[], u!"rupees", [], rfl, by simp, hord _ (by simp)⟩ ⟨114, u!"upees", by decide +kernel, by decide +kernel⟩
      u!"they won" u!"rupees" (by decide +kernel) (by decide +kernel)
  · obtain ⟨cs, h1, h2⟩ := names_numeral c93_indian hn
    generalize hname : indianNames.name [10 ^ 7, 10 ^ 5, 10 ^ 3] n = ns at *
    have hne : ns ≠ [] := by
      rintro rfl
      cases h1
      exact cardinalName_ne h2 rfl
    have e := List.dropLast_concat_getLast hne
    have e' : enOrdinalOf ns = ns.dropLast ++ [enOrdinal (ns.getLast hne)] := by
      unfold enOrdinalOf
      rw [List.getLastD_eq_getLast?, List.getLast?_eq_some_getLast hne]; rfl
    rw [e']
    refine c105_ordinal indianPackage u!"en-IN" indianEnglish knows_indian indian_ordinals.1 indian_ordinals.2 indianNames _ _
      c93_indian n hn _ _ _ (by rw [hname]; exact e.symm)
      (ordinalWordB_sound (indian_ordinal_words _ (hws _ (List.getLast_mem hne)))) ?_
      u!"this is the" u!" " u!" " u!"of them" [u!"this", u!" ", u!"is", u!" ", u!"the"] ((tokens_iff _ _ _).mpr (by decide +kernel))
      (Or.inr ⟨[u!"this", u!" ", u!"is", u!" "], u!"the", [], rfl, Or.inl (hord _ (by simp)), by simp⟩)
      ⟨u!"this is th", 101, by decide +kernel, by decide +kernel⟩
      ⟨by simp, by decide⟩ ⟨by simp, by decide⟩ ⟨111, u!"f them", by decide +kernel, by decide +kernel⟩
      u!"this is the" u!"of them" (by decide +kernel) (by decide +kernel)
    refine (lower_case_words u!"en-IN" _ fun w hw => ?_).1
    rcases List.mem_append.mp hw with hw | hw
    · exact (hv w (hws w (List.dropLast_subset _ hw))).1
    · rw [List.mem_singleton.mp hw]
      exact (hv _ (hws _ (List.getLast_mem hne))).2

set_option maxRecDepth 100000 in
theorem c105_example : [u!"two lakh over three crore", u!"two lakh  divided by THREE"].map
      (fun s => parseFractionIn [(u!"en-IN", indianEnglish)] s (some u!"en-IN")) = [.ok (some u!"200000/30000000"), .ok (some u!"200000/3")] ∧
    [u!"they won two lakh five rupees", u!"the two lakh fifth of all"].map
      (fun s => parseIn [(u!"en-IN", indianEnglish)] s (some u!"en-IN")) = [.ok u!"they won 200005 rupees", .ok u!"the 200005 of all"] := by
  constructor <;> decide +kernel

end NumberParser.Props
