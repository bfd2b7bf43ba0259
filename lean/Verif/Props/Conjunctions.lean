import Verif.Props.Meaning
import Verif.Props.Invariance
import Verif.Props.Numbers

/-!
# C16, C22, C30: conjunctions, texts without number words, leading white space

Consequences of C54 and C55.  (`c16_conjunctions_kept`: Verif/Props/Text.lean; `c30_leading_space`:
Verif/Props/Invariance.lean.)
-/

namespace NumberParser.Props
open NumberParser NumberParser.Spec

set_option maxRecDepth 100000

/-! ## C16 -/

theorem runWords_conj (is : List RunItem) (f : PyStr) : runWords (is ++ [.conj f]) = runWords is := by
  rw [runWords_append]; simp [runWords]

theorem digits_space (n : Nat) : strip (decDigits n ++ u!" ") = decDigits n := by
  have := strip_number (a := []) (tail := u!" ") (by simp) (by decide) n
  simpa using this

/-- **C16**: a conjunction between two parts of one number (or after the last one) disappears. -/
theorem c16_inside_number (l : PyStr) (hl : l ∈ supported) (s : PyStr) (a b : List PyStr) (c : PyStr) (ia ib : List RunItem) (n : Nat)
    (hts : Tokens l s (a ++ c :: b)) (ha : Run l a ia) (hc : Skip l c) (hb : RunTokens l b ib)
    (hn : ReadsAs l (runWords ia ++ runWords ib) n) : parse s (some l) = .ok (decDigits n) := by
  rw [c55_parse l hl s _ hts]
  have hr : Run l (a ++ c :: b) (ia ++ .conj (form c) :: ib) :=
    ⟨runTokens_append ha.1 (.conj hc hb), by obtain ⟨_, t, ts, rfl, h⟩ := ha; exact ⟨t, ts ++ c :: b, rfl, h⟩⟩
  refine ⟨_, .ending hr (.last (n := n) ?_), ?_⟩
  · rw [runWords_append]; exact hn
  · simp only [withSpaces, List.append_nil]; rw [digits_space]

/-- **C16**: a conjunction between two numbers is kept, with one space on each side and in comparison form. -/
theorem c16_between_numbers (l : PyStr) (hl : l ∈ supported) (s : PyStr) (a b : List PyStr) (c : PyStr) (ia ib : List RunItem)
    (k k' : Class) (v v' m n : Nat) (hts : Tokens l s (a ++ c :: b)) (ha : Run l a (ia ++ [.word k v])) (hc : Skip l c)
    (hb : RunTokens l b (.word k' v' :: ib)) (hm : ReadsAs l (runWords ia ++ [(k, v)]) m)
    (hcut : ∀ x, ¬ ReadsAs l (runWords ia ++ [(k, v)] ++ [(k', v')]) x) (hn : ReadsAs l ((k', v') :: runWords ib) n) :
    parse s (some l) = .ok (decDigits m ++ u!" " ++ form c ++ u!" " ++ decDigits n) := by
  rw [c55_parse l hl s _ hts]
  have hr : Run l (a ++ c :: b) ((ia ++ [.word k v]) ++ [form c].map .conj ++ .word k' v' :: ib) := by
    refine ⟨?_, by obtain ⟨_, t, ts, rfl, h⟩ := ha; exact ⟨t, ts ++ c :: b, rfl, h⟩⟩
    have := runTokens_append ha.1 (.conj hc hb)
    simpa using this
  have e : runWords (ia ++ [.word k v]) = runWords ia ++ [(k, v)] := by rw [runWords_append]; rfl
  refine ⟨_, .ending hr (.more (n := m) (by rw [e]; exact hm) ⟨ia, k, v, rfl⟩ (by rw [e]; exact hcut) (.last (n := n) hn)), ?_⟩
  simp only [withSpaces, List.cons_append, List.nil_append, List.append_nil]
  have hd := (decDigits_isDigit n).2
  have hne : decDigits n ≠ [] := by
    intro h0
    have := decDigits_isDigit n
    exact this.1 h0
  have hdm := (decDigits_isDigit m).2
  have hmne := (decDigits_isDigit m).1
  have hdig : ∀ c, (48 ≤ c ∧ c ≤ 57) → isSpace c = false := by
    intro c hc
    have : ∀ c < 58, 48 ≤ c → isSpace c = false := by decide +kernel
    exact this c (by omega) hc.1
  have hx := strip_trail (s := decDigits m ++ u!" " ++ form c ++ u!" " ++ decDigits n) (tail := u!" ") ?_ ?_ (by simp) (by decide)
  · rw [← hx]; simp
  · intro x cs he
    cases hdm' : decDigits m with
    | nil => exact absurd hdm' hmne
    | cons y ys =>
      rw [hdm'] at he hdm
      simp at he
      rw [← he.1]; exact hdig _ (hdm y (by simp))
  · intro x cs he
    obtain ⟨ys, y, hy⟩ : ∃ ys y, decDigits n = ys ++ [y] := ⟨_, _, (List.dropLast_concat_getLast hne).symm⟩
    rw [hy, ← List.append_assoc] at he
    have := List.append_inj' he rfl
    simp at this
    rw [← this.2]
    exact hdig _ (hd y (by rw [hy]; simp))

/-- **C16**: a conjunction between a number and an ordinary word is kept, with one space on each side and in comparison
form. -/
theorem c16_before_word (l : PyStr) (hl : l ∈ supported) (s : PyStr) (a b rest : List PyStr) (c w : PyStr) (ia : List RunItem) (n : Nat)
    (hts : Tokens l s (a ++ c :: b ++ w :: rest)) (ha : Run l a ia) (hc : Skip l c) (hb : ∀ t ∈ b, BlankForm t)
    (hn : ReadsAs l (runWords ia) n) (hw : Ordinary l w) (hm : ¬ Mark w) : ∃ tail, Converted l rest tail ∧
      parse s (some l) = .ok (strip (decDigits n ++ u!" " ++ form c ++ u!" " ++ w ++ tail)) := by
  obtain ⟨tail, ht⟩ := converted_exists hl rest
  refine ⟨tail, ht, ?_⟩
  rw [c55_parse l hl s _ hts]
  have hbl : RunTokens l b [] := by
    clear hts
    induction b with
    | nil => exact .nil
    | cons t b ih => exact .blank (hb t (by simp)) (ih (fun x hx => hb x (List.mem_cons_of_mem _ hx)))
  have hr : Run l (a ++ c :: b) (ia ++ [.conj (form c)]) :=
    ⟨runTokens_append ha.1 (.conj hc hbl), by obtain ⟨_, t, ts, rfl, h⟩ := ha; exact ⟨t, ts ++ c :: b, rfl, h⟩⟩
  refine ⟨_, .conjWord hr (.last hn) hw hm ht, ?_⟩
  simp only [withSpaces, List.append_nil]

open Classical in
/-- **C16**: a conjunction between a number and a full stop or comma disappears. -/
theorem c16_before_mark (l : PyStr) (hl : l ∈ supported) (s : PyStr) (a b rest : List PyStr) (c w : PyStr) (ia ib : List RunItem) (n : Nat)
    (hts : Tokens l s (a ++ c :: b ++ w :: rest)) (ha : Run l a ia) (hc : Skip l c) (hb : RunTokens l b ib)
    (hn : ReadsAs l (runWords ia ++ runWords ib) n) (hm : Mark w) : ∃ tail, Converted l rest tail ∧
      parse s (some l) = .ok (strip (decDigits n ++ (if EndsBlank (c :: b) then u!" " else []) ++ w ++ tail)) := by
  obtain ⟨tail, ht⟩ := converted_exists hl rest
  refine ⟨tail, ht, ?_⟩
  rw [c55_parse l hl s _ hts]
  have hr : Run l (a ++ c :: b) (ia ++ .conj (form c) :: ib) :=
    ⟨runTokens_append ha.1 (.conj hc hb), by obtain ⟨_, t, ts, rfl, h⟩ := ha; exact ⟨t, ts ++ c :: b, rfl, h⟩⟩
  have hcut : Cut l (ia ++ .conj (form c) :: ib) [decDigits n] := .last (by rw [runWords_append]; exact hn)
  have he : EndsBlank (a ++ c :: b) ↔ EndsBlank (c :: b) := by
    constructor
    · rintro ⟨ts', t, e, h⟩
      obtain ⟨ys, y, hy⟩ : ∃ ys y, c :: b = ys ++ [y] := ⟨_, _, (List.dropLast_concat_getLast (by simp)).symm⟩
      rw [hy, ← List.append_assoc] at e
      have := List.append_inj' e rfl
      simp at this
      exact ⟨ys, y, hy, by rw [this.2]; exact h⟩
    · rintro ⟨ts', t, e, h⟩
      exact ⟨a ++ ts', t, by rw [e, List.append_assoc], h⟩
  by_cases hb' : EndsBlank (c :: b)
  · refine ⟨_, .mark hr hcut hm (he.mpr hb') ht, ?_⟩
    rw [if_pos hb']
    simp only [withSpaces, List.append_nil]
  · refine ⟨_, .markTight hr hcut hm (fun h => hb' (he.mp h)) ht, ?_⟩
    rw [if_neg hb']
    simp only [spaced, List.append_nil]

/-- The hypotheses are met by "two and dogs" (kept), "hundred and two" (dropped) and "ten and ten" (kept). -/
example : Run u!"en" [u!"ten", u!" "] ([] ++ [.word .direct 10]) ∧ Skip u!"en" u!"and" ∧
    RunTokens u!"en" [u!" ", u!"ten"] (.word .direct 10 :: []) ∧ ReadsAs u!"en" (runWords [] ++ [(.direct, 10)]) 10 ∧
    (∀ x, ¬ ReadsAs u!"en" (runWords [] ++ [(.direct, 10)] ++ [(.direct, 10)]) x) := by
  have hb : BlankForm u!" " := (blankForm_iff _).mpr (by decide +kernel)
  have hw : Word u!"en" .direct 10 u!"ten" := ⟨u!"ten", by decide +kernel, by decide +kernel⟩
  refine ⟨⟨.word hw (.blank hb .nil), _, _, rfl, _, _, hw⟩, (skip_iff _ _).mpr (by decide +kernel), .blank hb (.word hw .nil), ?_, ?_⟩
  · exact ⟨0, 10, none, Reading.add (ws := []) (c := 0) (o := 0) .start (by decide) (Or.inl rfl), rfl⟩
  · intro x hx
    have hp : PosScale (runWords [] ++ [(.direct, 10)] ++ [(.direct, 10)]) := by
      intro p hp; simp [runWords] at hp
    obtain ⟨r, h, _⟩ := (readsAs_run hp).mp hx
    have h' := congrArg Option.isSome h
    revert h'
    simp only [Option.isSome_some]
    decide +kernel

example : parse u!"ten and ten" (some u!"en") = .ok u!"10 and 10" ∧ parse u!"hundred AND two" (some u!"en") = .ok u!"102" ∧
    parse u!"two AND dogs" (some u!"en") = .ok u!"2 and dogs" ∧ parse u!"two and." (some u!"en") = .ok u!"2." ∧
    parse u!"two and ." (some u!"en") = .ok u!"2 ." := by decide +kernel

/-! ## C22 -/

/-- **C22**: a text (neither blank nor numeric) without number words gives 0 if it begins with a token that is no
conjunction and consists of blank tokens and conjunctions only; otherwise it is no number. -/
theorem c22_no_number_word (l : PyStr) (hl : l ∈ supported) (s : PyStr) (hs : WordInput s) (t : PyStr) (ts : List PyStr)
    (hts : Tokens l (withoutApostrophes s) (t :: ts)) (hno : ∀ x ∈ t :: ts, ¬ Cardinal l x) (n : Nat) :
    parseNumber s (some l) = .ok (some n) ↔ n = 0 ∧ ¬ Skip l t ∧ ∀ x ∈ t :: ts, BlankForm x ∨ Skip l x := by
  rw [c54_number l hl s hs t ts hts]
  have hnil : ∀ m, ReadsAs l [] m ↔ m = 0 := by
    intro m
    rw [readsAs_run (by intro p hp; simp at hp)]
    simp only [kindsOf, List.map_nil, runR]
    constructor
    · rintro ⟨r, h1, h2⟩; cases h1; rw [← h2]; rfl
    · rintro rfl; exact ⟨_, rfl, rfl⟩
  have key : ∀ xs ws, (∀ x ∈ xs, ¬ Cardinal l x) → (OnlyWords l xs ws ↔ ws = [] ∧ ∀ x ∈ xs, BlankForm x ∨ Skip l x) := by
    intro xs
    induction xs with
    | nil =>
      intro ws _
      constructor
      · intro h; cases h; simp
      · rintro ⟨rfl, _⟩; exact .nil
    | cons x xs ih =>
      intro ws h
      have ih' := fun ws => ih ws (fun y hy => h y (List.mem_cons_of_mem _ hy))
      constructor
      · intro ho
        cases ho with
        | word hw _ => exact absurd ⟨_, _, hw⟩ (h x (by simp))
        | other hb ho =>
          obtain ⟨e, h2⟩ := (ih' _).mp ho
          exact ⟨e, fun y hy => (List.mem_cons.mp hy).elim (fun e => e ▸ hb) (h2 y)⟩
      · rintro ⟨rfl, h2⟩
        exact .other (h2 x (by simp)) ((ih' _).mpr ⟨rfl, fun y hy => h2 y (List.mem_cons_of_mem _ hy)⟩)
  constructor
  · rintro ⟨h1, ws, h2, h3⟩
    obtain ⟨rfl, h4⟩ := (key _ _ hno).mp h2
    exact ⟨(hnil n).mp h3, h1, h4⟩
  · rintro ⟨rfl, h1, h2⟩
    exact ⟨h1, [], (key _ _ hno).mpr ⟨rfl, h2⟩, (hnil 0).mpr rfl⟩

example : WordInput u!" and" ∧ Tokens u!"en" (withoutApostrophes u!" and") [[], u!" ", u!"and"] :=
  ⟨by rw [wordInput_iff]; decide +kernel, (tokens_iff _ _ _).mpr (by decide +kernel)⟩

/-! ## C30 -/

/-- **C30**: leading white space does not matter for blank and numeric texts. -/
theorem c30_not_words (g s l : PyStr) (hg : OrdinarySpace g) (hs : ¬ WordInput s) :
    parseNumber (g ++ s) (some l) = parseNumber s (some l) := by
  have hg' : Blank g := fun c hc => (hg c hc).1
  by_cases hn : NumericText s
  · rw [parseNumber_numeric hn, parseNumber_numeric ((numericText_space hg' s).mpr hn), pyInt_space hg]
  by_cases hb : Blank s
  · have e1 := (blank_spec s).mpr hb
    have e2 := (blank_spec (g ++ s)).mpr (by
      intro c hc
      rcases List.mem_append.mp hc with hc | hc
      · exact hg' c hc
      · exact hb c hc)
    unfold parseNumber; rw [if_pos e1, if_pos e2]
  exact absurd ⟨hb, hn⟩ hs

/-- **C30**: a text that begins with a conjunction is no number; with white space in front it is a number exactly if
what comes after the conjunction is one by the rules. -/
theorem c30_leading_conjunction (g s l : PyStr) (hl : l ∈ supported) (hg : OrdinarySpace g) (hne : g ≠ []) (hs : WordInput s)
    (t : PyStr) (ts : List PyStr) (hts : Tokens l (withoutApostrophes s) (t :: ts)) (ht : Skip l t) :
    parseNumber s (some l) = .ok none ∧
    ∀ n, parseNumber (g ++ s) (some l) = .ok (some n) ↔ ∃ ws, OnlyWords l ts ws ∧ ReadsAs l ws n := by
  refine ⟨c21_leading_conjunction l hl s hs t ts hts ht, fun n => ?_⟩
  have hg' : Blank g := fun c hc => (hg c hc).1
  have hs' : WordInput (g ++ s) :=
    ⟨fun h => hs.1 (fun c hc => h c (List.mem_append.mpr (Or.inr hc))), fun h => hs.2 ((numericText_space hg' s).mp h)⟩
  rw [parseNumber_some hl hs']
  cases g with
  | nil => exact absurd rfl hne
  | cons c g =>
    have hf : ∀ p : Nat → Bool, (∀ c, isSpace c = true → p c = true) → (c :: g ++ s).filter p = c :: g ++ s.filter p := by
      intro p hp
      rw [List.filter_append, List.filter_eq_self.mpr (fun d hd => hp d (hg' d hd))]
    have e1 : dropApos (c :: g ++ s) = c :: g ++ dropApos s := by
      rw [dropApos_eq, dropApos_eq]
      exact hf _ (fun c hc => by rw [(space_not_apos hc).1, (space_not_apos hc).2.1]; rfl)
    have e2 : noShy (c :: g ++ dropApos s) = c :: g ++ noShy (dropApos s) := by
      unfold noShy
      rw [List.filter_append, List.filter_eq_self.mpr (fun d hd => (space_not_apos (hg' d hd)).2.2)]
    have h1 : hd l (noShy (dropApos (c :: g ++ s))) = [] := by
      rw [e1, e2, List.cons_append, hd_cons, sepChar_of_space l (hg' c (by simp))]; rfl
    have h2 : isSkipToken (norm []) (mkLangData (file l)) = false :=
      (blank_not_number (supported_data hl) (blank_norm (t := []) rfl)).2
    have h4 : solid l (dropApos (c :: g ++ s)) = formsOf (t :: ts) := by
      rw [solid_eq, e1, e2, sol_spaces l hg', ← solid_eq, dropApos_eq, solid_tokens hts]; rfl
    rw [h1, h2, h4]
    have hsk : ∀ ws, OnlyWords l (t :: ts) ws ↔ OnlyWords l ts ws := by
      intro ws
      constructor
      · intro ho
        cases ho with
        | word hw _ =>
          have h5 := (cardinal_iff hl t).mp ⟨_, _, hw⟩
          have h6 : isSkipToken (norm t) (mkLangData (file l)) = false := key_skip (languageData_wf (supported_data hl)) h5
          rw [(skip_iff l t).mp ht] at h6; cases h6
        | other _ ho => exact ho
      · exact fun h => .other (Or.inr ht) h
    constructor
    · rintro ⟨_, h2, h3⟩
      obtain ⟨ws, hws⟩ := onlyWords_of hl h2
      rw [(onlyWords_kinds hl hws).1] at h3
      exact ⟨ws, (hsk ws).mp hws, (readsAs_run (onlyWords_pos hl hws)).mpr h3⟩
    · rintro ⟨ws, hws, hr⟩
      have hws := (hsk ws).mpr hws
      obtain ⟨e, h2⟩ := onlyWords_kinds hl hws
      refine ⟨rfl, h2, ?_⟩
      rw [e]
      exact (readsAs_run (onlyWords_pos hl hws)).mp hr

example : parseNumber u!" and two" (some u!"en") = .ok (some 2) := by
  refine ((c30_leading_conjunction u!" " u!"and two" u!"en" (by decide) (by unfold OrdinarySpace; decide) (by decide)
    ((wordInput_iff _).mpr ⟨by decide +kernel, by decide +kernel⟩) u!"and" [u!" ", u!"two"]
    ((tokens_iff _ _ _).mpr (by decide +kernel)) ((skip_iff _ _).mpr (by decide +kernel))).2 2).mpr ?_
  refine ⟨[(.unit, 2)], .other (Or.inl ((blankForm_iff _).mpr (by decide +kernel))) (.word ⟨u!"two", by decide +kernel, by decide +kernel⟩ .nil), ?_⟩
  exact ⟨0, 2, none, Reading.add (ws := []) (c := 0) (o := 0) .start (by decide) (Or.inl rfl), rfl⟩

end NumberParser.Props
