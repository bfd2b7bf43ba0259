import Verif.Proofs.VocabularyNames
import Verif.Props.VocabularyPieces

/-!
# C93: names of numbers, with any vocabulary

If a data module lists the words of which the names of numbers are built, then the names are read as the numbers.  Specification:
Verif/Spec/VocabularyNumeral.lean.
-/

namespace NumberParser.Props
open NumberParser Gen Spec

/-- **C93** If the number words of a text are a name of `n`, then `parse_number` gives `n` (any language with a sensible module; the text
does not begin with a conjunction). -/
theorem c93_number (p : Package) (hp : Distinct p) (l : PyStr) (i : Info) (h : (l, i) ∈ p) (hi : Sensible i) (s t : PyStr) (ts : List PyStr)
    (hs : WordInput s) (ht : Tokens l (withoutApostrophes s) (t :: ts)) (hf : ¬ SkipOf i t) (ws : List (Class × Nat))
    (hw : OnlyWordsOf i (t :: ts) ws) (n : Nat) (hn : CardinalName (limitOf i) ws n) (hb : n < 10 ^ 4300) :
    parseNumberIn p s (some l) = .ok (some n) :=
  (c82_reads p hp l i h hi s t ts n hs ht).mpr ⟨hf, hb, ws, hw, numeral_readAs hn⟩

/-- **C93** ... and a text that begins with a number word is converted to `n` (here the values are moderate, and `n` needs no bound). -/
theorem c93_text (p : Package) (l : PyStr) (i : Info) (h : Knows p l i) (s t : PyStr) (ts : List PyStr) (ht : Tokens l s (t :: ts))
    (hc : CardinalOf i t) (ws : List (Class × Nat)) (hw : OnlyWordsOf i (t :: ts) ws) (n : Nat) (hn : CardinalName (limitOf i) ws n) :
    parseIn p s (some l) = .ok (decDigits n) := by
  obtain ⟨raw, h1, h2⟩ := converted_numberOf hc hw (numeral_readAs hn)
  exact (knows_parse h ht).mpr ⟨raw, h1, h2.symm⟩

/-- **C93** Every number below `top` has a name, if the module lists the words. -/
theorem c93_named (i : Info) (N : NumberNames) (top : Nat) (powers : List Nat) (hN : Names i N top powers) (n : Nat) (hn : n < top) :
    ∃ ws, Valued i (N.name powers n) ws ∧ CardinalName (limitOf i) ws n := names_numeral hN hn

/-- **C93** `parse_number` reads the name of every number below `top`, in any case, with any accents, and with conjunctions and white
space between the words, ... -/
theorem c93_written (p : Package) (l : PyStr) (i : Info) (h : Knows p l i) (N : NumberNames) (top : Nat) (powers : List Nat)
    (hN : Names i N top powers) (n : Nat) (hn : n < top) (s t : PyStr) (ts : List PyStr) (hs : WordInput s)
    (ht : Tokens l (withoutApostrophes s) (t :: ts)) (hf : ¬ SkipOf i t) (hw : Written i (t :: ts) (N.name powers n)) :
    parseNumberIn p s (some l) = .ok (some n) := by
  obtain ⟨ws, h1, h2⟩ := names_numeral hN hn
  have h3 := written_only hw h1
  exact c93_number p h.distinct l i h.mem h.tidy.toSensible s t ts hs ht hf ws h3 n h2
    (readAs_moderate h.tidy h.moderate h3 (numeral_readAs h2))

/-- **C93** ... and `parse` converts it, if the text begins with it. -/
theorem c93_converted (p : Package) (l : PyStr) (i : Info) (h : Knows p l i) (N : NumberNames) (top : Nat) (powers : List Nat)
    (hN : Names i N top powers) (n : Nat) (hn : n < top) (s t : PyStr) (ts : List PyStr) (ht : Tokens l s (t :: ts)) (hc : CardinalOf i t)
    (hw : Written i (t :: ts) (N.name powers n)) : parseIn p s (some l) = .ok (decDigits n) := by
  obtain ⟨ws, h1, h2⟩ := names_numeral hN hn
  exact c93_text p l i h s t ts ht hc ws (written_only hw h1) n h2

/-- **C93** In particular both read the name of every number below `top` written with single spaces. -/
theorem c93_round_trip (p : Package) (l : PyStr) (i : Info) (h : Knows p l i) (N : NumberNames) (top : Nat) (powers : List Nat)
    (hN : Names i N top powers) (n : Nat) (hn : n < top) (ho : ∀ w ∈ N.name powers n, OnePiece l w)
    (hs : ¬ NumericText (spaced (N.name powers n))) :
    parseNumberIn p (spaced (N.name powers n)) (some l) = .ok (some n) ∧ parseIn p (spaced (N.name powers n)) (some l) = .ok (decDigits n) := by
  obtain ⟨ws, h1, h2⟩ := names_numeral hN hn
  obtain ⟨w, rest, he, hc⟩ := valued_first h1 (cardinalName_ne h2)
  have hne : N.name powers n ≠ [] := by rw [he]; simp
  have htok := between_tokens hne ho
  have hwr := between_written (i := i) (N.name powers n)
  obtain ⟨r, hr⟩ := between_cons w rest
  have hwi : WordInput (spaced (N.name powers n)) := by
    refine ⟨?_, hs⟩
    intro hb
    obtain ⟨c, x, hcx⟩ : ∃ c x, w = c :: x := by
      cases hw : w with
      | nil => exact absurd hw (ho w (by rw [he]; simp)).1
      | cons c x => exact ⟨c, x, rfl⟩
    have h3 := ((ho w (by rw [he]; simp)).2 c (by rw [hcx]; simp)).1
    have h4 : c ∈ spaced (N.name powers n) := by
      rw [he, ← between_flatten, hr, hcx]; simp
    have h5 := hb c h4
    rw [h3] at h5; cases h5
  have hap := spaced_apos ho
  rw [show spacedTokens (N.name powers n) = w :: r by rw [he, hr]] at htok hwr
  exact ⟨c93_written p l i h N top powers hN n hn _ w r hwi (by rw [hap]; exact htok) (cardinal_noSkip h.tidy.toSensible hc) hwr,
    c93_converted p l i h N top powers hN n hn _ w r htok hc hwr⟩

/-! ## Languages -/

/-- English names in the Indian way, with lakh and crore. -/
def indianNames : NumberNames :=
  ⟨enBelow1000, fun q g => enBelow1000 g ++ [if q = 1000 then u!"thousand" else if q = 100000 then u!"lakh" else u!"crore"]⟩

/-- The data for Indian English in the repository -/
def indianEnglish : Info := tablesOf Sources.en_INModule false

set_option maxRecDepth 100000 in
theorem indian_words : EnglishWords indianEnglish where
  unit := fun n hn => wordOf_get (by revert n; decide +kernel)
  direct := fun n h1 h2 => wordOf_get (by
    have : ∀ m < 10, Dict.get? (normalizeDict (tableOf indianEnglish .direct)) (form (nth enSmall (m + 10))) = some (m + 10) := by decide +kernel
    have := this (n - 10) (by omega)
    rwa [show n - 10 + 10 = n by omega] at this)
  tens := fun n h1 h2 => wordOf_get (by
    have : ∀ m < 8, Dict.get? (normalizeDict (tableOf indianEnglish .tens)) (form (nth enTens (m + 2))) = some (10 * (m + 2)) := by decide +kernel
    have := this (n - 2) (by omega)
    rwa [show n - 2 + 2 = n by omega] at this)
  hundred := wordOf_get (by decide +kernel)

theorem nth_mem {ws : List PyStr} {n : Nat} (h : n < ws.length) : nth ws n ∈ ws := by
  unfold nth
  rw [List.getD_eq_getElem?_getD, List.getElem?_eq_getElem h]
  exact List.getElem_mem h

theorem en_vocabulary {n : Nat} (hn : n < 1000) : ∀ w ∈ enBelow1000 n, w ∈ enSmall ∨ w ∈ enTens.drop 2 ∨ w = u!"hundred" := by
  have hs : ∀ m, m < 20 → nth enSmall m ∈ enSmall := fun m hm => nth_mem hm
  have ht : ∀ m, 2 ≤ m → m < 10 → nth enTens m ∈ enTens.drop 2 := by
    intro m h1 h2
    have := nth_mem (ws := enTens.drop 2) (n := m - 2) (show m - 2 < 8 by omega)
    rwa [show nth (enTens.drop 2) (m - 2) = nth enTens m by
      unfold nth
      rw [List.getD_eq_getElem?_getD, List.getD_eq_getElem?_getD, List.getElem?_drop, show 2 + (m - 2) = m by omega]] at this
  have h100 : ∀ m, m < 100 → ∀ w ∈ enBelow100 m, w ∈ enSmall ∨ w ∈ enTens.drop 2 ∨ w = u!"hundred" := by
    intro m hm w hw
    unfold enBelow100 at hw
    split at hw
    · rw [List.mem_singleton.mp hw]; exact Or.inl (hs m (by omega))
    · split at hw
      · rw [List.mem_singleton.mp hw]; exact Or.inr (Or.inl (ht _ (by omega) (by omega)))
      · rcases List.mem_cons.mp hw with rfl | hw
        · exact Or.inr (Or.inl (ht _ (by omega) (by omega)))
        · rw [List.mem_singleton.mp hw]; exact Or.inl (hs _ (by omega))
  intro w hw
  unfold enBelow1000 at hw
  split at hw
  · rename_i h; exact h100 n h w hw
  · rcases List.mem_append.mp hw with hw | hw
    · rcases List.mem_cons.mp hw with rfl | hw
      · exact Or.inl (hs _ (by omega))
      · exact Or.inr (Or.inr (List.mem_singleton.mp hw))
    · split at hw
      · cases hw
      · exact h100 _ (by omega) w hw

set_option maxRecDepth 100000 in
/-- **C93** The data for Indian English lists the names of all numbers below 10^10. -/
theorem c93_indian : Names indianEnglish indianNames (10 ^ 10) [10 ^ 7, 10 ^ 5, 10 ^ 3] := by
  have hl : limitOf indianEnglish = 100 := rfl
  have hb : ∀ n, n < 1000 → ∃ cs, Valued indianEnglish (enBelow1000 n) cs ∧ Block (limitOf indianEnglish) cs n := by
    intro n hn
    obtain ⟨cs, h1, h2⟩ := enName_below1000 indian_words hn
    exact ⟨cs, h1, .group h2⟩
  have hs : ∀ q ∈ [10 ^ 7, 10 ^ 5, 10 ^ 3], WordOf indianEnglish .scale q
      (if q = 1000 then u!"thousand" else if q = 100000 then u!"lakh" else u!"crore") := by
    intro q hq
    simp only [List.mem_cons, List.not_mem_nil, or_false] at hq
    rcases hq with rfl | rfl | rfl <;> exact wordOf_get (by decide +kernel)
  have hc : ∀ q ∈ [10 ^ 7, 10 ^ 5, 10 ^ 3], ∀ g, 0 < g → g < 1000 → ∃ cs, Valued indianEnglish (indianNames.counted q g) (cs ++ [(.scale, q)]) ∧
      (cs = [] ∧ g = 1 ∨ Block (limitOf indianEnglish) cs g) := by
    intro q hq g h0 hg
    obtain ⟨cs, h1, h2⟩ := hb g hg
    exact ⟨cs, valued_append h1 (valued_one (hs q hq)), Or.inr h2⟩
  refine ⟨by omega, by omega, by omega, ⟨by omega, by omega, by omega, ⟨by omega, by omega, by omega, hb, ?_⟩, ?_⟩, ?_⟩ <;>
    exact fun g h0 hg => hc _ (by simp) g h0 (by omega)

set_option maxRecDepth 100000 in
theorem indian_plain : Tidy indianEnglish ∧ Moderate indianEnglish := by
  have h : (u!"en-IN", Sources.en_INRules, Sources.en_INSupplementary, Sources.en_INModule) ∈ otherLanguages := by
    unfold otherLanguages
    simp [Sources.partB]
  exact c81_shipped _ _ _ _ false h rfl (by decide)

/-- The words of an Indian English name -/
def indianVocabulary : List PyStr := enSmall ++ enTens.drop 2 ++ [u!"hundred", u!"thousand", u!"lakh", u!"crore"]

theorem indian_name_words {n : Nat} (hn : n < 10 ^ 10) : ∀ w ∈ indianNames.name [10 ^ 7, 10 ^ 5, 10 ^ 3] n, w ∈ indianVocabulary := by
  have hb : ∀ m, m < 1000 → ∀ w ∈ enBelow1000 m, w ∈ indianVocabulary := by
    intro m hm w hw
    unfold indianVocabulary
    rcases en_vocabulary hm w hw with h | h | h <;> simp [h]
  have hc : ∀ q m, m < 1000 → ∀ w ∈ indianNames.counted q m, w ∈ indianVocabulary := by
    intro q m hm w hw
    rcases List.mem_append.mp hw with hw | hw
    · exact hb m hm w hw
    · rw [List.mem_singleton.mp hw]
      unfold indianVocabulary
      split
      · simp
      · split <;> simp
  intro w hw
  unfold NumberNames.name at hw
  split at hw
  · exact hb 0 (by omega) w hw
  · simp only [NumberNames.parts, List.mem_append] at hw
    have key : ∀ q m, m < 1000 → w ∈ (if m = 0 then [] else indianNames.counted q m) → w ∈ indianVocabulary := by
      intro q m hm hw
      split at hw
      · cases hw
      · exact hc q m hm w hw
    rcases hw with hw | hw | hw | hw
    · exact key _ _ (by omega) hw
    · exact key _ _ (by omega) hw
    · exact key _ _ (by omega) hw
    · split at hw
      · cases hw
      · exact hb _ (by omega) w hw

theorem lower_case_words (l : PyStr) (ws : List PyStr) (h : ∀ w ∈ ws, w ≠ [] ∧ ∀ c ∈ w, 97 ≤ c ∧ c ≤ 122) :
    (∀ w ∈ ws, OnePiece l w) ∧ ¬ NumericText (spaced ws) := by
  have hl : ∀ m < 26, isSpace (m + 97) = false ∧ isWord (m + 97) = true ∧ isNumericChar (m + 97) = false := by decide +kernel
  have hl' : ∀ c, 97 ≤ c ∧ c ≤ 122 → isSpace c = false ∧ isWord c = true ∧ isNumericChar c = false := by
    intro c hc
    have := hl (c - 97) (by omega)
    rwa [show c - 97 + 97 = c by omega] at this
  refine ⟨fun w hw => ⟨(h w hw).1, fun c hc => ?_⟩, ?_⟩
  · have h1 := (h w hw).2 c hc
    have h2 := hl' c h1
    exact ⟨h2.1, by omega, by omega, by omega, fun _ => h2.2.1⟩
  · rintro ⟨a, t, b, e, _, _, hne, ht⟩
    obtain ⟨c, x, rfl⟩ : ∃ c x, t = c :: x := by
      cases t with
      | nil => exact absurd rfl hne
      | cons c x => exact ⟨c, x, rfl⟩
    have h1 : isNumericChar c = true := ht c (by simp)
    have h2 : c ∈ spaced ws := by rw [e]; simp
    have h3 := spaced_chars (P := fun c => isNumericChar c = false) (by decide +kernel) (fun w hw c hc => (hl' c ((h w hw).2 c hc)).2.2) c h2
    rw [h1] at h3; cases h3

/-- **C93** With the data for Indian English, every number below 10^10 is read from its name. -/
theorem c93_indian_round_trip (p : Package) (hp : Distinct p) (h : (u!"en-IN", indianEnglish) ∈ p) (n : Nat) (hn : n < 10 ^ 10) :
    parseNumberIn p (spaced (indianNames.name [10 ^ 7, 10 ^ 5, 10 ^ 3] n)) (some u!"en-IN") = .ok (some n) ∧
    parseIn p (spaced (indianNames.name [10 ^ 7, 10 ^ 5, 10 ^ 3] n)) (some u!"en-IN") = .ok (decDigits n) := by
  have hv : ∀ w ∈ indianVocabulary, w ≠ [] ∧ ∀ c ∈ w, 97 ≤ c ∧ c ≤ 122 := by decide
  obtain ⟨h1, h2⟩ := lower_case_words u!"en-IN" _ fun w hw => hv w (indian_name_words hn w hw)
  exact c93_round_trip p u!"en-IN" indianEnglish ⟨hp, h, indian_plain.1, indian_plain.2⟩ indianNames _ _ c93_indian n hn h1 h2

/-- The name of 12 34 05 067 -/
example : spaced (indianNames.name [10 ^ 7, 10 ^ 5, 10 ^ 3] 123405067) = u!"twelve crore thirty four lakh five thousand sixty seven" := by decide

set_option maxRecDepth 100000 in
/-- In other layouts -/
example : [u!"Twelve CRORE, thirty four lakh", u!"twelve  crore\tthirty\nfour lakh", u!"lakh crore"].map
      (fun s => parseIn [(u!"en-IN", indianEnglish)] s (some u!"en-IN")) =
    [.ok u!"120000000, 3400000", .ok u!"123400000", .ok u!"1000000000000"] := by decide +kernel

/-- Spanish names -/
def spanishNames : NumberNames :=
  ⟨esBelow1000000 false, fun q g => esBelow1000000 true g ++
    [nth (if g = 1 then esScale1 else esScale) (((List.range 9).find? (fun k => 1000000 ^ (k + 1) == q)).getD 0)]⟩

/-- The powers of a million, up to the `k`-th, in falling order -/
def millions : Nat → List Nat
  | 0 => []
  | k + 1 => 1000000 ^ (k + 1) :: millions k

set_option maxRecDepth 100000 in
theorem spanish_words : SpanishWords (file u!"es") where
  unit := fun n hn => wordOf_get (by revert n; decide +kernel)
  un := wordOf_get (by decide +kernel)
  direct := fun n h1 h2 => wordOf_get (by
    have : ∀ m < 20, Dict.get? (normalizeDict (tableOf (file u!"es") .direct)) (form (nth esSmall (m + 10))) = some (m + 10) := by decide +kernel
    have := this (n - 10) (by omega)
    rwa [show n - 10 + 10 = n by omega] at this)
  veintiun := wordOf_get (by decide +kernel)
  tens := fun n h1 h2 => wordOf_get (by
    have : ∀ m < 7, Dict.get? (normalizeDict (tableOf (file u!"es") .tens)) (form (nth esTens (m + 3))) = some (10 * (m + 3)) := by decide +kernel
    have := this (n - 3) (by omega)
    rwa [show n - 3 + 3 = n by omega] at this)
  hundreds := fun n h1 h2 => wordOf_get (by
    have : ∀ m < 9, Dict.get? (normalizeDict (tableOf (file u!"es") .hundreds)) (form (nth esHund (m + 1))) = some (100 * (m + 1)) := by decide +kernel
    have := this (n - 1) (by omega)
    rwa [show n - 1 + 1 = n by omega] at this)
  cien := wordOf_get (by decide +kernel)
  mil := wordOf_get (by decide +kernel)

set_option maxRecDepth 100000 in
theorem spanish_names : ∀ k, k ≤ 9 → Names (file u!"es") spanishNames (1000000 ^ (k + 1)) (millions k) := by
  have hl : limitOf (file u!"es") = 10000 := by decide +kernel
  have hs : ∀ k < 9, ∀ b : Bool, Dict.get? (normalizeDict (tableOf (file u!"es") .scale))
      (form (nth (if b then esScale1 else esScale) (((List.range 9).find? (fun j => 1000000 ^ (j + 1) == 1000000 ^ (k + 1))).getD 0))) =
        some (1000000 ^ (k + 1)) := by decide +kernel
  intro k
  induction k with
  | zero =>
    intro _ n hn
    rw [hl]
    exact esName_belowMillion spanish_words false (by simpa using hn)
  | succ k ih =>
    intro hk
    have hp : 0 < 1000000 ^ k := Nat.pow_pos (by omega)
    have e : 1000000 ^ (k + 1) = 1000000 ^ k * 1000000 := Nat.pow_succ ..
    have e2 : 1000000 ^ (k + 1 + 1) = 1000000 ^ (k + 1) * 1000000 := Nat.pow_succ ..
    refine ⟨by rw [hl, e]; omega, by rw [e2]; omega, ?_, ih (by omega), ?_⟩
    · rw [e2]; exact Nat.mul_le_mul_left _ (by rw [e]; omega)
    · intro g h0 hg
      have hgl : g < 1000000 := by
        rw [e2, Nat.mul_comm] at hg
        exact Nat.lt_of_mul_lt_mul_left hg
      obtain ⟨cs, h1, h2⟩ := esName_belowMillion spanish_words true hgl
      refine ⟨cs, valued_append h1 (valued_one (wordOf_get ?_)), Or.inr (by rw [hl]; exact h2)⟩
      have := hs k (by omega) (decide (g = 1))
      simpa using this

/-- **C93** The Spanish data lists the names of all numbers below 10^60. -/
theorem c93_spanish : Names (file u!"es") spanishNames (1000000 ^ 10) (millions 9) := spanish_names 9 (Nat.le_refl 9)

/-- They are the names of C02. -/
example : [0, 1, 2021, 1000000, 21000345000031].map (fun n => spanishNames.name (millions 9) n) = [0, 1, 2021, 1000000, 21000345000031].map esWords := by
  decide +kernel

/-! ## Where it fails -/

/-- The Norwegian data in the repository: long scale, and "hundre" (100) is a scale word -/
def norwegian : Info := tablesOf Sources.nbModule true

set_option maxRecDepth 100000 in
/-- **C93** That only a simple number may follow thousands behind a larger scale word, or thousands without a count, is no accident:
otherwise the name falls apart.  (Nothing is wrong with 2200.) -/
theorem c93_norwegian : [u!"to tusen to hundre", u!"tusen to hundre", u!"to millioner to tusen to hundre"].map
      (fun s => (parseIn [(u!"nb", norwegian)] s (some u!"nb"), parseNumberIn [(u!"nb", norwegian)] s (some u!"nb"))) =
    [(.ok u!"2200", .ok (some 2200)), (.ok u!"1002 100", .ok none), (.ok u!"2002002 100", .ok none)] := by decide +kernel

end NumberParser.Props
