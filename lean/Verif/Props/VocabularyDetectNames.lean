import Verif.Spec.VocabularyDetectNames
import Verif.Props.VocabularyNamesInText
import Verif.Props.PackageDetect

/-!
# C106: names without a language argument, with any list of languages

What C11 says of the numbers of the five languages holds for all numbers whose names the module of a language lists, in a parser with any
list of languages, if the languages that recognise all words of a name give them the same meaning.
Specification: Verif/Spec/VocabularyDetectNames.lean.
-/

namespace NumberParser.Props
open NumberParser Gen Spec

/-- The test of a recognised token -/
def recB (e : PyStr × Info) (t : PyStr) : Bool := (isNumberToken (norm t) (mkLangData e.2)).isSome || isSkipToken (norm t) (mkLangData e.2)

theorem blank_unrecognised {i : Info} (hi : Tidy i) {t : PyStr} (h : BlankForm t) : ¬ RecognisedOf i t := by
  rintro (⟨c, hc⟩ | hs)
  · have := blank_noNumber hi (t := form t) ((blankForm_iff t).mp h)
    rw [(numberTokenOf_iff hi).mpr hc] at this; cases this
  · exact skip_not_blankOf hi hs h

theorem spaced_score {e : PyStr × Info} (ht : Tidy e.2) {ws : List PyStr} (hne : ws ≠ []) (ho : ∀ w ∈ ws, OnePiece e.1 w) :
    scoreIn (spaced ws) e = (ws.filter (recB e)).length := by
  have h1 : spacedTokens ws = tokenize (spaced ws) e.1 := (tokens_iff _ _ _).mp (between_tokens hne ho)
  unfold scoreIn normalizeTokens
  rw [← h1, List.filter_map, List.length_map]
  have hb : recB e u!" " = false := by
    cases h : recB e u!" " with
    | false => rfl
    | true => exact absurd ((recognised_iff ht _).mpr h) (blank_unrecognised ht (by unfold BlankForm; decide +kernel))
  have key : ∀ ws : List PyStr, ((spacedTokens ws).filter (recB e)).length = (ws.filter (recB e)).length := by
    intro ws
    induction ws with
    | nil => rfl
    | cons w ws ih =>
      cases ws with
      | nil => rfl
      | cons w' ws =>
        rw [spacedTokens, List.filter_cons, List.filter_cons (x := u!" "), List.filter_cons (x := w), hb]
        simp only [Bool.false_eq_true, if_false]
        split <;> simp [ih]
  exact key ws

/-- The language that is detected for a text of words of `l` recognises all of them. -/
theorem detected_all {p : Package} (hp : Distinct p) (ht : ∀ e ∈ p, Tidy e.2) {l : PyStr} {i : Info} (hm : (l, i) ∈ p) {ws : List PyStr}
    (hne : ws ≠ []) (ho : ∀ e ∈ p, ∀ w ∈ ws, OnePiece e.1 w) (hr : ∀ w ∈ ws, RecognisedOf i w) :
    ∃ d j, (d, j) ∈ p ∧ DetectedIn p (spaced ws) d ∧ ∀ w ∈ ws, RecognisedOf j w := by
  have hpe : p ≠ [] := by rintro rfl; cases hm
  obtain ⟨d, _, hd⟩ := detectedIn_model hp hpe ht (spaced ws)
  have hl : scoreIn (spaced ws) (l, i) = ws.length := by
    have hfil : ws.filter (recB (l, i)) = ws := List.filter_eq_self.mpr fun w hw => (recognised_iff (ht _ hm) w).mp (hr w hw)
    rw [spaced_score (ht _ hm) hne (ho _ hm), hfil]
  have hpos : 0 < ws.length := List.length_pos_iff.mpr hne
  rcases detectedIn_scores ht hd with ⟨a, j, b, hs, _, h1, h2⟩ | ⟨_, hz⟩
  · have hdm : (d, j) ∈ p := by rw [hs]; simp
    refine ⟨d, j, hdm, hd, ?_⟩
    have hge : ws.length ≤ scoreIn (spaced ws) (d, j) := by
      rw [← hl]
      rw [hs] at hm
      rcases List.mem_append.mp hm with h | h
      · have := h1 _ h; omega
      · rcases List.mem_cons.mp h with h | h
        · rw [h]; exact Nat.le_refl _
        · exact h2 _ h
    rw [spaced_score (ht _ hdm) hne (ho _ hdm)] at hge
    have he : ws.filter (recB (d, j)) = ws := List.filter_sublist.eq_of_length_le hge
    intro w hw
    rw [← he] at hw
    exact (recognised_iff (ht _ hdm) w).mpr (List.mem_filter.mp hw).2
  · have := hz _ hm
    omega

/-- A name of `n` with single spaces is read by both functions. -/
theorem spaced_reads {p : Package} {l : PyStr} {i : Info} (h : Knows p l i) {ws : List PyStr} {cs : List (Class × Nat)} (h1 : Valued i ws cs)
    {n : Nat} (h2 : CardinalName (limitOf i) cs n) (ho : ∀ w ∈ ws, OnePiece l w) (hs : ¬ NumericText (spaced ws)) :
    parseNumberIn p (spaced ws) (some l) = .ok (some n) ∧ parseIn p (spaced ws) (some l) = .ok (decDigits n) := by
  obtain ⟨w, rest, rfl, hc⟩ := valued_first h1 (cardinalName_ne h2)
  have hne : w :: rest ≠ [] := by simp
  have htok := between_tokens hne ho
  have hwr := between_written (i := i) (w :: rest)
  obtain ⟨r, hr⟩ := between_cons w rest
  have hwi : WordInput (spaced (w :: rest)) := by
    refine ⟨fun hb => ?_, hs⟩
    obtain ⟨c, z, e, hc⟩ := (onePiece_solid hne ho).1
    rw [spaced_soft ho] at e
    have := hb c (by rw [e]; simp)
    rw [hc] at this; cases this
  have hap := spaced_apos ho
  rw [hr] at htok hwr
  have h3 := written_only hwr h1
  exact ⟨c93_number p h.distinct l i h.mem h.tidy.toSensible _ w r hwi (by rw [hap]; exact htok) (cardinal_noSkip h.tidy.toSensible hc) cs h3 n h2
      (readAs_moderate h.tidy h.moderate h3 (numeral_readAs h2)),
    c93_text p l i h _ w r htok hc cs h3 n h2⟩

theorem valued_same {i j : Info} {ws : List PyStr} {cs : List (Class × Nat)} (h : Valued i ws cs)
    (hs : ∀ w ∈ ws, ∀ k v, WordOf i k v w → WordOf j k v w) : Valued j ws cs := by
  induction h with
  | nil => exact .nil
  | cons hw _ ih => exact .cons (hs _ (by simp) _ _ hw) (ih fun w hw => hs w (by simp [hw]))

/-- **C106** The name of every number below `top` is read without a language argument, if every language that recognises all its words
gives them the same meaning. -/
theorem c106_number (p : Package) (hk : AllKnown p) (l : PyStr) (i : Info) (hm : (l, i) ∈ p) (hf : Faithful i) (N : NumberNames) (top : Nat)
    (powers : List Nat) (hN : Names i N top powers) (n : Nat) (hn : n < top) (ho : ∀ e ∈ p, ∀ w ∈ N.name powers n, OnePiece e.1 w)
    (hs : ¬ NumericText (spaced (N.name powers n)))
    (hsame : ∀ e ∈ p, (∀ w ∈ N.name powers n, RecognisedOf e.2 w) → SameWords i e.2 (N.name powers n)) :
    parseNumberIn p (spaced (N.name powers n)) none = .ok (some n) ∧ parseIn p (spaced (N.name powers n)) none = .ok (decDigits n) := by
  obtain ⟨cs, h1, h2⟩ := names_numeral hN hn
  generalize N.name powers n = ws at *
  have hne : ws ≠ [] := by
    rintro rfl
    cases h1
    exact cardinalName_ne h2 rfl
  have hcard : ∀ {ws : List PyStr} {cs : List (Class × Nat)}, Valued i ws cs → ∀ w ∈ ws, CardinalOf i w := by
    intro ws cs hv
    induction hv with
    | nil => simp
    | cons hw _ ih =>
      intro x hx
      rcases List.mem_cons.mp hx with rfl | hx
      · exact last_listed hw
      · exact ih x hx
  obtain ⟨d, j, hdm, hd, hall⟩ := detected_all hk.distinct hk.tidy hm hne ho fun w hw => Or.inl ⟨_, hf.words _ (hcard h1 w hw)⟩
  have hpe : p ≠ [] := by rintro rfl; cases hm
  obtain ⟨hl, hw⟩ := hsame _ hdm hall
  have key := spaced_reads (p := p) ⟨hk.distinct, hdm, hk.tidy _ hdm, hk.moderate _ hdm⟩ (valued_same h1 hw) (n := n) (by rw [hl]; exact h2)
    (ho _ hdm) hs
  obtain ⟨e1, e2, _⟩ := c82_detected p hk.distinct hpe hk.tidy _ d hd
  exact ⟨by rw [e2]; exact key.1, by rw [e1]; exact key.2⟩

/-! ## Ordinals -/

/-- A name of the ordinal of `n` with single spaces is read by both functions. -/
theorem spaced_reads_ordinal {p : Package} {l : PyStr} {i : Info} (h : Knows p l i) (hi : Plain i) (hf : Faithful i) {ws : List PyStr}
    {w w' : PyStr} {cs : List (Class × Nat)} (h1 : Valued i (ws ++ [w]) cs) {n : Nat} (h2 : CardinalName (limitOf i) cs n)
    (hw' : OrdinalWordOf i w w') (ho : ∀ x ∈ ws ++ [w'], OnePiece l x) :
    parseOrdinalIn p (spaced (ws ++ [w'])) (some l) = .ok (some n) ∧ parseIn p (spaced (ws ++ [w'])) (some l) = .ok (decDigits n) := by
  have htok := between_tokens (by simp) ho
  obtain ⟨ts, ht1, ht2⟩ := spacedTokens_snoc w' ws
  rw [ht1] at htok
  have hh : l ≠ u!"hi" ∨ 0x27 ∉ spaced (ws ++ [w']) ∧ 0x2019 ∉ spaced (ws ++ [w']) := by
    refine Or.inr ⟨?_, ?_⟩
    · exact fun hm => spaced_chars (P := fun c => c ≠ 0x27) (by decide) (fun w hw c hc => ((ho w hw).2 c hc).2.2.1) _ hm rfl
    · exact fun hm => spaced_chars (P := fun c => c ≠ 0x2019) (by decide) (fun w hw c hc => ((ho w hw).2 c hc).2.2.2.1) _ hm rfl
  obtain ⟨⟨k, v, hkv⟩, hcs⟩ := valued_snoc h1
  have hwt := ht2 i
  have hall := written_tokens hwt hcs
  have hfirst : ts = [] ∨ ∃ t ts', ts = t :: ts' ∧ CardinalOf i t := by
    cases hws : ws with
    | nil =>
      left
      rw [hws] at ht1
      have : ts ++ [w'] = [] ++ [w'] := by rw [← ht1]; rfl
      exact List.append_cancel_right this
    | cons x ws' =>
      right
      rw [hws] at ht1 hcs hwt
      obtain ⟨r, hr⟩ := between_cons x (ws' ++ [w'])
      rw [List.cons_append, hr] at ht1
      cases ts with
      | nil => cases hwt
      | cons t ts' =>
        rw [List.cons_append] at ht1
        injection ht1 with e _
        exact ⟨t, ts', rfl, e ▸ hcs x (by simp)⟩
  have ho' : OrdinallyWritten i (ts ++ [w']) (ws ++ [w]) := written_ordinally hf hwt (.ordinal hw'.2 .nil)
  have hord : parseOrdinalIn p (spaced (ws ++ [w'])) (some l) = .ok (some n) := by
    obtain ⟨t0, ts0, h0, hsk⟩ : ∃ t0 ts0, ts ++ [w'] = t0 :: ts0 ∧ irregular (form t0) ∉ i.skipTokens := by
      rcases hfirst with rfl | ⟨t, ts', rfl, hc⟩
      · exact ⟨w', [], rfl, stands_noSkip hi hw'.2⟩
      · exact ⟨t, _, rfl, stands_noSkip hi (hf.words _ hc)⟩
    rw [h0] at htok ho'
    exact c104_ordinal p l i h hi _ hh t0 ts0 htok hsk cs (ordinally_only hf ho' h1) n h2
  refine ⟨hord, (c100_ordinal p l i h hi hf _ hh [] ts [] w' k v htok (by simp) (by simp) ?_ ⟨hw'.1, form w, hkv, hw'.2⟩ n).mpr hord⟩
  rcases hfirst with h | ⟨t, ts', rfl, hc⟩
  · exact Or.inl h
  · exact Or.inr ⟨t, ts', rfl, by simp, hc, fun x hx => hall x (by simp [hx])⟩

/-- **C106** The ordinals too, if every language that recognises all words has the same ordinal. -/
theorem c106_ordinal (p : Package) (hk : AllKnown p) (l : PyStr) (i : Info) (hm : (l, i) ∈ p) (hf : Faithful i) (N : NumberNames) (top : Nat)
    (powers : List Nat) (hN : Names i N top powers) (n : Nat) (hn : n < top) (ws : List PyStr) (w w' : PyStr)
    (hname : N.name powers n = ws ++ [w]) (hw' : OrdinalWordOf i w w') (ho : ∀ e ∈ p, ∀ x ∈ ws ++ [w'], OnePiece e.1 x)
    (hsame : ∀ e ∈ p, (∀ x ∈ ws ++ [w'], RecognisedOf e.2 x) →
      SameWords i e.2 (N.name powers n) ∧ OrdinalWordOf e.2 w w' ∧ Plain e.2 ∧ Faithful e.2) :
    parseOrdinalIn p (spaced (ws ++ [w'])) none = .ok (some n) ∧ parseIn p (spaced (ws ++ [w'])) none = .ok (decDigits n) := by
  obtain ⟨cs, h1, h2⟩ := names_numeral hN hn
  rw [hname] at h1 hsame
  have hcs := (valued_snoc h1).2
  obtain ⟨d, j, hdm, hd, hall⟩ := detected_all hk.distinct hk.tidy hm (by simp) ho (by
    intro x hx
    rcases List.mem_append.mp hx with hx | hx
    · exact Or.inl ⟨_, hf.words _ (hcs x hx)⟩
    · rw [List.mem_singleton.mp hx]; exact Or.inl ⟨_, hw'.2⟩)
  have hpe : p ≠ [] := by rintro rfl; cases hm
  obtain ⟨⟨hl, hw⟩, hwj, hpj, hfj⟩ := hsame _ hdm hall
  have key := spaced_reads_ordinal (p := p) ⟨hk.distinct, hdm, hk.tidy _ hdm, hk.moderate _ hdm⟩ hpj hfj (valued_same h1 hw) (n := n)
    (by rw [hl]; exact h2) hwj (ho _ hdm)
  obtain ⟨e1, _, e3, _⟩ := c82_detected p hk.distinct hpe hk.tidy _ d hd
  exact ⟨by rw [e3]; exact key.1, by rw [e1]; exact key.2⟩

/-! ## Fractions -/

theorem spaced_append : ∀ {xs ys : List PyStr}, xs ≠ [] → ys ≠ [] → spaced (xs ++ ys) = spaced xs ++ u!" " ++ spaced ys
  | [], _, h, _ => absurd rfl h
  | [x], y :: ys, _, _ => by simp [spaced]
  | [_], [], _, h => absurd rfl h
  | x :: x' :: xs, ys, _, hy => by
    have h := spaced_append (xs := x' :: xs) (ys := ys) (by simp) hy
    have e1 : spaced (x :: x' :: xs ++ ys) = x ++ 32 :: spaced (x' :: xs ++ ys) := by simp [spaced]
    have e2 : spaced (x :: x' :: xs) = x ++ 32 :: spaced (x' :: xs) := by simp [spaced]
    rw [e1, e2, h]
    simp

/-- The language that is detected for a text of words of `l` and other words that no language recognises recognises the former. -/
theorem detected_part {p : Package} (hp : Distinct p) (ht : ∀ e ∈ p, Tidy e.2) {l : PyStr} {i : Info} (hm : (l, i) ∈ p)
    {ws sw vs : List PyStr} (hne : ws ≠ []) (ho : ∀ e ∈ p, ∀ w ∈ ws ++ sw ++ vs, OnePiece e.1 w) (hr : ∀ w ∈ ws ++ vs, RecognisedOf i w)
    (hsw : ∀ e ∈ p, ∀ w ∈ sw, ¬ RecognisedOf e.2 w) :
    ∃ d j, (d, j) ∈ p ∧ DetectedIn p (spaced (ws ++ sw ++ vs)) d ∧ ∀ w ∈ ws ++ vs, RecognisedOf j w := by
  have hpe : p ≠ [] := by rintro rfl; cases hm
  have hne' : ws ++ sw ++ vs ≠ [] := by simp [hne]
  obtain ⟨d, _, hd⟩ := detectedIn_model hp hpe ht (spaced (ws ++ sw ++ vs))
  have hsc : ∀ e ∈ p, scoreIn (spaced (ws ++ sw ++ vs)) e = ((ws ++ vs).filter (recB e)).length := by
    intro e he
    have hnil : sw.filter (recB e) = [] := List.filter_eq_nil_iff.mpr fun w hw h => hsw e he w hw ((recognised_iff (ht _ he) w).mpr h)
    rw [spaced_score (ht _ he) hne' (ho _ he), List.filter_append, List.filter_append, List.filter_append, hnil, List.append_nil]
  have hl : scoreIn (spaced (ws ++ sw ++ vs)) (l, i) = (ws ++ vs).length := by
    have hfil : (ws ++ vs).filter (recB (l, i)) = ws ++ vs := List.filter_eq_self.mpr fun w hw => (recognised_iff (ht _ hm) w).mp (hr w hw)
    rw [hsc _ hm, hfil]
  have hpos : 0 < (ws ++ vs).length := List.length_pos_iff.mpr (by simp [hne])
  rcases detectedIn_scores ht hd with ⟨a, j, b, hs, _, h1, h2⟩ | ⟨_, hz⟩
  · have hdm : (d, j) ∈ p := by rw [hs]; simp
    refine ⟨d, j, hdm, hd, ?_⟩
    have hge : (ws ++ vs).length ≤ scoreIn (spaced (ws ++ sw ++ vs)) (d, j) := by
      rw [← hl]
      rw [hs] at hm
      rcases List.mem_append.mp hm with h | h
      · have := h1 _ h; omega
      · rcases List.mem_cons.mp h with h | h
        · rw [h]; exact Nat.le_refl _
        · exact h2 _ h
    rw [hsc _ hdm] at hge
    have he : (ws ++ vs).filter (recB (d, j)) = ws ++ vs := List.filter_sublist.eq_of_length_le hge
    intro w hw
    rw [← he] at hw
    exact (recognised_iff (ht _ hdm) w).mpr (List.mem_filter.mp hw).2
  · have := hz _ hm
    omega

theorem valued_recognised {i : Info} (hf : Faithful i) {ws : List PyStr} {cs : List (Class × Nat)} (h : Valued i ws cs) :
    ∀ w ∈ ws, RecognisedOf i w := by
  induction h with
  | nil => simp
  | cons hw _ ih =>
    intro x hx
    rcases List.mem_cons.mp hx with rfl | hx
    · exact Or.inl ⟨_, hf.words _ (last_listed hw)⟩
    · exact ih x hx

/-- **C106** Fractions of two names with a separator that is a word, or words, that no language recognises. -/
theorem c106_fraction (p : Package) (hk : AllKnown p) (l : PyStr) (i : Info) (hm : (l, i) ∈ p) (hf : Faithful i) (N : NumberNames) (top : Nat)
    (powers : List Nat) (hN : Names i N top powers) (a b : Nat) (ha : a < top) (hb : b < top) (sep : List PyStr)
    (hsep : sep ∈ [[u!"divided", u!"by"], [u!"over"], [u!"by"]]) (hno : ∀ e ∈ p, ∀ w ∈ sep, ¬ RecognisedOf e.2 w)
    (hw : ∀ e ∈ p, ∀ w ∈ N.name powers a ++ N.name powers b, FractionWord e.1 w)
    (hsame : ∀ e ∈ p, (∀ w ∈ N.name powers a ++ N.name powers b, RecognisedOf e.2 w) →
      SameWords i e.2 (N.name powers a ++ N.name powers b)) :
    parseFractionIn p (spaced (N.name powers a) ++ u!" " ++ spaced sep ++ u!" " ++ spaced (N.name powers b)) none =
      .ok (some (decDigits a ++ u!"/" ++ decDigits b)) := by
  obtain ⟨ca, a1, a2⟩ := names_numeral hN ha
  obtain ⟨cb, b1, b2⟩ := names_numeral hN hb
  generalize N.name powers a = ws at *
  generalize N.name powers b = vs at *
  have hne : ∀ {ws cs n}, Valued i ws cs → CardinalName (limitOf i) cs n → ws ≠ [] := by
    rintro _ _ _ h1 h2 rfl
    cases h1
    exact cardinalName_ne h2 rfl
  have hse : sep ≠ [] ∧ spaced sep ∈ separators ∧ ∀ w ∈ sep, w ≠ [] ∧ ∀ c ∈ w, 97 ≤ c ∧ c ≤ 122 := by clear hno; revert sep; decide
  have e : spaced ws ++ u!" " ++ spaced sep ++ u!" " ++ spaced vs = spaced (ws ++ sep ++ vs) := by
    rw [spaced_append (xs := ws ++ sep) (by simp [hse.1]) (hne b1 b2), spaced_append (hne a1 a2) hse.1]
  obtain ⟨d, j, hdm, hd, hall⟩ := detected_part hk.distinct hk.tidy hm (ws := ws) (sw := sep) (vs := vs) (hne a1 a2) (by
      intro e he w hwm
      rcases List.mem_append.mp hwm with hwm | hwm
      · rcases List.mem_append.mp hwm with hwm | hwm
        · exact (hw e he w (by simp [hwm])).1
        · exact (lower_case_words e.1 sep hse.2.2).1 w hwm
      · exact (hw e he w (by simp [hwm])).1) (by
      intro w hwm
      rcases List.mem_append.mp hwm with hwm | hwm
      · exact valued_recognised hf a1 w hwm
      · exact valued_recognised hf b1 w hwm) hno
  have hpe : p ≠ [] := by rintro rfl; cases hm
  obtain ⟨hl, hsw⟩ := hsame _ hdm hall
  obtain ⟨_, _, _, e4⟩ := c82_detected p hk.distinct hpe hk.tidy _ d hd
  rw [e, e4, ← e]
  exact fraction_spaced ⟨hk.distinct, hdm, hk.tidy _ hdm, hk.moderate _ hdm⟩ (valued_same a1 fun w hw => hsw w (by simp [hw])) (by rw [hl]; exact a2)
    (valued_same b1 fun w hw => hsw w (by simp [hw])) (by rw [hl]; exact b2) (fun w hwm => hw _ hdm w (by simp [hwm]))
    (fun w hwm => hw _ hdm w (by simp [hwm])) hse.2.1

/-! ## Indian English beside the languages of the parser -/

def allClasses : List Class := [.unit, .direct, .tens, .hundreds, .scale]

/-- The check that the module `j` knows none of the words, or gives those that it recognises the same meaning -/
def agreesB (i j : Info) (ws : List PyStr) : Bool :=
  ws.all (fun w => !recB (u!"", j) w) ||
  (limitOf j == limitOf i && ws.all (fun w => !recB (u!"", j) w || allClasses.all (fun k =>
    Dict.get? (normalizeDict (tableOf i k)) (form w) == none ||
    Dict.get? (normalizeDict (tableOf j k)) (form w) == Dict.get? (normalizeDict (tableOf i k)) (form w))))

theorem agreesB_sound {i j : Info} (hj : Tidy j) {vs ws : List PyStr} (h : agreesB i j vs = true) (hne : ws ≠ []) (hv : ∀ w ∈ ws, w ∈ vs)
    (hr : ∀ w ∈ ws, RecognisedOf j w) : SameWords i j ws := by
  have hrec : ∀ w ∈ ws, recB (u!"", j) w = true := fun w hw => (recognised_iff hj w).mp (hr w hw)
  unfold agreesB at h
  rw [Bool.or_eq_true] at h
  rcases h with h | h
  · obtain ⟨w, ws', rfl⟩ := List.exists_cons_of_ne_nil hne
    have := List.all_eq_true.mp h w (hv w (by simp))
    rw [hrec w (by simp)] at this; cases this
  · rw [Bool.and_eq_true] at h
    refine ⟨by simpa using h.1, fun w hw k v hwv => ?_⟩
    have := List.all_eq_true.mp h.2 w (hv w hw)
    rw [hrec w hw] at this
    have := List.all_eq_true.mp this k (by cases k <;> simp [allClasses])
    have hg := normalize_get_some.mpr hwv
    rw [hg] at this
    exact wordOf_get (by simpa using this)

set_option maxRecDepth 100000 in
theorem indian_agrees : ∀ e ∈ repository ++ [(u!"en-IN", indianEnglish)], agreesB indianEnglish e.2 indianVocabulary = true := by
  have : (repository ++ [(u!"en-IN", indianEnglish)]).all (fun e => agreesB indianEnglish e.2 indianVocabulary) = true := by decide +kernel
  exact List.all_eq_true.mp this

set_option maxRecDepth 100000 in
/-- Only the two kinds of English recognise an English ordinal, and they have the same ones of the words that both recognise. -/
theorem indian_ordinals_agree : ∀ e ∈ repository ++ [(u!"en-IN", indianEnglish)], ∀ w ∈ indianVocabulary,
    (recB e (enOrdinal w) = false ∨ ordinalWordB e.2 w (enOrdinal w) = true) := by
  have : (repository ++ [(u!"en-IN", indianEnglish)]).all (fun e => indianVocabulary.all (fun w =>
      !recB e (enOrdinal w) || ordinalWordB e.2 w (enOrdinal w))) = true := by decide +kernel
  intro e he w hw
  have := List.all_eq_true.mp (List.all_eq_true.mp this e he) w hw
  simpa using this

theorem indian_known : ∀ e ∈ repository ++ [(u!"en-IN", indianEnglish)], Tidy e.2 ∧ Moderate e.2 ∧ Plain e.2 ∧ Faithful e.2 := by
  intro e he
  rcases List.mem_append.mp he with he | he
  · obtain ⟨l, hl, rfl⟩ := List.mem_map.mp he
    exact ⟨(c81_supported l hl).1, (c81_supported l hl).2, (c100_supported l hl).1, (c100_supported l hl).2.1⟩
  · rw [List.mem_singleton.mp he]
    exact ⟨indian_plain.1, indian_plain.2, indian_ordinals.1, indian_ordinals.2⟩

/-- **C106** In a parser with Indian English and any of its five languages, in any order, every number below 10^10 is read from its Indian
name without a language argument. -/
theorem c106_indian (p : Package) (hp : Distinct p) (hm : (u!"en-IN", indianEnglish) ∈ p)
    (hall : ∀ e ∈ p, e ∈ repository ++ [(u!"en-IN", indianEnglish)]) (n : Nat) (hn : n < 10 ^ 10) :
    (parseNumberIn p (spaced (indianNames.name [10 ^ 7, 10 ^ 5, 10 ^ 3] n)) none = .ok (some n) ∧
      parseIn p (spaced (indianNames.name [10 ^ 7, 10 ^ 5, 10 ^ 3] n)) none = .ok (decDigits n)) ∧
    parseOrdinalIn p (spaced (enOrdinalOf (indianNames.name [10 ^ 7, 10 ^ 5, 10 ^ 3] n))) none = .ok (some n) ∧
      parseIn p (spaced (enOrdinalOf (indianNames.name [10 ^ 7, 10 ^ 5, 10 ^ 3] n))) none = .ok (decDigits n) := by
  have hk : AllKnown p := ⟨hp, fun e he => (indian_known e (hall e he)).1, fun e he => (indian_known e (hall e he)).2.1⟩
  have hv : ∀ w ∈ indianVocabulary, (w ≠ [] ∧ ∀ c ∈ w, 97 ≤ c ∧ c ≤ 122) ∧ enOrdinal w ≠ [] ∧ ∀ c ∈ enOrdinal w, 97 ≤ c ∧ c ≤ 122 := by decide
  have hws := indian_name_words hn
  obtain ⟨cs, h1, h2⟩ := names_numeral c93_indian hn
  have hne : indianNames.name [10 ^ 7, 10 ^ 5, 10 ^ 3] n ≠ [] := by
    intro e
    rw [e] at h1
    cases h1
    exact cardinalName_ne h2 rfl
  have hlow : ∀ w ∈ indianNames.name [10 ^ 7, 10 ^ 5, 10 ^ 3] n, w ≠ [] ∧ ∀ c ∈ w, 97 ≤ c ∧ c ≤ 122 := fun w hw => (hv w (hws w hw)).1
  have hsame : ∀ e ∈ p, (∀ w ∈ indianNames.name [10 ^ 7, 10 ^ 5, 10 ^ 3] n, RecognisedOf e.2 w) →
      SameWords indianEnglish e.2 (indianNames.name [10 ^ 7, 10 ^ 5, 10 ^ 3] n) := fun e he hr =>
    agreesB_sound (hk.tidy e he) (indian_agrees e (hall e he)) hne hws hr
  refine ⟨c106_number p hk _ _ hm indian_ordinals.2 indianNames _ _ c93_indian n hn (fun e _ => (lower_case_words e.1 _ hlow).1)
    (lower_case_words u!"" _ hlow).2 hsame, ?_⟩
  have e := List.dropLast_concat_getLast hne
  have e' : enOrdinalOf (indianNames.name [10 ^ 7, 10 ^ 5, 10 ^ 3] n) = (indianNames.name [10 ^ 7, 10 ^ 5, 10 ^ 3] n).dropLast ++
      [enOrdinal ((indianNames.name [10 ^ 7, 10 ^ 5, 10 ^ 3] n).getLast hne)] := by
    unfold enOrdinalOf
    rw [List.getLastD_eq_getLast?, List.getLast?_eq_some_getLast hne]; rfl
  have hlast := hws _ (List.getLast_mem hne)
  rw [e']
  refine c106_ordinal p hk _ _ hm indian_ordinals.2 indianNames _ _ c93_indian n hn _ _ _ e.symm
    (ordinalWordB_sound (indian_ordinal_words _ hlast)) (fun en _ => (lower_case_words en.1 _ fun w hw => ?_).1) (fun en he hr => ?_)
  · rcases List.mem_append.mp hw with hw | hw
    · exact hlow w (List.dropLast_subset _ hw)
    · rw [List.mem_singleton.mp hw]
      exact (hv _ hlast).2
  · have hrl := (recognised_iff (hk.tidy en he) _).mp (hr (enOrdinal ((indianNames.name [10 ^ 7, 10 ^ 5, 10 ^ 3] n).getLast hne)) (by simp))
    have how : OrdinalWordOf en.2 ((indianNames.name [10 ^ 7, 10 ^ 5, 10 ^ 3] n).getLast hne)
        (enOrdinal ((indianNames.name [10 ^ 7, 10 ^ 5, 10 ^ 3] n).getLast hne)) := by
      rcases indian_ordinals_agree en (hall en he) _ hlast with h | h
      · unfold recB at h
        rw [hrl] at h; cases h
      · exact ordinalWordB_sound h
    refine ⟨hsame en he fun w hw => ?_, how, (indian_known en (hall en he)).2.2⟩
    rw [← e] at hw
    rcases List.mem_append.mp hw with hw | hw
    · exact hr w (by simp [hw])
    · rw [List.mem_singleton.mp hw]
      refine Or.inl ⟨_, (indian_known en (hall en he)).2.2.2.words _ ?_⟩
      obtain ⟨_, _, _, h, _⟩ := how.2
      exact h

set_option maxRecDepth 100000 in
theorem separators_unrecognised : ∀ e ∈ repository ++ [(u!"en-IN", indianEnglish)], ∀ w ∈ [u!"divided", u!"over", u!"by"], recB e w = false := by
  have : (repository ++ [(u!"en-IN", indianEnglish)]).all (fun e => [u!"divided", u!"over", u!"by"].all (fun w => !recB e w)) = true := by
    decide +kernel
  intro e he w hw
  have := List.all_eq_true.mp (List.all_eq_true.mp this e he) w hw
  simpa using this

theorem indian_words_fraction (l : PyStr) : ∀ w ∈ indianVocabulary, FractionWord l w := by
  have hv : ∀ w ∈ indianVocabulary, w ≠ [] ∧ ∀ c ∈ w, 97 ≤ c ∧ c ≤ 122 := by decide
  exact fun w hw => ⟨(lower_case_words l _ hv).1 w hw, (indian_fraction_words w hw).2⟩

/-- **C106** ... and the fraction of every two such numbers. -/
theorem c106_indian_fraction (p : Package) (hp : Distinct p) (hm : (u!"en-IN", indianEnglish) ∈ p)
    (hall : ∀ e ∈ p, e ∈ repository ++ [(u!"en-IN", indianEnglish)]) (a b : Nat) (ha : a < 10 ^ 10) (hb : b < 10 ^ 10) (sep : List PyStr)
    (hsep : sep ∈ [[u!"divided", u!"by"], [u!"over"], [u!"by"]]) :
    parseFractionIn p (spaced (indianNames.name [10 ^ 7, 10 ^ 5, 10 ^ 3] a) ++ u!" " ++ spaced sep ++ u!" " ++
      spaced (indianNames.name [10 ^ 7, 10 ^ 5, 10 ^ 3] b)) none = .ok (some (decDigits a ++ u!"/" ++ decDigits b)) := by
  have hk : AllKnown p := ⟨hp, fun e he => (indian_known e (hall e he)).1, fun e he => (indian_known e (hall e he)).2.1⟩
  have hsw : ∀ w ∈ sep, w ∈ [u!"divided", u!"over", u!"by"] := by revert sep; decide
  have hws : ∀ w ∈ indianNames.name [10 ^ 7, 10 ^ 5, 10 ^ 3] a ++ indianNames.name [10 ^ 7, 10 ^ 5, 10 ^ 3] b, w ∈ indianVocabulary := by
    intro w hw
    rcases List.mem_append.mp hw with hw | hw
    · exact indian_name_words ha w hw
    · exact indian_name_words hb w hw
  have hne : indianNames.name [10 ^ 7, 10 ^ 5, 10 ^ 3] a ≠ [] := by
    obtain ⟨cs, h1, h2⟩ := names_numeral c93_indian ha
    intro e
    rw [e] at h1
    cases h1
    exact cardinalName_ne h2 rfl
  refine c106_fraction p hk _ _ hm indian_ordinals.2 indianNames _ _ c93_indian a b ha hb sep hsep (fun e he w hw h => ?_)
    (fun e _ w hw => indian_words_fraction e.1 w (hws w hw))
    (fun e he hr => agreesB_sound (hk.tidy e he) (indian_agrees e (hall e he)) (by simp [hne]) hws hr)
  have := (recognised_iff (hk.tidy e he) w).mp h
  have h' := separators_unrecognised e (hall e he) w (hsw w hw)
  unfold recB at h'
  rw [this] at h'; cases h'

set_option maxRecDepth 100000 in
/-- With Indian English last, every text is read; without it, only those with the words of the other English module. -/
theorem c106_example : (u!"en-IN", indianEnglish) ∈ repository ++ [(u!"en-IN", indianEnglish)] ∧
    [repository ++ [(u!"en-IN", indianEnglish)], repository].map (fun p =>
      [u!"two crore five lakh", u!"two thousand five", u!"two croreth"].map (fun s => parseNumberIn p s none)) =
    [[.ok (some 20500000), .ok (some 2005), .ok none], [.ok none, .ok (some 2005), .ok none]] := by
  exact ⟨by simp, by decide +kernel⟩

end NumberParser.Props
