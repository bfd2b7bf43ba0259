import Verif.Spec.VocabularyOrdinalNames
import Verif.Props.VocabularyNumeral
import Verif.Props.VocabularyAgreement

/-!
# C104: names of ordinals, with any vocabulary

If a data module lists the words of which the names of numbers are built, then the names of the ordinals are read as the numbers too: C06
does not depend on the five languages of the parser.  Specification: Verif/Spec/VocabularyOrdinalNames.lean.
-/

namespace NumberParser.Props
open NumberParser Gen Spec

theorem ordinally_only {i : Info} (hf : Faithful i) {ts ws : List PyStr} {cs : List (Class × Nat)} (h : OrdinallyWritten i ts ws)
    (hv : Valued i ws cs) : OnlyOrdinalsOf i ts cs := by
  induction h generalizing cs with
  | nil => cases hv; exact .nil
  | @cardinal t w _ _ he _ ih =>
    cases hv with
    | cons hw hv =>
      refine .word (c := form w) ?_ hw (ih hv)
      rw [he]
      exact hf.words _ (last_listed hw)
  | ordinal hs _ ih =>
    cases hv with
    | cons hw hv => exact .word hs hw (ih hv)
  | other ho _ ih => exact .other ho (ih hv)

/-- Some token stands for a number word. -/
theorem onlyOrdinals_some {i : Info} {ts : List PyStr} {cs : List (Class × Nat)} (h : OnlyOrdinalsOf i ts cs) (hne : cs ≠ []) :
    ∃ t ∈ ts, ∃ c, StandsForOf i (irregular (form t)) c := by
  induction h with
  | nil => exact absurd rfl hne
  | word hs _ _ _ => exact ⟨_, by simp, _, hs⟩
  | other _ _ ih =>
    obtain ⟨t, ht, h⟩ := ih hne
    exact ⟨t, by simp [ht], h⟩

/-- **C104** If the cardinals and ordinals of a text are a name of `n`, then `parse_ordinal` gives `n` (any language with a plain and
moderate module; the text does not begin with a conjunction). -/
theorem c104_ordinal (p : Package) (l : PyStr) (i : Info) (h : Knows p l i) (hi : Plain i) (s : PyStr)
    (hh : l ≠ u!"hi" ∨ 0x27 ∉ s ∧ 0x2019 ∉ s) (t : PyStr) (ts : List PyStr) (ht : Tokens l s (t :: ts))
    (hk : irregular (form t) ∉ i.skipTokens) (ws : List (Class × Nat)) (hw : OnlyOrdinalsOf i (t :: ts) ws) (n : Nat)
    (hn : CardinalName (limitOf i) ws n) : parseOrdinalIn p s (some l) = .ok (some n) := by
  obtain ⟨x, hx, c, hc⟩ := onlyOrdinals_some hw (cardinalName_ne hn)
  obtain ⟨hb, hs⟩ := stands_text hi hx hc
  have hr := numeral_readAs hn
  have htok := (tokens_iff _ _ _).mp ht
  rw [c83_package p h.distinct l i h.mem s, c83_reads i hi l s hh t ts n ht hb hs]
  exact ⟨hk, onlyOrdinals_moderate hi h.moderate (hh.imp id noApos_of) (fun x hx => by rw [← htok]; exact hx) hw hr, ws, hw, hr⟩

/-- **C104** `parse_ordinal` reads the name of every ordinal below `top`, in any case, with any accents, with ordinals for any of the
words, and with conjunctions, apostrophes and white space between the words. -/
theorem c104_written (p : Package) (l : PyStr) (i : Info) (h : Knows p l i) (hi : Plain i) (hf : Faithful i) (N : NumberNames) (top : Nat)
    (powers : List Nat) (hN : Names i N top powers) (n : Nat) (hn : n < top) (s : PyStr) (hh : l ≠ u!"hi" ∨ 0x27 ∉ s ∧ 0x2019 ∉ s)
    (t : PyStr) (ts : List PyStr) (ht : Tokens l s (t :: ts)) (hk : irregular (form t) ∉ i.skipTokens)
    (hw : OrdinallyWritten i (t :: ts) (N.name powers n)) : parseOrdinalIn p s (some l) = .ok (some n) := by
  obtain ⟨ws, h1, h2⟩ := names_numeral hN hn
  exact c104_ordinal p l i h hi s hh t ts ht hk ws (ordinally_only hf hw h1) n h2

theorem written_ordinally {i : Info} (hf : Faithful i) {ts ws us vs : List PyStr} (h : Written i ts ws) (h' : OrdinallyWritten i us vs) :
    OrdinallyWritten i (ts ++ us) (ws ++ vs) := by
  induction h with
  | nil => exact h'
  | word he _ ih => exact .cardinal he ih
  | other ho _ ih => exact .other (ho.imp id fun hs => Or.inr (hf.conjunctions _ hs)) ih

theorem blanks_ordinally {i : Info} {lead ts ws : List PyStr} (hl : ∀ t ∈ lead, ∀ c ∈ t, isSpace c = true) (h : OrdinallyWritten i ts ws) :
    OrdinallyWritten i (lead ++ ts) ws := by
  induction lead with
  | nil => exact h
  | cons t lead ih => exact .other (Or.inl (norm_space (hl t (by simp)))) (ih fun x hx => hl x (by simp [hx]))

theorem valued_snoc {i : Info} {w : PyStr} : ∀ {ws : List PyStr} {cs : List (Class × Nat)}, Valued i (ws ++ [w]) cs →
    (∃ k v, WordOf i k v w) ∧ ∀ x ∈ ws, CardinalOf i x
  | [], _, .cons h1 _ => ⟨⟨_, _, h1⟩, by simp⟩
  | x :: ws, _, .cons h1 h2 => by
    obtain ⟨h3, h4⟩ := valued_snoc (ws := ws) h2
    refine ⟨h3, fun y hy => ?_⟩
    rcases List.mem_cons.mp hy with rfl | hy
    · exact last_listed h1
    · exact h4 y hy

theorem written_tokens {i : Info} {ts ws : List PyStr} (h : Written i ts ws) (hc : ∀ w ∈ ws, CardinalOf i w) :
    ∀ t ∈ ts, CardinalOf i t ∨ SkipOf i t ∨ BlankForm t := by
  induction h with
  | nil => simp
  | word he _ ih =>
    intro t ht
    rcases List.mem_cons.mp ht with rfl | ht
    · left; unfold CardinalOf; rw [he]; exact hc _ (by simp)
    · exact ih (fun w hw => hc w (by simp [hw])) t ht
  | other ho _ ih =>
    intro t ht
    rcases List.mem_cons.mp ht with rfl | ht
    · exact Or.inr ho.symm
    · exact ih hc t ht

/-- **C104** If the last word is an ordinal and the text begins with a number word (both up to white space), then `parse` converts the
name of the ordinal to the same number. -/
theorem c104_converted (p : Package) (l : PyStr) (i : Info) (h : Knows p l i) (hi : Plain i) (hf : Faithful i) (N : NumberNames) (top : Nat)
    (powers : List Nat) (hN : Names i N top powers) (n : Nat) (hn : n < top) (ws : List PyStr) (w w' : PyStr)
    (hname : N.name powers n = ws ++ [w]) (hw' : OrdinalWordOf i w w') (s : PyStr) (hh : l ≠ u!"hi" ∨ 0x27 ∉ s ∧ 0x2019 ∉ s)
    (lead ts trail : List PyStr) (ht : Tokens l s (lead ++ (ts ++ w' :: trail))) (hlead : ∀ t ∈ lead, ∀ c ∈ t, isSpace c = true)
    (htrail : ∀ t ∈ trail, ∀ c ∈ t, isSpace c = true) (hfirst : ts = [] ∨ ∃ t ts', ts = t :: ts' ∧ CardinalOf i t) (hw : Written i ts ws) :
    parseOrdinalIn p s (some l) = .ok (some n) ∧ parseIn p s (some l) = .ok (decDigits n) := by
  have ho : OrdinallyWritten i (lead ++ (ts ++ w' :: trail)) (N.name powers n) := by
    rw [hname]
    refine blanks_ordinally hlead (written_ordinally hf hw (.ordinal hw'.2 ?_))
    have := blanks_ordinally (i := i) htrail .nil
    rwa [List.append_nil] at this
  obtain ⟨cs, h1, h2⟩ := names_numeral hN hn
  rw [hname] at h1
  obtain ⟨⟨k, v, hkv⟩, hcs⟩ := valued_snoc h1
  have hall := written_tokens hw hcs
  have hord : parseOrdinalIn p s (some l) = .ok (some n) := by
    obtain ⟨t0, ts0, h0, hsk⟩ : ∃ t0 ts0, lead ++ (ts ++ w' :: trail) = t0 :: ts0 ∧ irregular (form t0) ∉ i.skipTokens := by
      cases hl : lead with
      | cons t lead' => exact ⟨t, _, rfl, blank_noSkipOf hi (norm_space (hlead t (by rw [hl]; simp)))⟩
      | nil =>
        rcases hfirst with rfl | ⟨t, ts', rfl, hc⟩
        · exact ⟨w', trail, rfl, stands_noSkip hi hw'.2⟩
        · exact ⟨t, _, rfl, stands_noSkip hi (hf.words _ hc)⟩
    rw [h0] at ht ho
    exact c104_written p l i h hi hf N top powers hN n hn s hh t0 ts0 ht hsk ho
  refine ⟨hord, (c100_ordinal p l i h hi hf s hh lead ts trail w' k v ht hlead htrail ?_ ⟨hw'.1, form w, hkv, hw'.2⟩ n).mpr hord⟩
  rcases hfirst with h | ⟨t, ts', rfl, hc⟩
  · exact Or.inl h
  · exact Or.inr ⟨t, ts', rfl, hlead, hc, fun x hx => hall x (by simp [hx])⟩

theorem spacedTokens_snoc (w' : PyStr) : ∀ ws : List PyStr, ∃ ts, spacedTokens (ws ++ [w']) = ts ++ [w'] ∧
    ∀ i : Info, Written i ts ws
  | [] => ⟨[], rfl, fun _ => .nil⟩
  | [w] => ⟨[w, u!" "], rfl, fun _ => .word rfl (.other (Or.inl (by unfold BlankForm; decide +kernel)) .nil)⟩
  | w :: x :: ws => by
    obtain ⟨ts, h1, h2⟩ := spacedTokens_snoc w' (x :: ws)
    refine ⟨w :: u!" " :: ts, ?_, fun i => .word rfl (.other (Or.inl (by unfold BlankForm; decide +kernel)) (h2 i))⟩
    rw [List.cons_append, List.cons_append, spacedTokens, ← List.cons_append, h1]; rfl

/-- **C104** In particular both read the name of every ordinal below `top` written with single spaces. -/
theorem c104_round_trip (p : Package) (l : PyStr) (i : Info) (h : Knows p l i) (hi : Plain i) (hf : Faithful i) (N : NumberNames) (top : Nat)
    (powers : List Nat) (hN : Names i N top powers) (n : Nat) (hn : n < top) (ws : List PyStr) (w w' : PyStr)
    (hname : N.name powers n = ws ++ [w]) (hw' : OrdinalWordOf i w w') (ho : ∀ x ∈ ws ++ [w'], OnePiece l x) :
    parseOrdinalIn p (spaced (ws ++ [w'])) (some l) = .ok (some n) ∧ parseIn p (spaced (ws ++ [w'])) (some l) = .ok (decDigits n) := by
  have htok := between_tokens (by simp) ho
  obtain ⟨ts, h1, h2⟩ := spacedTokens_snoc w' ws
  rw [h1] at htok
  have ha : 0x27 ∉ spaced (ws ++ [w']) ∧ 0x2019 ∉ spaced (ws ++ [w']) := by
    constructor
    · exact fun hm => spaced_chars (P := fun c => c ≠ 0x27) (by decide) (fun w hw c hc => ((ho w hw).2 c hc).2.2.1) _ hm rfl
    · exact fun hm => spaced_chars (P := fun c => c ≠ 0x2019) (by decide) (fun w hw c hc => ((ho w hw).2 c hc).2.2.2.1) _ hm rfl
  refine c104_converted p l i h hi hf N top powers hN n hn ws w w' hname hw' _ (Or.inr ha) [] ts [] (by simpa using htok) (by simp) (by simp)
    ?_ (h2 i)
  obtain ⟨cs, h3, _⟩ := names_numeral hN hn
  rw [hname] at h3
  have hc := (valued_snoc h3).2
  cases hws : ws with
  | nil =>
    left
    rw [hws] at h1
    have : ts ++ [w'] = [] ++ [w'] := by rw [← h1]; rfl
    exact List.append_cancel_right this
  | cons x ws' =>
    right
    rw [hws] at h1 hc
    obtain ⟨r, hr⟩ := between_cons x (ws' ++ [w'])
    rw [List.cons_append, hr] at h1
    cases ts with
    | nil =>
      exfalso
      have := h2 i
      rw [hws] at this
      cases this
    | cons t ts' =>
      rw [List.cons_append] at h1
      injection h1 with e _
      exact ⟨t, ts', rfl, e ▸ hc x (by simp)⟩

/-! ## Indian English -/

set_option maxRecDepth 100000 in
theorem indian_ordinals : Plain indianEnglish ∧ Faithful indianEnglish := by
  have h : (u!"en-IN", Sources.en_INRules, Sources.en_INSupplementary, Sources.en_INModule) ∈ otherLanguages := by
    unfold otherLanguages
    simp [Sources.partB]
  exact ⟨c83_shipped _ _ _ _ false h rfl (by decide), c100_shipped _ _ _ _ false h rfl⟩

/-- The check that `w'` is an ordinal of `w` -/
def ordinalWordB (i : Info) (w w' : PyStr) : Bool :=
  !(allForms i).elem (form w') && (candidatesB (irregular (form w'))).find? (fun c => (allForms i).elem c) == some (form w)

theorem ordinalWordB_sound {i : Info} {w w' : PyStr} (h : ordinalWordB i w w' = true) : OrdinalWordOf i w w' := by
  unfold ordinalWordB at h
  simp only [Bool.and_eq_true, Bool.not_eq_true', beq_iff_eq] at h
  refine ⟨fun hc => ?_, ?_⟩
  · have := List.elem_iff.mpr (listed_forms.mp hc)
    rw [h.1] at this; cases this
  · have h' := h.2
    rw [List.find?_eq_some_iff_append] at h'
    obtain ⟨h1, a, b, h2, h3⟩ := h'
    obtain ⟨cs, hc⟩ := candidates_exists (irregular (form w'))
    have e := candidatesB_sound hc
    refine ⟨a, b, by rw [← h2, ← e]; exact hc, listed_forms.mpr (List.elem_iff.mp h1), fun x hx hl => ?_⟩
    have := h3 x hx
    rw [listed_forms] at hl
    simp [hl] at this

set_option maxRecDepth 100000 in
theorem indian_ordinal_words : ∀ w ∈ indianVocabulary, ordinalWordB indianEnglish w (enOrdinal w) = true := by
  have : indianVocabulary.all (fun w => ordinalWordB indianEnglish w (enOrdinal w)) = true := by decide +kernel
  exact List.all_eq_true.mp this

/-- **C104** With the data for Indian English, every ordinal below 10^10 is read from its name. -/
theorem c104_indian (p : Package) (hp : Distinct p) (h : (u!"en-IN", indianEnglish) ∈ p) (n : Nat) (hn : n < 10 ^ 10) :
    parseOrdinalIn p (spaced (enOrdinalOf (indianNames.name [10 ^ 7, 10 ^ 5, 10 ^ 3] n))) (some u!"en-IN") = .ok (some n) ∧
    parseIn p (spaced (enOrdinalOf (indianNames.name [10 ^ 7, 10 ^ 5, 10 ^ 3] n))) (some u!"en-IN") = .ok (decDigits n) := by
  have hv : ∀ w ∈ indianVocabulary, (w ≠ [] ∧ ∀ c ∈ w, 97 ≤ c ∧ c ≤ 122) ∧ enOrdinal w ≠ [] ∧ ∀ c ∈ enOrdinal w, 97 ≤ c ∧ c ≤ 122 := by decide
  have hws := indian_name_words hn
  obtain ⟨cs, h1, h2⟩ := names_numeral c93_indian hn
  generalize hname : indianNames.name [10 ^ 7, 10 ^ 5, 10 ^ 3] n = ns at *
  have hne : ns ≠ [] := by
    rintro rfl
    cases h1
    exact cardinalName_ne h2 rfl
  have e := List.dropLast_concat_getLast hne
  have e' : enOrdinalOf ns = ns.dropLast ++ [enOrdinal (ns.getLast hne)] := by
    unfold enOrdinalOf
    rw [List.getLastD_eq_getLast?, List.getLast?_eq_some_getLast hne]; rfl
  rw [e']
  refine c104_round_trip p u!"en-IN" indianEnglish ⟨hp, h, indian_plain.1, indian_plain.2⟩ indian_ordinals.1 indian_ordinals.2 indianNames _ _
    c93_indian n hn _ _ _ (by rw [hname]; exact e.symm)
    (ordinalWordB_sound (indian_ordinal_words _ (hws _ (List.getLast_mem hne)))) ?_
  refine (lower_case_words u!"en-IN" _ fun w hw => ?_).1
  rcases List.mem_append.mp hw with hw | hw
  · exact (hv w (hws w (List.dropLast_subset _ hw))).1
  · rw [List.mem_singleton.mp hw]
    exact (hv _ (hws _ (List.getLast_mem hne))).2

/-- The names of the ordinals of 12 34 05 067 and 2 00 00 000 -/
example : [123405067, 20000000].map (fun n => spaced (enOrdinalOf (indianNames.name [10 ^ 7, 10 ^ 5, 10 ^ 3] n))) =
    [u!"twelve crore thirty four lakh five thousand sixty seventh", u!"two croreth"] := by decide

set_option maxRecDepth 100000 in
/-- In other layouts, with several ordinals, and with words the module does not list ("and", "-"). -/
theorem c104_example : [u!"Twelve CRORE\tthirty  First", u!"twelfth croreth thirtieth oneth", u!"two hundred and first", u!"thirty-first"].map
      (fun s => (parseOrdinalIn [(u!"en-IN", indianEnglish)] s (some u!"en-IN"), parseIn [(u!"en-IN", indianEnglish)] s (some u!"en-IN"))) =
    [(.ok (some 120000031), .ok u!"120000031"), (.ok (some 120000031), .ok u!"12 10000000 30 1"), (.ok none, .ok u!"200 and 1"),
      (.ok none, .ok u!"30 -1")] := by decide +kernel

/-- The second is, with one word less as ordinal, written as the theorem wants. -/
example : OrdinallyWritten indianEnglish [u!"Twelfth", u!" ", u!"croreth", u!" ", u!"thirty", u!" ", u!"oneth"]
    (indianNames.name [10 ^ 7, 10 ^ 5, 10 ^ 3] 120000031) := by
  have e : indianNames.name [10 ^ 7, 10 ^ 5, 10 ^ 3] 120000031 = [u!"twelve", u!"crore", u!"thirty", u!"one"] := by decide
  have hb : BlankForm u!" " := by unfold BlankForm; decide +kernel
  rw [e]
  refine .ordinal ?_ (.other (Or.inl hb) (.ordinal ?_ (.other (Or.inl hb) (.cardinal rfl (.other (Or.inl hb) (.ordinal ?_ .nil))))))
  · exact (ordinalWordB_sound (w := u!"twelve") (w' := u!"Twelfth") (by decide +kernel)).2
  · exact (ordinalWordB_sound (w := u!"crore") (w' := u!"croreth") (by decide +kernel)).2
  · exact (ordinalWordB_sound (w := u!"one") (w' := u!"oneth") (by decide +kernel)).2

end NumberParser.Props
