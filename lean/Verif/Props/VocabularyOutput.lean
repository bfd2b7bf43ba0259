import Verif.Proofs.VocabularyOutput
import Verif.Props.PackageFraction

/-!
# C85: what `parse` does to the rest of a text, with any vocabulary

The guarantees of C12-C16 and C39 about the result of `parse` do not depend on the five languages of the parser.  Specification:
Verif/Spec/VocabularyOutput.lean.
-/

namespace NumberParser.Props
open NumberParser Gen Spec

/-- What holds in this file of a parser: `l` is one of its languages, with the neat and moderate module `i`. -/
structure Speaks (p : Package) (l : PyStr) (i : Info) : Prop where
  distinct : Distinct p
  mem : (l, i) ∈ p
  neat : Neat i
  moderate : Moderate i

theorem speaks_pieces {p : Package} {l : PyStr} {i : Info} (h : Speaks p l i) {s out : PyStr} (ho : parseIn p s (some l) = .ok out) :
    out = strip (pieces (mkLangData i) (tokenize s l)).flatten := by
  rw [parseIn_with h.distinct h.mem, parseWith_pieces h.neat.toTidy h.moderate] at ho
  injection ho with ho; exact ho.symm

/-- **C85** No token of the result is a number word. -/
theorem c85_no_number_word_left (p : Package) (l : PyStr) (i : Info) (h : Speaks p l i) (s out : PyStr)
    (ho : parseIn p s (some l) = .ok out) (ts : List PyStr) (hts : Tokens l out ts) : ∀ t ∈ ts, ¬ NumberWordOf i t := by
  intro t ht
  rw [tokens_iff] at hts; subst hts
  exact (noNum_word h.neat.toTidy).mp (output_tokensX (neat_outOK h.neat h.moderate l).toOutOK s out (speaks_pieces h ho) t ht)

/-- **C85** A text without number words is returned unchanged, up to soft hyphens and surrounding white space. -/
theorem c85_plain_text_unchanged (p : Package) (l : PyStr) (i : Info) (h : Speaks p l i) (s : PyStr) (ts : List PyStr)
    (hts : Tokens l s ts) (hn : ∀ t ∈ ts, ¬ NumberWordOf i t) : parseIn p s (some l) = .ok (strip (withoutSoftHyphens s)) := by
  rw [tokens_iff] at hts; subst hts
  rw [parseIn_with h.distinct h.mem]
  exact parseWith_plain h.neat.toTidy h.moderate l s hn

/-- **C85** `parse` is idempotent. -/
theorem c85_idempotent (p : Package) (l : PyStr) (i : Info) (h : Speaks p l i) (s out : PyStr)
    (ho : parseIn p s (some l) = .ok out) : parseIn p out (some l) = .ok out := by
  obtain ⟨h1, h2, _⟩ := output_solX (neat_outOK h.neat h.moderate l).toOutOK s out (speaks_pieces h ho)
  rw [c85_plain_text_unchanged p l i h out _ ((tokens_iff _ _ _).mpr rfl) (c85_no_number_word_left p l i h s out ho _ ((tokens_iff _ _ _).mpr rfl))]
  show Except.ok (strip (noShy out)) = _
  rw [h1, h2]

/-- **C85** The result neither starts nor ends with white space and contains no soft hyphen. -/
theorem c85_output_stripped (p : Package) (l : PyStr) (i : Info) (h : Speaks p l i) (s out : PyStr)
    (ho : parseIn p s (some l) = .ok out) :
    (∀ c rest, out = c :: rest → isSpace c = false) ∧ (∀ c rest, out = rest ++ [c] → isSpace c = false) ∧ ∀ c ∈ out, c ≠ 0xad := by
  obtain ⟨h1, h2, _⟩ := output_solX (neat_outOK h.neat h.moderate l).toOutOK s out (speaks_pieces h ho)
  obtain ⟨a, b, _, _, _, h3, h4⟩ := strip_spec out
  rw [h2] at h3 h4
  refine ⟨h3, h4, ?_⟩
  intro c hc e
  rw [← h1] at hc
  simp [noShy] at hc
  exact hc.2 e

open Classical in
/-- **C85** The ordinary tokens of the text are in the result verbatim and in the same order; the only other ordinary tokens of the result
are decimal numerals. -/
theorem c85_ordinary_words_kept (p : Package) (l : PyStr) (i : Info) (h : Speaks p l i) (s out : PyStr)
    (ho : parseIn p s (some l) = .ok out) (ts ts' : List PyStr) (hts : Tokens l s ts) (hts' : Tokens l out ts') :
    WithNumeralsBelow (10 ^ 4300) (ts.filter (fun t => OrdinaryOf i t)) (ts'.filter (fun t => OrdinaryOf i t)) := by
  rw [tokens_iff] at hts hts'; subst hts; subst hts'
  have hok := neat_outOK h.neat h.moderate l
  have hord : ∀ t, OrdinaryOf i t → blank (norm t) = false ∧ NoNum (mkLangData i) (norm t) ∧
      isSkipToken (norm t) (mkLangData i) = false := by
    rintro t ⟨⟨c, hc, hs⟩, h2, h3, h4⟩
    refine ⟨not_blank_of_mem hc hs, (noNum_word h.neat.toTidy).mpr (fun hn => hn.elim h2 h3), ?_⟩
    cases hk : isSkipToken (norm t) (mkLangData i) with
    | false => rfl
    | true => exact absurd (skip_mem.mp hk) h4
  refine parse_shuffleX hok ⟨?_, ?_⟩ s out (speaks_pieces h ho) ?_
  · intro t ht
    simp only [decide_eq_false_iff_not]
    intro ho; exact ht (hord t ho).2.1
  · intro t ht
    simp only [decide_eq_false_iff_not]
    intro ho; rw [(hord t ho).1] at ht; cases ht
  · have hall : ∀ (ts : List PyStr) (b : Bool), OKseq (mkLangData i) (fun t => decide (OrdinaryOf i t)) b ts := by
      intro ts
      induction ts with
      | nil => intro b; trivial
      | cons t ts ih =>
        intro b
        refine ⟨fun hk _ => ⟨?_, ?_⟩, ih _⟩
        · simp only [decide_eq_false_iff_not]
          intro ho; rw [(hord t ho).2.2] at hk; cases hk
        · simp only [decide_eq_false_iff_not]
          intro ho
          have := (hord _ ho).2.2
          rw [hok.skipNorm _ hk, hk] at this
          cases this
    exact hall _ _

open Classical in
/-- **C85** If no conjunction directly follows a cardinal number word, conjunctions, too, are kept verbatim and in order. -/
theorem c85_conjunctions_kept (p : Package) (l : PyStr) (i : Info) (h : Speaks p l i) (s out : PyStr)
    (ho : parseIn p s (some l) = .ok out) (ts ts' : List PyStr) (hts : Tokens l s ts) (hts' : Tokens l out ts')
    (hc : NoConjunctionAfterNumberOf i ts) :
    WithNumeralsBelow (10 ^ 4300) (ts.filter (fun t => OrdinaryOf i t ∨ SkipOf i t)) (ts'.filter (fun t => OrdinaryOf i t ∨ SkipOf i t)) := by
  rw [tokens_iff] at hts hts'; subst hts; subst hts'
  have hok := neat_outOK h.neat h.moderate l
  have hsk : ∀ t, SkipOf i t ↔ isSkipToken (norm t) (mkLangData i) = true := fun t => skip_mem.symm
  refine parse_shuffleX hok ⟨?_, ?_⟩ s out (speaks_pieces h ho) ?_
  · intro t ht
    simp only [decide_eq_false_iff_not]
    rintro (ho | ho)
    · exact ht ((noNum_word h.neat.toTidy).mpr (fun hn => hn.elim ho.2.1 ho.2.2.1))
    · exact ht (hok.skipNumber _ ((hsk t).mp ho))
  · intro t ht
    simp only [decide_eq_false_iff_not]
    rintro (⟨⟨c, hc, hs⟩, _⟩ | ho)
    · have := not_blank_of_mem hc hs
      rw [show form t = norm t from rfl, ht] at this; cases this
    · rw [(hok.skipSolo _ ((hsk t).mp ho)).2] at ht; cases ht
  · have gen : ∀ (ts a : List PyStr) (b : Bool), NoConjunctionAfterNumberOf i (a ++ ts) →
        (b = true → ∃ a1 n a2, a = a1 ++ n :: a2 ∧ CardinalOf i n ∧ ∀ t ∈ a2, BlankForm t ∨ SkipOf i t) →
        OKseq (mkLangData i) (fun t => decide (OrdinaryOf i t ∨ SkipOf i t)) b ts := by
      intro ts
      induction ts with
      | nil => intro a b _ _; trivial
      | cons t ts ih =>
        intro a b hn hb
        refine ⟨?_, ?_⟩
        · intro hk hbt
          obtain ⟨a1, n, a2, rfl, hcn, ha2⟩ := hb hbt
          exact absurd ((hsk t).mpr hk) (hn a1 n a2 t ts (by simp) hcn ha2)
        · refine ih (a ++ [t]) _ (by simpa using hn) ?_
          intro hnx
          unfold nextRun at hnx
          split at hnx
          · rename_i hbl
            obtain ⟨a1, n, a2, rfl, hcn, ha2⟩ := hb hnx
            refine ⟨a1, n, a2 ++ [t], by simp, hcn, ?_⟩
            intro x hx
            rcases List.mem_append.mp hx with hx | hx
            · exact ha2 x hx
            · simp only [List.mem_singleton] at hx; subst hx
              exact Or.inl ((blankForm_iff x).mpr hbl)
          · split at hnx
            · rename_i hm
              exact ⟨a, t, [], rfl, mem_listed.mp hm, by simp⟩
            · split at hnx
              · rename_i hk
                obtain ⟨a1, n, a2, rfl, hcn, ha2⟩ := hb hnx
                exact absurd ((hsk t).mpr hk) (hn a1 n a2 t ts (by simp) hcn ha2)
              · cases hnx
    exact gen _ [] false hc (by simp)

set_option maxRecDepth 100000 in
theorem neat_supported : supported.all (fun l => (file l).skipTokens.all (fun f => norm f == f && (f == u!"-" || f.all isWord))) = true := by
  decide +kernel

/-- **C85** The data modules of the five languages are neat, ... -/
theorem c85_supported (l : PyStr) (hl : l ∈ supported) : Speaks repository l (file l) := by
  have hpl := c83_supported l hl
  have k : ∀ f ∈ (file l).skipTokens, norm f = f ∧ (f = u!"-" ∨ f.all isWord = true) := by
    intro f hf
    have := List.all_eq_true.mp (List.all_eq_true.mp neat_supported l hl) f hf
    simpa only [Bool.and_eq_true, Bool.or_eq_true, beq_iff_eq] using this
  refine ⟨repository_distinct, repository_mem hl, ⟨hpl.toTidy, hpl.wordLetter, hpl.wordNotNumeric, ?_, ?_⟩, (c81_supported l hl).2⟩
  · exact fun f hf => (k f hf).1
  · exact fun f hf => (k f hf).2.imp id (fun h => List.all_eq_true.mp h)

/-- The check of a module of the repository: no conjunctions -/
def shippedConjunctions (e : PyStr × RuleSets × Supplementary × Output) : Bool :=
  match e.2.2.2.useLongScale with
  | none => true
  | some long => (tablesOf e.2.2.2 long).skipTokens == []

set_option maxRecDepth 100000 in
theorem shipped_conjunctions : otherLanguages.all shippedConjunctions = true := by decide +kernel

/-- **C85** ... and those of the other languages in the repository that the parser could load, except the Polish one. -/
theorem c85_shipped (name : PyStr) (rules : RuleSets) (supp : Supplementary) (module : Output) (long : Bool)
    (h : (name, rules, supp, module) ∈ otherLanguages) (hl : module.useLongScale = some long) (hn : name ≠ u!"pl") (p : Package)
    (hp : Distinct p) (hm : (name, tablesOf module long) ∈ p) : Speaks p name (tablesOf module long) := by
  have hs := List.all_eq_true.mp shipped_conjunctions _ h
  unfold shippedConjunctions at hs
  simp only [hl, beq_iff_eq] at hs
  have hpl := c83_shipped name rules supp module long h hl hn
  refine ⟨hp, hm, ⟨hpl.toTidy, hpl.wordLetter, hpl.wordNotNumeric, ?_, ?_⟩, (c81_shipped name rules supp module long h hl hn).2⟩
  · rw [hs]; simp
  · rw [hs]; simp

set_option maxRecDepth 100000 in
/-- A parser for two languages, one with conjunctions and ordinals -/
theorem speaks_example : Speaks [(u!"xx", ordinalVocabulary), (u!"pt", portuguese)] u!"xx" ordinalVocabulary :=
  ⟨by unfold Distinct; decide, by simp, neatB_sound (by decide +kernel), plain_ordinalVocabulary.2⟩

set_option maxRecDepth 100000 in
/-- What it makes of a text, ... -/
theorem c85_example : parseIn [(u!"xx", ordinalVocabulary), (u!"pt", portuguese)] u!" Et ba-mo dogs, et \u00adKY - ba et um CIETH! " (some u!"xx") =
    .ok u!"Et 1000 dogs, et 31 et um 3!" := by decide +kernel

/-- ... is not changed when parsed again. -/
example : parseIn [(u!"xx", ordinalVocabulary), (u!"pt", portuguese)] u!"Et 1000 dogs, et 31 et um 3!" (some u!"xx") =
    .ok u!"Et 1000 dogs, et 31 et um 3!" := c85_idempotent _ _ _ speaks_example _ _ c85_example

set_option maxRecDepth 100000 in
/-- A text in which conjunctions come before number words only -/
example : NoConjunctionAfterNumberOf ordinalVocabulary [u!"et", u!" ", u!"ba"] := by
  intro a n b k c he hn hb hk
  have hn' : (mkLangData ordinalVocabulary).allNumbers.mem (norm n) = true := mem_listed.mpr hn
  rcases a with _ | ⟨x, a⟩
  · simp at he
    rw [← he.1] at hn'
    revert hn'; decide +kernel
  · rcases a with _ | ⟨y, a⟩
    · simp at he
      rw [← he.2.1] at hn'
      revert hn'; decide +kernel
    · have := congrArg List.length he
      simp at this
      omega

end NumberParser.Props
