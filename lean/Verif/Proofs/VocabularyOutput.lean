import Verif.Proofs.VocabularyOrdinal
import Verif.Proofs.Shuffle

/-! The result of `parse`, for any vocabulary. -/

set_option linter.unusedSimpArgs false

namespace NumberParser
open Spec

/-- Texts of characters that no number word consists of only, and no letters from a to z. -/
theorem noNum_of {I : Info} (p : Nat → Bool) (haz : ∀ c, isAz c = true → p c = false)
    (hw : ∀ f, Listed I f → ∃ c ∈ f, p c = false) {t : PyStr} (h : ∀ c ∈ t, p c = true) : NoNum (mkLangData I) t := by
  have hm : (mkLangData I).allNumbers.mem t = false := by
    cases hm : (mkLangData I).allNumbers.mem t with
    | false => rfl
    | true =>
      obtain ⟨c, hc, hp⟩ := hw t (mem_listed.mp hm)
      rw [h c hc] at hp; cases hp
  refine ⟨?_, hm⟩
  unfold isNumberToken
  rw [conv_noletters _ (fun c hc => by
    cases ha : isAz c with
    | false => rfl
    | true => have := haz c ha; rw [h c hc] at this; cases this)]
  unfold isCardinalToken
  rw [hm]; simp

theorem neat_outOK {I : Info} (hi : Neat I) (hm : Moderate I) (l : PyStr) : NumOK (10 ^ 4300) l (mkLangData I) where
  builds := moderate_builds hi.toTidy hm
  skipSolo := by
    intro t ht
    have ht := skip_mem.mp ht
    have hb := skip_blankOf hi.toTidy ht
    refine ⟨?_, hb⟩
    rcases hi.conjunctionToken t ht with rfl | hw
    · have hs : isSpace 0x2d = false := by decide
      by_cases hl : l = u!"hi"
      · subst hl; decide +kernel
      · have h1 : sepChar l 0x2d = true := by
          unfold sepChar
          rw [if_neg (fun h => hl ((re_bug l).mp h))]; decide +kernel
        rw [sol_sep l [] h1, sol_eq, hd_cons, if_pos h1, stl_cons]
        simp [hs, h1, blank_cons]
    · exact sol_word l (fun c hc => sepChar_word l (hw c hc)) hb
  skipShy := by
    intro t ht c hc e
    subst e
    rcases hi.conjunctionToken t (skip_mem.mp ht) with rfl | hw
    · revert hc; decide
    · have := hw _ hc; revert this; decide +kernel
  skipNorm := fun t ht => hi.conjunctionForm t (skip_mem.mp ht)
  skipNumber := by
    intro t ht
    have ht := skip_mem.mp ht
    refine ⟨?_, ?_⟩
    · cases h : isNumberToken t (mkLangData I) with
      | none => rfl
      | some w => exact absurd ((numberTokenOf_iff hi.toTidy).mp h) (hi.conjunctionNoNumber t ht w)
    · cases h : (mkLangData I).allNumbers.mem t with
      | false => rfl
      | true => exact absurd (mem_listed.mp h) (skip_unlisted hi.toTidy ht)
  blankNo := by
    intro t ht
    refine ⟨blank_noNumber hi.toTidy ht, ?_⟩
    cases h : (mkLangData I).allNumbers.mem t with
    | false => rfl
    | true => rw [listed_blank hi.toTidy (mem_listed.mp h)] at ht; cases ht
  sepNo := by
    intro t ht
    have h1 : t = u!"." ∨ t = u!"," := by
      have := List.elem_iff.mp ht; simpa [SENTENCE_SEPARATORS] using this
    refine noNum_of (fun c => !isWord c) (fun c h => by simp [az_word h]) (fun f hf => ?_) (fun c hc => ?_)
    · obtain ⟨c, hc, h⟩ := hi.wordLetter f hf
      exact ⟨c, hc, by simp [h]⟩
    · rcases h1 with rfl | rfl <;> (simp at hc; subst hc; decide +kernel)
  nonwordNo := by
    intro t ht
    have := norm_nonword ht
    refine noNum_of (fun c => !isWord c) (fun c h => by simp [az_word h]) (fun f hf => ?_) (fun c hc => by simp [this c hc])
    obtain ⟨c, hc, h⟩ := hi.wordLetter f hf
    exact ⟨c, hc, by simp [h]⟩
  digitsNo := by
    intro n
    have := norm_numeric (t := decDigits n) (fun c hc => digit_numeric ((decDigits_isDigit n).2 c hc))
    exact noNum_of isNumericChar (fun c h => az_not_numeric h) hi.wordNotNumeric this
  bound := fun ts hr n hn => moderate_bound hi.toTidy hm ts hr.tok n hn

theorem noNum_word {I : Info} (hi : Tidy I) {t : PyStr} : NoNum (mkLangData I) (norm t) ↔ ¬ NumberWordOf I t := by
  constructor
  · rintro ⟨h1, h2⟩ (h | ⟨k, v, _, c, _, h⟩)
    · have h3 : (mkLangData I).allNumbers.mem (norm t) = true := mem_listed.mpr h
      rw [h2] at h3; cases h3
    · have := (numberTokenOf_iff (f := norm t) hi).mpr h
      rw [h1] at this; cases this
  · intro h
    have hm : ¬ CardinalOf I t := fun hc => h (Or.inl hc)
    refine ⟨?_, ?_⟩
    · cases hn : isNumberToken (norm t) (mkLangData I) with
      | none => rfl
      | some c =>
        have hs := (numberTokenOf_iff hi).mp hn
        obtain ⟨k, v, hv⟩ := listed_last (stands_listed hs)
        exact absurd (Or.inr ⟨k, v, hm, c, hv, hs⟩) h
    · cases hn : (mkLangData I).allNumbers.mem (norm t) with
      | false => rfl
      | true => exact absurd (mem_listed.mp hn) hm

theorem parseWith_pieces {I : Info} (hi : Tidy I) (hm : Moderate I) (l s : PyStr) :
    parseWith (mkLangData I) s l = .ok (strip (pieces (mkLangData I) (tokenize s l)).flatten) := by
  unfold parseWith
  rw [parseRaw_eq (moderate_builds hi hm)]; rfl

theorem parseWith_plain {I : Info} (hi : Tidy I) (hm : Moderate I) (l s : PyStr)
    (h : ∀ t ∈ tokenize s l, ¬ NumberWordOf I t) : parseWith (mkLangData I) s l = .ok (strip (noShy s)) := by
  rw [parseWith_pieces hi hm, pieces_plain _ (fun t ht => (noNum_word hi).mpr (h t ht)), (tokens_tokenize l s).1]; rfl

/-! ### Checking a data module -/

def neatB (i : Info) : Bool :=
  tidyB i && (allForms i).all (fun f => f.any isWord && f.any (fun c => !isNumericChar c)) &&
    i.skipTokens.all (fun f => norm f == f && (f == u!"-" || f.all isWord))

theorem neatB_sound {i : Info} (h : neatB i = true) : Neat i := by
  unfold neatB at h
  simp only [Bool.and_eq_true] at h
  obtain ⟨⟨h1, h2⟩, h3⟩ := h
  have w : ∀ f, Listed i f → f.any isWord = true ∧ f.any (fun c => !isNumericChar c) = true := by
    intro f hf
    have := List.all_eq_true.mp h2 f (listed_forms.mp hf)
    simpa only [Bool.and_eq_true] using this
  have k : ∀ f ∈ i.skipTokens, norm f = f ∧ (f = u!"-" ∨ f.all isWord = true) := by
    intro f hf
    have := List.all_eq_true.mp h3 f hf
    simpa only [Bool.and_eq_true, Bool.or_eq_true, beq_iff_eq] using this
  refine { toTidy := tidyB_sound h1, wordLetter := ?_, wordNotNumeric := ?_, conjunctionForm := ?_, conjunctionToken := ?_ }
  · exact fun f hf => List.any_eq_true.mp (w f hf).1
  · intro f hf
    obtain ⟨c, hc, hn⟩ := List.any_eq_true.mp (w f hf).2
    exact ⟨c, hc, by simpa using hn⟩
  · exact fun f hf => (k f hf).1
  · exact fun f hf => (k f hf).2.imp id (fun h => List.all_eq_true.mp h)

end NumberParser
