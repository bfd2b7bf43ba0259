import Verif.Spec.VocabularyPunctuation
import Verif.Proofs.VocabularyPieces
import Verif.Proofs.Punctuation

/-! Punctuation written directly against words, with any vocabulary (C95): the proofs of Proofs/Punctuation for an arbitrary data module. -/

set_option linter.unusedSimpArgs false

namespace NumberParser
open Spec

set_option maxRecDepth 100000

theorem lastIsNumber_endsOf {I : Info} {ts : List PyStr} (h : LastIsNumberOf I ts) : EndsNumberOf I ts := by
  obtain ⟨a, t, rfl, hc⟩ := h
  exact ⟨a, t, [], rfl, hc, by simp⟩

theorem lastIsNumber_solidOf {I : Info} (hi : Tidy I) {ts : List PyStr} (h : LastIsNumberOf I ts) : ¬ EndsBlank ts := by
  obtain ⟨a, t, rfl, hc⟩ := h
  rintro ⟨b, u, e, hb⟩
  obtain ⟨_, e2⟩ := List.append_inj' e rfl
  injection e2 with e2 _
  rw [← e2] at hb
  exact cardinal_not_blankOf hi hc hb

/-- The conversion of a text that ends with a number word, directly followed by a full stop or comma. -/
theorem converted_open_markOf {I : Info} (hi : Tidy I) {a ts : List PyStr} {x u out : PyStr} (ha : ConvertedOf I a x) (he : EndsNumberOf I a)
    (hnb : ¬ EndsBlank a) (hu : Mark u) (ho : ConvertedOf I ts out) :
    ∃ z, x = z ++ u!" " ∧ EndsNS z ∧ ConvertedOf I (a ++ u :: ts) (z ++ (u ++ out)) := by
  have tail : ∀ {pre ts' : List PyStr}, ¬ EndsBlank (pre ++ ts') → ¬ EndsBlank ts' := fun h h' => h (endsBlank_under h')
  induction ha with
  | nil => obtain ⟨a, t, bl, e, _⟩ := he; simp at e
  | @keep t ts' out' hk _ ih =>
    have hnc : ¬ CardinalOf I t := by
      intro hc
      rcases hk with h | h | h | h
      · exact cardinal_not_blankOf hi hc h
      · exact mark_not_cardinalOf hi h hc
      · exact cardinal_not_skipOf hi hc h
      · exact (closing_factsOf hi (Or.inl h)).1 hc
    obtain ⟨z, rfl, hz, h1⟩ := ih (endsNumber_tailOf (pre := []) he hnc (Or.inl rfl)) (tail (pre := [t]) hnb)
    refine ⟨t ++ z, by simp, endsNS_append hz, ?_⟩
    rw [List.append_assoc t]
    exact .keep hk h1
  | @ending run is xs hrun hcut =>
    obtain ⟨ys, n, rfl⟩ := cut_lastOf hcut
    refine ⟨_, withSpaces_snoc _ _, endsNS_spaced (digits_endsNS n), ?_⟩
    rw [← List.append_assoc]
    exact .markTight hrun hcut hu hnb ho
  | @mark run is xs t ts' out' hrun hcut hmk hbl _ ih =>
    obtain ⟨z, rfl, hz, h1⟩ := ih (endsNumber_tailOf he (mark_not_cardinalOf hi hmk) (Or.inr (mark_not_blank hmk))) (tail (pre := run ++ [t]) (by simpa using hnb))
    refine ⟨withSpaces xs ++ t ++ z, by simp, endsNS_append hz, ?_⟩
    have := ConvertedOf.mark hrun hcut hmk hbl h1
    simpa using this
  | @markTight run is xs t ts' out' hrun hcut hmk hbl _ ih =>
    obtain ⟨z, rfl, hz, h1⟩ := ih (endsNumber_tailOf he (mark_not_cardinalOf hi hmk) (Or.inr (mark_not_blank hmk))) (tail (pre := run ++ [t]) (by simpa using hnb))
    refine ⟨spaced xs ++ t ++ z, by simp, endsNS_append hz, ?_⟩
    have := ConvertedOf.markTight hrun hcut hmk hbl h1
    simpa using this
  | @word run is xs t ts' out' hrun hlast hcut hord hmk _ ih =>
    have hc := closing_factsOf hi (Or.inl hord)
    obtain ⟨z, rfl, hz, h1⟩ := ih (endsNumber_tailOf he hc.1 (Or.inr hc.2.2)) (tail (pre := run ++ [t]) (by simpa using hnb))
    refine ⟨withSpaces xs ++ t ++ z, by simp, endsNS_append hz, ?_⟩
    have := ConvertedOf.word hrun hlast hcut hord hmk h1
    simpa using this
  | @conjWord run is f xs t ts' out' hrun hcut hord hmk _ ih =>
    have hc := closing_factsOf hi (Or.inl hord)
    obtain ⟨z, rfl, hz, h1⟩ := ih (endsNumber_tailOf he hc.1 (Or.inr hc.2.2)) (tail (pre := run ++ [t]) (by simpa using hnb))
    refine ⟨withSpaces xs ++ f ++ u!" " ++ t ++ z, by simp, endsNS_append hz, ?_⟩
    have := ConvertedOf.conjWord hrun hcut hord hmk h1
    simpa using this
  | @ordinal run is xs t k v ts' out' hrun hord hcut _ ih =>
    have hc := closing_factsOf hi (Or.inr ⟨k, v, hord⟩)
    obtain ⟨z, rfl, hz, h1⟩ := ih (endsNumber_tailOf he hc.1 (Or.inr hc.2.2)) (tail (pre := run ++ [t]) (by simpa using hnb))
    refine ⟨spaced xs ++ z, by simp, endsNS_append hz, ?_⟩
    have := ConvertedOf.ordinal hrun hord hcut h1
    simpa using this

end NumberParser
