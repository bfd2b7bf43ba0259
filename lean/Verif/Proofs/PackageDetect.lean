import Verif.Proofs.PackageInvariance
import Verif.Proofs.VocabularyPieces
import Verif.Proofs.VocabularyOrdinal
import Verif.Proofs.Units
import Verif.Proofs.Spacing
import Verif.Props.Detection

/-! Scores of composed texts, with any list of languages. -/

namespace NumberParser
open Spec Props

theorem recognised_not_blank {i : Info} (hi : Tidy i) {f : PyStr} (hb : blank f = true) :
    ((isNumberToken f (mkLangData i)).isSome || isSkipToken f (mkLangData i)) = false := by
  rw [Bool.or_eq_false_iff]
  constructor
  · cases h : isNumberToken f (mkLangData i) with
    | none => rfl
    | some c =>
      exfalso
      have hc : applyCardinalConversion f (mkLangData i) = f := conv_noletters _ (fun c hc => by
        rw [blank_iff, List.all_eq_true] at hb
        cases ha : isAz c with
        | false => rfl
        | true => have := az_word ha; rw [space_not_word (hb c hc)] at this; cases this)
      unfold isNumberToken at h
      rw [hc] at h
      unfold isCardinalToken at h
      split at h
      · rename_i hm
        have := listed_blank hi (mem_listed.mp hm)
        rw [this] at hb; cases hb
      · cases h
  · cases h : isSkipToken f (mkLangData i) with
    | false => rfl
    | true =>
      exfalso
      have := skip_blankOf hi (skip_mem.mp h)
      rw [this] at hb; cases hb

theorem scoreIn_solid {e : PyStr × Info} (hi : Tidy e.2) (s : PyStr) : scoreIn s e =
    ((solid e.1 s).filter (fun t => (isNumberToken t (mkLangData e.2)).isSome || isSkipToken t (mkLangData e.2))).length := by
  unfold scoreIn solid
  rw [List.filter_filter]
  congr 1
  apply List.filter_congr
  intro t _
  cases hb : blank t with
  | false => simp
  | true => rw [recognised_not_blank hi hb]; rfl

theorem scoreIn_gap {e : PyStr × Info} (hi : Tidy e.2) (a b : PyStr) {g : PyStr} (hg : WhiteSpace g) :
    scoreIn (a ++ g ++ b) e = scoreIn a e + scoreIn b e := by
  rw [scoreIn_solid hi, scoreIn_solid hi, scoreIn_solid hi, solid_gap e.1 a b hg]
  simp

/-- The same scores, the same detected language. -/
theorem detectedIn_same {p : Package} (ht : ∀ e ∈ p, Tidy e.2) {a b l : PyStr} (h : ∀ e ∈ p, scoreIn a e = scoreIn b e)
    (hd : DetectedIn p a l) : DetectedIn p b l := by
  apply detectedIn_of_scores ht
  rcases detectedIn_scores ht hd with ⟨x, i, y, rfl, h0, h1, h2⟩ | ⟨rfl, hz⟩
  · refine Or.inl ⟨x, i, y, rfl, ?_, ?_, ?_⟩
    · rw [← h (l, i) (by simp)]; exact h0
    · intro e he
      rw [← h (l, i) (by simp), ← h e (by simp [he])]; exact h1 e he
    · intro e he
      rw [← h (l, i) (by simp), ← h e (by simp [he])]; exact h2 e he
  · exact Or.inr ⟨rfl, fun e he => by rw [← h e he]; exact hz e he⟩

theorem split_distinct {p : Package} (hp : Distinct p) {l : PyStr} {i i' : Info} {a b a' b' : Package} (h : p = a ++ (l, i) :: b)
    (h' : p = a' ++ (l, i') :: b') : a = a' ∧ i = i' ∧ b = b' := by
  subst h
  unfold Distinct at hp
  have n1 := hp
  have n2 := hp
  rw [h'] at n2
  simp only [List.map_append, List.map_cons] at n1 n2
  rcases List.append_eq_append_iff.mp h' with ⟨c, h1, h2⟩ | ⟨c, h1, h2⟩
  · cases c with
    | nil =>
      simp only [List.append_nil, List.nil_append, List.cons.injEq, Prod.mk.injEq, true_and] at h1 h2
      exact ⟨h1.symm, h2.1, h2.2⟩
    | cons d c =>
      simp only [List.cons_append, List.cons.injEq] at h2
      obtain ⟨rfl, h3⟩ := h2
      subst h3
      have := (List.nodup_append.mp n1).2.1
      simp at this
  · cases c with
    | nil =>
      simp only [List.append_nil, List.nil_append, List.cons.injEq, Prod.mk.injEq, true_and] at h1 h2
      exact ⟨h1, h2.1.symm, h2.2.symm⟩
    | cons d c =>
      simp only [List.cons_append, List.cons.injEq] at h2
      obtain ⟨rfl, h3⟩ := h2
      subst h3
      have := (List.nodup_append.mp n2).2.1
      simp at this

end NumberParser
