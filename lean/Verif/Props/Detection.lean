import Verif.Props.Conversion
import Verif.Proofs.Units
import Verif.Proofs.Spacing

/-!
# C71: language detection of composed texts
-/

namespace NumberParser.Props
open NumberParser NumberParser.Spec

theorem solid_gap (l a b : PyStr) {g : PyStr} (hg : WhiteSpace g) : solid l (a ++ g ++ b) = solid l a ++ solid l b := by
  have hw : noShy g = g := by
    apply List.filter_eq_self.mpr
    intro c hc
    have := hg.2 c hc
    simp only [bne_iff_ne, ne_eq]
    rintro rfl; revert this; decide
  rw [solid_eq, solid_eq, solid_eq, noShy_append, noShy_append, hw, sol_append_gap l _ _ hg.1 hg.2]
  simp

theorem score_gap {l : PyStr} (hl : l ∈ supported) (a b : PyStr) {g : PyStr} (hg : WhiteSpace g) :
    score (a ++ g ++ b) l = score a l + score b l := by
  rw [score_solid hl, score_solid hl, score_solid hl, solid_gap l a b hg]
  simp

/-- The scores decide. -/
theorem detected_iff_scores (s l : PyStr) : Detected s l ↔ ∃ before after, supported = before ++ l :: after ∧
    (∀ l' ∈ before, score s l' < score s l) ∧ (∀ l' ∈ after, score s l' ≤ score s l) := by
  constructor
  · rintro ⟨x, y, hs, k, hk, h1, h2⟩
    have hm : ∀ l', l' ∈ x ++ l :: y → l' ∈ supported := by intro l' h'; rw [hs]; exact h'
    rw [score_iff (hm l (by simp))] at hk
    refine ⟨x, y, hs, ?_, ?_⟩
    · intro l' hl'
      obtain ⟨k', h3, h4⟩ := h1 l' hl'
      rw [score_iff (hm l' (by simp [hl']))] at h3
      omega
    · intro l' hl'
      obtain ⟨k', h3, h4⟩ := h2 l' hl'
      rw [score_iff (hm l' (by simp [hl']))] at h3
      omega
  · rintro ⟨x, y, hs, h1, h2⟩
    have hm : ∀ l', l' ∈ x ++ l :: y → l' ∈ supported := by intro l' h'; rw [hs]; exact h'
    refine ⟨x, y, hs, _, (score_iff (hm l (by simp)) s _).mpr rfl, ?_, ?_⟩
    · intro l' hl'; exact ⟨_, (score_iff (hm l' (by simp [hl'])) s _).mpr rfl, h1 l' hl'⟩
    · intro l' hl'; exact ⟨_, (score_iff (hm l' (by simp [hl'])) s _).mpr rfl, h2 l' hl'⟩

theorem supported_nodup : supported.Nodup := by decide

theorem split_unique {l : PyStr} {a b a' b' : List PyStr} (h : supported = a ++ l :: b) (h' : supported = a' ++ l :: b') : a = a' ∧ b = b' := by
  have hn := supported_nodup
  rw [h] at h' hn
  rcases List.append_eq_append_iff.mp h' with ⟨c, h1, h2⟩ | ⟨c, h1, h2⟩
  · cases c with
    | nil => simp at h1 h2; exact ⟨h1.symm, h2⟩
    | cons d c =>
      simp at h2
      obtain ⟨rfl, h3⟩ := h2
      rw [h3] at hn
      have := (List.nodup_append.mp hn).2.1
      simp at this
  · cases c with
    | nil => simp at h1 h2; exact ⟨h1, h2.symm⟩
    | cons d c =>
      simp at h2
      obtain ⟨rfl, h3⟩ := h2
      rw [h1] at hn
      have := (List.nodup_append.mp hn).2.2 l (by simp) l (by simp)
      exact absurd rfl this

/-- **C71**: the recognised words of two texts with white space between them add up. -/
theorem c71_score (l : PyStr) (hl : l ∈ supported) (a g b : PyStr) (hg : WhiteSpace g) (m n : Nat) (ha : Score a l m) (hb : Score b l n) :
    Score (a ++ g ++ b) l (m + n) := by
  rw [score_iff hl] at *
  rw [score_gap hl a b hg, ha, hb]

/-- **C71**: if the same language is detected for two texts, it is detected for the two together. -/
theorem c71_join (a g b l : PyStr) (hg : WhiteSpace g) (ha : Detected a l) (hb : Detected b l) : Detected (a ++ g ++ b) l := by
  have hl := Detected.mem ha
  obtain ⟨x, y, hs, h1, h2⟩ := (detected_iff_scores a l).mp ha
  obtain ⟨x', y', hs', h1', h2'⟩ := (detected_iff_scores b l).mp hb
  obtain ⟨rfl, rfl⟩ := split_unique hs hs'
  have hm : ∀ l', l' ∈ x ++ l :: y → l' ∈ supported := by intro l' h'; rw [hs]; exact h'
  refine (detected_iff_scores _ l).mpr ⟨x, y, hs, ?_, ?_⟩
  · intro l' hl'
    rw [score_gap hl _ _ hg, score_gap (hm l' (by simp [hl'])) _ _ hg]
    have := h1 l' hl'; have := h1' l' hl'; omega
  · intro l' hl'
    rw [score_gap hl _ _ hg, score_gap (hm l' (by simp [hl'])) _ _ hg]
    have := h2 l' hl'; have := h2' l' hl'; omega

/-- **C71**: text without a word that any language recognises does not influence the detection, in front or behind. -/
theorem c71_neutral (a g b l : PyStr) (hg : WhiteSpace g) (hb : ∀ l ∈ supported, Score b l 0) :
    (Detected (a ++ g ++ b) l ↔ Detected a l) ∧ (Detected (b ++ g ++ a) l ↔ Detected a l) := by
  have e1 : ∀ l ∈ supported, score (a ++ g ++ b) l = score a l := by
    intro l hl; rw [score_gap hl _ _ hg, (score_iff hl b 0).mp (hb l hl), Nat.add_zero]
  have e2 : ∀ l ∈ supported, score (b ++ g ++ a) l = score a l := by
    intro l hl; rw [score_gap hl _ _ hg, (score_iff hl b 0).mp (hb l hl), Nat.zero_add]
  exact ⟨⟨detected_of_score e1, detected_of_score (fun l hl => (e1 l hl).symm)⟩, detected_of_score e2, detected_of_score (fun l hl => (e2 l hl).symm)⟩

/-- **C71**: the order of the texts does not matter. -/
theorem c71_swap (a g g' b l : PyStr) (hg : WhiteSpace g) (hg' : WhiteSpace g') : Detected (a ++ g ++ b) l → Detected (b ++ g' ++ a) l :=
  detected_of_score (fun l hl => by rw [score_gap hl _ _ hg, score_gap hl _ _ hg', Nat.add_comm])

/-- **C71**: a text whose words are recognised in one language only is of this language. -/
theorem c71_single (s l : PyStr) (hl : l ∈ supported) (k : Nat) (hk : Score s l k) (hpos : 0 < k)
    (h : ∀ l' ∈ supported, l' ≠ l → Score s l' 0) : Detected s l := by
  obtain ⟨x, y, hs⟩ := List.append_of_mem hl
  have hm : ∀ l', l' ∈ x ++ l :: y → l' ∈ supported := by intro l' h'; rw [hs]; exact h'
  have hn := supported_nodup
  rw [hs] at hn
  refine ⟨x, y, hs, k, hk, ?_, ?_⟩
  · intro l' hl'
    refine ⟨0, h l' (hm l' (by simp [hl'])) ?_, hpos⟩
    rintro rfl
    exact (List.nodup_append.mp hn).2.2 l' hl' l' (by simp) rfl
  · intro l' hl'
    refine ⟨0, h l' (hm l' (by simp [hl'])) ?_, Nat.zero_le _⟩
    rintro rfl
    have := (List.nodup_append.mp hn).2.1
    simp [hl'] at this

/-- **C71**: without a language, `parse` works piece by piece as with one (C58), if the same language is detected for both pieces. -/
theorem c71_pieces (l a g b : PyStr) (ha : Detected a l) (hb : Detected b l) (ts : List PyStr) (ht : Tokens l a ts) (hc : EndsClosed l ts)
    (he : SolidEnd a) (hg : WhiteSpace g) (hs : SolidStart b) (x y : PyStr) (hx : parse a none = .ok x) (hy : parse b none = .ok y) :
    parse (a ++ g ++ b) none = .ok (x ++ g ++ y) := by
  rw [(c27_default_language _ l (c71_join a g b l hg ha hb)).1]
  rw [(c27_default_language _ l ha).1] at hx
  rw [(c27_default_language _ l hb).1] at hy
  exact c58_pieces l (Detected.mem ha) a g b ts ht hc he hg hs x y hx hy

/-- Two Spanish texts; together with many English words the language changes. -/
example : Detected u!"veinte gatos" u!"es" ∧ Detected u!"dos perros" u!"es" ∧ Detected u!"veinte gatos dos perros" u!"es" ∧
    Detected u!"dos one two" u!"en" ∧ WhiteSpace u!" " := by
  simp only [← c26_detection]
  have h : validTokensByLanguage u!"veinte gatos" = .ok u!"es" ∧ validTokensByLanguage u!"dos perros" = .ok u!"es" ∧
      validTokensByLanguage u!"veinte gatos dos perros" = .ok u!"es" ∧ validTokensByLanguage u!"dos one two" = .ok u!"en" := by decide +kernel
  exact ⟨h.1, h.2.1, h.2.2.1, h.2.2.2, by simp, by decide⟩

/-- Neutral text, and text recognised in one language only. -/
example : (∀ l ∈ supported, Score u!"gatos perros" l 0) ∧ Score u!"двадцать коты" u!"ru" 1 ∧
    (∀ l ∈ supported, l ≠ u!"ru" → Score u!"двадцать коты" l 0) := by
  refine ⟨?_, by rw [score_iff (by decide)]; decide +kernel, ?_⟩
  · intro l hl
    rw [score_iff hl]; revert l; decide +kernel
  · intro l hl
    rw [score_iff hl]; revert l; decide +kernel

end NumberParser.Props
