import Verif.Proofs.VocabularyPieces
import Verif.Proofs.VocabularyNumeral
import Verif.Proofs.Apart

/-! Runs of several numbers one after another, with any vocabulary (C94): the proofs of Proofs/Apart for an arbitrary data module. -/

set_option linter.unusedSimpArgs false

namespace NumberParser
open Spec

set_option maxRecDepth 100000

/-- The words of one number in a run. -/
structure PieceOf (I : Info) (is : List RunItem) (n : Nat) : Prop where
  first : ∃ k v r, is = .word k v :: r
  last : ∃ r k v, is = r ++ [.word k v]
  reads : ReadAs I (runWords is) n
  pos : PosScale (runWords is)

/-- The number begins with a word that is not for zero, nor a scale word for one. -/
def Proper (is : List RunItem) : Prop := ∃ k v r, is = .word k v :: r ∧ 0 < v ∧ (k = .scale → 2 ≤ v)

theorem readAs_prefix {I : Info} {ws ws' : List (Class × Nat)} {n : Nat} (hp : PosScale (ws ++ ws')) (h : ReadAs I (ws ++ ws') n) :
    ∃ m, ReadAs I ws m ∧ m ≤ n := by
  induction ws' using snocRec generalizing n with
  | nil => rw [List.append_nil] at h; exact ⟨n, h, Nat.le_refl _⟩
  | snoc ws' w ih =>
    rw [← List.append_assoc] at h hp
    obtain ⟨c, o, q, h, rfl⟩ := h
    obtain ⟨c', o', q', h', hle⟩ := reading_snoc h hp
    obtain ⟨m, h1, h2⟩ := ih hp.init ⟨c', o', q', h', rfl⟩
    exact ⟨m, h1, by omega⟩

/-- The first word of the second number continues the first number. -/
def JoinsOf (I : Info) (a b : List RunItem) : Prop :=
  ∃ k v r m, b = .word k v :: r ∧ ReadAs I (runWords a ++ [(k, v)]) m

/-- No number is continued by the first word of the next one. -/
def AllApartOf (I : Info) : List (List RunItem × Nat) → Prop
  | [] => True
  | [_] => True
  | p :: q :: ps => ¬ JoinsOf I p.1 q.1 ∧ AllApartOf I (q :: ps)

theorem readAs_unique {I : Info} {ws : List (Class × Nat)} (hp : PosScale ws) {m n : Nat} (h : ReadAs I ws m) (h' : ReadAs I ws n) : m = n := by
  obtain ⟨r, h1, rfl⟩ := (readAs_run hp).mp h
  obtain ⟨r', h2, rfl⟩ := (readAs_run hp).mp h'
  rw [h1] at h2; cases h2; rfl

/-- One more word makes the number greater, unless it is a word for zero. -/
theorem readAs_snoc {I : Info} {ws : List (Class × Nat)} {k : Class} {v : Nat} (hp : PosScale (ws ++ [(k, v)])) {m n : Nat}
    (h : ReadAs I ws m) (h' : ReadAs I (ws ++ [(k, v)]) n) : (k ≠ .scale → n = m + v) ∧ (k = .scale → 2 ≤ v → m < n) := by
  obtain ⟨c, o, q, h1, rfl⟩ := h'
  generalize hw : ws ++ [(k, v)] = ws' at h1
  have key : ∀ {ws' : List (Class × Nat)} {w : Class × Nat}, ws ++ [(k, v)] = ws' ++ [w] → ws' = ws ∧ w = (k, v) := by
    intro ws' w e
    have := List.append_inj' e rfl
    exact ⟨this.1.symm, by simpa using this.2.symm⟩
  have hu : ∀ {c o q}, Reading (if I.useLongScale then 10000 else 100) ws c o q → c + o = m := fun hr => readAs_unique hp.init ⟨_, _, _, hr, rfl⟩ h
  cases h1 with
  | start => simp at hw
  | add hr hk _ =>
    obtain ⟨rfl, e⟩ := key hw
    cases e
    have := hu hr
    exact ⟨fun _ => by omega, fun e => absurd e hk⟩
  | @multiplyAll _ c o q p hr h0 _ _ =>
    obtain ⟨rfl, e⟩ := key hw
    cases e
    have := hu hr
    refine ⟨fun e => absurd rfl e, fun _ hv => ?_⟩
    have : (c + o) * 2 ≤ (c + o) * v := Nat.mul_le_mul_left _ hv
    omega
  | @multiplyGroup _ c o q p hr _ _ _ _ =>
    obtain ⟨rfl, e⟩ := key hw
    cases e
    have := hu hr
    refine ⟨fun e => absurd rfl e, fun _ hv => ?_⟩
    have : max o 1 * 2 ≤ max o 1 * v := Nat.mul_le_mul_left _ hv
    omega
  | @closeGroup _ c o q p hr _ _ _ _ =>
    obtain ⟨rfl, e⟩ := key hw
    cases e
    have := hu hr
    refine ⟨fun e => absurd rfl e, fun _ hv => ?_⟩
    have : max o 1 * 2 ≤ max o 1 * v := Nat.mul_le_mul_left _ hv
    omega

/-- After a unit word only a scale word continues a number. -/
theorem readAs_unit {I : Info} {ws : List (Class × Nat)} {d : Nat} {k : Class} {v n : Nat}
    (h : ReadAs I (ws ++ [(.unit, d)] ++ [(k, v)]) n) : k = .scale := by
  obtain ⟨c, o, q, h1, rfl⟩ := h
  generalize hw : ws ++ [(.unit, d)] ++ [(k, v)] = ws' at h1
  have key : ∀ {ws' : List (Class × Nat)} {w : Class × Nat}, ws ++ [(.unit, d)] ++ [(k, v)] = ws' ++ [w] → ws' = ws ++ [(.unit, d)] ∧ w = (k, v) := by
    intro ws' w e
    have := List.append_inj' e rfl
    exact ⟨this.1.symm, by simpa using this.2.symm⟩
  cases h1 with
  | start => simp at hw
  | add hr hk hm =>
    obtain ⟨rfl, e⟩ := key hw
    cases e
    rcases hm with hm | ⟨ws', k', v', e, hf⟩
    · simp at hm
    · have := List.append_inj' e rfl
      have h2 := this.2
      simp only [List.cons.injEq, Prod.mk.injEq, and_true] at h2
      rw [← h2.1] at hf
      cases hf
  | multiplyAll => obtain ⟨_, e⟩ := key hw; cases e; rfl
  | multiplyGroup => obtain ⟨_, e⟩ := key hw; cases e; rfl
  | closeGroup => obtain ⟨_, e⟩ := key hw; cases e; rfl

/-- The first cut of a run that begins with a number. -/
theorem cut_invOf {I : Info} {is T : List RunItem} {m : Nat} {xs : List PyStr} (hp : PieceOf I is m)
    (h : CutOf I (is ++ T) xs) :
    (∃ n, xs = [decDigits n]) ∨
    ∃ z cs k v rest n xs', T = z ++ cs.map .conj ++ .word k v :: rest ∧ ReadAs I (runWords is ++ runWords z) n ∧
      (∀ m, ¬ ReadAs I (runWords is ++ runWords z ++ [(k, v)]) m) ∧ CutOf I (.word k v :: rest) xs' ∧ xs = decDigits n :: cs ++ xs' ∧
      (z = [] ∨ ∃ z' k' v', z = z' ++ [.word k' v']) := by
  generalize hI : is ++ T = I at h
  cases h with
  | last _ => exact Or.inl ⟨_, rfl⟩
  | @more isA rest cs n k v xs' hr he hno hc =>
    right
    rw [List.append_assoc] at hI
    rcases List.append_eq_append_iff.mp hI with ⟨z, e1, e2⟩ | ⟨z, e1, e2⟩
    · -- the number is continued by `z`
      refine ⟨z, cs, k, v, rest, n, xs', by rw [e2, List.append_assoc], ?_, ?_, hc, rfl, ?_⟩
      · rw [← runWords_append, ← e1]; exact hr
      · rw [← runWords_append, ← e1]; exact hno
      · rcases List.eq_nil_or_concat z with h | ⟨z', i, rfl⟩
        · exact Or.inl h
        · right
          obtain ⟨is', k', v', e⟩ := he
          rw [e1, List.concat_eq_append, ← List.append_assoc] at e
          have := (List.append_inj' e rfl).2
          simp only [List.cons.injEq, and_true] at this
          exact ⟨z', k', v', by rw [List.concat_eq_append, this]⟩
    · -- the cut is inside of the number: only possible at its end
      by_cases hz : z = []
      · subst hz
        rw [List.nil_append] at e2
        rw [List.append_nil] at e1
        subst e1
        refine ⟨[], cs, k, v, rest, n, xs', by rw [← e2]; rfl, by simpa [runWords] using hr, ?_, hc, rfl, Or.inl rfl⟩
        simpa [runWords] using hno
      · exfalso
        -- `z` has a word, and its first word is the next word
        have hzw : runWords z ≠ [] := by
          obtain ⟨r, k', v', e⟩ := hp.last
          rcases List.eq_nil_or_concat z with h | ⟨z', i, rfl⟩
          · exact absurd h hz
          · rw [e1, List.concat_eq_append, ← List.append_assoc] at e
            have := (List.append_inj' e rfl).2
            simp only [List.cons.injEq, and_true] at this
            subst this
            rw [List.concat_eq_append, runWords_append]
            simp [runWords]
        have hrw := congrArg runWords e2
        rw [runWords_append, runWords_append, runWords_conj, List.nil_append] at hrw
        cases hq : runWords z with
        | nil => exact hzw hq
        | cons w ws =>
          rw [hq, List.cons_append] at hrw
          injection hrw with h1 h2
          have hpos := hp.pos
          have hreads := hp.reads
          rw [e1, runWords_append, hq, ← h1] at hreads hpos
          have : runWords isA ++ (k, v) :: ws = (runWords isA ++ [(k, v)]) ++ ws := by simp
          rw [this] at hreads hpos
          obtain ⟨m', hm', _⟩ := readAs_prefix hpos hreads
          exact hno m' hm'

theorem pieceItems_posOf {I : Info} {ps : List (List RunItem × Nat)} (h : ∀ p ∈ ps, PieceOf I p.1 p.2) : PosScale (runWords (pieceItems ps)) := by
  induction ps with
  | nil => intro p hp; simp [pieceItems, runWords] at hp
  | cons p ps ih =>
    rw [pieceItems_cons, runWords_append]
    exact (h p (by simp)).pos.append (ih (fun q hq => h q (by simp [hq])))

/-- A run of numbers that do not join is cut between them. -/
theorem cut_apartOf {I : Info} : ∀ (ps : List (List RunItem × Nat)), (∀ p ∈ ps, PieceOf I p.1 p.2) → ps ≠ [] → AllApartOf I ps →
    CutOf I (pieceItems ps) (ps.map (fun p => decDigits p.2)) := by
  intro ps
  induction ps with
  | nil => intro _ h; exact absurd rfl h
  | cons p ps ih =>
    intro hp _ ha
    have hp1 := hp p (by simp)
    cases ps with
    | nil =>
      show CutOf I (p.1 ++ []) [decDigits p.2]
      rw [List.append_nil]
      exact .last hp1.reads
    | cons q ps =>
      obtain ⟨h1, h2⟩ := ha
      have hc := ih (fun x hx => hp x (by simp [hx])) (by simp) h2
      obtain ⟨k, v, r, e⟩ := (hp q (by simp)).first
      have hI : pieceItems (q :: ps) = .word k v :: (r ++ pieceItems ps) := by rw [pieceItems_cons, e]; rfl
      rw [hI] at hc
      have := CutOf.more (cs := []) hp1.reads hp1.last (fun m hm => h1 ⟨k, v, r, m, e, hm⟩) hc
      rw [pieceItems_cons, hI]
      simpa using this

/-- What comes after the first number of a run: the cut is there, or the first word of the next number joins it. -/
theorem cut_nextOf {I : Info} {p q : List RunItem × Nat} {ps : List (List RunItem × Nat)} (hp : PieceOf I p.1 p.2)
    (hq : ∀ x ∈ q :: ps, PieceOf I x.1 x.2) (hpr : Proper q.1) {xs : List PyStr} (h : CutOf I (p.1 ++ pieceItems (q :: ps)) xs) :
    (∃ n, xs = [decDigits n]) ∨ (¬ JoinsOf I p.1 q.1 ∧ ∃ xs', CutOf I (pieceItems (q :: ps)) xs' ∧ xs = decDigits p.2 :: xs') ∨
    (∃ n ys, xs = decDigits n :: ys ∧ p.2 < n) := by
  obtain ⟨k1, v1, r1, e1, hv1, hk1⟩ := hpr
  have hI : pieceItems (q :: ps) = .word k1 v1 :: (r1 ++ pieceItems ps) := by rw [pieceItems_cons, e1]; rfl
  rcases cut_invOf hp h with h | ⟨z, cs, k, v, rest, n, xs', eT, hr, hno, hc, ex, hz⟩
  · exact Or.inl h
  right
  cases z with
  | nil =>
    left
    rw [List.nil_append, hI] at eT
    cases cs with
    | cons c cs => cases eT
    | nil =>
      injection eT with e2 e3
      cases e2
      have hn : n = p.2 := readAs_unique hp.pos (by simpa [runWords] using hr) hp.reads
      subst hn
      refine ⟨?_, xs', by rw [hI, e3]; exact hc, by simpa using ex⟩
      rintro ⟨k', v', r', m, e', hm⟩
      rw [e1] at e'
      injection e' with e' _
      cases e'
      exact hno m (by simpa [runWords] using hm)
  | cons i z =>
    right
    rw [hI, List.cons_append, List.cons_append] at eT
    injection eT with e2 e3
    subst e2
    have hpos : PosScale (runWords p.1 ++ (k1, v1) :: runWords z) := by
      have h1 := pieceItems_posOf hq
      rw [hI, e3] at h1
      have h2 : PosScale ((k1, v1) :: runWords z ++ runWords (cs.map .conj ++ .word k v :: rest)) := by
        rw [List.cons_append, ← runWords_append, ← List.append_assoc]; exact h1
      exact hp.pos.append h2.left
    have hw : runWords p.1 ++ runWords (RunItem.word k1 v1 :: z) = (runWords p.1 ++ [(k1, v1)]) ++ runWords z := by simp [runWords]
    rw [hw] at hr
    have hw' : runWords p.1 ++ (k1, v1) :: runWords z = (runWords p.1 ++ [(k1, v1)]) ++ runWords z := by simp
    rw [hw'] at hpos
    obtain ⟨m', hm', hle⟩ := readAs_prefix hpos hr
    have hgrow := readAs_snoc hpos.left hp.reads hm'
    refine ⟨n, cs ++ xs', by simpa using ex, ?_⟩
    by_cases hk : k1 = .scale
    · have := hgrow.2 hk (hk1 hk); omega
    · have := hgrow.1 hk; omega

/-- If a run of numbers gives these numbers, none of them joins the next one. -/
theorem apart_of_cutOf {I : Info} : ∀ (ps : List (List RunItem × Nat)), (∀ p ∈ ps, PieceOf I p.1 p.2) → (∀ p ∈ ps, Proper p.1) →
    CutOf I (pieceItems ps) (ps.map (fun p => decDigits p.2)) → AllApartOf I ps := by
  intro ps
  induction ps with
  | nil => intro _ _ _; trivial
  | cons p ps ih =>
    intro hp hpr hc
    have hp1 := hp p (by simp)
    cases ps with
    | nil => trivial
    | cons q ps =>
      have hps : ∀ x ∈ q :: ps, PieceOf I x.1 x.2 := fun x hx => hp x (by simp [hx])
      rcases cut_nextOf hp1 hps (hpr q (by simp)) hc with ⟨n, e⟩ | ⟨hj, xs', h1, e⟩ | ⟨n, ys, e, hlt⟩
      · simp at e
      · refine ⟨hj, ih hps (fun x hx => hpr x (by simp [hx])) ?_⟩
        simp only [List.map_cons, List.cons.injEq, true_and] at e
        rw [← e] at h1
        exact h1
      · simp only [List.map_cons, List.cons.injEq] at e
        have := decDigits_inj' e.1
        omega

/-- Every number and the next one are apart, with conjunctions between. -/
def LinkedApartOf (I : Info) : List RunItem → List (List PyStr × List RunItem × Nat) → Prop
  | _, [] => True
  | a, x :: xs => ¬ JoinsOf I a x.2.1 ∧ LinkedApartOf I x.2.1 xs

/-- A run of numbers that do not join, with conjunctions between them, is cut between the numbers, and the conjunctions are kept. -/
theorem cut_linkedOf {I : Info} : ∀ (xs : List (List PyStr × List RunItem × Nat)) (is : List RunItem) (n : Nat), PieceOf I is n →
    (∀ x ∈ xs, PieceOf I x.2.1 x.2.2) → LinkedApartOf I is xs →
    CutOf I (is ++ xs.flatMap (fun x => x.1.map .conj ++ x.2.1)) (decDigits n :: xs.flatMap (fun x => x.1 ++ [decDigits x.2.2])) := by
  intro xs
  induction xs with
  | nil => intro is n hp _ _; rw [List.flatMap_nil, List.append_nil]; exact .last hp.reads
  | cons x xs ih =>
    intro is n hp hx ⟨h1, h2⟩
    have hpx := hx x (by simp)
    have hc := ih x.2.1 x.2.2 hpx (fun y hy => hx y (by simp [hy])) h2
    obtain ⟨k, v, r, e⟩ := hpx.first
    rw [e, List.cons_append] at hc
    have := CutOf.more (cs := x.1) hp.reads hp.last (fun m hm => h1 ⟨k, v, r, m, e, hm⟩) hc
    rw [List.flatMap_cons, List.flatMap_cons, e]
    simpa using this

end NumberParser
