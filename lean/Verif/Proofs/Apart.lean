import Verif.Proofs.Convert
import Verif.Proofs.Growth

/-! Runs of several numbers one after another (C75): when the cuts of the run are the borders of the numbers. -/

set_option linter.unusedSimpArgs false

namespace NumberParser
open Spec

set_option maxRecDepth 100000

/-- The words of one number in a run. -/
structure Piece (l : PyStr) (is : List RunItem) (n : Nat) : Prop where
  first : ∃ k v r, is = .word k v :: r ∧ (k = .scale ∧ 2 ≤ v ∨ k ≠ .scale ∧ (0 < v ∨ n = 0))
  last : ∃ r k v, is = r ++ [.word k v]
  reads : ReadsAs l (runWords is) n
  zero : n = 0 → is = [.word .unit 0]
  pos : PosScale (runWords is)

/-- The first word of the second number continues the first number. -/
def Joins (l : PyStr) (a b : List RunItem) : Prop :=
  ∃ k v r m, b = .word k v :: r ∧ ReadsAs l (runWords a ++ [(k, v)]) m

/-- No number is continued by the first word of the next one. -/
def AllApart (l : PyStr) : List (List RunItem × Nat) → Prop
  | [] => True
  | [_] => True
  | p :: q :: ps => ¬ Joins l p.1 q.1 ∧ AllApart l (q :: ps)

theorem PosScale.append {a b : List (Class × Nat)} (ha : PosScale a) (hb : PosScale b) : PosScale (a ++ b) := by
  intro p hp
  rcases List.mem_append.mp hp with h | h
  · exact ha p h
  · exact hb p h

theorem PosScale.left {a b : List (Class × Nat)} (h : PosScale (a ++ b)) : PosScale a := fun p hp => h p (List.mem_append_left _ hp)
theorem PosScale.right {a b : List (Class × Nat)} (h : PosScale (a ++ b)) : PosScale b := fun p hp => h p (List.mem_append_right _ hp)

theorem readsAs_unique {l : PyStr} {ws : List (Class × Nat)} (hp : PosScale ws) {m n : Nat} (h : ReadsAs l ws m) (h' : ReadsAs l ws n) : m = n := by
  obtain ⟨r, h1, rfl⟩ := (readsAs_run hp).mp h
  obtain ⟨r', h2, rfl⟩ := (readsAs_run hp).mp h'
  rw [h1] at h2; cases h2; rfl

/-- One more word makes the number greater, unless it is a word for zero. -/
theorem readsAs_snoc {l : PyStr} {ws : List (Class × Nat)} {k : Class} {v : Nat} (hp : PosScale (ws ++ [(k, v)])) {m n : Nat}
    (h : ReadsAs l ws m) (h' : ReadsAs l (ws ++ [(k, v)]) n) : (k ≠ .scale → n = m + v) ∧ (k = .scale → 2 ≤ v → m < n) := by
  obtain ⟨c, o, q, h1, rfl⟩ := h'
  generalize hw : ws ++ [(k, v)] = ws' at h1
  have key : ∀ {ws' : List (Class × Nat)} {w : Class × Nat}, ws ++ [(k, v)] = ws' ++ [w] → ws' = ws ∧ w = (k, v) := by
    intro ws' w e
    have := List.append_inj' e rfl
    exact ⟨this.1.symm, by simpa using this.2.symm⟩
  have hu : ∀ {c o q}, Reading (groupLimit l) ws c o q → c + o = m := fun hr => readsAs_unique hp.init ⟨_, _, _, hr, rfl⟩ h
  cases h1 with
  | start => simp at hw
  | add hr hk _ =>
    obtain ⟨rfl, e⟩ := key hw
    cases e
    have := hu hr
    exact ⟨fun _ => by omega, fun e => absurd e hk⟩
  | @multiplyAll _ c o q p hr h0 _ _ =>
    obtain ⟨rfl, e⟩ := key hw
    cases e
    have := hu hr
    refine ⟨fun e => absurd rfl e, fun _ hv => ?_⟩
    have : (c + o) * 2 ≤ (c + o) * v := Nat.mul_le_mul_left _ hv
    omega
  | @multiplyGroup _ c o q p hr _ _ _ _ =>
    obtain ⟨rfl, e⟩ := key hw
    cases e
    have := hu hr
    refine ⟨fun e => absurd rfl e, fun _ hv => ?_⟩
    have : max o 1 * 2 ≤ max o 1 * v := Nat.mul_le_mul_left _ hv
    omega
  | @closeGroup _ c o q p hr _ _ _ _ =>
    obtain ⟨rfl, e⟩ := key hw
    cases e
    have := hu hr
    refine ⟨fun e => absurd rfl e, fun _ hv => ?_⟩
    have : max o 1 * 2 ≤ max o 1 * v := Nat.mul_le_mul_left _ hv
    omega

/-- After a unit word only a scale word continues a number. -/
theorem readsAs_unit {l : PyStr} {ws : List (Class × Nat)} {d : Nat} {k : Class} {v n : Nat}
    (h : ReadsAs l (ws ++ [(.unit, d)] ++ [(k, v)]) n) : k = .scale := by
  obtain ⟨c, o, q, h1, rfl⟩ := h
  generalize hw : ws ++ [(.unit, d)] ++ [(k, v)] = ws' at h1
  have key : ∀ {ws' : List (Class × Nat)} {w : Class × Nat}, ws ++ [(.unit, d)] ++ [(k, v)] = ws' ++ [w] → ws' = ws ++ [(.unit, d)] ∧ w = (k, v) := by
    intro ws' w e
    have := List.append_inj' e rfl
    exact ⟨this.1.symm, by simpa using this.2.symm⟩
  cases h1 with
  | start => simp at hw
  | add hr hk hm =>
    obtain ⟨rfl, e⟩ := key hw
    cases e
    rcases hm with hm | ⟨ws', k', v', e, hf⟩
    · simp at hm
    · have := List.append_inj' e rfl
      have h2 := this.2
      simp only [List.cons.injEq, Prod.mk.injEq, and_true] at h2
      rw [← h2.1] at hf
      cases hf
  | multiplyAll => obtain ⟨_, e⟩ := key hw; cases e; rfl
  | multiplyGroup => obtain ⟨_, e⟩ := key hw; cases e; rfl
  | closeGroup => obtain ⟨_, e⟩ := key hw; cases e; rfl

/-- The first cut of a run that begins with a number. -/
theorem cut_inv {l : PyStr} {is T : List RunItem} {m : Nat} {xs : List PyStr} (hp : Piece l is m)
    (h : Cut l (is ++ T) xs) :
    (∃ n, xs = [decDigits n]) ∨
    ∃ z cs k v rest n xs', T = z ++ cs.map .conj ++ .word k v :: rest ∧ ReadsAs l (runWords is ++ runWords z) n ∧
      (∀ m, ¬ ReadsAs l (runWords is ++ runWords z ++ [(k, v)]) m) ∧ Cut l (.word k v :: rest) xs' ∧ xs = decDigits n :: cs ++ xs' ∧
      (z = [] ∨ ∃ z' k' v', z = z' ++ [.word k' v']) := by
  generalize hI : is ++ T = I at h
  cases h with
  | last _ => exact Or.inl ⟨_, rfl⟩
  | @more isA rest cs n k v xs' hr he hno hc =>
    right
    rw [List.append_assoc] at hI
    rcases List.append_eq_append_iff.mp hI with ⟨z, e1, e2⟩ | ⟨z, e1, e2⟩
    · -- the number is continued by `z`
      refine ⟨z, cs, k, v, rest, n, xs', by rw [e2, List.append_assoc], ?_, ?_, hc, rfl, ?_⟩
      · rw [← runWords_append, ← e1]; exact hr
      · rw [← runWords_append, ← e1]; exact hno
      · rcases List.eq_nil_or_concat z with h | ⟨z', i, rfl⟩
        · exact Or.inl h
        · right
          obtain ⟨is', k', v', e⟩ := he
          rw [e1, List.concat_eq_append, ← List.append_assoc] at e
          have := (List.append_inj' e rfl).2
          simp only [List.cons.injEq, and_true] at this
          exact ⟨z', k', v', by rw [List.concat_eq_append, this]⟩
    · -- the cut is inside of the number: only possible at its end
      by_cases hz : z = []
      · subst hz
        rw [List.nil_append] at e2
        rw [List.append_nil] at e1
        subst e1
        refine ⟨[], cs, k, v, rest, n, xs', by rw [← e2]; rfl, by simpa [runWords] using hr, ?_, hc, rfl, Or.inl rfl⟩
        simpa [runWords] using hno
      · exfalso
        -- `z` has a word, and its first word is the next word
        have hzw : runWords z ≠ [] := by
          obtain ⟨r, k', v', e⟩ := hp.last
          rcases List.eq_nil_or_concat z with h | ⟨z', i, rfl⟩
          · exact absurd h hz
          · rw [e1, List.concat_eq_append, ← List.append_assoc] at e
            have := (List.append_inj' e rfl).2
            simp only [List.cons.injEq, and_true] at this
            subst this
            rw [List.concat_eq_append, runWords_append]
            simp [runWords]
        have hrw := congrArg runWords e2
        rw [runWords_append, runWords_append, runWords_conj, List.nil_append] at hrw
        cases hq : runWords z with
        | nil => exact hzw hq
        | cons w ws =>
          rw [hq, List.cons_append] at hrw
          injection hrw with h1 h2
          have hpos := hp.pos
          have hreads := hp.reads
          rw [e1, runWords_append, hq, ← h1] at hreads hpos
          have : runWords isA ++ (k, v) :: ws = (runWords isA ++ [(k, v)]) ++ ws := by simp
          rw [this] at hreads hpos
          obtain ⟨m', hm', _⟩ := readsAs_prefix hpos hreads
          exact hno m' hm'

/-- The items of several numbers. -/
def pieceItems (ps : List (List RunItem × Nat)) : List RunItem := (ps.map (fun p => p.1)).flatten

theorem pieceItems_cons (p : List RunItem × Nat) (ps : List (List RunItem × Nat)) : pieceItems (p :: ps) = p.1 ++ pieceItems ps := rfl

theorem pieceItems_pos {l : PyStr} {ps : List (List RunItem × Nat)} (h : ∀ p ∈ ps, Piece l p.1 p.2) : PosScale (runWords (pieceItems ps)) := by
  induction ps with
  | nil => intro p hp; simp [pieceItems, runWords] at hp
  | cons p ps ih =>
    rw [pieceItems_cons, runWords_append]
    exact (h p (by simp)).pos.append (ih (fun q hq => h q (by simp [hq])))

/-- A run of numbers that do not join is cut between them. -/
theorem cut_apart {l : PyStr} : ∀ (ps : List (List RunItem × Nat)), (∀ p ∈ ps, Piece l p.1 p.2) → ps ≠ [] → AllApart l ps →
    Cut l (pieceItems ps) (ps.map (fun p => decDigits p.2)) := by
  intro ps
  induction ps with
  | nil => intro _ h; exact absurd rfl h
  | cons p ps ih =>
    intro hp _ ha
    have hp1 := hp p (by simp)
    cases ps with
    | nil =>
      show Cut l (p.1 ++ []) [decDigits p.2]
      rw [List.append_nil]
      exact .last hp1.reads
    | cons q ps =>
      obtain ⟨h1, h2⟩ := ha
      have hc := ih (fun x hx => hp x (by simp [hx])) (by simp) h2
      obtain ⟨k, v, r, e, _⟩ := (hp q (by simp)).first
      have hI : pieceItems (q :: ps) = .word k v :: (r ++ pieceItems ps) := by rw [pieceItems_cons, e]; rfl
      rw [hI] at hc
      have := Cut.more (cs := []) hp1.reads hp1.last (fun m hm => h1 ⟨k, v, r, m, e, hm⟩) hc
      rw [pieceItems_cons, hI]
      simpa using this

theorem decDigits_inj' {m n : Nat} (h : decDigits m = decDigits n) : m = n := by
  obtain ⟨_, ds, h1, h2, _⟩ := (numeral_iff _ _).mp (numeral_decDigits m)
  obtain ⟨_, ds', h1', h2', _⟩ := (numeral_iff _ _).mp (numeral_decDigits n)
  rw [h, h1'] at h1
  cases h1
  rw [← h2, ← h2']

/-- What comes after the first number of a run: the cut is there, or the first word of the next number joins it. -/
theorem cut_next {l : PyStr} {p q : List RunItem × Nat} {ps : List (List RunItem × Nat)} (hp : Piece l p.1 p.2)
    (hq : ∀ x ∈ q :: ps, Piece l x.1 x.2) {xs : List PyStr} (h : Cut l (p.1 ++ pieceItems (q :: ps)) xs) :
    (∃ n, xs = [decDigits n]) ∨ (¬ Joins l p.1 q.1 ∧ ∃ xs', Cut l (pieceItems (q :: ps)) xs' ∧ xs = decDigits p.2 :: xs') ∨
    (∃ n ys, xs = decDigits n :: ys ∧ p.2 < n) ∨
    (q.1 = [.word .unit 0] ∧ q.2 = 0 ∧ ∃ z cs k v rest xs', pieceItems ps = z ++ cs.map .conj ++ .word k v :: rest ∧
      ReadsAs l (runWords p.1 ++ [(.unit, 0)] ++ runWords z) p.2 ∧ Cut l (.word k v :: rest) xs' ∧ xs = decDigits p.2 :: cs ++ xs') := by
  obtain ⟨k1, v1, r1, e1, hk1⟩ := (hq q (by simp)).first
  have hI : pieceItems (q :: ps) = .word k1 v1 :: (r1 ++ pieceItems ps) := by rw [pieceItems_cons, e1]; rfl
  rcases cut_inv hp h with h | ⟨z, cs, k, v, rest, n, xs', eT, hr, hno, hc, ex, hz⟩
  · exact Or.inl h
  right
  cases z with
  | nil =>
    left
    rw [List.nil_append, hI] at eT
    cases cs with
    | cons c cs => cases eT
    | nil =>
      injection eT with e2 e3
      cases e2
      have hn : n = p.2 := readsAs_unique hp.pos (by simpa [runWords] using hr) hp.reads
      subst hn
      refine ⟨?_, xs', by rw [hI, e3]; exact hc, by simpa using ex⟩
      rintro ⟨k', v', r', m, e', hm⟩
      rw [e1] at e'
      injection e' with e' _
      cases e'
      exact hno m (by simpa [runWords] using hm)
  | cons i z =>
    right
    rw [hI, List.cons_append, List.cons_append] at eT
    injection eT with e2 e3
    subst e2
    have hpos : PosScale (runWords p.1 ++ (k1, v1) :: runWords z) := by
      have h1 := pieceItems_pos hq
      rw [hI, e3] at h1
      have h2 : PosScale ((k1, v1) :: runWords z ++ runWords (cs.map .conj ++ .word k v :: rest)) := by
        rw [List.cons_append, ← runWords_append, ← List.append_assoc]; exact h1
      exact hp.pos.append h2.left
    have hw : runWords p.1 ++ runWords (RunItem.word k1 v1 :: z) = (runWords p.1 ++ [(k1, v1)]) ++ runWords z := by simp [runWords]
    rw [hw] at hr
    have hw' : runWords p.1 ++ (k1, v1) :: runWords z = (runWords p.1 ++ [(k1, v1)]) ++ runWords z := by simp
    rw [hw'] at hpos
    obtain ⟨m', hm', hle⟩ := readsAs_prefix hpos hr
    have hgrow := readsAs_snoc hpos.left hp.reads hm'
    by_cases hlt : p.2 < n
    · exact Or.inl ⟨n, cs ++ xs', by simpa using ex, hlt⟩
    · right
      have hq0 : q.2 = 0 ∧ v1 = 0 := by
        rcases hk1 with ⟨hk, hv⟩ | ⟨hk, hv⟩
        · have := hgrow.2 hk hv; omega
        · have := hgrow.1 hk
          have hv0 : v1 = 0 := by omega
          exact ⟨hv.resolve_left (by omega), hv0⟩
      have hz0 := (hq q (by simp)).zero hq0.1
      rw [e1] at hz0
      injection hz0 with h1 h2
      injection h1 with h3 h4
      subst h3 h4 h2
      have hm : m' = p.2 := by have := hgrow.1 (by simp); omega
      have hn : n = p.2 := by omega
      subst hn
      refine ⟨e1, hq0.1, z, cs, k, v, rest, xs', by simpa using e3, hr, hc, ex⟩

/-- A run of numbers does not give the numbers with an additional zero in front. -/
theorem cut_not_zero {l : PyStr} : ∀ (ps : List (List RunItem × Nat)), (∀ p ∈ ps, Piece l p.1 p.2) → ps ≠ [] →
    ¬ Cut l (pieceItems ps) (decDigits 0 :: ps.map (fun p => decDigits p.2)) := by
  intro ps
  induction ps with
  | nil => intro _ h; exact absurd rfl h
  | cons p ps ih =>
    intro hp _ hc
    have hp1 := hp p (by simp)
    cases ps with
    | nil =>
      rcases cut_inv (T := []) hp1 (by simpa [pieceItems] using hc) with ⟨n, e⟩ | ⟨z, cs, k, v, rest, n, xs', eT, _⟩
      · simp at e
      · simp at eT
    | cons q ps =>
      rcases cut_next hp1 (fun x hx => hp x (by simp [hx])) hc with ⟨n, e⟩ | ⟨_, xs', h1, e⟩ | ⟨n, ys, e, hlt⟩ | ⟨_, hq0, z, cs, k, v, rest, xs', eT, hr, _, e⟩
      · simp at e
      · simp only [List.map_cons, List.cons.injEq] at e
        have h0 : p.2 = 0 := (decDigits_inj' e.1).symm
        refine ih (fun x hx => hp x (by simp [hx])) (by simp) ?_
        rw [← e.2, h0] at h1
        exact h1
      · simp only [List.map_cons, List.cons.injEq] at e
        have := decDigits_inj' e.1
        omega
      · simp only [List.map_cons, List.cons_append, List.cons.injEq] at e
        have h0 : p.2 = 0 := (decDigits_inj' e.1).symm
        have hz := hp1.zero h0
        rw [hz] at hr
        have hpos : PosScale (runWords [RunItem.word .unit 0] ++ [(.unit, 0)]) := by intro x hx; simp [runWords] at hx
        have : ∃ m, ReadsAs l ([] ++ [(.unit, 0)] ++ [(.unit, 0)]) m := by
          obtain ⟨c, o, q', hR, _⟩ := hr
          have hps : PosScale (runWords [RunItem.word .unit 0] ++ [(.unit, 0)] ++ runWords z) := by
            refine hpos.append ?_
            have h1 := pieceItems_pos (l := l) (ps := ps) (fun x hx => hp x (by simp [hx]))
            rw [eT, List.append_assoc, runWords_append] at h1
            exact h1.left
          obtain ⟨m, hm, _⟩ := readsAs_prefix hps ⟨c, o, q', hR, rfl⟩
          exact ⟨m, by simpa [runWords] using hm⟩
        obtain ⟨m, hm⟩ := this
        cases readsAs_unit hm

/-- If a run of numbers gives these numbers, none of them joins the next one. -/
theorem apart_of_cut {l : PyStr} : ∀ (ps : List (List RunItem × Nat)), (∀ p ∈ ps, Piece l p.1 p.2) →
    Cut l (pieceItems ps) (ps.map (fun p => decDigits p.2)) → AllApart l ps := by
  intro ps
  induction ps with
  | nil => intro _ _; trivial
  | cons p ps ih =>
    intro hp hc
    have hp1 := hp p (by simp)
    cases ps with
    | nil => trivial
    | cons q ps =>
      have hps : ∀ x ∈ q :: ps, Piece l x.1 x.2 := fun x hx => hp x (by simp [hx])
      rcases cut_next hp1 hps hc with ⟨n, e⟩ | ⟨hj, xs', h1, e⟩ | ⟨n, ys, e, hlt⟩ | ⟨hq1, hq0, z, cs, k, v, rest, xs', eT, hr, hc', e⟩
      · simp at e
      · refine ⟨hj, ih hps ?_⟩
        simp only [List.map_cons, List.cons.injEq, true_and] at e
        rw [← e] at h1
        exact h1
      · simp only [List.map_cons, List.cons.injEq] at e
        have := decDigits_inj' e.1
        omega
      · exfalso
        have hps2 : ∀ x ∈ ps, Piece l x.1 x.2 := fun x hx => hp x (by simp [hx])
        cases ps with
        | nil => simp [pieceItems] at eT
        | cons s ps =>
          obtain ⟨k2, v2, r2, e2, hk2⟩ := (hps2 s (by simp)).first
          have hI : pieceItems (s :: ps) = .word k2 v2 :: (r2 ++ pieceItems ps) := by rw [pieceItems_cons, e2]; rfl
          have hposT := pieceItems_pos hps2
          cases z with
          | nil =>
            have eT' := eT
            rw [hI, List.nil_append] at eT'
            cases cs with
            | cons c cs => cases eT'
            | nil =>
              simp only [List.map_nil, List.nil_append] at eT
              rw [← eT] at hc'
              simp only [List.map_cons, List.nil_append, List.cons_append, List.cons.injEq, true_and] at e
              rw [hq0] at e
              rw [← e] at hc'
              exact cut_not_zero (s :: ps) hps2 (by simp) hc'
          | cons i z =>
            rw [hI, List.cons_append, List.cons_append] at eT
            injection eT with e3 e4
            subst e3
            have hps3 : PosScale (runWords p.1 ++ [(.unit, 0)] ++ [(k2, v2)] ++ runWords z) := by
              rw [hI, e4, ← List.cons_append, ← List.cons_append, List.append_assoc, runWords_append] at hposT
              have h1 := hposT.left
              have : PosScale ([(k2, v2)] ++ runWords z) := h1
              refine ((hp1.pos.append ?_).append this.left).append this.right
              intro x hx; simp at hx
            have hw : runWords p.1 ++ [(.unit, 0)] ++ runWords (RunItem.word k2 v2 :: z) = runWords p.1 ++ [(.unit, 0)] ++ [(k2, v2)] ++ runWords z := by
              simp [runWords]
            rw [hw] at hr
            obtain ⟨m, hm, hle⟩ := readsAs_prefix hps3 hr
            have hsc := readsAs_unit hm
            obtain ⟨m0, hm0, _⟩ := readsAs_prefix hps3.left hm
            have h0 := (readsAs_snoc hps3.left.left hp1.reads hm0).1 (by simp)
            rcases hk2 with ⟨_, hv⟩ | ⟨hk, _⟩
            · have := (readsAs_snoc hps3.left hm0 hm).2 hsc hv
              omega
            · exact hk hsc

/-- Every number and the next one are apart, with conjunctions between. -/
def LinkedApart (l : PyStr) : List RunItem → List (List PyStr × List RunItem × Nat) → Prop
  | _, [] => True
  | a, x :: xs => ¬ Joins l a x.2.1 ∧ LinkedApart l x.2.1 xs

/-- A run of numbers that do not join, with conjunctions between them, is cut between the numbers, and the conjunctions are kept. -/
theorem cut_linked {l : PyStr} : ∀ (xs : List (List PyStr × List RunItem × Nat)) (is : List RunItem) (n : Nat), Piece l is n →
    (∀ x ∈ xs, Piece l x.2.1 x.2.2) → LinkedApart l is xs →
    Cut l (is ++ xs.flatMap (fun x => x.1.map .conj ++ x.2.1)) (decDigits n :: xs.flatMap (fun x => x.1 ++ [decDigits x.2.2])) := by
  intro xs
  induction xs with
  | nil => intro is n hp _ _; rw [List.flatMap_nil, List.append_nil]; exact .last hp.reads
  | cons x xs ih =>
    intro is n hp hx ⟨h1, h2⟩
    have hpx := hx x (by simp)
    have hc := ih x.2.1 x.2.2 hpx (fun y hy => hx y (by simp [hy])) h2
    obtain ⟨k, v, r, e, _⟩ := hpx.first
    rw [e, List.cons_append] at hc
    have := Cut.more (cs := x.1) hp.reads hp.last (fun m hm => h1 ⟨k, v, r, m, e, hm⟩) hc
    rw [List.flatMap_cons, List.flatMap_cons, e]
    simpa using this

end NumberParser
