import Verif.Proofs.RoundTrip
import Verif.Spec.Hundreds

/-! Groups with counted hundreds. -/

namespace NumberParser
open Spec

/-- In every state where a group can begin, the words are read as the group value `g`. -/
def GroupRun (mg : Nat) (ks : List Kind) (g : Nat) : Prop :=
  ∀ r : RState, r.grp = 0 → (r.prev = none ∨ ∃ q, r.prev = some (.big q)) → ((r.total = 0 ∧ r.pow = none) ∨ ∃ pp, r.pow = some pp ∧ 100 < pp) →
    ∃ r', runR mg ks r = some r' ∧ r'.total = r.total ∧ r'.grp = g ∧ r'.pow = r.pow

theorem tail_groupRun {mg : Nat} {t : List Kind} {v : Nat} (h : Tail t v) : GroupRun mg t v := by
  intro r hg hp _
  obtain ⟨r', h1, h2, h3, h4⟩ := h.run (mg := mg) r (by
    rcases hp with h | h
    · exact Or.inl h
    · exact Or.inr (Or.inl h))
  exact ⟨r', h1, h2, by rw [h3, hg, Nat.zero_add], h4⟩

theorem counted_groupRun {mg : Nat} {ka kb : List Kind} {a b : Nat} (ha : Tail ka a) (h1 : 1 ≤ a) (h99 : a ≤ 100) (hb : Tail kb b)
    (hmg : 100 ≤ mg) : GroupRun mg (ka ++ .big 100 :: kb) (a * 100 + b) := by
  intro r hg hp hpow
  obtain ⟨r1, e1, e2, e3, e4⟩ := tail_groupRun ha r hg hp hpow
  have hs : stepR mg r1 (.big 100) = some ⟨r.total, a * 100, some (.big 100), r.pow⟩ := by
    unfold stepR
    have hl : largeK (.big 100) r1.total r1.grp = none := by simp [largeK]
    rw [hl]
    have hv : validK (.big 100) r1.prev r1.pow r1.total r1.grp = true := by
      simp only [validK]
      split
      · rfl
      · rw [if_neg (by omega), e4]
        rcases hpow with ⟨_, h⟩ | ⟨pp, h, hpp⟩
        · rw [h]
        · rw [h]; simp only; rw [if_neg (by omega)]
    simp only [hv, if_true]
    rw [if_neg (by omega), if_neg (by omega), e2, e3, e4]
  obtain ⟨r2, f1, f2, f3, f4⟩ := hb.run (mg := mg) ⟨r.total, a * 100, some (.big 100), r.pow⟩ (Or.inr (Or.inl ⟨100, rfl⟩))
  refine ⟨r2, ?_, f2, f3, f4⟩
  rw [runR_append, e1]
  simp only [Option.bind_some, runR, hs]
  exact f1

theorem group_scale {mg : Nat} {ks : List Kind} {g p : Nat} (hG : GroupRun mg ks g) (hg : 1 ≤ g) (hgp : g ≤ p) (hmg : mg < p) (h100 : 100 < p)
    (r : RState) (hr : r.grp = 0) (hp : r.prev = none ∨ ∃ q, r.prev = some (.big q))
    (hpow : (r.total = 0 ∧ r.pow = none) ∨ ∃ pp, r.pow = some pp ∧ p < pp ∧ pp ≤ r.total) :
    runR mg (ks ++ [.big p]) r = some ⟨r.total + g * p, 0, some (.big p), some p⟩ := by
  obtain ⟨r', h1, h2, h3, h4⟩ := hG r hr hp (hpow.imp id (fun ⟨pp, a, b, _⟩ => ⟨pp, a, by omega⟩))
  rw [runR_append, h1]
  simp only [Option.bind_some, runR]
  have : stepR mg r' (.big p) = some ⟨r.total + g * p, 0, some (.big p), some p⟩ := by
    unfold stepR
    by_cases hl : p > r'.total + r'.grp
    · have hl' : largeK (.big p) r'.total r'.grp = some p := by
        simp only [largeK]; rw [if_pos (by omega)]
      rw [hl']
      rcases hpow with ⟨ht, _⟩ | ⟨pp, _, hlt, hle⟩
      · simp [h2, h3, ht]
      · omega
    · have hl' : largeK (.big p) r'.total r'.grp = none := by
        simp only [largeK]; rw [if_neg (by omega)]
      have hv : validK (.big p) r'.prev r'.pow r'.total r'.grp = true := by
        simp only [validK]
        split
        · rfl
        · rw [if_neg (by omega), h4]
          rcases hpow with ⟨_, h⟩ | ⟨pp, h, hlt, _⟩
          · rw [h]
          · rw [h]; simp only; rw [if_neg (by omega)]
      rw [hl']
      simp only [hv, if_true]
      rw [if_pos hmg, if_neg (by omega), h2, h3]
  rw [this]; rfl

/-- Groups with scale words, and a last group. -/
theorem counted_run {ld : LangData} (hwf : ld.WF) {scale : Nat → Nat} {K : Nat} {counted : Nat → List PyStr} {scaleWord : Nat → PyStr}
    (hc : ∀ v, v < 10000 → GroupRun ld.maximumGroupValue (wordKinds ld (counted v)) v ∧ AllNum ld (counted v))
    (hs : ∀ k, k < K → kindOf ld (norm (scaleWord k)) = .big (scale k))
    (hmg : ∀ k, ld.maximumGroupValue < scale k) (hlt : ∀ j k, j < k → k < K → scale j < scale k) :
    ∀ (groups : List (Nat × Nat)) (low : Nat), groups.Pairwise (fun a b => b.1 < a.1) →
      (∀ x ∈ groups, x.1 < K ∧ 1 ≤ x.2 ∧ x.2 < 10000 ∧ x.2 ≤ scale x.1) → low < 10000 →
      AllNum ld (countedWords counted scaleWord groups low) ∧
      ∀ r : RState, r.grp = 0 → (r.prev = none ∨ ∃ q, r.prev = some (.big q)) →
        ((r.total = 0 ∧ r.pow = none) ∨ ∃ k, k < K ∧ (∀ x ∈ groups, x.1 < k) ∧ r.pow = some (scale k) ∧ scale k ≤ r.total) →
        ∃ r', runR ld.maximumGroupValue (wordKinds ld (countedWords counted scaleWord groups low)) r = some r' ∧
          r'.value = r.total + countedValue scale groups low := by
  have hg100 : 100 ≤ ld.maximumGroupValue := hwf.group.1
  intro groups
  induction groups with
  | nil =>
    intro low _ _ hlow
    unfold countedWords countedValue
    simp only [List.flatMap_nil, List.nil_append, List.map_nil, List.sum_nil, Nat.zero_add]
    by_cases h0 : low = 0
    · rw [if_pos h0]
      refine ⟨by simp [AllNum, wordKinds], fun r hr _ _ => ⟨r, rfl, ?_⟩⟩
      simp [RState.value, hr, h0]
    · rw [if_neg h0]
      refine ⟨(hc low hlow).2, fun r hr hp hpow => ?_⟩
      obtain ⟨r', h1, h2, h3, _⟩ := (hc low hlow).1 r hr hp (hpow.imp id (fun ⟨k, _, _, a, _⟩ => ⟨_, a, by have := hmg k; omega⟩))
      exact ⟨r', h1, by simp [RState.value, h2, h3]⟩
  | cons x groups ih =>
    intro low hpw hg hlow
    obtain ⟨hx, hpw⟩ := List.pairwise_cons.mp hpw
    obtain ⟨hk, h1, h4, hle⟩ := hg x (by simp)
    obtain ⟨ih1, ih2⟩ := ih low hpw (fun y hy => hg y (by simp [hy])) hlow
    have ew : countedWords counted scaleWord (x :: groups) low = (counted x.2 ++ [scaleWord x.1]) ++ countedWords counted scaleWord groups low := by
      unfold countedWords; simp
    have ev : countedValue scale (x :: groups) low = x.2 * scale x.1 + countedValue scale groups low := by
      unfold countedValue; simp [Nat.add_assoc]
    have esw : wordKinds ld [scaleWord x.1] = [.big (scale x.1)] := by
      show [kindOf ld (norm (scaleWord x.1))] = _
      rw [hs _ hk]
    refine ⟨?_, ?_⟩
    · rw [ew]
      refine AllNum.append (AllNum.append (hc _ h4).2 ?_) ih1
      intro k hk'
      rw [esw] at hk'
      simp only [List.mem_singleton] at hk'
      rw [hk']; simp
    · intro r hr hp hpow
      have hstep := group_scale (hc _ h4).1 h1 hle (hmg x.1) (by have := hmg x.1; omega) r hr hp
        (hpow.imp id (fun ⟨k, hkK, hlt', a, b⟩ => ⟨_, a, hlt _ _ (hlt' x (by simp)) hkK, b⟩))
      have hge : scale x.1 ≤ x.2 * scale x.1 := Nat.le_mul_of_pos_left _ h1
      obtain ⟨r', e1, e2⟩ := ih2 ⟨r.total + x.2 * scale x.1, 0, some (.big (scale x.1)), some (scale x.1)⟩ rfl (Or.inr ⟨_, rfl⟩)
        (Or.inr ⟨x.1, hk, hx, rfl, by simp only; omega⟩)
      refine ⟨r', ?_, by rw [e2, ev]; simp [Nat.add_assoc]⟩
      rw [ew, wordKinds_append, wordKinds_append, esw, runR_append, hstep]
      exact e1

theorem counted_value {ld : LangData} (hwf : ld.WF) {scale : Nat → Nat} {K : Nat} {counted : Nat → List PyStr} {scaleWord : Nat → PyStr}
    (hc : ∀ v, v < 10000 → GroupRun ld.maximumGroupValue (wordKinds ld (counted v)) v ∧ AllNum ld (counted v))
    (hs : ∀ k, k < K → kindOf ld (norm (scaleWord k)) = .big (scale k))
    (hmg : ∀ k, ld.maximumGroupValue < scale k) (hlt : ∀ j k, j < k → k < K → scale j < scale k)
    {groups : List (Nat × Nat)} {low : Nat} (h : CountedGroups scale K groups low) :
    kindsValue ld.maximumGroupValue (wordKinds ld (countedWords counted scaleWord groups low)) = some (countedValue scale groups low) ∧
      AllNum ld (countedWords counted scaleWord groups low) := by
  obtain ⟨h1, h2⟩ := counted_run hwf hc hs hmg hlt groups low h.smaller h.group h.rest
  obtain ⟨r', e1, e2⟩ := h2 RState.init rfl (Or.inl rfl) (Or.inl ⟨rfl, rfl⟩)
  refine ⟨?_, h1⟩
  unfold kindsValue
  rw [e1]; simp [e2, RState.init]

theorem en_counted {v : Nat} (h : v < 10000) : GroupRun 100 (wordKinds ldEn (enCounted v)) v ∧ AllNum ldEn (enCounted v) := by
  unfold enCounted
  by_cases h1 : v < 100
  · rw [if_pos h1]
    exact ⟨tail_groupRun (en_below100 h1), (en_below100 h1).ne_other⟩
  · rw [if_neg h1]
    have ha := en_below100 (n := v / 100) (by omega)
    have hb : Tail (wordKinds ldEn (if v % 100 = 0 then [] else enBelow100 (v % 100))) (v % 100) := by
      by_cases h2 : v % 100 = 0
      · rw [if_pos h2, h2]; exact Tail.nil
      · rw [if_neg h2]; exact en_below100 (by omega)
    have ew : wordKinds ldEn (enBelow100 (v / 100) ++ [u!"hundred"] ++ (if v % 100 = 0 then [] else enBelow100 (v % 100))) =
        wordKinds ldEn (enBelow100 (v / 100)) ++ .big 100 :: wordKinds ldEn (if v % 100 = 0 then [] else enBelow100 (v % 100)) := by
      rw [List.append_assoc, wordKinds_append, wordKinds_append]
      congr 1
    constructor
    · rw [ew]
      have := counted_groupRun (mg := 100) ha (by omega) (by omega) hb (by omega)
      rwa [show v / 100 * 100 + v % 100 = v by omega] at this
    · intro k hk
      rw [ew] at hk
      rcases List.mem_append.mp hk with hk | hk
      · exact ha.ne_other k hk
      · rcases List.mem_cons.mp hk with rfl | hk
        · simp
        · exact hb.ne_other k hk

theorem hi_counted {v : Nat} (h : v < 10000) : GroupRun 100 (wordKinds ldHi (hiCounted v)) v ∧ AllNum ldHi (hiCounted v) := by
  unfold hiCounted
  by_cases h1 : v < 100
  · rw [if_pos h1]
    exact ⟨tail_groupRun (hi_tail h1), (hi_tail h1).ne_other⟩
  · rw [if_neg h1]
    have ha := hi_tail (n := v / 100) (by omega)
    have hb : Tail (wordKinds ldHi (if v % 100 = 0 then [] else [nth hiBelow100 (v % 100)])) (v % 100) := by
      by_cases h2 : v % 100 = 0
      · rw [if_pos h2, h2]; exact Tail.nil
      · rw [if_neg h2]; exact hi_tail (by omega)
    have ew : wordKinds ldHi ([nth hiBelow100 (v / 100), u!"सौ"] ++ (if v % 100 = 0 then [] else [nth hiBelow100 (v % 100)])) =
        wordKinds ldHi [nth hiBelow100 (v / 100)] ++ .big 100 :: wordKinds ldHi (if v % 100 = 0 then [] else [nth hiBelow100 (v % 100)]) := by
      rw [wordKinds_append]
      show [kindOf ldHi (norm (nth hiBelow100 (v / 100))), kindOf ldHi (norm u!"सौ")] ++ _ = [kindOf ldHi (norm (nth hiBelow100 (v / 100)))] ++ _
      rw [hi_sau]; rfl
    constructor
    · rw [ew]
      have := counted_groupRun (mg := 100) ha (by omega) (by omega) hb (by omega)
      rwa [show v / 100 * 100 + v % 100 = v by omega] at this
    · intro k hk
      rw [ew] at hk
      rcases List.mem_append.mp hk with hk | hk
      · exact ha.ne_other k hk
      · rcases List.mem_cons.mp hk with rfl | hk
        · simp
        · exact hb.ne_other k hk

end NumberParser
