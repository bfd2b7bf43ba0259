import Verif.Proofs.ApartWords

/-! When the first word of a number continues the number before it (C75). -/

set_option linter.unusedSimpArgs false

namespace NumberParser
open Spec

set_option maxRecDepth 100000

/-- The word `k` continues the words `ks`. -/
def Continues (mg : Nat) (ks : List Kind) (k : Kind) : Prop := ∃ r, runR mg (ks ++ [k]) RState.init = some r

def plainKind : Kind → Bool
  | .unit _ | .direct _ | .tens _ | .hund _ => true
  | _ => false

/-- Which kinds may follow each other. -/
def kindFollows (k q : Kind) : Bool := validK k (some q) none 0 0

theorem continues_step {mg : Nat} {ks : List Kind} {k : Kind} {r : RState} (h : runR mg ks RState.init = some r) :
    Continues mg ks k ↔ ∃ r', stepR mg r k = some r' := by
  unfold Continues
  rw [runR_append, h]
  simp only [Option.bind_some, runR]
  cases stepR mg r k with
  | none => simp
  | some r' => simp

theorem continues_plain {mg : Nat} {ks : List Kind} {k q : Kind} {r : RState} (h : runR mg ks RState.init = some r) (hq : ks.getLast? = some q)
    (hk : plainKind k = true) : Continues mg ks k ↔ kindFollows k q = true := by
  have hprev : r.prev = some q := by
    rcases List.eq_nil_or_concat ks with rfl | ⟨ks', q', rfl⟩
    · cases hq
    · rw [List.concat_eq_append] at h hq
      rw [List.getLast?_concat] at hq
      cases hq
      exact runR_prev h
  rw [continues_step h]
  unfold stepR kindFollows
  cases k with
  | unit v => rw [hprev]; cases q <;> simp [largeK, validK]
  | direct v => rw [hprev]; cases q <;> simp [largeK, validK]
  | tens v => rw [hprev]; cases q <;> simp [largeK, validK]
  | hund v => rw [hprev]; cases q <;> simp [largeK, validK]
  | big p => cases hk
  | other => cases hk

theorem headEn_plain (h : Nat) : plainKind (headEn h) = true := by
  unfold headEn smallKind
  repeat' split
  all_goals rfl

theorem headSl_plain (t h : Nat) : plainKind (headSl t h) = true := by
  unfold headSl smallKind
  repeat' split
  all_goals rfl

theorem smallKind_plain (i : Nat) : plainKind (smallKind i) = true := by
  unfold smallKind
  split <;> rfl

theorem en_follows {m h : Nat} {q : Kind} (hq : m = 0 ∧ q = .unit 0 ∨ m % 100 ≠ 0 ∧ q = last100 20 (m % 100) ∨ m ≠ 0 ∧ m % 100 = 0 ∧ ∃ p, q = .big p) :
    kindFollows (headEn h) q = true ↔ ¬ (m = 0 ∨ m % 10 ≠ 0 ∨ m % 100 = 10 ∨ (m % 100 ≠ 0 ∧ 10 ≤ h ∧ h < 100)) := by
  rcases hq with ⟨h0, rfl⟩ | ⟨h1, rfl⟩ | ⟨h0, h1, p, rfl⟩
  · unfold headEn smallKind
    repeat' split
    all_goals simp [kindFollows, validK, h0]
  · unfold headEn last100 smallKind
    repeat' split
    all_goals simp only [kindFollows, validK]
    all_goals simp only [Bool.false_eq_true, false_iff, true_iff, Classical.not_not]
    all_goals omega
  · unfold headEn smallKind
    repeat' split
    all_goals simp only [kindFollows, validK, true_iff]
    all_goals omega

theorem sl_follows {t m h : Nat} (ht : t = 20 ∨ t = 30) {q : Kind} (hq : m = 0 ∧ q = .unit 0 ∨ m % 100 ≠ 0 ∧ q = last100 t (m % 100) ∨
      m % 1000 ≠ 0 ∧ m % 100 = 0 ∧ (∃ p, q = .hund p) ∨ m ≠ 0 ∧ m % 1000 = 0 ∧ ∃ p, q = .big p) :
    kindFollows (headSl t h) q = true ↔ ¬ (m = 0 ∨ m % 10 ≠ 0 ∨ m % 100 = 10 ∨ (t = 30 ∧ m % 100 = 20) ∨ (m % 100 ≠ 0 ∧ 10 ≤ h) ∨ (m % 1000 ≠ 0 ∧ 100 ≤ h)) := by
  rcases hq with ⟨h0, rfl⟩ | ⟨h1, rfl⟩ | ⟨h0, h1, p, rfl⟩ | ⟨h0, h1, p, rfl⟩
  · unfold headSl smallKind
    repeat' split
    all_goals simp [kindFollows, validK, h0]
  · unfold headSl last100 smallKind
    repeat' split
    all_goals simp only [kindFollows, validK]
    all_goals simp only [Bool.false_eq_true, false_iff, true_iff, Classical.not_not]
    all_goals omega
  · unfold headSl smallKind
    repeat' split
    all_goals simp only [kindFollows, validK]
    all_goals simp only [Bool.false_eq_true, false_iff, true_iff, Classical.not_not]
    all_goals omega
  · unfold headSl smallKind
    repeat' split
    all_goals simp only [kindFollows, validK, true_iff]
    all_goals omega

theorem kindsValue_run {mg : Nat} {ks : List Kind} {n : Nat} (h : kindsValue mg ks = some n) : ∃ r, runR mg ks RState.init = some r ∧ r.value = n := by
  unfold kindsValue at h
  cases hr : runR mg ks RState.init with
  | none => rw [hr] at h; cases h
  | some r => rw [hr] at h; exact ⟨r, rfl, by simpa using h⟩

theorem en_continues {m n : Nat} (hm : m < 10 ^ 24) (hn : n < 10 ^ 24) :
    ∃ k, (wordKinds ldEn (enWords n)).head? = some k ∧ (Continues 100 (wordKinds ldEn (enWords m)) k ↔ ¬ apartEn m n) := by
  obtain ⟨q, hq, hc⟩ := en_last hm
  obtain ⟨r, hr, _⟩ := kindsValue_run (en_words hm).1
  refine ⟨_, en_first hn, ?_⟩
  rw [continues_plain hr hq (headEn_plain _)]
  exact en_follows hc

theorem ru_continues {m n : Nat} (hm : m < 10 ^ 24) (hn : n < 10 ^ 24) :
    ∃ k, (wordKinds ldRu (ruWords n)).head? = some k ∧ (Continues 100 (wordKinds ldRu (ruWords m)) k ↔ ¬ apartSlavic m n) := by
  obtain ⟨q, hq, hc⟩ := ru_last hm
  obtain ⟨r, hr, _⟩ := kindsValue_run (ru_words hm).1
  refine ⟨_, ru_first hn, ?_⟩
  rw [continues_plain hr hq (headSl_plain _ _), sl_follows (Or.inl rfl) hc]
  unfold apartSlavic
  simp

theorem uk_continues {m n : Nat} (hm : m < 10 ^ 18) (hn : n < 10 ^ 18) :
    ∃ k, (wordKinds ldUk (ukWords n)).head? = some k ∧ (Continues 100 (wordKinds ldUk (ukWords m)) k ↔ ¬ apartSlavic m n) := by
  obtain ⟨q, hq, hc⟩ := uk_last hm
  obtain ⟨r, hr, _⟩ := kindsValue_run (uk_words hm).1
  refine ⟨_, uk_first hn, ?_⟩
  rw [continues_plain hr hq (headSl_plain _ _), sl_follows (Or.inl rfl) hc]
  unfold apartSlavic
  simp

theorem hi_continues {m n : Nat} (hm : m < 10 ^ 13) (hn : n < 10 ^ 13) :
    ∃ k, (wordKinds ldHi (hiWords n)).head? = some k ∧ (Continues 100 (wordKinds ldHi (hiWords m)) k ↔ ¬ apartHi m) := by
  obtain ⟨q, hq, hc⟩ := hi_last hm
  obtain ⟨r, hr, _⟩ := kindsValue_run (hi_words hm).1
  obtain ⟨i, hi, _⟩ := hi_first hn
  refine ⟨_, hi, ?_⟩
  rw [continues_plain hr hq (smallKind_plain _)]
  unfold apartHi
  rcases hc with ⟨h1, j, rfl⟩ | ⟨h1, p, rfl⟩
  · unfold smallKind
    repeat' split
    all_goals simp only [kindFollows, validK, Bool.false_eq_true, false_iff, Classical.not_not]
    all_goals exact h1
  · unfold smallKind
    repeat' split
    all_goals simp only [kindFollows, validK, true_iff]
    all_goals omega

/-! ### Spanish: the word "mil" -/

theorem periods_run {ld : LangData} {B S b K : Nat} {body : Nat → Nat → List PyStr} {scale : Nat → Nat → PyStr}
    (hbody : ∀ k g, k < K → 1 ≤ g → g < b → WGroup ld B (body k g) g)
    (hscale : ∀ k g, k < K → 1 ≤ g → g < b → kindOf ld (norm (scale k g)) = .big (S * b ^ k))
    (hb : 0 < b) (hbS : b ≤ S) (hmg : ld.maximumGroupValue < S) (hS : 100 < S) (hBS : B ≤ S) :
    ∀ k, k ≤ K → ∀ n r, Start B r → (∀ pp, r.pow = some pp → S * b ^ k ≤ pp) →
      ∃ r', runR ld.maximumGroupValue (wordKinds ld (periods b (fun k g => body k g ++ [scale k g]) k n)) r = some r' ∧ Start B r' ∧
        (n % b ^ k ≠ 0 ∨ r.pow ≠ none → r'.pow ≠ none) := by
  intro k
  induction k with
  | zero =>
    intro _ n r hr _
    refine ⟨r, rfl, hr, ?_⟩
    rintro (h | h)
    · rw [Nat.pow_zero, Nat.mod_one] at h; exact absurd rfl h
    · exact h
  | succ k ih =>
    intro hk n r hr hP
    have hpow : 0 < b ^ k := Nat.pow_pos hb
    have hval : n % b ^ (k + 1) = n % b ^ k + b ^ k * (n / b ^ k % b) := Nat.mod_pow_succ
    simp only [periods]
    by_cases hg : n / b ^ k % b = 0
    · rw [if_pos hg, List.nil_append, hval, hg, Nat.mul_zero, Nat.add_zero]
      refine ih (by omega) n r hr (fun pp hpp => Nat.le_trans ?_ (hP pp hpp))
      exact Nat.mul_le_mul_left S (Nat.pow_le_pow_right hb (by omega))
    · rw [if_neg hg]
      have hg1 : 1 ≤ n / b ^ k % b := by omega
      have hglt : n / b ^ k % b < b := Nat.mod_lt _ hb
      generalize n / b ^ k % b = g at *
      have hsp : S ≤ S * b ^ k := Nat.le_mul_of_pos_right S hpow
      have h1 := hbody k g (by omega) hg1 hglt
      have h2 := hscale k g (by omega) hg1 hglt
      have hlt : ∀ pp, r.pow = some pp → S * b ^ k < pp := by
        intro pp hpp
        have := hP pp hpp
        rw [Nat.pow_succ, ← Nat.mul_assoc] at this
        have : S * b ^ k * 2 ≤ S * b ^ k * b := Nat.mul_le_mul_left _ (by omega)
        omega
      have hs := scale_step h1.reads hg1 (Nat.lt_of_lt_of_le hglt (Nat.le_trans hbS hsp)) (Nat.lt_of_lt_of_le hmg hsp) (by omega) r hr hlt
      have hge : S * b ^ k ≤ g * (S * b ^ k) := Nat.le_mul_of_pos_left _ hg1
      obtain ⟨r', h3, h4, h5⟩ := ih (by omega) n ⟨r.total + g * (S * b ^ k), 0, some (.big (S * b ^ k)), some (S * b ^ k)⟩
        ⟨rfl, Or.inr ⟨_, rfl⟩, Or.inr ⟨_, rfl, by omega, by simp only; omega⟩⟩ (fun pp hpp => by simp only [Option.some.injEq] at hpp; omega)
      refine ⟨r', ?_, h4, fun _ => h5 (Or.inr (by simp))⟩
      have he : wordKinds ld (body k g ++ [scale k g]) = wordKinds ld (body k g) ++ [.big (S * b ^ k)] := by
        rw [wordKinds_append]
        show _ ++ [kindOf ld (norm (scale k g))] = _
        rw [h2]
      rw [wordKinds_append, he, runR_append, hs]
      exact h3

/-- What the word "mil" needs to know of the number before it. -/
def MilState (m : Nat) (r : RState) : Prop :=
  (1000000 ≤ m ∧ r.grp = m % 1000000 ∧ 1000000 ≤ r.total ∧ ∃ pp, r.pow = some pp ∧ 1000000 ≤ pp) ∨
  (m < 2000 ∧ r.total = 0 ∧ r.grp = m ∧ r.pow = none) ∨
  (2000 ≤ m ∧ m < 1000000 ∧ 1000 ≤ r.total ∧ r.grp < 1000 ∧ r.pow = some 1000)

theorem mil_step {m : Nat} {r : RState} (h : MilState m r) (hp : r.prev ≠ none) : (∃ r', stepR 10000 r (.big 1000) = some r') ↔ ¬ 1000 < m % 1000000 := by
  obtain ⟨q, hq⟩ : ∃ q, r.prev = some q := by
    cases hr : r.prev with
    | none => exact absurd hr hp
    | some q => exact ⟨q, rfl⟩
  have hvalid : validK (.big 1000) r.prev r.pow r.total r.grp =
      if 1000 < r.grp then false else match r.pow with
        | some pp => if r.total ≠ 0 ∧ pp ≠ 0 ∧ 1000 ≥ pp then false else true
        | none => true := by
    rw [hq]; cases q <;> rfl
  unfold stepR
  rcases h with ⟨h1, h2, h3, pp, h4, h5⟩ | ⟨h1, h2, h3, h4⟩ | ⟨h1, h2, h3, h4, h5⟩
  · have hl : largeK (.big 1000) r.total r.grp = none := by simp only [largeK]; rw [if_neg (by omega)]
    rw [hl]
    by_cases hg : 1000 < m % 1000000
    · have hv : validK (.big 1000) r.prev r.pow r.total r.grp = false := by rw [hvalid, if_pos (by omega)]
      rw [hv]; simp [hg]
    · have hv : validK (.big 1000) r.prev r.pow r.total r.grp = true := by
        rw [hvalid, if_neg (by omega), h4]
        simp only
        rw [if_neg (by omega)]
      simp only [hv, if_true]
      rw [if_neg (by omega)]
      simp [hg]
  · by_cases h0 : m ≠ 0 ∧ m < 1000
    · have hl : largeK (.big 1000) r.total r.grp = some 1000 := by simp only [largeK]; rw [if_pos (by omega)]
      rw [hl]
      simp only [Option.some.injEq, exists_eq', true_iff]
      omega
    · have hl : largeK (.big 1000) r.total r.grp = none := by simp only [largeK]; rw [if_neg (by omega)]
      rw [hl, hvalid, h4, h3, show m % 1000000 = m by omega]
      by_cases hg : 1000 < m
      · simp [hg]
      · simp [hg]
  · have hl : largeK (.big 1000) r.total r.grp = none := by simp only [largeK]; rw [if_neg (by omega)]
    have hv : validK (.big 1000) r.prev r.pow r.total r.grp = false := by
      rw [hvalid, if_neg (by omega), h5]
      simp only
      rw [if_pos (by omega)]
    rw [hl, hv]
    simp
    omega

theorem es6_state {short : Bool} {g : Nat} (h : g < 1000000) :
    ∃ r, runR 10000 (wordKinds ldEs (esBelow1000000 short g)) RState.init = some r ∧ MilState g r := by
  unfold esBelow1000000
  by_cases h1 : g < 1000
  · rw [if_pos h1]
    obtain ⟨r, h2, h3, h4, h5⟩ := (es_below1000 (short := short) h1).1.run (mg := 10000) (by omega) RState.init (Or.inl rfl) (Or.inl ⟨rfl, rfl⟩) (fun _ _ _ => rfl)
    exact ⟨r, h2, Or.inr (Or.inl ⟨by omega, h3, by simpa [RState.init] using h4, h5⟩)⟩
  · rw [if_neg h1]
    have hB : Group3 (wordKinds ldEs (if g % 1000 = 0 then [] else esBelow1000 short (g % 1000))) (g % 1000) ∧
        NoHundred (wordKinds ldEs (if g % 1000 = 0 then [] else esBelow1000 short (g % 1000))) := by
      by_cases h2 : g % 1000 = 0
      · rw [if_pos h2, h2]; exact ⟨Group3.tail Tail.nil, by intro d r; simp [wordKinds]⟩
      · rw [if_neg h2]; exact es_below1000 (by omega)
    have hmil : wordKinds ldEs [u!"mil"] = [.big 1000] := by
      show [kindOf ldEs (norm u!"mil")] = _
      rw [es_mil]
    rw [List.append_assoc, wordKinds_append, wordKinds_append, hmil, runR_append]
    by_cases h2 : g / 1000 = 1
    · rw [if_pos h2]
      have e1 : runR 10000 (wordKinds ldEs []) RState.init = some RState.init := rfl
      have e2 : stepR 10000 RState.init (.big 1000) = some ⟨0, 1000, some (.big 1000), none⟩ := by decide
      rw [e1]
      simp only [Option.bind_some, List.singleton_append, runR, e2]
      obtain ⟨r, h3, h4, h5, h6⟩ := hB.1.run (mg := 10000) (by omega) ⟨0, 1000, some (.big 1000), none⟩ (Or.inr ⟨_, rfl⟩) (Or.inl ⟨rfl, rfl⟩)
        (fun d ks e => absurd e (hB.2 d ks))
      exact ⟨r, h3, Or.inr (Or.inl ⟨by omega, h4, by rw [h5]; simp only; omega, h6⟩)⟩
    · rw [if_neg h2]
      obtain ⟨r, h3, h4, h5, h6⟩ := (es_below1000 (short := true) (n := g / 1000) (by omega)).1.run (mg := 10000) (by omega) RState.init (Or.inl rfl)
        (Or.inl ⟨rfl, rfl⟩) (fun _ _ _ => rfl)
      have h5' : r.grp = g / 1000 := by rw [h5]; simp [RState.init]
      have h4' : r.total = 0 := h4
      have e2 : stepR 10000 r (.big 1000) = some ⟨g / 1000 * 1000, 0, some (.big 1000), some 1000⟩ := by
        unfold stepR
        have hl : largeK (.big 1000) r.total r.grp = some 1000 := by simp only [largeK]; rw [if_pos (by omega)]
        rw [hl]; simp [h4', h5']
      rw [h3]
      simp only [Option.bind_some, List.singleton_append, runR, e2]
      obtain ⟨r', h7, h8, h9, h10⟩ := hB.1.run (mg := 10000) (by omega) ⟨g / 1000 * 1000, 0, some (.big 1000), some 1000⟩ (Or.inr ⟨_, rfl⟩)
        (Or.inr ⟨1000, rfl, by omega⟩) (fun d ks e => absurd e (hB.2 d ks))
      refine ⟨r', h7, Or.inr (Or.inr ⟨by omega, h, ?_, ?_, h10⟩)⟩
      · rw [h8]; simp only; omega
      · rw [h9]; simp only; omega

theorem es_state {m : Nat} (h : m < 10 ^ 60) : ∃ r, runR 10000 (wordKinds ldEs (esWords m)) RState.init = some r ∧ MilState m r := by
  unfold esWords
  by_cases h0 : m = 0
  · rw [if_pos h0, h0]
    refine ⟨⟨0, 0, some (.unit 0), none⟩, by decide +kernel, Or.inr (Or.inl ⟨by omega, rfl, rfl, rfl⟩)⟩
  · rw [if_neg h0]
    by_cases h1 : m < 1000000
    · rw [Nat.div_eq_of_lt h1, periods_none (Nat.zero_mod _), Nat.mod_eq_of_lt h1, if_neg h0, List.nil_append]
      exact es6_state h1
    · have hd : m / 1000000 < 1000000 ^ 9 := by
        apply Nat.div_lt_of_lt_mul
        simpa using h
      obtain ⟨r, h2, h3, h4⟩ := periods_run (ld := ldEs) (B := 1000000) (S := 1000000) (b := 1000000) (K := 9) (body := fun _ g => esBelow1000000 true g)
        (scale := fun k g => if g = 1 then nth esScale1 k else nth esScale k) (fun k g _ _ hg => es_below1000000 hg)
        (fun k g hk _ _ => es_scale hk g) (by omega) (by omega) (by decide) (by omega) (by omega) 9 (by omega) (m / 1000000) RState.init
        (Start.initial _) (fun pp hpp => by cases hpp)
      have hpow := h4 (Or.inl (by rw [Nat.mod_eq_of_lt hd]; omega))
      obtain ⟨hg0, _, hp⟩ := id h3
      obtain ⟨pp, h5, h6, h7⟩ := hp.resolve_left (fun e => hpow e.2)
      have h2 : runR 10000 (wordKinds ldEs (periods 1000000 (fun k g => esBelow1000000 true g ++ [if g = 1 then nth esScale1 k else nth esScale k]) 9 (m / 1000000)))
        RState.init = some r := h2
      rw [wordKinds_append, runR_append, h2]
      simp only [Option.bind_some]
      by_cases hz : m % 1000000 = 0
      · rw [if_pos hz]
        exact ⟨r, rfl, Or.inl ⟨by omega, by rw [hg0, hz], by omega, pp, h5, h6⟩⟩
      · rw [if_neg hz]
        obtain ⟨r', h8, h9, h10⟩ := (es_below1000000 (short := false) (n := m % 1000000) (by omega)).reads r h3
        obtain ⟨h11, h12⟩ := h10 hpow
        refine ⟨r', h8, Or.inl ⟨by omega, ?_, by omega, pp, by rw [h12, h5], h6⟩⟩
        simp only [RState.value, h11] at h9
        omega

theorem runR_prev_some {mg : Nat} {ks : List Kind} {r r' : RState} (h : runR mg ks r = some r') (hne : ks ≠ []) : r'.prev ≠ none := by
  rcases List.eq_nil_or_concat ks with rfl | ⟨ks', q', rfl⟩
  · exact absurd rfl hne
  · rw [List.concat_eq_append] at h
    rw [runR_prev h]; simp

theorem es_continues {m n : Nat} (hm : m < 10 ^ 60) (hn : n < 10 ^ 60) :
    ∃ k, (wordKinds ldEs (esWords n)).head? = some k ∧ (Continues 10000 (wordKinds ldEs (esWords m)) k ↔ ¬ apartEs m n) := by
  obtain ⟨q, hq, hc⟩ := es_last hm
  obtain ⟨r, hr, hs⟩ := es_state hm
  refine ⟨_, es_first hn, ?_⟩
  unfold headEs apartEs
  by_cases h : lead 1000000 n / 1000 = 1
  · rw [if_pos h, if_pos h, continues_step hr]
    refine mil_step hs (runR_prev_some hr ?_)
    intro e; rw [e] at hq; cases hq
  · rw [if_neg h, if_neg h, continues_plain hr hq (headSl_plain _ _), sl_follows (Or.inr rfl) hc]
    simp

/-! ### The first word is no word for zero -/

/-- The first word of the number `n`. -/
def FirstKind (n : Nat) : Kind → Prop
  | .big p => 2 ≤ p
  | .unit v | .direct v | .tens v | .hund v => 0 < v ∨ n = 0
  | .other => False

theorem smallKind_first {n i : Nat} (h : n ≠ 0 → i ≠ 0) : FirstKind n (smallKind i) := by
  unfold smallKind
  split <;> simp only [FirstKind] <;> omega

theorem headEn_first {n h : Nat} (h0 : n ≠ 0 → h ≠ 0) : FirstKind n (headEn h) := by
  unfold headEn
  repeat' split
  · exact smallKind_first h0
  · simp only [FirstKind]; omega
  · simp only [FirstKind]; omega

theorem headSl_first {t n h : Nat} (ht : 10 ≤ t) (h0 : n ≠ 0 → h ≠ 0) : FirstKind n (headSl t h) := by
  unfold headSl
  repeat' split
  · exact smallKind_first h0
  · simp only [FirstKind]; omega
  · simp only [FirstKind]; omega

theorem en_firstKind {n : Nat} (h : n < 10 ^ 24) : ∃ k, (wordKinds ldEn (enWords n)).head? = some k ∧ FirstKind n k :=
  ⟨_, en_first h, headEn_first (fun h => lead_pos (by omega) h)⟩

theorem ru_firstKind {n : Nat} (h : n < 10 ^ 24) : ∃ k, (wordKinds ldRu (ruWords n)).head? = some k ∧ FirstKind n k :=
  ⟨_, ru_first h, headSl_first (by omega) (fun h => lead_pos (by omega) h)⟩

theorem uk_firstKind {n : Nat} (h : n < 10 ^ 18) : ∃ k, (wordKinds ldUk (ukWords n)).head? = some k ∧ FirstKind n k :=
  ⟨_, uk_first h, headSl_first (by omega) (fun h => lead_pos (by omega) h)⟩

theorem hi_firstKind {n : Nat} (h : n < 10 ^ 13) : ∃ k, (wordKinds ldHi (hiWords n)).head? = some k ∧ FirstKind n k := by
  obtain ⟨i, hi, h0⟩ := hi_first h
  exact ⟨_, hi, smallKind_first h0⟩

theorem es_firstKind {n : Nat} (h : n < 10 ^ 60) : ∃ k, (wordKinds ldEs (esWords n)).head? = some k ∧ FirstKind n k := by
  refine ⟨_, es_first h, ?_⟩
  unfold headEs
  split
  · simp only [FirstKind]; omega
  · exact headSl_first (by omega) (fun h => lead_pos (by omega) (lead_pos (by omega) h))

end NumberParser
