import Verif.Proofs.Run

/-! Sequences "group, scale word, group, scale word, ..., group" are read as one number. -/

set_option linter.unusedSimpArgs false

namespace NumberParser

/-- A state in which a new group of words can begin: at the start of the number, or after scale words, the last
of which had value `pow >= B`. -/
def Start (B : Nat) (r : RState) : Prop :=
  r.grp = 0 ∧ (r.prev = none ∨ ∃ p, r.prev = some (.big p)) ∧
    ((r.total = 0 ∧ r.pow = none) ∨ ∃ pp, r.pow = some pp ∧ B ≤ pp ∧ pp ≤ r.total)

theorem Start.initial (B : Nat) : Start B RState.init := ⟨rfl, Or.inl rfl, Or.inl ⟨rfl, rfl⟩⟩

/-- The words `ks` are read as the group value `g`. -/
def GroupReads (mg B : Nat) (ks : List Kind) (g : Nat) : Prop :=
  ∀ r, Start B r → ∃ r', runR mg ks r = some r' ∧ r'.value = r.total + g ∧
    (r.pow ≠ none → r'.total = r.total ∧ r'.pow = r.pow)

theorem stepR_plain (mg : Nat) (r : RState) (k : Kind) (v : Nat)
    (hk : k = .unit v ∨ k = .direct v ∨ k = .tens v ∨ k = .hund v)
    (hv : validK k r.prev r.pow r.total r.grp = true) :
    stepR mg r k = some ⟨r.total, r.grp + v, some k, r.pow⟩ := by
  unfold stepR
  rcases hk with rfl | rfl | rfl | rfl <;> simp [largeK, hv]

/-- The last two digits of a group. -/
inductive Tail : List Kind → Nat → Prop where
  | nil : Tail [] 0
  | unit (d : Nat) : Tail [.unit d] d
  | direct (d : Nat) : Tail [.direct d] d
  | tens (t : Nat) : Tail [.tens t] t
  | tensUnit (t d : Nat) : Tail [.tens t, .unit d] (t + d)

/-- A group of up to three digits. -/
inductive Group3 : List Kind → Nat → Prop where
  | tail {t : List Kind} {v : Nat} : Tail t v → Group3 t v
  | hund {t : List Kind} {v : Nat} (h : Nat) : Tail t v → Group3 (.hund h :: t) (h + v)
  | unitHundred {t : List Kind} {v : Nat} (d : Nat) : 1 ≤ d → d ≤ 9 → Tail t v →
      Group3 (.unit d :: .big 100 :: t) (d * 100 + v)

def openPrev (p : Option Kind) : Prop := p = none ∨ (∃ q, p = some (.big q)) ∨ ∃ q, p = some (.hund q)

theorem Tail.run {mg : Nat} {t : List Kind} {v : Nat} (h : Tail t v) (r : RState) (hp : openPrev r.prev) :
    ∃ r', runR mg t r = some r' ∧ r'.total = r.total ∧ r'.grp = r.grp + v ∧ r'.pow = r.pow := by
  have hu : ∀ d, validK (.unit d) r.prev r.pow r.total r.grp = true := by
    intro d; rcases hp with h | ⟨q, h⟩ | ⟨q, h⟩ <;> rw [h] <;> rfl
  have hd : ∀ d, validK (.direct d) r.prev r.pow r.total r.grp = true := by
    intro d; rcases hp with h | ⟨q, h⟩ | ⟨q, h⟩ <;> rw [h] <;> rfl
  have ht : ∀ d, validK (.tens d) r.prev r.pow r.total r.grp = true := by
    intro d; rcases hp with h | ⟨q, h⟩ | ⟨q, h⟩ <;> rw [h] <;> rfl
  cases h with
  | nil => exact ⟨r, rfl, rfl, rfl, rfl⟩
  | unit => exact ⟨⟨r.total, r.grp + v, some (.unit v), r.pow⟩, by rw [runR, stepR_plain mg r _ v (.inl rfl) (hu v)]; rfl, rfl, rfl, rfl⟩
  | direct => exact ⟨⟨r.total, r.grp + v, some (.direct v), r.pow⟩, by rw [runR, stepR_plain mg r _ v (.inr (.inl rfl)) (hd v)]; rfl, rfl, rfl, rfl⟩
  | tens => exact ⟨⟨r.total, r.grp + v, some (.tens v), r.pow⟩, by rw [runR, stepR_plain mg r _ v (.inr (.inr (.inl rfl))) (ht v)]; rfl, rfl, rfl, rfl⟩
  | tensUnit t d =>
    refine ⟨⟨r.total, r.grp + t + d, some (.unit d), r.pow⟩, ?_, rfl, by simp [Nat.add_assoc], rfl⟩
    rw [runR, stepR_plain mg r _ t (.inr (.inr (.inl rfl))) (ht t)]
    simp only [Option.bind_some]
    rw [runR, stepR_plain mg _ _ d (.inl rfl) rfl]; rfl

theorem Group3.run {mg : Nat} {t : List Kind} {v : Nat} (h : Group3 t v) (hmg : 100 ≤ mg) (r : RState)
    (hp : r.prev = none ∨ ∃ q, r.prev = some (.big q))
    (hpow : (r.total = 0 ∧ r.pow = none) ∨ ∃ pp, r.pow = some pp ∧ 100 < pp)
    (hh : ∀ d ks, t = .unit d :: .big 100 :: ks → r.grp = 0) :
    ∃ r', runR mg t r = some r' ∧ r'.total = r.total ∧ r'.grp = r.grp + v ∧ r'.pow = r.pow := by
  have hop : openPrev r.prev := by
    rcases hp with h | h
    · exact Or.inl h
    · exact Or.inr (Or.inl h)
  cases h with
  | tail h => exact h.run r hop
  | @hund t' v' hv h =>
    have hvld : validK (.hund hv) r.prev r.pow r.total r.grp = true := by
      rcases hp with h | ⟨q, h⟩ <;> rw [h] <;> rfl
    obtain ⟨r', h1, h2, h3, h4⟩ := h.run (mg := mg) ⟨r.total, r.grp + hv, some (.hund hv), r.pow⟩ (Or.inr (Or.inr ⟨hv, rfl⟩))
    refine ⟨r', ?_, h2, by rw [h3]; simp [Nat.add_assoc], h4⟩
    rw [runR, stepR_plain mg r _ hv (.inr (.inr (.inr rfl))) hvld]; exact h1
  | @unitHundred t' v' d hd1 hd9 h =>
    have hg0 := hh d _ rfl
    have hvld : validK (.unit d) r.prev r.pow r.total r.grp = true := by
      rcases hp with h | ⟨q, h⟩ <;> rw [h] <;> rfl
    have hs : stepR mg ⟨r.total, r.grp + d, some (.unit d), r.pow⟩ (.big 100) =
        some ⟨r.total, d * 100, some (.big 100), r.pow⟩ := by
      unfold stepR
      have hl : largeK (.big 100) r.total (r.grp + d) = none := by simp [largeK]
      rw [hl]
      have hv2 : validK (.big 100) (some (.unit d)) r.pow r.total (r.grp + d) = true := by
        simp only [validK]
        rw [if_neg (by omega)]
        rcases hpow with ⟨_, h⟩ | ⟨pp, h, hpp⟩
        · rw [h]
        · rw [h]; simp only; rw [if_neg (by omega)]
      simp only [hv2, if_true]
      rw [if_neg (by omega), if_neg (by omega), hg0, Nat.zero_add]
    obtain ⟨r', h1, h2, h3, h4⟩ := h.run (mg := mg) ⟨r.total, d * 100, some (.big 100), r.pow⟩ (Or.inr (Or.inl ⟨100, rfl⟩))
    refine ⟨r', ?_, h2, by rw [h3, hg0]; simp, h4⟩
    rw [runR, stepR_plain mg r _ d (.inl rfl) hvld]
    simp only [Option.bind_some]
    rw [runR, hs]; exact h1

theorem Group3.reads {mg B : Nat} {t : List Kind} {v : Nat} (h : Group3 t v) (hmg : 100 ≤ mg) (hB : 100 < B) :
    GroupReads mg B t v := by
  intro r ⟨hg, hp, hpow⟩
  obtain ⟨r', h1, h2, h3, h4⟩ := h.run hmg r hp
    (hpow.imp id (fun ⟨pp, a, b, _⟩ => ⟨pp, a, by omega⟩)) (fun _ _ _ => hg)
  exact ⟨r', h1, by simp [RState.value, h2, h3, hg], fun _ => ⟨h2, h4⟩⟩

/-- One group followed by a scale word. -/
theorem scale_step {mg B : Nat} {ks : List Kind} {g p : Nat} (hG : GroupReads mg B ks g) (hg : 1 ≤ g) (hgp : g < p)
    (hmg : mg < p) (h100 : p ≠ 100) (r : RState) (hr : Start B r) (hpp : ∀ pp, r.pow = some pp → p < pp) :
    runR mg (ks ++ [.big p]) r = some ⟨r.total + g * p, 0, some (.big p), some p⟩ := by
  obtain ⟨r', h1, h2, h3⟩ := hG r hr
  rw [runR_append, h1]
  simp only [Option.bind_some, runR]
  obtain ⟨hg0, hp, hpow⟩ := hr
  rcases hpow with ⟨ht, hn⟩ | ⟨pp, hpw, _, hle⟩
  · have hv : r'.total + r'.grp = g := by have := h2; simp [RState.value, ht] at this; exact this
    have : stepR mg r' (.big p) = some ⟨r.total + g * p, 0, some (.big p), some p⟩ := by
      unfold stepR
      have hl : largeK (.big p) r'.total r'.grp = some p := by
        simp only [largeK, hv]; rw [if_pos (by omega)]
      rw [hl]; simp [hv, ht]
    rw [this]; rfl
  · obtain ⟨h4, h5⟩ := h3 (by rw [hpw]; simp)
    have hgr : r'.grp = g := by have := h2; simp [RState.value, h4] at this; omega
    have hlt := hpp pp hpw
    have : stepR mg r' (.big p) = some ⟨r.total + g * p, 0, some (.big p), some p⟩ := by
      unfold stepR
      have hl : largeK (.big p) r'.total r'.grp = none := by
        simp only [largeK, h4, hgr]; rw [if_neg (by omega)]
      have hv : validK (.big p) r'.prev r'.pow r'.total r'.grp = true := by
        simp only [validK]
        split
        · rfl
        · rw [if_neg (by omega), h5, hpw]
          simp only; rw [if_neg (by omega)]
      rw [hl]
      simp only [hv, if_true]
      rw [if_pos hmg, if_neg (by omega), h4, hgr]
    rw [this]; rfl

/-- A number as groups with scale words of decreasing values, all below the bound `P` (if any). -/
inductive Seq (mg B : Nat) : Option Nat → List Kind → Nat → Prop where
  | nil (P : Option Nat) : Seq mg B P [] 0
  | last {P : Option Nat} {ks : List Kind} {g : Nat} : GroupReads mg B ks g → Seq mg B P ks g
  | scale {P : Option Nat} {ks rest : List Kind} {g p v : Nat} : GroupReads mg B ks g → 1 ≤ g → g < p → mg < p →
      B ≤ p → (∀ pp, P = some pp → p < pp) → Seq mg B (some p) rest v → Seq mg B P (ks ++ .big p :: rest) (g * p + v)

theorem Seq.run {mg B : Nat} (hmg : 100 ≤ mg) {P : Option Nat} {ks : List Kind} {v : Nat} (h : Seq mg B P ks v) :
    ∀ r, Start B r → r.pow = P → ∃ r', runR mg ks r = some r' ∧ r'.value = r.total + v := by
  induction h with
  | nil P => intro r hr _; exact ⟨r, rfl, by simp [RState.value, hr.1]⟩
  | last hG => intro r hr _; obtain ⟨r', h1, h2, _⟩ := hG r hr; exact ⟨r', h1, h2⟩
  | @scale P ks rest g p v hG hg hgp hm hB hP _ ih =>
    intro r hr hrp
    have hs := scale_step hG hg hgp hm (by omega) r hr (fun pp hpp => hP pp (by rw [← hrp]; exact hpp))
    have hge : p ≤ g * p := Nat.le_mul_of_pos_left p hg
    obtain ⟨r', h1, h2⟩ := ih ⟨r.total + g * p, 0, some (.big p), some p⟩
      ⟨rfl, Or.inr ⟨p, rfl⟩, Or.inr ⟨p, rfl, hB, by simp only; omega⟩⟩ rfl
    refine ⟨r', ?_, by rw [h2]; simp [Nat.add_assoc]⟩
    rw [show ks ++ .big p :: rest = (ks ++ [.big p]) ++ rest by simp, runR_append, hs]
    exact h1

theorem Seq.value {mg B : Nat} (hmg : 100 ≤ mg) {ks : List Kind} {v : Nat} (h : Seq mg B none ks v) :
    (runR mg ks RState.init).map RState.value = some v := by
  obtain ⟨r', h1, h2⟩ := h.run hmg RState.init (Start.initial B) rfl
  rw [h1]; simp [h2, RState.init]

/-- A Spanish group of up to six digits: `[group] mil [group]`. -/
theorem group6_reads {mg : Nat} (hmg : 1000 ≤ mg) {a b : List Kind} {x y : Nat} (ha : a = [] ∧ x = 1 ∨ Group3 a x ∧ 1 ≤ x)
    (hx : x < 1000) (hb : Group3 b y)
    (hno : ∀ d ks, b ≠ .unit d :: .big 100 :: ks) :
    GroupReads mg 1000000 (a ++ .big 1000 :: b) (x * 1000 + y) := by
  intro r hr
  obtain ⟨hg0, hp, hpow⟩ := hr
  -- the words before `mil`
  have hA : ∃ r1, runR mg a r = some r1 ∧ r1.total = r.total ∧ r1.pow = r.pow ∧
      (r1.grp = x ∨ (r1.grp = 0 ∧ x = 1 ∧ (r1.prev = none ∨ ∃ q, r1.prev = some (.big q)))) := by
    rcases ha with ⟨rfl, rfl⟩ | ⟨ha, hx1⟩
    · exact ⟨r, rfl, rfl, rfl, Or.inr ⟨hg0, rfl, hp⟩⟩
    · obtain ⟨r', h1, h2, h3, h4⟩ := ha.run (mg := mg) (by omega) r hp
        (hpow.imp id (fun ⟨pp, a, b, _⟩ => ⟨pp, a, by omega⟩)) (fun _ _ _ => hg0)
      exact ⟨r', h1, h2, h4, Or.inl (by omega)⟩
  obtain ⟨r1, h1, h2, h3, h4⟩ := hA
  -- `mil`
  have hM : ∃ r2, stepR mg r1 (.big 1000) = some r2 ∧ r2.prev = some (.big 1000) ∧ r2.total + r2.grp = r.total + x * 1000 ∧
      ((r2.total = 0 ∧ r2.pow = none) ∨ ∃ pp, r2.pow = some pp ∧ 100 < pp) ∧
      (r.pow ≠ none → r2.total = r.total ∧ r2.pow = r.pow) := by
    unfold stepR
    rcases hpow with ⟨ht, hn⟩ | ⟨pp, hpw, hge, hle⟩
    · rcases h4 with h4 | ⟨h4, rfl, hpv⟩
      · by_cases hx0 : x = 0
        · have hl : largeK (.big 1000) r1.total r1.grp = none := by
            simp only [largeK, h2, ht, h4, hx0]; rw [if_neg (by omega)]
          rcases ha with ⟨_, h⟩ | ⟨_, h⟩ <;> omega
        · have hl : largeK (.big 1000) r1.total r1.grp = some 1000 := by
            simp only [largeK, h2, ht, h4]; rw [if_pos (by omega)]
          rw [hl]
          refine ⟨_, rfl, rfl, ?_, Or.inr ⟨1000, rfl, by omega⟩, fun h => absurd hn h⟩
          simp [h2, h4, ht]
      · have hl : largeK (.big 1000) r1.total r1.grp = none := by
          simp only [largeK, h2, ht, h4]; rw [if_neg (by omega)]
        have hv : validK (.big 1000) r1.prev r1.pow r1.total r1.grp = true := by
          simp only [validK]
          split
          · rfl
          · rw [if_neg (by omega), h3, hn]
        rw [hl]
        simp only [hv, if_true]
        rw [if_neg (by omega)]
        exact ⟨_, rfl, rfl, by simp [h2, h4, ht], Or.inl ⟨by simp [h2, ht], by simp [h3, hn]⟩, fun h => absurd hn h⟩
    · have hl : largeK (.big 1000) r1.total r1.grp = none := by
        simp only [largeK, h2]; rw [if_neg (by omega)]
      have hv : validK (.big 1000) r1.prev r1.pow r1.total r1.grp = true := by
        simp only [validK]
        split
        · rfl
        · rw [if_neg (by omega), h3, hpw]
          simp only; rw [if_neg (by omega)]
      rw [hl]
      simp only [hv, if_true]
      rw [if_neg (by omega)]
      refine ⟨_, rfl, rfl, ?_, Or.inr ⟨pp, by simp [h3, hpw], by omega⟩, fun _ => ⟨h2, h3⟩⟩
      have hxe : (if r1.grp = 0 then 1 else r1.grp) = x := by
        rcases h4 with h4 | ⟨h4, rfl, _⟩
        · have : x ≠ 0 := by rcases ha with ⟨_, h⟩ | ⟨_, h⟩ <;> omega
          rw [if_neg (by omega), h4]
        · rw [if_pos h4]
      simp only [h2, hxe]
  obtain ⟨r2, h5, h6, h7, h8, h9⟩ := hM
  obtain ⟨r3, h10, h11, h12, h13⟩ := hb.run (mg := mg) (by omega) r2 (Or.inr ⟨_, h6⟩) h8
    (fun d ks h => absurd h (hno d ks))
  refine ⟨r3, ?_, ?_, ?_⟩
  · rw [runR_append, h1]
    simp only [Option.bind_some, runR, h5]
    exact h10
  · simp only [RState.value, h11, h12]; omega
  · intro h
    obtain ⟨h14, h15⟩ := h9 h
    exact ⟨by rw [h11, h14], by rw [h13, h15]⟩

end NumberParser
