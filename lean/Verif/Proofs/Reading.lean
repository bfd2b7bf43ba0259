import Verif.Proofs.NumberText
import Verif.Proofs.Forms
import Verif.Spec.Reading

/-! The builder's run and the rules for reading number words. -/

set_option linter.unusedSimpArgs false

namespace NumberParser
open Spec

/-- The class of the last word is what the builder remembers. -/
theorem stepR_prev {mg : Nat} {r r' : RState} {k : Kind} (h : stepR mg r k = some r') : r'.prev = some k := by
  unfold stepR at h
  split at h
  · cases h; rfl
  · split at h
    · cases k with
      | big p => simp only at h; split at h <;> (cases h; rfl)
      | _ => cases h; rfl
    · cases h

theorem runR_prev {mg : Nat} {ks : List Kind} {k : Kind} {r r' : RState} (h : runR mg (ks ++ [k]) r = some r') :
    r'.prev = some k := by
  rw [runR_append] at h
  cases h1 : runR mg ks r with
  | none => rw [h1] at h; cases h
  | some r1 =>
    rw [h1] at h
    simp only [Option.bind_some, runR] at h
    cases h2 : stepR mg r1 k with
    | none => rw [h2] at h; cases h
    | some r2 => rw [h2] at h; cases h; exact stepR_prev h2

def kindsOf (ws : List (Class × Nat)) : List Kind := ws.map (fun w => kindOfClass w.1 w.2)

theorem kindsOf_append (a b : List (Class × Nat)) : kindsOf (a ++ b) = kindsOf a ++ kindsOf b := List.map_append

theorem runR_snoc {mg : Nat} {ks : List Kind} {k : Kind} {r0 r : RState} :
    runR mg (ks ++ [k]) r0 = some r ↔ ∃ r1, runR mg ks r0 = some r1 ∧ stepR mg r1 k = some r := by
  rw [runR_append]
  cases h : runR mg ks r0 with
  | none => simp
  | some r1 =>
    simp only [Option.bind_some, runR, Option.some.injEq, exists_eq_left']
    cases stepR mg r1 k <;> simp [runR]

/-- The scale words have positive values. -/
def PosScale (ws : List (Class × Nat)) : Prop := ∀ p, (Class.scale, p) ∈ ws → 0 < p

theorem PosScale.init {ws : List (Class × Nat)} {w : Class × Nat} (h : PosScale (ws ++ [w])) : PosScale ws :=
  fun p hp => h p (List.mem_append.mpr (Or.inl hp))

/-- The last word and the state. -/
def PrevOK (ws : List (Class × Nat)) (prev : Option Kind) : Prop :=
  (ws = [] ∧ prev = none) ∨ ∃ ws' k v, ws = ws' ++ [(k, v)] ∧ prev = some (kindOfClass k v)

theorem stepR_nonscale {mg c o : Nat} {prev : Option Kind} {q : Option Nat} {ws : List (Class × Nat)} (hp : PrevOK ws prev)
    {k : Class} (hk : k ≠ .scale) (d : Nat) (r : RState) :
    stepR mg ⟨c, o, prev, q⟩ (kindOfClass k d) = some r ↔ MayContinue ws k ∧ r = ⟨c, o + d, some (kindOfClass k d), q⟩ := by
  have hl : largeK (kindOfClass k d) c o = none := by cases k <;> first | exact absurd rfl hk | rfl
  have hv : validK (kindOfClass k d) prev q c o = true ↔ MayContinue ws k := by
    rcases hp with ⟨rfl, rfl⟩ | ⟨ws', k', v', rfl, rfl⟩
    · simp [validK, MayContinue]
    · have : MayContinue (ws' ++ [(k', v')]) k ↔ mayFollow k' k = true := by
        unfold MayContinue
        constructor
        · rintro (h | ⟨a, x, y, h, h'⟩)
          · simp at h
          · have := List.append_inj' h rfl
            simp only [List.cons.injEq, Prod.mk.injEq, and_true] at this
            rw [this.2.1]; exact h'
        · intro h; exact Or.inr ⟨_, _, _, rfl, h⟩
      rw [this]
      cases k <;> cases k' <;> simp_all [kindOfClass, validK, mayFollow]
  unfold stepR
  simp only [hl]
  by_cases h : validK (kindOfClass k d) prev q c o = true
  · rw [if_pos h]
    have hm := hv.mp h
    cases k <;> first | exact absurd rfl hk | (simp [kindOfClass, hm, eq_comm])
  · rw [if_neg h]
    have hm : ¬ MayContinue ws k := fun hm => h (hv.mpr hm)
    simp [hm]

theorem stepR_scale {mg c o : Nat} {prev : Option Kind} {q : Option Nat} {ws : List (Class × Nat)} (hp : PrevOK ws prev)
    (h0 : ws = [] → c = 0 ∧ o = 0 ∧ q = none) (hq0 : q = none → c = 0) (hq1 : ∀ q', q = some q' → 0 < q' ∧ 0 < c)
    {p : Nat} (r : RState) :
    stepR mg ⟨c, o, prev, q⟩ (kindOfClass .scale p) = some r ↔
      (0 < c + o ∧ c + o < p ∧ p ≠ 100 ∧ r = ⟨(c + o) * p, 0, some (.big p), some p⟩) ∨
      ((c + o = 0 ∨ p ≤ c + o ∨ p = 100) ∧ o ≤ p ∧ (∀ q', q = some q' → p < q') ∧ p ≤ mg ∧ r = ⟨c, max o 1 * p, some (.big p), q⟩) ∨
      ((c + o = 0 ∨ p ≤ c + o ∨ p = 100) ∧ o ≤ p ∧ (∀ q', q = some q' → p < q') ∧ mg < p ∧
        r = ⟨c + max o 1 * p, 0, some (.big p), some p⟩) := by
  have e1 : (if o = 0 then 1 else o) = max o 1 := by split <;> omega
  unfold stepR
  simp only [kindOfClass, largeK]
  by_cases hL : c + o ≠ 0 ∧ p > c + o ∧ p ≠ 100
  · rw [if_pos hL]
    have : ¬ (c + o = 0 ∨ p ≤ c + o ∨ p = 100) := by omega
    simp only [this, false_and, or_false, Option.some.injEq]
    have h1 : 0 < c + o := by omega
    have h2 : c + o < p := hL.2.1
    simp [h1, h2, hL.2.2, eq_comm]
  · rw [if_neg hL]
    have h1 : (c + o = 0 ∨ p ≤ c + o ∨ p = 100) := by omega
    have h2 : ¬ (0 < c + o ∧ c + o < p ∧ p ≠ 100) := by omega
    have h2' : ¬ (0 < c + o ∧ c + o < p ∧ p ≠ 100 ∧ r = ⟨(c + o) * p, 0, some (.big p), some p⟩) := fun h => h2 ⟨h.1, h.2.1, h.2.2.1⟩
    simp only [h2', false_or, h1, true_and]
    have hv : validK (.big p) prev q c o = true ↔ o ≤ p ∧ ∀ q', q = some q' → p < q' := by
      rcases hp with ⟨rfl, rfl⟩ | ⟨ws', k', v', rfl, rfl⟩
      · obtain ⟨rfl, rfl, rfl⟩ := h0 rfl
        simp [validK]
      · cases q with
        | none =>
          have : validK (.big p) (some (kindOfClass k' v')) none c o = (if p < o then false else true) := by cases k' <;> rfl
          rw [this]
          split <;> simp <;> omega
        | some q' =>
          have : validK (.big p) (some (kindOfClass k' v')) (some q') c o =
              (if p < o then false else if c ≠ 0 ∧ q' ≠ 0 ∧ p ≥ q' then false else true) := by cases k' <;> rfl
          rw [this]
          obtain ⟨a, b⟩ := hq1 q' rfl
          simp only [Option.some.injEq, forall_eq']
          split
          · simp; omega
          · split
            · simp; omega
            · simp; omega
    by_cases h : validK (.big p) prev q c o = true
    · rw [if_pos h]
      obtain ⟨a, b⟩ := hv.mp h
      rw [e1]
      by_cases hm : p > mg
      · rw [if_pos hm]
        have : ¬ p ≤ mg := by omega
        simp [a, this, hm, eq_comm]
        intro _; exact b
      · rw [if_neg hm]
        have h3 : p ≤ mg := by omega
        have h4 : ¬ mg < p := by omega
        simp [a, h3, h4, eq_comm]
        intro _; exact b
    · rw [if_neg h]
      have : ¬ (o ≤ p ∧ ∀ q', q = some q' → p < q') := fun x => h (hv.mpr x)
      simp only [reduceCtorEq, false_iff, not_or]
      exact ⟨fun x => this ⟨x.1, x.2.1⟩, fun x => this ⟨x.1, x.2.1⟩⟩

/-- What holds of the state after reading `ws`. -/
structure ReadInv (ws : List (Class × Nat)) (r : RState) : Prop where
  prev : PrevOK ws r.prev
  empty : ws = [] → r.total = 0 ∧ r.grp = 0 ∧ r.pow = none
  none : r.pow = none → r.total = 0
  some : ∀ q, r.pow = some q → 0 < q ∧ 0 < r.total

theorem snocRec {α : Type} {P : List α → Prop} (nil : P []) (snoc : ∀ l a, P l → P (l ++ [a])) (l : List α) : P l := by
  have : ∀ l : List α, P l.reverse := by
    intro l
    induction l with
    | nil => exact nil
    | cons a l ih => rw [List.reverse_cons]; exact snoc _ _ ih
  have h := this l.reverse
  rwa [List.reverse_reverse] at h

theorem readInv {mg : Nat} {ws : List (Class × Nat)} (hp : PosScale ws) : ∀ {r : RState},
    runR mg (kindsOf ws) RState.init = some r → ReadInv ws r := by
  induction ws using snocRec with
  | nil => intro r h; cases h; exact ⟨Or.inl ⟨rfl, rfl⟩, fun _ => ⟨rfl, rfl, rfl⟩, fun _ => rfl, by simp [RState.init]⟩
  | snoc ws w ih =>
    intro r h
    obtain ⟨k, v⟩ := w
    rw [kindsOf_append] at h
    obtain ⟨⟨c, o, prev, q⟩, h1, h2⟩ := runR_snoc.mp h
    have hi := ih hp.init h1
    have hne : ws ++ [(k, v)] = [] → False := by simp
    by_cases hk : k = .scale
    · subst hk
      have hv : 0 < v := hp v (by simp)
      have hm : 0 < max o 1 * v := Nat.mul_pos (by omega) hv
      rcases (stepR_scale hi.prev hi.empty hi.none hi.some r).mp h2 with ⟨a, b, _, rfl⟩ | ⟨_, _, _, _, rfl⟩ | ⟨_, _, _, _, rfl⟩
      · exact ⟨Or.inr ⟨_, _, _, rfl, rfl⟩, fun h => (hne h).elim, fun h => (by cases h), fun q h => by
          cases h; exact ⟨hv, Nat.mul_pos a hv⟩⟩
      · exact ⟨Or.inr ⟨_, _, _, rfl, rfl⟩, fun h => (hne h).elim, hi.none, hi.some⟩
      · exact ⟨Or.inr ⟨_, _, _, rfl, rfl⟩, fun h => (hne h).elim, fun h => (by cases h), fun q h => by
          cases h; exact ⟨hv, Nat.lt_of_lt_of_le hm (Nat.le_add_left _ _)⟩⟩
    · obtain ⟨_, rfl⟩ := (stepR_nonscale hi.prev hk v r).mp h2
      exact ⟨Or.inr ⟨_, _, _, rfl, rfl⟩, fun h => (hne h).elim, hi.none, hi.some⟩

/-- The rules describe exactly the builder's run. -/
theorem reading_run {mg : Nat} {ws : List (Class × Nat)} (hp : PosScale ws) : ∀ {c o : Nat} {q : Option Nat},
    Reading mg ws c o q ↔ ∃ prev, runR mg (kindsOf ws) RState.init = some ⟨c, o, prev, q⟩ := by
  induction ws using snocRec with
  | nil =>
    intro c o q
    constructor
    · intro h
      generalize hw : ([] : List (Class × Nat)) = ws at h
      cases h with
      | start => exact ⟨none, rfl⟩
      | _ => simp at hw
    · rintro ⟨prev, h⟩; cases h; exact .start
  | snoc ws w ih =>
    intro c o q
    obtain ⟨k, v⟩ := w
    have hi := @ih hp.init
    have hinj : ∀ {a : List (Class × Nat)} {x : Class × Nat}, ws ++ [(k, v)] = a ++ [x] → ws = a ∧ (k, v) = x := by
      intro a x h
      have := List.append_inj' h rfl
      simpa using this
    rw [kindsOf_append]
    constructor
    · intro h
      generalize hw : ws ++ [(k, v)] = ws' at h
      cases h with
      | start => simp at hw
      | @add ws1 c1 o1 q1 k1 d1 h1 h2 h3 =>
        obtain ⟨rfl, e⟩ := hinj hw; cases e
        obtain ⟨prev, hr⟩ := hi.mp h1
        exact ⟨_, runR_snoc.mpr ⟨_, hr, (stepR_nonscale (readInv hp.init hr).prev h2 _ _).mpr ⟨h3, rfl⟩⟩⟩
      | @multiplyAll ws1 c1 o1 q1 p1 h1 h2 h3 h4 =>
        obtain ⟨rfl, e⟩ := hinj hw; cases e
        obtain ⟨prev, hr⟩ := hi.mp h1
        have hI := readInv hp.init hr
        exact ⟨_, runR_snoc.mpr ⟨_, hr, (stepR_scale hI.prev hI.empty hI.none hI.some _).mpr (Or.inl ⟨h2, h3, h4, rfl⟩)⟩⟩
      | @multiplyGroup ws1 c1 o1 q1 p1 h1 h2 h3 h4 h5 =>
        obtain ⟨rfl, e⟩ := hinj hw; cases e
        obtain ⟨prev, hr⟩ := hi.mp h1
        have hI := readInv hp.init hr
        exact ⟨_, runR_snoc.mpr ⟨_, hr, (stepR_scale hI.prev hI.empty hI.none hI.some _).mpr (Or.inr (Or.inl ⟨h2, h3, h4, h5, rfl⟩))⟩⟩
      | @closeGroup ws1 c1 o1 q1 p1 h1 h2 h3 h4 h5 =>
        obtain ⟨rfl, e⟩ := hinj hw; cases e
        obtain ⟨prev, hr⟩ := hi.mp h1
        have hI := readInv hp.init hr
        exact ⟨_, runR_snoc.mpr ⟨_, hr, (stepR_scale hI.prev hI.empty hI.none hI.some _).mpr (Or.inr (Or.inr ⟨h2, h3, h4, h5, rfl⟩))⟩⟩
    · rintro ⟨prev, h⟩
      obtain ⟨⟨c1, o1, prev1, q1⟩, h1, h2⟩ := runR_snoc.mp h
      have hI := readInv hp.init h1
      have hR := hi.mpr ⟨_, h1⟩
      by_cases hk : k = .scale
      · subst hk
        rcases (stepR_scale hI.prev hI.empty hI.none hI.some _).mp h2 with ⟨a, b, d, e⟩ | ⟨a, b, d, e, f⟩ | ⟨a, b, d, e, f⟩
        · cases e; exact .multiplyAll hR a b d
        · cases f; exact .multiplyGroup hR a b d e
        · cases f; exact .closeGroup hR a b d e
      · obtain ⟨a, b⟩ := (stepR_nonscale hI.prev hk _ _).mp h2
        cases b; exact .add hR hk a

theorem groupLimit_eq (l : PyStr) : (mkLangData (file l)).maximumGroupValue = groupLimit l := rfl

theorem readsAs_run {l : PyStr} {ws : List (Class × Nat)} (hp : PosScale ws) {n : Nat} :
    ReadsAs l ws n ↔ ∃ r, runR (mkLangData (file l)).maximumGroupValue (kindsOf ws) RState.init = some r ∧ r.value = n := by
  rw [groupLimit_eq]
  constructor
  · rintro ⟨c, o, q, h, rfl⟩
    obtain ⟨prev, h⟩ := (reading_run hp).mp h
    exact ⟨_, h, rfl⟩
  · rintro ⟨⟨c, o, prev, q⟩, h, rfl⟩
    exact ⟨c, o, q, (reading_run hp).mpr ⟨_, h⟩, rfl⟩

/-! ## Tokens and the words read -/

set_option maxRecDepth 100000 in
theorem scale_pos_check : supported.all (fun l => (entries l .scale).all (fun e => decide (0 < e.2))) = true := by decide +kernel

theorem scale_pos {l : PyStr} (hl : l ∈ supported) {p : Nat} {f : PyStr} (h : FormOf l .scale p f) : 0 < p := by
  obtain ⟨w, hw, _⟩ := h
  have := List.all_eq_true.mp (List.all_eq_true.mp scale_pos_check l hl) _ hw
  simpa using this

theorem onlyWords_pos {l : PyStr} (hl : l ∈ supported) {ts : List PyStr} {ws : List (Class × Nat)} (h : OnlyWords l ts ws) : PosScale ws := by
  induction h with
  | nil => intro p hp; simp at hp
  | @word t k v ts ws hw _ ih =>
    intro p hp
    rcases List.mem_cons.mp hp with hp | hp
    · cases hp; exact scale_pos hl hw
    · exact ih p hp
  | other _ _ ih => exact ih

/-- The comparison forms of the tokens that are not blank. -/
def formsOf (ts : List PyStr) : List PyStr := (ts.map norm).filter (fun t => !blank t)

theorem formsOf_cons (t : PyStr) (ts : List PyStr) : formsOf (t :: ts) = (if blank (norm t) then [] else [norm t]) ++ formsOf ts := by
  unfold formsOf
  rw [List.map_cons, List.filter_cons]
  cases blank (norm t) <;> rfl

theorem onlyWords_kinds {l : PyStr} (hl : l ∈ supported) {ts : List PyStr} {ws : List (Class × Nat)} (h : OnlyWords l ts ws) :
    kinds (mkLangData (file l)) (formsOf ts) = kindsOf ws ∧ (formsOf ts).all (numOrSkip (mkLangData (file l))) = true := by
  have hwf := languageData_wf (supported_data hl)
  induction h with
  | nil => exact ⟨rfl, rfl⟩
  | @word t k v ts ws hw _ ih =>
    have hm := (allNumbers_iff hl (norm t)).mpr ⟨k, v, hw⟩
    rw [formsOf_cons, key_blank hwf hm, if_neg (by simp), kinds_append, kinds_key hwf hm, kindOf_class hl (f := norm t) hw, ih.1,
      List.all_append, ih.2]
    exact ⟨rfl, by simp [numOrSkip, hm]⟩
  | @other t ts ws ht _ ih =>
    rw [formsOf_cons]
    rcases ht with ht | ht
    · rw [blankForm_iff] at ht
      rw [if_pos ht]; exact ih
    · rw [skip_iff] at ht
      rw [skip_blank hwf ht, if_neg (by simp), kinds_append, kinds_skip hwf ht, ih.1, List.all_append, ih.2]
      exact ⟨rfl, by simp [numOrSkip, ht]⟩

theorem onlyWords_of {l : PyStr} (hl : l ∈ supported) {ts : List PyStr}
    (h : (formsOf ts).all (numOrSkip (mkLangData (file l))) = true) : ∃ ws, OnlyWords l ts ws := by
  induction ts with
  | nil => exact ⟨[], .nil⟩
  | cons t ts ih =>
    rw [formsOf_cons, List.all_append, Bool.and_eq_true] at h
    obtain ⟨ws, hws⟩ := ih h.2
    by_cases hb : blank (norm t) = true
    · exact ⟨ws, .other (Or.inl ((blankForm_iff t).mpr hb)) hws⟩
    · have h1 := h.1
      rw [if_neg hb] at h1
      simp only [List.all_cons, List.all_nil, Bool.and_true, numOrSkip, Bool.or_eq_true] at h1
      rcases h1 with h1 | h1
      · obtain ⟨k, v, hw⟩ := (cardinal_iff hl t).mpr h1
        exact ⟨(k, v) :: ws, .word hw hws⟩
      · exact ⟨ws, .other (Or.inr ((skip_iff l t).mpr h1)) hws⟩

/-- `parse_number` on word input, in terms of the rules. -/
theorem parseNumber_reads {l s : PyStr} (hl : l ∈ supported) (hs : WordInput s) {t : PyStr} {ts : List PyStr}
    (hts : Tokens l (withoutApostrophes s) (t :: ts)) (n : Nat) :
    parseNumber s (some l) = .ok (some n) ↔ ¬ Skip l t ∧ ∃ ws, OnlyWords l (t :: ts) ws ∧ ReadsAs l ws n := by
  rw [parseNumber_some hl hs, dropApos_eq, solid_tokens hts]
  have hh : hd l (noShy (withoutApostrophes s)) = t := by
    rw [tokens_iff, tokenize_eq, split_cons] at hts
    injection hts with h1 _; exact h1.symm
  rw [hh, skip_iff]
  show _ ∧ (formsOf (t :: ts)).all _ = true ∧ (∃ r, runR _ (kinds _ (formsOf (t :: ts))) _ = _ ∧ _) ↔ _
  constructor
  · rintro ⟨h1, h2, h3⟩
    refine ⟨by simp [h1], ?_⟩
    obtain ⟨ws, hws⟩ := onlyWords_of hl h2
    rw [(onlyWords_kinds hl hws).1] at h3
    exact ⟨ws, hws, (readsAs_run (onlyWords_pos hl hws)).mpr h3⟩
  · rintro ⟨h1, ws, hws, hr⟩
    obtain ⟨e, h2⟩ := onlyWords_kinds hl hws
    refine ⟨by simpa using h1, h2, ?_⟩
    rw [e]
    exact (readsAs_run (onlyWords_pos hl hws)).mp hr

end NumberParser
