import Verif.Proofs.OpenRun
import Verif.Proofs.Spacing

/-! `parse` and the amount of white space (C63). -/

set_option linter.unusedSimpArgs false

namespace NumberParser
open Spec

set_option maxRecDepth 100000

def WhiteToken (t : PyStr) : Prop := ∀ c ∈ t, isSpace c = true

/-- Token lists that differ in white space only; in the middle by gaps related by `G`; at the end (if `e`) by any. -/
inductive SimG (G : PyStr → PyStr → Prop) (e : Bool) : List PyStr → List PyStr → Prop where
  | nil : SimG G e [] []
  | same {t : PyStr} {ts ts' : List PyStr} : SimG G e ts ts' → SimG G e (t :: ts) (t :: ts')
  | gap {gs gs' ts ts' : List PyStr} : gs ≠ [] → gs' ≠ [] → (∀ t ∈ gs, WhiteToken t) → (∀ t ∈ gs', WhiteToken t) → G gs.flatten gs'.flatten →
      SimG G e ts ts' → SimG G e (gs ++ ts) (gs' ++ ts')
  | trail {w w' : List PyStr} : e = true → (∀ t ∈ w, WhiteToken t) → (∀ t ∈ w', WhiteToken t) → SimG G e w w'

theorem white_blankForm {t : PyStr} (h : WhiteToken t) : BlankForm t := by
  rw [blankForm_iff]; exact blank_norm ((blank_spec t).mpr h)

theorem simG_nil {G : PyStr → PyStr → Prop} {ts : List PyStr} (h : SimG G false [] ts) : ts = [] := by
  generalize hx : ([] : List PyStr) = xs at h
  generalize hf : false = e at h
  cases h with
  | nil => rfl
  | same _ => cases hx
  | gap h1 _ _ _ _ _ => exact absurd (List.append_eq_nil_iff.mp hx.symm).1 h1
  | trail h => subst h; cases hf

theorem simG_split {G : PyStr → PyStr → Prop} {e : Bool} {a b c : List PyStr} {t : PyStr} (ht : ¬ BlankForm t) (h : SimG G e (a ++ t :: b) c) :
    ∃ a' b', c = a' ++ t :: b' ∧ SimG G false a a' ∧ SimG G e b b' := by
  generalize hx : a ++ t :: b = xs at h
  induction h generalizing a with
  | nil => simp at hx
  | @same u ts ts' h ih =>
    cases a with
    | nil =>
      injection hx with h1 h2; subst h1 h2
      exact ⟨[], ts', rfl, .nil, h⟩
    | cons d a =>
      injection hx with h1 h2; subst h1
      obtain ⟨a', b', rfl, h3, h4⟩ := ih h2
      exact ⟨d :: a', b', rfl, .same h3, h4⟩
  | @gap gs gs' ts ts' h1 h2 h3 h4 h5 h6 ih =>
    have hmem : t ∉ gs := fun hm => ht (white_blankForm (h3 t hm))
    rcases List.append_eq_append_iff.mp hx with ⟨z, e1, e2⟩ | ⟨z, e1, e2⟩
    · cases z with
      | nil =>
        have e1 : a = gs := by simpa using e1.symm
        obtain ⟨a', b', rfl, k3, k4⟩ := ih (a := []) (by simpa using e2)
        subst e1
        refine ⟨gs' ++ a', b', by simp, ?_, k4⟩
        have := SimG.gap (G := G) (e := false) h1 h2 h3 h4 h5 k3
        simpa using this
      | cons d z =>
        injection e2 with e2 e3; subst e2
        exact absurd (by rw [e1]; simp) hmem
    · obtain ⟨a', b', rfl, k3, k4⟩ := ih (a := z) (by rw [e2])
      subst e1
      exact ⟨gs' ++ a', b', by simp, .gap h1 h2 h3 h4 h5 k3, k4⟩
  | @trail w w' _ h1 _ =>
    exact absurd (white_blankForm (h1 t (by rw [← hx]; simp))) ht

theorem whites_run {l : PyStr} {b : List PyStr} (hb : ∀ t ∈ b, WhiteToken t) : RunTokens l b [] := by
  induction b with
  | nil => exact .nil
  | cons t b ih => exact .blank (white_blankForm (hb t (by simp))) (ih (fun x hx => hb x (List.mem_cons_of_mem _ hx)))

theorem runTokens_simG {l : PyStr} (hl : l ∈ supported) {G : PyStr → PyStr → Prop} {e : Bool} {ts ts' : List PyStr} {is : List RunItem}
    (h : SimG G e ts ts') (hr : RunTokens l ts is) : RunTokens l ts' is := by
  induction h generalizing is with
  | nil => exact hr
  | same _ ih =>
    cases hr with
    | word hw h => exact .word hw (ih h)
    | conj hw h => exact .conj hw (ih h)
    | blank hw h => exact .blank hw (ih h)
  | gap h1 h2 h3 h4 h5 h6 ih =>
    obtain ⟨x, y, k1, k2, rfl⟩ := runTokens_split hr
    rw [blanks_items hl (fun t ht => white_blankForm (h3 t ht)) k1]
    exact runTokens_append (whites_run h4) (ih k2)
  | trail _ h1 h2 =>
    rw [blanks_items hl (fun t ht => white_blankForm (h1 t ht)) hr]
    exact whites_run h2

theorem run_simG {l : PyStr} (hl : l ∈ supported) {G : PyStr → PyStr → Prop} {e : Bool} {ts ts' : List PyStr} {is : List RunItem}
    (h : SimG G e ts ts') (hr : Run l ts is) : Run l ts' is := by
  obtain ⟨h1, t, ts0, rfl, hc⟩ := hr
  obtain ⟨a', b', e1, h2, _⟩ := simG_split (a := []) (cardinal_not_blank hl hc) h
  have := simG_nil h2
  subst this
  exact ⟨runTokens_simG hl h h1, t, b', e1, hc⟩

theorem endsBlank_append {a b : List PyStr} (hb : b ≠ []) : EndsBlank (a ++ b) ↔ EndsBlank b := by
  rcases List.eq_nil_or_concat b with rfl | ⟨c, t, rfl⟩
  · exact absurd rfl hb
  · constructor
    · rintro ⟨x, u, e, hu⟩
      rw [List.concat_eq_append, ← List.append_assoc] at e
      obtain ⟨_, e2⟩ := List.append_inj' e rfl
      injection e2 with e2; subst e2
      exact ⟨c, t, by simp, hu⟩
    · rintro ⟨x, u, e, hu⟩
      exact ⟨a ++ x, u, by rw [e]; simp, hu⟩

theorem endsBlank_whites {a : List PyStr} (ha : a ≠ []) (h : ∀ t ∈ a, WhiteToken t) : EndsBlank a := by
  rcases List.eq_nil_or_concat a with e | ⟨c, t, rfl⟩
  · exact absurd e ha
  · exact ⟨c, t, by simp, white_blankForm (h t (by simp))⟩

theorem simG_nil_iff {G : PyStr → PyStr → Prop} {ts ts' : List PyStr} (h : SimG G false ts ts') : ts = [] ↔ ts' = [] := by
  cases h with
  | nil => simp
  | same _ => simp
  | gap h1 h2 _ _ _ _ => simp [h1, h2]
  | trail h _ _ => cases h

theorem endsBlank_simG {G : PyStr → PyStr → Prop} {ts ts' : List PyStr} (h : SimG G false ts ts') : EndsBlank ts ↔ EndsBlank ts' := by
  induction h with
  | nil => rfl
  | @same t ts ts' h ih =>
    by_cases h0 : ts = []
    · have := (simG_nil_iff h).mp h0
      subst h0 this; rfl
    · have h1 : ts' ≠ [] := fun h' => h0 ((simG_nil_iff h).mpr h')
      rw [show t :: ts = [t] ++ ts from rfl, show t :: ts' = [t] ++ ts' from rfl, endsBlank_append h0, endsBlank_append h1, ih]
  | @gap gs gs' ts ts' h1 h2 h3 h4 _ h ih =>
    by_cases h0 : ts = []
    · have := (simG_nil_iff h).mp h0
      subst h0 this
      rw [List.append_nil, List.append_nil]
      exact ⟨fun _ => endsBlank_whites h2 h4, fun _ => endsBlank_whites h1 h3⟩
    · have h1 : ts' ≠ [] := fun h' => h0 ((simG_nil_iff h).mpr h')
      rw [endsBlank_append h0, endsBlank_append h1, ih]
  | trail h _ _ => cases h

theorem converted_unique {l : PyStr} (hl : l ∈ supported) {ts : List PyStr} {x y : PyStr} (h : Converted l ts x) (h' : Converted l ts y) : x = y :=
  (converted_pieces hl h).symm.trans (converted_pieces hl h')

theorem converted_whites {l : PyStr} (hl : l ∈ supported) {gs ts : List PyStr} {out : PyStr} (hg : ∀ t ∈ gs, WhiteToken t) (h : Converted l (gs ++ ts) out) :
    ∃ o, out = gs.flatten ++ o ∧ Converted l ts o := by
  obtain ⟨o, ho⟩ := converted_exists hl ts
  exact ⟨o, converted_unique hl h (keep_blanks hg ho), ho⟩

/-- Converting token lists that differ in white space. -/
theorem converted_spacing {R G : PyStr → PyStr → Prop} {e : Bool} (hfix : ∀ p {x y}, R x y → R (p ++ x) (p ++ y)) (hnil : R [] [])
    (hgap : ∀ {g g' x y}, WhiteToken g → WhiteToken g' → G g g' → R x y → R (g ++ x) (g' ++ y))
    (htrail : e = true → ∀ {g g'}, WhiteToken g → WhiteToken g' → R g g')
    {l : PyStr} (hl : l ∈ supported) : ∀ (n : Nat) {ts ts' : List PyStr} {out : PyStr}, ts.length ≤ n → SimG G e ts ts' → Converted l ts out →
      ∃ out', Converted l ts' out' ∧ R out out' := by
  have flat : ∀ {gs : List PyStr}, (∀ t ∈ gs, WhiteToken t) → WhiteToken gs.flatten := by
    intro gs h c hc
    obtain ⟨t, ht, hct⟩ := List.mem_flatten.mp hc
    exact h t ht c hct
  have whole : ∀ {gs : List PyStr}, (∀ t ∈ gs, WhiteToken t) → Converted l gs gs.flatten := by
    intro gs h
    have := keep_blanks h (Converted.nil (l := l))
    simpa using this
  intro n
  induction n with
  | zero =>
    intro ts ts' out hn hs hc
    have : ts = [] := List.length_eq_zero_iff.mp (by omega)
    subst this
    have e0 := converted_unique hl hc .nil
    subst e0
    generalize hx : ([] : List PyStr) = xs at hs
    cases hs with
    | nil => exact ⟨[], .nil, hnil⟩
    | same _ => cases hx
    | gap h1 _ _ _ _ _ => exact absurd (List.append_eq_nil_iff.mp hx.symm).1 h1
    | trail he h1 h2 => exact ⟨_, whole h2, htrail he (by intro c hc; cases hc) (flat h2)⟩
  | succ n ih =>
    intro ts ts' out hn hs hc
    have hs0 := hs
    have tailLen : ∀ {run ts0 : List PyStr} {t : PyStr}, (run ++ t :: ts0).length ≤ n + 1 → ts0.length ≤ n := by
      intro run ts0 t h
      simp at h; omega
    cases hc with
    | nil =>
      exact ih (by simp) hs .nil
    | @keep t ts0 out0 hk hc =>
      generalize hx : t :: ts0 = xs at hs
      cases hs with
      | nil => cases hx
      | same h =>
        injection hx with h1 h2; subst h1 h2
        obtain ⟨o, ho, hR⟩ := ih (by simpa using hn) h hc
        exact ⟨t ++ o, .keep hk ho, hfix t hR⟩
      | @gap gs gs' ts1 ts1' h1 h2 h3 h4 h5 h6 =>
        have hc' : Converted l (gs ++ ts1) (t ++ out0) := hx ▸ .keep hk hc
        obtain ⟨o, e1, ho⟩ := converted_whites hl h3 hc'
        have hlen : ts1.length ≤ n := by
          have := congrArg List.length hx
          have hg : 0 < gs.length := by
            cases gs with
            | nil => exact absurd rfl h1
            | cons _ _ => simp
          rw [List.length_append] at this
          rw [this] at hn
          omega
        obtain ⟨o', ho', hR⟩ := ih hlen h6 ho
        rw [e1]
        exact ⟨gs'.flatten ++ o', keep_blanks h4 ho', hgap (flat h3) (flat h4) h5 hR⟩
      | trail he h1 h2 =>
        have hc' : Converted l ts' ts'.flatten := whole h2
        have e1 := converted_unique hl (hx ▸ Converted.keep hk hc) (whole h1)
        rw [e1]
        exact ⟨_, hc', htrail he (flat h1) (flat h2)⟩
    | @ending run is xs hrun hcut =>
      refine ⟨withSpaces xs, .ending (run_simG hl hs hrun) hcut, ?_⟩
      have := hfix (withSpaces xs) hnil
      simpa using this
    | @mark run is xs t ts0 out0 hrun hcut hm hbl hc =>
      obtain ⟨a', b', rfl, h1, h2⟩ := simG_split (mark_not_blank hm) hs
      obtain ⟨o, ho, hR⟩ := ih (tailLen hn) h2 hc
      exact ⟨_, .mark (run_simG hl h1 hrun) hcut hm ((endsBlank_simG h1).mp hbl) ho, hfix _ hR⟩
    | @markTight run is xs t ts0 out0 hrun hcut hm hbl hc =>
      obtain ⟨a', b', rfl, h1, h2⟩ := simG_split (mark_not_blank hm) hs
      obtain ⟨o, ho, hR⟩ := ih (tailLen hn) h2 hc
      exact ⟨_, .markTight (run_simG hl h1 hrun) hcut hm (fun h => hbl ((endsBlank_simG h1).mpr h)) ho, hfix _ hR⟩
    | @word run is xs t ts0 out0 hrun hlast hcut ho hm hc =>
      obtain ⟨a', b', rfl, h1, h2⟩ := simG_split (closing_facts hl (Or.inl ho)).2.2 hs
      obtain ⟨o, ho', hR⟩ := ih (tailLen hn) h2 hc
      exact ⟨_, .word (run_simG hl h1 hrun) hlast hcut ho hm ho', hfix _ hR⟩
    | @conjWord run is f xs t ts0 out0 hrun hcut ho hm hc =>
      obtain ⟨a', b', rfl, h1, h2⟩ := simG_split (closing_facts hl (Or.inl ho)).2.2 hs
      obtain ⟨o, ho', hR⟩ := ih (tailLen hn) h2 hc
      exact ⟨_, .conjWord (run_simG hl h1 hrun) hcut ho hm ho', hfix _ hR⟩
    | @ordinal run is xs t k v ts0 out0 hrun ho hcut hc =>
      obtain ⟨a', b', rfl, h1, h2⟩ := simG_split (closing_facts hl (Or.inr ⟨k, v, ho⟩)).2.2 hs
      obtain ⟨o, ho', hR⟩ := ih (tailLen hn) h2 hc
      refine ⟨_, .ordinal (is := is) (k := k) (v := v) (xs := xs) ?_ ho hcut ho', hfix _ hR⟩
      rcases hrun with ⟨rfl, rfl⟩ | hrun
      · exact Or.inl ⟨simG_nil h1, rfl⟩
      · exact Or.inr (run_simG hl h1 hrun)

/-! ### Tokens -/

/-- Splitting at single characters. -/
def splitAtChars (p : Nat → Bool) : PyStr → List PyStr
  | [] => [[]]
  | c :: cs => if p c then [] :: [c] :: splitAtChars p cs else
      match splitAtChars p cs with
      | [] => [[c]]
      | t :: ts => (c :: t) :: ts

theorem splitAtChars_nonWord (s : PyStr) : splitAtChars (fun c => !isWord c) s = splitNonWord s := by
  induction s with
  | nil => rfl
  | cons c s ih =>
    unfold splitAtChars splitNonWord
    rw [ih]
    cases isWord c <;> cases splitNonWord s <;> rfl

theorem splitAtChars_ne (p : Nat → Bool) (s : PyStr) : ∃ h t, splitAtChars p s = h :: t := by
  cases s with
  | nil => exact ⟨_, _, rfl⟩
  | cons c s =>
    unfold splitAtChars
    split
    · exact ⟨_, _, rfl⟩
    · split <;> exact ⟨_, _, rfl⟩

theorem splitAtChars_white {p : Nat → Bool} {s : PyStr} (h : WhiteToken s) : ∀ t ∈ splitAtChars p s, WhiteToken t := by
  induction s with
  | nil => intro t ht; simp [splitAtChars] at ht; subst ht; exact h
  | cons c s ih =>
    have hc := h c (by simp)
    have ih := ih (fun d hd => h d (List.mem_cons_of_mem _ hd))
    unfold splitAtChars
    split
    · intro t ht
      simp only [List.mem_cons] at ht
      rcases ht with rfl | rfl | ht
      · intro d hd; cases hd
      · intro d hd; rw [List.mem_singleton] at hd; subst hd; exact hc
      · exact ih t ht
    · obtain ⟨u, us, e⟩ := splitAtChars_ne p s
      rw [e] at ih ⊢
      intro t ht
      rcases List.mem_cons.mp ht with rfl | ht
      · intro d hd
        rcases List.mem_cons.mp hd with rfl | hd
        · exact hc
        · exact ih u (by simp) d hd
      · exact ih t (List.mem_cons_of_mem _ ht)

/-- Gaps of the splitting relation: both non-empty. -/
def BothNonempty (g g' : PyStr) : Prop := g ≠ [] ∧ g' ≠ []

/-- The tokens of white space in front of a text. -/
theorem splitAtChars_gap {p : Nat → Bool} (hp : ∀ c, isSpace c = true → p c = true) {g : PyStr} (hg : WhiteToken g) (hne : g ≠ []) (s : PyStr) :
    ∃ gs, splitAtChars p (g ++ s) = [] :: (gs ++ splitAtChars p s) ∧ gs ≠ [] ∧ (∀ t ∈ gs, WhiteToken t) ∧ gs.flatten = g := by
  induction g with
  | nil => exact absurd rfl hne
  | cons c g ih =>
    have hc := hg c (by simp)
    have w : WhiteToken [c] := by intro d hd; rw [List.mem_singleton] at hd; subst hd; exact hc
    rw [List.cons_append, splitAtChars, if_pos (hp c hc)]
    by_cases h0 : g = []
    · subst h0; exact ⟨[[c]], rfl, by simp, by simpa using w, rfl⟩
    · obtain ⟨gs, e, h1, h2, h3⟩ := ih (fun d hd => hg d (List.mem_cons_of_mem _ hd)) h0
      refine ⟨[c] :: [] :: gs, by rw [e]; rfl, by simp, ?_, by simp [h3]⟩
      intro t ht
      simp only [List.mem_cons] at ht
      rcases ht with rfl | rfl | ht
      · exact w
      · intro d hd; cases hd
      · exact h2 t ht

theorem splitAtChars_spacing {p : Nat → Bool} (hp : ∀ c, isSpace c = true → p c = true) {a b : PyStr} (h : SameSpacing a b) :
    ∃ hd ta tb, splitAtChars p a = hd :: ta ∧ splitAtChars p b = hd :: tb ∧ SimG BothNonempty true ta tb := by
  have wh : ∀ {s : PyStr}, Blank s → ∃ t, splitAtChars p s = [] :: t ∧ ∀ x ∈ t, WhiteToken x := by
    intro s hs
    cases s with
    | nil => exact ⟨[], rfl, by simp⟩
    | cons c s =>
      have := splitAtChars_white (p := p) hs
      have hc := hp c (hs c (by simp))
      rw [splitAtChars, if_pos hc] at this ⊢
      exact ⟨_, rfl, fun x hx => this x (List.mem_cons_of_mem _ hx)⟩
  induction h with
  | @trail a b ha hb =>
    obtain ⟨ta, e1, h1⟩ := wh ha
    obtain ⟨tb, e2, h2⟩ := wh hb
    exact ⟨[], ta, tb, e1, e2, .trail rfl h1 h2⟩
  | @char c a b _ ih =>
    obtain ⟨h, ta, tb, e1, e2, hs⟩ := ih
    rw [splitAtChars, splitAtChars, e1, e2]
    by_cases hc : p c = true
    · rw [if_pos hc, if_pos hc]; exact ⟨_, _, _, rfl, rfl, .same (.same hs)⟩
    · rw [if_neg hc, if_neg hc]; exact ⟨_, _, _, rfl, rfl, hs⟩
  | @gap g g' a b h1 h2 h3 h4 _ ih =>
    obtain ⟨h, ta, tb, e1, e2, hs⟩ := ih
    obtain ⟨gs, f1, f2, f3, f4⟩ := splitAtChars_gap hp h3 h1 a
    obtain ⟨gs', f1', f2', f3', f4'⟩ := splitAtChars_gap hp h4 h2 b
    rw [f1, f1', e1, e2]
    exact ⟨_, _, _, rfl, rfl, .gap f2 f2' f3 f3' (by rw [f4, f4']; exact ⟨h1, h2⟩) (.same hs)⟩

/-- Grouped white space against single characters. -/
theorem simG_group {c : Nat} (hc : isSpace c = true) {x : PyStr} {ts ts' : List PyStr} (hx : WhiteToken x) (h : SimG Eq false (x :: ts) ts') :
    SimG Eq false ((c :: x) :: ts) ([c] :: [] :: ts') := by
  have w : ∀ {y : PyStr}, WhiteToken y → WhiteToken (c :: y) := by
    intro y hy d hd
    rcases List.mem_cons.mp hd with rfl | hd
    · exact hc
    · exact hy d hd
  have w1 : WhiteToken [c] := w (by intro d hd; cases hd)
  generalize hy : x :: ts = xs at h
  cases h with
  | nil => cases hy
  | @same t ts0 ts0' h =>
    injection hy with h1 h2; subst h1 h2
    refine SimG.gap (gs := [c :: x]) (gs' := [[c], [], x]) (by simp) (by simp) (by simpa using w hx) ?_ (by simp) h
    intro t ht
    simp only [List.mem_cons, List.not_mem_nil, or_false] at ht
    rcases ht with rfl | rfl | rfl
    · exact w1
    · intro d hd; cases hd
    · exact hx
  | @gap gs gs' ts0 ts0' h1 h2 h3 h4 h5 h6 =>
    cases gs with
    | nil => exact absurd rfl h1
    | cons g gs =>
      rw [List.cons_append] at hy
      injection hy with e1 e2; subst e1 e2
      refine SimG.gap (gs := (c :: x) :: gs) (gs' := [c] :: [] :: gs') (by simp) (by simp) ?_ ?_ ?_ h6
      · intro t ht
        rcases List.mem_cons.mp ht with rfl | ht
        · exact w hx
        · exact h3 t (List.mem_cons_of_mem _ ht)
      · intro t ht
        simp only [List.mem_cons] at ht
        rcases ht with rfl | rfl | ht
        · exact w1
        · intro d hd; cases hd
        · exact h4 t ht
      · rw [List.flatten_cons] at h5
        simp [← h5]
  | trail h _ _ => cases h

theorem splitSpaces_chars (s : PyStr) : ∃ hd ta tb, splitSpaces s = hd :: ta ∧ splitAtChars isSpace s = hd :: tb ∧ SimG Eq false ta tb ∧
    (∀ d ds, s = d :: ds → isSpace d = true → hd = [] ∧ ∃ run ts, ta = run :: ts ∧ WhiteToken run) := by
  induction s with
  | nil => exact ⟨[], [], [], rfl, rfl, .nil, by intro d ds h; cases h⟩
  | cons c s ih =>
    obtain ⟨h, ta, tb, e1, e2, h3, h4⟩ := ih
    have w1 : isSpace c = true → WhiteToken [c] := by intro hc d hd; rw [List.mem_singleton] at hd; subst hd; exact hc
    cases hc : isSpace c with
    | false =>
      refine ⟨c :: h, ta, tb, ?_, ?_, h3, ?_⟩
      · unfold splitSpaces; rw [hc, e1]; rfl
      · rw [splitAtChars, hc, e2]; rfl
      · intro d ds he hd; injection he with he _; subst he; rw [hc] at hd; cases hd
    | true =>
      have eb : splitAtChars isSpace (c :: s) = [] :: [c] :: h :: tb := by rw [splitAtChars, hc, e2]; rfl
      by_cases hd : ∃ d ds, s = d :: ds ∧ isSpace d = true
      · obtain ⟨d, ds, rfl, hd⟩ := hd
        obtain ⟨rfl, run, ts, rfl, hw⟩ := h4 d ds rfl hd
        refine ⟨[], (c :: run) :: ts, [c] :: [] :: tb, ?_, eb, simG_group hc hw h3, ?_⟩
        · unfold splitSpaces
          rw [if_pos hc, e1]
          simp only [hd, if_true]
        · intro _ _ _ _
          refine ⟨rfl, _, _, rfl, ?_⟩
          intro x hx
          rcases List.mem_cons.mp hx with rfl | hx
          · exact hc
          · exact hw x hx
      · refine ⟨[], [c] :: h :: ta, [c] :: h :: tb, ?_, eb, .same (.same h3), ?_⟩
        · cases s with
          | nil => unfold splitSpaces; rw [if_pos hc, e1]
          | cons d ds =>
            have hd' : isSpace d = false := by
              cases hx : isSpace d with
              | false => rfl
              | true => exact absurd ⟨d, ds, rfl, hx⟩ hd
            unfold splitSpaces
            rw [if_pos hc, e1]
            split
            · rename_i d' ds' run' ts' he1 he2
              injection he1 with he1 _; subst he1
              injection he2 with he2 he3
              rw [hd', he2, he3]; simp
            · rfl
        · intro _ _ _ _
          exact ⟨rfl, _, _, rfl, w1 hc⟩

theorem SimG.symm {e : Bool} {ts ts' : List PyStr} (h : SimG Eq e ts ts') : SimG Eq e ts' ts := by
  induction h with
  | nil => exact .nil
  | same _ ih => exact .same ih
  | gap h1 h2 h3 h4 h5 _ ih => exact .gap h2 h1 h4 h3 h5.symm ih
  | trail h h1 h2 => exact .trail h h2 h1

/-- `parse` (before stripping) of texts that differ in white space. -/
theorem converted_sameSpacing {l : PyStr} (hl : l ∈ supported) {s s' out : PyStr} (h : SameSpacing s s') (hc : Converted l (tokenize s l) out) :
    ∃ out', Converted l (tokenize s' l) out' ∧ SameSpacing out out' := by
  have h := sameSpacing_noShy h
  have fix : ∀ (p : PyStr) {x y : PyStr}, SameSpacing x y → SameSpacing (p ++ x) (p ++ y) := by
    intro p x y h
    induction p with
    | nil => exact h
    | cons c p ih => exact .char ih
  have main : ∀ {p : Nat → Bool} {out : PyStr}, (∀ c, isSpace c = true → p c = true) → Converted l (splitAtChars p (noShy s)) out →
      ∃ out', Converted l (splitAtChars p (noShy s')) out' ∧ SameSpacing out out' := by
    intro p out hp hc
    obtain ⟨hd, ta, tb, e1, e2, hs⟩ := splitAtChars_spacing hp h
    rw [e1] at hc
    rw [e2]
    exact converted_spacing (R := SameSpacing) (G := BothNonempty) (e := true) fix (.trail (by intro c h; cases h) (by intro c h; cases h))
      (fun h1 h2 hg hr => .gap hg.1 hg.2 h1 h2 hr) (fun _ {g g'} h1 h2 => .trail h1 h2) hl _ (Nat.le_refl _) (.same hs) hc
  rw [tokenize_eq] at hc ⊢
  unfold split at hc ⊢
  by_cases hh : RE_BUG_LANGUAGES.elem l = true
  · rw [if_pos hh] at hc ⊢
    have eqs : ∀ {a b : List PyStr} {out : PyStr}, SimG Eq false a b → Converted l a out → Converted l b out := by
      intro a b out hs hc
      obtain ⟨o, ho, e⟩ := converted_spacing (R := Eq) (G := Eq) (e := false) (fun p x y h => by rw [h]) rfl
        (fun _ _ hg hr => by rw [hg, hr]) (fun h => by cases h) hl _ (Nat.le_refl _) hs hc
      rw [e]; exact ho
    obtain ⟨hd, ta, tb, e1, e2, hs, _⟩ := splitSpaces_chars (noShy s)
    obtain ⟨hd', ta', tb', e1', e2', hs', _⟩ := splitSpaces_chars (noShy s')
    rw [e1] at hc
    have hc2 := eqs (.same hs) hc
    rw [← e2] at hc2
    obtain ⟨o, ho, hr⟩ := main (fun _ h => h) hc2
    rw [e2'] at ho
    refine ⟨o, ?_, hr⟩
    rw [e1']
    exact eqs (.same hs'.symm) ho
  · rw [if_neg hh] at hc ⊢
    rw [← splitAtChars_nonWord] at hc ⊢
    exact main (fun c hc => by simp [space_not_word hc]) hc

/-- Leading white space. -/
theorem converted_leading {l : PyStr} (hl : l ∈ supported) {g s out : PyStr} (hg : WhiteToken g) (hc : Converted l (tokenize s l) out) :
    Converted l (tokenize (g ++ s) l) (g ++ out) := by
  by_cases h0 : g = []
  · subst h0; exact hc
  have hn : noShy (g ++ s) = g ++ noShy s := by
    unfold noShy
    rw [List.filter_append, List.filter_eq_self.mpr (fun c h => (space_not_apos (hg c h)).2.2)]
  have main : ∀ {p : Nat → Bool} {out : PyStr}, (∀ c, isSpace c = true → p c = true) → Converted l (splitAtChars p (noShy s)) out →
      Converted l (splitAtChars p (g ++ noShy s)) (g ++ out) := by
    intro p out hp hc
    obtain ⟨gs, e, h1, h2, h3⟩ := splitAtChars_gap hp hg h0 (noShy s)
    rw [e]
    have := keep_blanks (mid := [] :: gs) (by
      intro t ht
      rcases List.mem_cons.mp ht with rfl | ht
      · intro c h; cases h
      · exact h2 t ht) hc
    simpa [h3] using this
  rw [tokenize_eq] at hc ⊢
  rw [hn]
  unfold split at hc ⊢
  by_cases hh : RE_BUG_LANGUAGES.elem l = true
  · rw [if_pos hh] at hc ⊢
    have eqs : ∀ {a b : List PyStr} {out : PyStr}, SimG Eq false a b → Converted l a out → Converted l b out := by
      intro a b out hs hc
      obtain ⟨o, ho, e⟩ := converted_spacing (R := Eq) (G := Eq) (e := false) (fun p x y h => by rw [h]) rfl
        (fun _ _ hg hr => by rw [hg, hr]) (fun h => by cases h) hl _ (Nat.le_refl _) hs hc
      rw [e]; exact ho
    obtain ⟨hd, ta, tb, e1, e2, hs, _⟩ := splitSpaces_chars (noShy s)
    obtain ⟨hd', ta', tb', e1', e2', hs', _⟩ := splitSpaces_chars (g ++ noShy s)
    rw [e1] at hc
    have hc2 := eqs (.same hs) hc
    rw [← e2] at hc2
    have ho := main (fun _ h => h) hc2
    rw [e2'] at ho
    rw [e1']
    exact eqs (.same hs'.symm) ho
  · rw [if_neg hh] at hc ⊢
    rw [← splitAtChars_nonWord] at hc ⊢
    exact main (fun c hc => by simp [space_not_word hc]) hc

theorem rdropWhile_cons (c : Nat) (a : PyStr) : rdropWhile isSpace (c :: a) = if rdropWhile isSpace a = [] ∧ isSpace c = true then [] else c :: rdropWhile isSpace a := by
  unfold rdropWhile
  rw [List.reverse_cons, List.dropWhile_append]
  by_cases h : a.reverse.dropWhile isSpace = []
  · rw [h]
    cases hc : isSpace c <;> simp [List.dropWhile, hc]
  · have : (a.reverse.dropWhile isSpace).isEmpty = false := by simpa using h
    rw [if_neg (by simp [this]), if_neg (by simp [h])]
    simp

theorem rdropWhile_blank {a : PyStr} : rdropWhile isSpace a = [] ↔ Blank a := by
  rw [rdropWhile_eq_nil_iff, List.all_eq_true]; rfl

theorem sameSpacing_rstrip {a b : PyStr} (h : SameSpacing a b) : SameSpacing (rdropWhile isSpace a) (rdropWhile isSpace b) := by
  have app : ∀ (g a : PyStr), ¬ Blank a → rdropWhile isSpace (g ++ a) = g ++ rdropWhile isSpace a := by
    intro g a ha
    induction g with
    | nil => rfl
    | cons c g ih =>
      rw [List.cons_append, rdropWhile_cons, if_neg, ih]; rfl
      rintro ⟨h, _⟩
      rw [rdropWhile_blank] at h
      exact ha (fun d hd => h d (List.mem_append_right _ hd))
  have nil : SameSpacing [] [] := .trail (by intro c h; cases h) (by intro c h; cases h)
  induction h with
  | trail ha hb => rw [rdropWhile_blank.mpr ha, rdropWhile_blank.mpr hb]; exact nil
  | @char c a b h ih =>
    rw [rdropWhile_cons, rdropWhile_cons]
    by_cases hc : rdropWhile isSpace a = [] ∧ isSpace c = true
    · rw [if_pos hc, if_pos ⟨rdropWhile_blank.mpr ((sameSpacing_blank h).mp (rdropWhile_blank.mp hc.1)), hc.2⟩]; exact nil
    · rw [if_neg hc, if_neg (fun hd => hc ⟨rdropWhile_blank.mpr ((sameSpacing_blank h).mpr (rdropWhile_blank.mp hd.1)), hd.2⟩)]
      exact .char ih
  | @gap g g' a b h1 h2 h3 h4 h ih =>
    by_cases hb : Blank a
    · have hb' := (sameSpacing_blank h).mp hb
      rw [rdropWhile_blank.mpr, rdropWhile_blank.mpr]
      · exact nil
      · intro c hc; rcases List.mem_append.mp hc with hc | hc
        · exact h4 c hc
        · exact hb' c hc
      · intro c hc; rcases List.mem_append.mp hc with hc | hc
        · exact h3 c hc
        · exact hb c hc
    · have hb' : ¬ Blank b := fun h' => hb ((sameSpacing_blank h).mpr h')
      rw [app _ _ hb, app _ _ hb']
      exact .gap h1 h2 h3 h4 ih

theorem sameSpacing_lstrip {a b : PyStr} (h : SameSpacing a b) : SameSpacing (a.dropWhile isSpace) (b.dropWhile isSpace) := by
  have nil : SameSpacing [] [] := .trail (by intro c h; cases h) (by intro c h; cases h)
  have all : ∀ {a : PyStr}, Blank a → a.dropWhile isSpace = [] := by
    intro a h; rw [dropWhile_eq_nil_iff_all, List.all_eq_true]; exact h
  induction h with
  | trail ha hb => rw [all ha, all hb]; exact nil
  | @char c a b h ih =>
    rw [List.dropWhile_cons, List.dropWhile_cons]
    split
    · exact ih
    · exact .char h
  | @gap g g' a b h1 h2 h3 h4 h ih =>
    rw [List.dropWhile_append_of_pos h3, List.dropWhile_append_of_pos h4]; exact ih

theorem sameSpacing_strip {a b : PyStr} (h : SameSpacing a b) : SameSpacing (strip a) (strip b) :=
  sameSpacing_rstrip (sameSpacing_lstrip h)

theorem parse_detected {s l : PyStr} (h : Detected s l) : parse s none = parse s (some l) := by
  unfold parse; rw [resolve_none h]; rfl

end NumberParser
