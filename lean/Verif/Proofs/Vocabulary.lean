import Verif.Proofs.Pipeline
import Verif.Proofs.Reading
import Verif.Proofs.Size
import Verif.Spec.Vocabulary

/-! The reading rules for any vocabulary. -/

set_option linter.unusedSimpArgs false

namespace NumberParser
open Spec

/-- The table of a class, as the parser has it. -/
def dictOf (i : Info) (k : Class) : Dict := normalizeDict (tableOf i k)

theorem dictOf_mem {i : Info} {k : Class} {f : PyStr} : (dictOf i k).mem f = true ↔ Lists (tableOf i k) f := by
  unfold dictOf Dict.mem
  cases h : Dict.get? (normalizeDict (tableOf i k)) f with
  | none => simp [normalize_get_none.mp h]
  | some v =>
    simp only [Option.isSome_some, true_iff]
    refine Classical.byContradiction fun hn => ?_
    rw [normalize_get_none.mpr hn] at h; cases h

theorem dict_disjoint {i : Info} (h : Sensible i) {k k' : Class} (hk : k ≠ k') (f : PyStr) (hf : (dictOf i k).mem f = true) :
    (dictOf i k').get? f = none :=
  normalize_get_none.mpr fun hl => hk (h.oneClass k k' f (dictOf_mem.mp hf) hl)

theorem sensible_disjoint {i : Info} (h : Sensible i) : (mkLangData i).Disjoint where
  ud := by
    intro t
    show Dict.get? (Dict.merge (Dict.merge [] (normalizeDict i.unitNumbers)) (normalizeDict i.directNumbers)) t = _
    rw [Dict.get?_merge' _ (normalizeDict_nodup _), Dict.get?_merge' _ (normalizeDict_nodup _)]
    show _ = (Dict.get? (normalizeDict i.directNumbers) t).or (Dict.get? (normalizeDict i.unitNumbers) t)
    simp [Dict.get?]
  all := by
    intro t
    show Dict.mem (Dict.merge (Dict.merge (Dict.merge (Dict.merge (Dict.merge [] _) _) _) _) _) t = _
    simp only [Dict.mem_merge]
    rfl
  unit_direct := dict_disjoint (k := .unit) (k' := .direct) h (by decide)
  unit_tens := dict_disjoint (k := .unit) (k' := .tens) h (by decide)
  unit_hund := dict_disjoint (k := .unit) (k' := .hundreds) h (by decide)
  unit_big := dict_disjoint (k := .unit) (k' := .scale) h (by decide)
  direct_tens := dict_disjoint (k := .direct) (k' := .tens) h (by decide)
  direct_hund := dict_disjoint (k := .direct) (k' := .hundreds) h (by decide)
  direct_big := dict_disjoint (k := .direct) (k' := .scale) h (by decide)
  tens_hund := dict_disjoint (k := .tens) (k' := .hundreds) h (by decide)
  tens_big := dict_disjoint (k := .tens) (k' := .scale) h (by decide)
  hund_big := dict_disjoint (k := .hundreds) (k' := .scale) h (by decide)

theorem all_listed {i : Info} {f : PyStr} : (mkLangData i).allNumbers.mem f = true ↔ ∃ k, Lists (tableOf i k) f := by
  have : (mkLangData i).allNumbers.mem f =
      ((dictOf i .unit).mem f || (dictOf i .direct).mem f || (dictOf i .tens).mem f || (dictOf i .hundreds).mem f || (dictOf i .scale).mem f) := by
    show Dict.mem (Dict.merge (Dict.merge (Dict.merge (Dict.merge (Dict.merge [] _) _) _) _) _) f = _
    simp only [Dict.mem_merge]
    rfl
  rw [this]
  simp only [Bool.or_eq_true, dictOf_mem]
  constructor
  · rintro ((((h | h) | h) | h) | h) <;> exact ⟨_, h⟩
  · rintro ⟨k, h⟩; cases k <;> simp [h]

theorem last_lists {t : List (PyStr × Nat)} {f : PyStr} {v : Nat} (h : LastEntry t f v) : Lists t f := by
  obtain ⟨a, w, b, rfl, hw, _⟩ := h
  exact ⟨(w, v), by simp, hw⟩

theorem lists_last {t : List (PyStr × Nat)} {f : PyStr} (h : Lists t f) : ∃ v, LastEntry t f v := by
  cases hg : Dict.get? (normalizeDict t) f with
  | none => exact absurd h (normalize_get_none.mp hg)
  | some v => exact ⟨v, normalize_get_some.mp hg⟩

theorem blank_false {f : PyStr} (h : ∃ c ∈ f, isSpace c = false) : blank f = false := by
  cases hb : blank f with
  | false => rfl
  | true =>
    obtain ⟨c, hc, hs⟩ := h
    rw [(blank_spec f).mp hb c hc] at hs; cases hs

theorem kindOf_entry {i : Info} (h : Sensible i) {k : Class} {v : Nat} {f : PyStr} (hw : LastEntry (tableOf i k) f v) :
    kindOf (mkLangData i) f = kindOfClass k v := by
  have hl := last_lists hw
  have hn : ∀ k', k' ≠ k → (dictOf i k').get? f = none := fun k' hk =>
    normalize_get_none.mpr fun hl' => hk (h.oneClass k' k _ hl' hl)
  have hs : (dictOf i k).get? f = some v := normalize_get_some.mpr hw
  have e : ∀ f, kindOf (mkLangData i) f = match (dictOf i .unit).get? f with
    | some v => .unit v
    | none => match (dictOf i .direct).get? f with
      | some v => .direct v
      | none => match (dictOf i .tens).get? f with
        | some v => .tens v
        | none => match (dictOf i .hundreds).get? f with
          | some v => .hund v
          | none => match (dictOf i .scale).get? f with
            | some v => .big v
            | none => .other := fun _ => rfl
  rw [e]
  cases k with
  | unit => rw [hs]; rfl
  | direct => rw [hn .unit (by decide), hs]; rfl
  | tens => rw [hn .unit (by decide), hn .direct (by decide), hs]; rfl
  | hundreds => rw [hn .unit (by decide), hn .direct (by decide), hn .tens (by decide), hs]; rfl
  | scale => rw [hn .unit (by decide), hn .direct (by decide), hn .tens (by decide), hn .hundreds (by decide), hs]; rfl

theorem kindOf_wordOf {i : Info} (h : Sensible i) {k : Class} {v : Nat} {t : PyStr} (hw : WordOf i k v t) :
    kindOf (mkLangData i) (form t) = kindOfClass k v := kindOf_entry h hw

theorem onlyWordsOf_pos {i : Info} (hi : Sensible i) {ts : List PyStr} {ws : List (Class × Nat)} (h : OnlyWordsOf i ts ws) :
    PosScale ws := by
  induction h with
  | nil => intro p hp; simp at hp
  | @word t k v ts ws hw _ ih =>
    intro p hp
    rcases List.mem_cons.mp hp with hp | hp
    · obtain ⟨rfl, rfl⟩ := Prod.mk.inj hp
      rcases Nat.eq_zero_or_pos p with rfl | h0
      · exact absurd hw (hi.scaleNotZero _)
      · exact h0
    · exact ih p hp
  | other _ _ ih => exact ih

theorem skip_mem {i : Info} {f : PyStr} : isSkipToken f (mkLangData i) = true ↔ f ∈ i.skipTokens := List.elem_iff

theorem onlyWordsOf_kinds {i : Info} (hi : Sensible i) {ts : List PyStr} {ws : List (Class × Nat)} (h : OnlyWordsOf i ts ws) :
    kinds (mkLangData i) (formsOf ts) = kindsOf ws ∧ (formsOf ts).all (numOrSkip (mkLangData i)) = true := by
  induction h with
  | nil => exact ⟨rfl, rfl⟩
  | @word t k v ts ws hw _ ih =>
    have hl := last_lists hw
    have hm : (mkLangData i).allNumbers.mem (norm t) = true := all_listed.mpr ⟨k, hl⟩
    have hb : blank (norm t) = false := blank_false (hi.wordNotBlank k _ hl)
    have hk : kinds (mkLangData i) [norm t] = [kindOfClass k v] := by
      have hs : (mkLangData i).skipTokens.elem (norm t) = false := by
        cases hs : (mkLangData i).skipTokens.elem (norm t) with
        | false => rfl
        | true => exact absurd (List.elem_iff.mp hs) (hi.noConjunction k _ hl)
      have : symOf (mkLangData i) (norm t) = some (.num (kindOfClass k v)) := by
        unfold symOf; rw [hb, hs, show norm t = form t from rfl, kindOf_wordOf hi hw]; rfl
      unfold kinds
      rw [List.filterMap_cons, this]; rfl
    rw [formsOf_cons, hb, if_neg (by simp), kinds_append, hk, ih.1, List.all_append, ih.2]
    exact ⟨rfl, by simp [numOrSkip, hm]⟩
  | @other t ts ws ht _ ih =>
    rw [formsOf_cons]
    by_cases hb : blank (norm t) = true
    · rw [if_pos hb]; exact ih
    · have ht : norm t ∈ i.skipTokens := by
        rcases ht with ht | ht
        · exact absurd ((blankForm_iff t).mp ht) hb
        · exact ht
      have hs : isSkipToken (norm t) (mkLangData i) = true := skip_mem.mpr ht
      have hk : kinds (mkLangData i) [norm t] = [] := by
        have h2 : (mkLangData i).skipTokens.elem (norm t) = true := hs
        have : symOf (mkLangData i) (norm t) = some (.skip (norm t)) := by
          unfold symOf; rw [h2]; simp only [Bool.not_eq_true] at hb; rw [hb]; rfl
        unfold kinds
        rw [List.filterMap_cons, this]; rfl
      rw [if_neg hb, kinds_append, hk, ih.1, List.all_append, ih.2]
      exact ⟨rfl, by simp [numOrSkip, hs]⟩

theorem onlyWordsOf_of {i : Info} {ts : List PyStr} (h : (formsOf ts).all (numOrSkip (mkLangData i)) = true) :
    ∃ ws, OnlyWordsOf i ts ws := by
  induction ts with
  | nil => exact ⟨[], .nil⟩
  | cons t ts ih =>
    rw [formsOf_cons, List.all_append, Bool.and_eq_true] at h
    obtain ⟨ws, hws⟩ := ih h.2
    by_cases hb : blank (norm t) = true
    · exact ⟨ws, .other (Or.inl ((blankForm_iff t).mpr hb)) hws⟩
    · have h1 := h.1
      rw [if_neg hb] at h1
      simp only [List.all_cons, List.all_nil, Bool.and_true, numOrSkip, Bool.or_eq_true] at h1
      rcases h1 with h1 | h1
      · obtain ⟨k, hk⟩ := all_listed.mp h1
        obtain ⟨v, hv⟩ := lists_last hk
        exact ⟨(k, v) :: ws, .word hv hws⟩
      · exact ⟨ws, .other (Or.inr (skip_mem.mp h1)) hws⟩

theorem readAs_run {i : Info} {ws : List (Class × Nat)} (hp : PosScale ws) {n : Nat} :
    ReadAs i ws n ↔ ∃ r, runR (mkLangData i).maximumGroupValue (kindsOf ws) RState.init = some r ∧ r.value = n := by
  show (∃ c o q, Reading (mkLangData i).maximumGroupValue ws c o q ∧ n = c + o) ↔ _
  constructor
  · rintro ⟨c, o, q, h, rfl⟩
    obtain ⟨prev, h⟩ := (reading_run hp).mp h
    exact ⟨_, h, rfl⟩
  · rintro ⟨⟨c, o, prev, q⟩, h, rfl⟩
    exact ⟨c, o, q, (reading_run hp).mpr ⟨_, h⟩, rfl⟩

/-! ### `parse_number` -/

theorem truthy_listed {i : Info} (hi : Sensible i) (f : PyStr) :
    truthy (isCardinalToken f (mkLangData i)) = (mkLangData i).allNumbers.mem f := by
  unfold isCardinalToken
  by_cases ht : (mkLangData i).allNumbers.mem f = true
  · rw [if_pos ht, ht]
    obtain ⟨k, hk⟩ := all_listed.mp ht
    obtain ⟨c, hc, _⟩ := hi.wordNotBlank k f hk
    cases f with
    | nil => cases hc
    | cons c cs => rfl
  · rw [if_neg ht]; simp [truthy, ht]

theorem tokensOk_later {i : Info} (hi : Sensible i) (n : Nat) (ts : List PyStr) :
    tokensOk (mkLangData i) (n + 1) ts = ts.all (tokOkB (mkLangData i)) := by
  induction ts generalizing n with
  | nil => rfl
  | cons t ts ih =>
    simp only [tokensOk, truthy_listed hi, List.all_cons, tokOkB]
    by_cases h1 : ((mkLangData i).allNumbers.mem t || blank t) = true
    · rw [if_pos h1, ih, h1]; simp [tokOkB]
    · rw [if_neg h1]
      simp only [Bool.not_eq_true] at h1
      rw [h1, ih]
      cases isSkipToken t (mkLangData i) <;> simp [tokOkB]

theorem tokensOk_first {i : Info} (hi : Sensible i) (t : PyStr) (ts : List PyStr) :
    tokensOk (mkLangData i) 0 (t :: ts) = (!isSkipToken t (mkLangData i) && (t :: ts).all (tokOkB (mkLangData i))) := by
  simp only [tokensOk, truthy_listed hi, tokensOk_later hi, List.all_cons, tokOkB]
  cases hs : isSkipToken t (mkLangData i) with
  | false =>
    by_cases h1 : ((mkLangData i).allNumbers.mem t || blank t) = true
    · rw [if_pos h1, h1]; simp
    · simp only [Bool.not_eq_true] at h1
      simp [h1]
  | true =>
    have hm := skip_mem.mp hs
    have h1 : (mkLangData i).allNumbers.mem t = false := by
      cases h : (mkLangData i).allNumbers.mem t with
      | false => rfl
      | true =>
        obtain ⟨k, hk⟩ := all_listed.mp h
        exact absurd hm (hi.noConjunction k _ hk)
    have h2 := blank_false (hi.conjunctionNotBlank t hm)
    simp [h1, h2]

theorem strInt_iff {n : Nat} {s : PyStr} : strInt n = .ok s ↔ n < 10 ^ 4300 ∧ s = decDigits n := by
  constructor
  · intro h
    unfold strInt at h
    split at h
    · rename_i hl
      injection h with h
      exact ⟨Nat.lt_of_lt_of_le (lt_pow_digits n) (Nat.pow_le_pow_right (by decide) hl), h.symm⟩
    · cases h
  · rintro ⟨h, rfl⟩; exact strInt_ok h

theorem mapM_length {is : List Item} : ∀ {xs : List PyStr}, is.mapM renderItem = .ok xs → xs.length = is.length := by
  induction is with
  | nil => intro xs h; cases h; rfl
  | cons i is ih =>
    intro xs h
    rw [List.mapM_cons] at h
    cases h1 : renderItem i with
    | error e => rw [h1] at h; cases h
    | ok x =>
      rw [h1] at h
      cases h2 : is.mapM renderItem with
      | error e => rw [h2] at h; cases h
      | ok ys => rw [h2] at h; cases h; simp [ih h2]

/-- What is done with the value list at the end of `parse_number` -/
theorem built_value {js : List Item} {m n : Nat} :
    (do
      let built ← (js ++ [Item.num m]).mapM renderItem
      match built with
      | [s] => do
        let n ← pyInt s
        return some n
      | _ => return none : Res (Option Nat)) = .ok (some n) ↔ js = [] ∧ m = n ∧ n < 10 ^ 4300 := by
  constructor
  · intro h
    cases h1 : (js ++ [Item.num m]).mapM renderItem with
    | error e => rw [h1] at h; cases h
    | ok xs =>
      rw [h1] at h
      have hlen := mapM_length h1
      have hx : ∃ s, xs = [s] := by
        match xs, h with
        | [], h => cases h
        | [s], _ => exact ⟨s, rfl⟩
        | _ :: _ :: _, h => cases h
      obtain ⟨s, rfl⟩ := hx
      have hj : js = [] := by
        cases js with
        | nil => rfl
        | cons j js => simp at hlen
      subst hj
      rw [List.nil_append, List.mapM_cons] at h1
      cases h2 : renderItem (.num m) with
      | error e => rw [h2] at h1; cases h1
      | ok x =>
        rw [h2] at h1
        obtain ⟨hm, rfl⟩ := strInt_iff.mp h2
        cases h1
        simp only [bind, Except.bind, pyInt_decDigits hm, pure, Except.pure] at h
        injection h with h
        injection h with h
        subst h
        exact ⟨rfl, rfl, hm⟩
  · rintro ⟨rfl, rfl, hm⟩
    rw [List.nil_append, List.mapM_cons, show renderItem (.num m) = .ok (decDigits m) from strInt_iff.mpr ⟨hm, rfl⟩]
    simp only [List.mapM_nil, bind, Except.bind, pure, Except.pure, pyInt_decDigits hm]

theorem numberOfItems_last {js : List Item} {m n : Nat} : numberOfItems (js ++ [.num m]) = some n ↔ js = [] ∧ m = n := by
  cases js with
  | nil => simp [numberOfItems]
  | cons j js => cases js <;> cases j <;> simp [numberOfItems]

/-- `parse_number` on word input, in terms of the rules, for any sensible data module. -/
theorem parseNumberWith_reads {i : Info} (hi : Sensible i) {l s : PyStr} (hs : WordInput s) {t : PyStr} {ts : List PyStr}
    (hts : Tokens l (withoutApostrophes s) (t :: ts)) (n : Nat) :
    parseNumberWith (mkLangData i) s l = .ok (some n) ↔
      form t ∉ i.skipTokens ∧ n < 10 ^ 4300 ∧ ∃ ws, OnlyWordsOf i (t :: ts) ws ∧ ReadAs i ws n := by
  obtain ⟨hb, hn⟩ := (wordInput_iff s).mp hs
  have htok : normalizeTokens (tokenize (dropApos s) l) = (t :: ts).map norm := by
    rw [dropApos_eq, ← (tokens_iff _ _ _).mp hts]; rfl
  have hD := sensible_disjoint hi
  have hread : numberOfItems (buildItems (mkLangData i) ((t :: ts).map norm)) = some n ↔
      ∃ r, runR (mkLangData i).maximumGroupValue (kinds (mkLangData i) (formsOf (t :: ts))) RState.init = some r ∧ r.value = n := by
    rw [buildItems_filter hD, buildItems_eq hD, numberOfItems_symItems]
    show Option.map _ _ = _ ↔ _
    rw [Option.map_eq_some_iff]
    rfl
  have hall : tokensOk (mkLangData i) 0 ((t :: ts).map norm) = true ↔
      form t ∉ i.skipTokens ∧ (formsOf (t :: ts)).all (numOrSkip (mkLangData i)) = true := by
    rw [List.map_cons, tokensOk_first hi, ← List.map_cons, all_tokOkB, Bool.and_eq_true]
    show _ ∧ (formsOf (t :: ts)).all _ = true ↔ _
    have : (!isSkipToken (norm t) (mkLangData i)) = true ↔ form t ∉ i.skipTokens := by
      rw [Bool.not_eq_true', ← Bool.not_eq_true, skip_mem]; rfl
    rw [this]
  unfold parseNumberWith
  simp only [hb, hn, Bool.false_eq_true, if_false, replace_apos, htok]
  by_cases hok : tokensOk (mkLangData i) 0 ((t :: ts).map norm) = true
  · rw [if_pos hok]
    obtain ⟨h1, h2⟩ := hall.mp hok
    unfold buildNumber
    obtain ⟨js, m, hj⟩ := buildItems_last (mkLangData i) ((t :: ts).map norm)
    rw [hj] at hread ⊢
    rw [numberOfItems_last] at hread
    refine Iff.trans built_value ?_
    constructor
    · rintro ⟨a, b, c⟩
      obtain ⟨r, hr⟩ := hread.mp ⟨a, b⟩
      obtain ⟨ws, hws⟩ := onlyWordsOf_of h2
      rw [(onlyWordsOf_kinds hi hws).1] at hr
      exact ⟨h1, c, ws, hws, (readAs_run (onlyWordsOf_pos hi hws)).mpr ⟨r, hr⟩⟩
    · rintro ⟨_, hn, ws, hws, hr⟩
      have := (readAs_run (onlyWordsOf_pos hi hws)).mp hr
      rw [← (onlyWordsOf_kinds hi hws).1] at this
      obtain ⟨a, b⟩ := hread.mpr this
      exact ⟨a, b, hn⟩
  · rw [if_neg hok]
    constructor
    · intro h; injection h with h; cases h
    · rintro ⟨h1, _, ws, hws, _⟩
      exact absurd (hall.mpr ⟨h1, (onlyWordsOf_kinds hi hws).2⟩) hok

/-! ### Checking a data module -/

/-- The words of a table without accents. -/
def wordForms (t : List (PyStr × Nat)) : List PyStr := t.map (fun e => stripAccents e.1)

def apartB (a b : List PyStr) : Bool := a.all (fun f => !b.elem f)

def sensibleForms (u d t h b skip : List PyStr) : Bool :=
  apartB u d && apartB u t && apartB u h && apartB u b && apartB d t && apartB d h && apartB d b && apartB t h && apartB t b && apartB h b &&
  (apartB u skip && apartB d skip && apartB t skip && apartB h skip && apartB b skip) &&
  (u.all (!blank ·) && d.all (!blank ·) && t.all (!blank ·) && h.all (!blank ·) && b.all (!blank ·)) && skip.all (!blank ·)

def sensibleB (i : Info) : Bool :=
  sensibleForms (wordForms i.unitNumbers) (wordForms i.directNumbers) (wordForms i.tens) (wordForms i.hundreds) (wordForms i.bigPowersOfTen)
    i.skipTokens && i.bigPowersOfTen.all (fun e => e.2 != 0)

theorem apartB_sound {a b : List PyStr} (h : apartB a b = true) {f : PyStr} (ha : f ∈ a) : f ∉ b := by
  have := List.all_eq_true.mp h f ha
  intro hb
  rw [List.elem_iff.mpr hb] at this
  cases this

theorem wordForms_mem {t : List (PyStr × Nat)} {f : PyStr} : Lists t f ↔ f ∈ wordForms t := by
  simp [Lists, wordForms]

theorem solid_of {f : PyStr} (h : blank f = false) : ∃ c ∈ f, isSpace c = false := by
  refine Classical.byContradiction fun hn => ?_
  have : blank f = true := (blank_spec f).mpr (fun c hc => by
    cases hs : isSpace c with
    | true => rfl
    | false => exact absurd ⟨c, hc, hs⟩ hn)
  rw [h] at this; cases this

theorem sensibleB_sound {i : Info} (h : sensibleB i = true) : Sensible i := by
  unfold sensibleB sensibleForms at h
  simp only [Bool.and_eq_true] at h
  obtain ⟨⟨⟨⟨⟨⟨⟨⟨⟨⟨⟨⟨⟨ud, ut⟩, uh⟩, ub⟩, dt⟩, dh⟩, db⟩, th⟩, tb⟩, hb⟩, ⟨⟨⟨⟨s1, s2⟩, s3⟩, s4⟩, s5⟩⟩, ⟨⟨⟨⟨b1, b2⟩, b3⟩, b4⟩, b5⟩⟩, sk⟩, z⟩ := h
  have nb : ∀ {l : List PyStr}, l.all (!blank ·) = true → ∀ f ∈ l, ∃ c ∈ f, isSpace c = false := by
    intro l hl f hf
    have := List.all_eq_true.mp hl f hf
    exact solid_of (by simpa using this)
  refine ⟨?_, ?_, ?_, nb sk, ?_⟩
  · intro k k' f hk hk'
    rw [wordForms_mem] at hk hk'
    cases k <;> cases k' <;> first
      | rfl
      | exact absurd hk' (apartB_sound (by assumption) hk)
      | exact absurd hk (apartB_sound (by assumption) hk')
  · intro k f hk
    rw [wordForms_mem] at hk
    cases k <;> exact apartB_sound (by assumption) hk
  · intro k f hk
    rw [wordForms_mem] at hk
    cases k
    · exact nb b1 f hk
    · exact nb b2 f hk
    · exact nb b3 f hk
    · exact nb b4 f hk
    · exact nb b5 f hk
  · rintro f ⟨a, w, b, hab, _, _⟩
    have := List.all_eq_true.mp z (w, 0) (by rw [hab]; simp)
    simp at this

end NumberParser
