import Verif.Proofs.SubWord
import Verif.Proofs.CountZero

/-! The text of a generated module and what reading it gives. -/

set_option linter.unusedSimpArgs false

namespace NumberParser.Gen

open NumberParser Spec

/-! ### The text after the replacements -/

/-- A value with the given texts for the booleans. -/
def valText (fl : Bool → PyStr) : Val → PyStr
  | .table t => jsonTable t
  | .list l => jsonList l
  | .flag b => fl b

/-- The text before the last brace, with the given texts for the booleans. -/
def bodyText (fl : Bool → PyStr) (d : Table Val) : PyStr :=
  u!"{" ++ nl 4 ++ join (u!"," ++ nl 4) (d.map (fun e => jsonStr e.1 ++ u!": " ++ valText fl e.2)) ++ nl 0

theorem dumps_eq (d : Table Val) : dumps d = bodyText jsonBool d ++ u!"}" := by
  have : ∀ v, jsonVal v = valText jsonBool v := by intro v; cases v <;> rfl
  unfold dumps bodyText
  simp only [this]

/-- Without control characters. -/
def NoControl (w : PyStr) : Prop := ∀ c ∈ w, 32 ≤ c

theorem jsonChar_plain {c : Nat} (h : 32 ≤ c) (h1 : c ≠ 34) (h2 : c ≠ 92) : jsonChar c = [c] := by
  unfold jsonChar
  rw [if_neg h1, if_neg h2, if_neg (by omega), if_neg (by omega), if_neg (by omega), if_neg (by omega), if_neg (by omega), if_neg (by omega)]

theorem jsonChar_special {c : Nat} (h : c = 34 ∨ c = 92) : jsonChar c = [92, c] := by
  rcases h with rfl | rfl <;> rfl

theorem special_sep {c : Nat} (h : c = 34 ∨ c = 92) : isWord c = false := by
  rcases h with rfl | rfl <;> decide +kernel

section Replace

variable {p new : PyStr} (hp : ∀ c ∈ p, isWord c = true) (hp0 : p ≠ [])
include hp hp0

theorem subs_escaped (w : PyStr) (hc : NoControl w) (h : ¬ OccursAsWord p false w) : Subs p new (w.flatMap jsonChar) (w.flatMap jsonChar) := by
  -- split at the first special character
  have split : ∀ w : PyStr, (∀ c ∈ w, c ≠ 34 ∧ c ≠ 92) ∨ ∃ a c w', w = a ++ c :: w' ∧ (c = 34 ∨ c = 92) ∧ ∀ x ∈ a, x ≠ 34 ∧ x ≠ 92 := by
    intro w
    induction w with
    | nil => left; simp
    | cons c w ih =>
      by_cases hs : c = 34 ∨ c = 92
      · exact .inr ⟨[], c, w, rfl, hs, by simp⟩
      · rw [not_or] at hs
        rcases ih with ih | ⟨a, d, w', rfl, hd, ha⟩
        · left
          intro x hx
          rcases List.mem_cons.mp hx with rfl | hx
          · exact hs
          · exact ih x hx
        · right
          refine ⟨c :: a, d, w', rfl, hd, ?_⟩
          intro x hx
          rcases List.mem_cons.mp hx with rfl | hx
          · exact hs
          · exact ha x hx
  have plain : ∀ a : PyStr, NoControl a → (∀ x ∈ a, x ≠ 34 ∧ x ≠ 92) → a.flatMap jsonChar = a := by
    intro a
    induction a with
    | nil => intro _ _; rfl
    | cons c a ih =>
      intro h1 h2
      rw [List.flatMap_cons, jsonChar_plain (h1 c List.mem_cons_self) (h2 c List.mem_cons_self).1 (h2 c List.mem_cons_self).2,
        ih (fun x hx => h1 x (List.mem_cons_of_mem _ hx)) (fun x hx => h2 x (List.mem_cons_of_mem _ hx))]
      rfl
  generalize hn : w.length = n
  induction n using Nat.strongRecOn generalizing w with
  | _ n ih =>
    rcases split w with hs | ⟨a, c, w', rfl, hcs, ha⟩
    · rw [plain w hc hs]; exact Subs.same hp hp0 h
    · have hca : NoControl a := fun x hx => hc x (List.mem_append_left _ hx)
      have hcw : NoControl w' := fun x hx => hc x (List.mem_append_right _ (List.mem_cons_of_mem _ hx))
      have hsep := special_sep hcs
      have na : ¬ OccursAsWord p false a := by
        rintro ⟨x, b, hx, h1, h2⟩
        refine h ⟨x, b ++ c :: w', by rw [hx]; simp, h1, ?_⟩
        cases b with
        | nil => simp [hsep]
        | cons y b => exact h2
      have nw : ¬ OccursAsWord p false w' := by
        rintro ⟨x, b, hx, h1, h2⟩
        refine h ⟨a ++ c :: x, b, by rw [hx]; simp, ?_, h2⟩
        have : ∀ (a : PyStr) (bf : Bool), lastWord bf (a ++ c :: x) = lastWord (isWord c) x := by
          intro a
          induction a with
          | nil => intro bf; exact lastWord_cons bf c x
          | cons y a ih => intro bf; rw [List.cons_append, lastWord_cons]; exact ih _
        rw [this, hsep]; exact h1
      have ihw := ih w'.length (by rw [← hn]; simp; omega) w' hcw nw rfl
      rw [List.flatMap_append, List.flatMap_cons, plain a hca ha, jsonChar_special hcs]
      exact Subs.append (Subs.same hp hp0 na) (by decide +kernel) (Subs.cons hp hp0 hsep ihw)

theorem subs_jsonStr {w : PyStr} (hc : NoControl w) (h : ¬ OccursAsWord p false w) : Subs p new (jsonStr w) (jsonStr w) :=
  Subs.cons hp hp0 (by decide +kernel) (Subs.snoc hp hp0 (subs_escaped hp hp0 w hc h) (by decide +kernel))

omit hp hp0 in
/-- No occurrence if the first character does not occur. -/
theorem noOcc_of_head {x : Nat} {p' : PyStr} (he : p = x :: p') {s : PyStr} (h : x ∉ s) (b : Bool) : ¬ OccursAsWord p b s := by
  rintro ⟨a, r, hs, _⟩
  apply h
  rw [hs, he]; simp

omit hp hp0 in
theorem reprInt_chars (n : Int) : ∀ c ∈ reprInt n, c = 45 ∨ (48 ≤ c ∧ c ≤ 57) := by
  intro c hc
  unfold reprInt at hc
  have hd : ∀ m, ∀ c ∈ decDigits m, 48 ≤ c ∧ c ≤ 57 := fun m c hc => (decDigits_isDigit m).2 c hc
  split at hc
  · rcases List.mem_cons.mp hc with rfl | hc
    · exact .inl rfl
    · exact .inr (hd _ c hc)
  · exact .inr (hd _ c hc)

omit hp hp0 in
theorem nl_sep (k : Nat) : ∀ c ∈ nl k, isWord c = false := by
  intro c hc
  unfold nl at hc
  rcases List.mem_cons.mp hc with rfl | hc
  · decide +kernel
  · rw [List.mem_replicate] at hc
    rw [hc.2]; decide +kernel

omit hp hp0 in
theorem sep_sep (k : Nat) : ∀ c ∈ u!"," ++ nl k, isWord c = false := by
  intro c hc
  rcases List.mem_append.mp hc with hc | hc
  · simp at hc; rw [hc]; decide +kernel
  · exact nl_sep k c hc

/-- A word the replacement leaves alone. -/
def Inert (p : PyStr) (w : PyStr) : Prop := NoControl w ∧ ¬ OccursAsWord p false w

theorem subs_item {x : Nat} {p' : PyStr} (he : p = x :: p') (hx : x = 102 ∨ x = 116) (e : PyStr × Int) (h : Inert p e.1) :
    Subs p new (jsonItem e) (jsonItem e) := by
  unfold jsonItem
  refine Subs.sep hp hp0 (subs_jsonStr hp hp0 h.1 h.2) (by simp) ?_ (Subs.same hp hp0 (noOcc_of_head he ?_ _))
  · intro c hc
    simp at hc
    rcases hc with rfl | rfl <;> decide +kernel
  · intro hm
    have := reprInt_chars e.2 x hm
    omega

theorem subs_brackets {o c : Nat} (ho : isWord o = false) (hc : isWord c = false) {s : PyStr} (hs : Subs p new s s) :
    Subs p new ([o] ++ nl 8 ++ s ++ nl 4 ++ [c]) ([o] ++ nl 8 ++ s ++ nl 4 ++ [c]) := by
  have h1 : Subs p new ([o] ++ nl 8 ++ s) ([o] ++ nl 8 ++ s) :=
    Subs.sep hp hp0 (Subs.blanks hp hp0 (s := [o]) (by intro c h; simp at h; rw [h]; exact ho)) (by simp [nl]) (nl_sep 8) hs
  exact Subs.sep hp hp0 h1 (by simp [nl]) (nl_sep 4) (Subs.blanks hp hp0 (s := [c]) (by intro d h; simp at h; rw [h]; exact hc))

theorem subs_table {x : Nat} {p' : PyStr} (he : p = x :: p') (hx : x = 102 ∨ x = 116) (t : Table Int) (h : ∀ e ∈ t, Inert p e.1) :
    Subs p new (jsonTable t) (jsonTable t) := by
  unfold jsonTable
  split
  · exact Subs.blanks hp hp0 (by intro c hc; simp at hc; rcases hc with rfl | rfl <;> decide +kernel)
  · exact subs_brackets hp hp0 (by decide +kernel) (by decide +kernel)
      (Subs.join hp hp0 (by simp) (sep_sep 8) jsonItem jsonItem t (fun e h' => subs_item hp hp0 he hx e (h e h')))

theorem subs_list (l : List PyStr) (h : ∀ w ∈ l, Inert p w) : Subs p new (jsonList l) (jsonList l) := by
  unfold jsonList
  split
  · exact Subs.blanks hp hp0 (by intro c hc; simp at hc; rcases hc with rfl | rfl <;> decide +kernel)
  · exact subs_brackets hp hp0 (by decide +kernel) (by decide +kernel)
      (Subs.join hp hp0 (by simp) (sep_sep 8) jsonStr jsonStr l (fun w h' => subs_jsonStr hp hp0 (h w h').1 (h w h').2))

/-- The words of a value are left alone. -/
def InertVal (p : PyStr) : Val → Prop
  | .table t => ∀ e ∈ t, Inert p e.1
  | .list l => ∀ w ∈ l, Inert p w
  | .flag _ => True

theorem subs_body {x : Nat} {p' : PyStr} (he : p = x :: p') (hx : x = 102 ∨ x = 116) (fl fl' : Bool → PyStr)
    (hfl : ∀ b, Subs p new (fl b) (fl' b)) (d : Table Val) (h : ∀ e ∈ d, Inert p e.1 ∧ InertVal p e.2) :
    subWord p new (bodyText fl d ++ u!"}") = bodyText fl' d ++ u!"}" := by
  refine Subs.subWord ?_ (by decide +kernel)
  unfold bodyText
  have h0 : Subs p new (u!"{") (u!"{") := Subs.blanks hp hp0 (by intro c hc; simp at hc; rw [hc]; decide +kernel)
  have h1 := Subs.join (new := new) hp hp0 (sep := u!"," ++ nl 4) (by simp) (sep_sep 4) (fun e : PyStr × Val => jsonStr e.1 ++ u!": " ++ valText fl e.2)
    (fun e => jsonStr e.1 ++ u!": " ++ valText fl' e.2) d (by
      intro e hm
      refine Subs.sep hp hp0 (subs_jsonStr hp hp0 (h e hm).1.1 (h e hm).1.2) (by simp) ?_ ?_
      · intro c hc
        simp at hc
        rcases hc with rfl | rfl <;> decide +kernel
      · have hv := (h e hm).2
        generalize e.2 = v at hv
        cases v with
        | table t => exact subs_table hp hp0 he hx t hv
        | list l => exact subs_list hp hp0 l hv
        | flag b => exact hfl b)
  have h2 := Subs.sep hp hp0 (Subs.sep hp hp0 h0 (by simp [nl]) (nl_sep 4) h1) (by simp [nl]) (nl_sep 0) (Subs.nil hp hp0)
  simpa only [List.append_nil] using h2

end Replace

/-- The Python texts of the booleans. -/
def pyBool (b : Bool) : PyStr := if b then u!"True" else u!"False"

/-- The words of an output that the replacements leave alone. -/
def CleanOutput (o : Output) : Prop := ∀ e ∈ o.entries, ∀ p, p = u!"true" ∨ p = u!"false" → InertVal p e.2

theorem entries_keys (o : Output) : ∀ e ∈ o.entries, ∀ p, p = u!"true" ∨ p = u!"false" → Inert p e.1 := by
  intro e he p hp
  have hk : e.1 ∈ [u!"UNIT_NUMBERS", u!"DIRECT_NUMBERS", u!"TENS", u!"HUNDREDS", u!"BIG_POWERS_OF_TEN", u!"SKIP_TOKENS", u!"USE_LONG_SCALE"] := by
    unfold Output.entries at he
    cases hf : o.useLongScale with
    | none =>
      rw [hf] at he
      simp only [List.append_nil, List.mem_cons, List.not_mem_nil, or_false] at he
      rcases he with rfl | rfl | rfl | rfl | rfl | rfl <;> simp
    | some b =>
      rw [hf] at he
      simp only [List.cons_append, List.nil_append, List.mem_cons, List.not_mem_nil, or_false] at he
      rcases he with rfl | rfl | rfl | rfl | rfl | rfl | rfl <;> simp
  have hall : ∀ k ∈ [u!"UNIT_NUMBERS", u!"DIRECT_NUMBERS", u!"TENS", u!"HUNDREDS", u!"BIG_POWERS_OF_TEN", u!"SKIP_TOKENS", u!"USE_LONG_SCALE"],
      (∀ c ∈ k, 32 ≤ c) ∧ 102 ∉ k ∧ 116 ∉ k := by decide
  obtain ⟨h1, h2, h3⟩ := hall _ hk
  refine ⟨h1, ?_⟩
  rintro ⟨a, r, hs, _⟩
  rcases hp with rfl | rfl
  · apply h3; rw [hs]; simp
  · apply h2; rw [hs]; simp

theorem emit_eq (o : Output) (h : CleanOutput o) : emit o = u!"info = " ++ (bodyText pyBool o.entries ++ u!"}") ++ u!"\n" := by
  unfold emit
  have hwf : ∀ c ∈ u!"false", isWord c = true := by
    intro c hc; simp at hc; rcases hc with rfl | rfl | rfl | rfl | rfl <;> decide +kernel
  have hwt : ∀ c ∈ u!"true", isWord c = true := by
    intro c hc; simp at hc; rcases hc with rfl | rfl | rfl | rfl <;> decide +kernel
  have e1 := subs_body (p := u!"false") (new := u!"False") hwf (by simp) rfl (.inl rfl) jsonBool (fun b => if b then u!"true" else u!"False")
    (by
      intro b
      cases b with
      | true => exact Subs.same hwf (by simp) (noOcc_of_head rfl (by decide) _)
      | false => exact Subs.word hwf (by simp))
    o.entries (fun e he => ⟨entries_keys o e he _ (.inr rfl), h e he _ (.inr rfl)⟩)
  have e2 := subs_body (p := u!"true") (new := u!"True") hwt (by simp) rfl (.inr rfl) (fun b => if b then u!"true" else u!"False") pyBool
    (by
      intro b
      cases b with
      | true => exact Subs.word hwt (by simp)
      | false => exact Subs.same hwt (by simp) (noOcc_of_head rfl (by decide) _))
    o.entries (fun e he => ⟨entries_keys o e he _ (.inl rfl), h e he _ (.inl rfl)⟩)
  rw [dumps_eq]
  simp only
  rw [e1, e2]

end NumberParser.Gen
