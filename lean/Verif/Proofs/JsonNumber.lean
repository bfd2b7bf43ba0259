import Verif.Proofs.Json

/-! # Numbers and constants of JSON -/

namespace NumberParser

open Gen Spec

theorem isDigit_iff {c : Nat} : isDigit c = true ↔ 48 ≤ c ∧ c ≤ 57 := by unfold isDigit; rw [decide_eq_true_iff]

/-- No digit at the front -/
def NoDigit (r : PyStr) : Prop := ∀ c x, r = c :: x → isDigit c = false

/-- Nothing at the front that could belong to a number -/
def StopNum (r : PyStr) : Prop := ∀ c x, r = c :: x → isDigit c = false ∧ c ≠ 46 ∧ c ≠ 101 ∧ c ≠ 69

theorem spanDigits_append {ds r : PyStr} (hd : ∀ c ∈ ds, 48 ≤ c ∧ c ≤ 57) (hr : NoDigit r) : spanDigits (ds ++ r) = (ds, r) := by
  induction ds with
  | nil =>
    rw [List.nil_append]
    cases r with
    | nil => rfl
    | cons c x => rw [spanDigits, if_neg (by rw [hr c x rfl]; simp)]
  | cons c ds ih =>
    rw [List.cons_append, spanDigits, if_pos (isDigit_iff.mpr (hd c (by simp))), ih (fun d h => hd d (List.mem_cons_of_mem _ h))]

theorem spanDigits_spec (s : PyStr) : s = (spanDigits s).1 ++ (spanDigits s).2 ∧ (∀ c ∈ (spanDigits s).1, 48 ≤ c ∧ c ≤ 57) := by
  induction s with
  | nil => exact ⟨rfl, by intro c h; cases h⟩
  | cons c r ih =>
    rw [spanDigits]
    split
    · rename_i h
      refine ⟨by rw [List.cons_append, ← ih.1], ?_⟩
      intro d hd
      rcases List.mem_cons.mp hd with rfl | hd
      · exact isDigit_iff.mp h
      · exact ih.2 d hd
    · exact ⟨rfl, by intro d h; cases h⟩

theorem jfrac_complete {f ds r : PyStr} (h : JsonFrac f ds) (hr : NoDigit r) (h46 : ∀ x, r ≠ 46 :: x) : jfrac (f ++ r) = (ds, r) := by
  rcases h with ⟨rfl, rfl⟩ | ⟨rfl, hd⟩
  · rw [List.nil_append]
    cases r with
    | nil => rfl
    | cons c x => rw [jfrac, if_neg]; rintro ⟨rfl, _⟩; exact h46 x rfl
  · rw [List.cons_append, jfrac, spanDigits_append hd.2 hr, if_pos ⟨rfl, hd.1⟩]

theorem jfrac_sound (s : PyStr) : ∃ f, s = f ++ (jfrac s).2 ∧ JsonFrac f (jfrac s).1 ∧ (f = [] ↔ (jfrac s).1 = []) := by
  cases s with
  | nil => exact ⟨[], rfl, .inl ⟨rfl, rfl⟩, by simp [jfrac]⟩
  | cons c r =>
    rw [jfrac]
    split
    · rename_i h
      obtain ⟨h1, h2⟩ := spanDigits_spec r
      refine ⟨c :: (spanDigits r).1, by rw [List.cons_append, ← h1], .inr ⟨by rw [h.1], h.2, h2⟩, ?_⟩
      constructor
      · intro h; cases h
      · intro h'; exact absurd h' h.2
    · exact ⟨[], rfl, .inl ⟨rfl, rfl⟩, by simp⟩

theorem jexp_none {r : PyStr} (h : ∀ x, r ≠ 101 :: x ∧ r ≠ 69 :: x) : jexp r = (none, r) := by
  cases r with
  | nil => rfl
  | cons c x =>
    rw [jexp.eq_def]
    have : ¬ (c = 101 ∨ c = 69) := by
      rintro (rfl | rfl)
      · exact (h x).1 rfl
      · exact (h x).2 rfl
    simp only [if_neg this]

theorem jexp_complete {x r : PyStr} {e : Int} (h : JsonExp x e) (hr : StopNum r) :
    (x = [] ∧ e = 0 ∧ jexp (x ++ r) = (none, r)) ∨ (x ≠ [] ∧ jexp (x ++ r) = (some e, r)) := by
  rcases h with ⟨rfl, rfl⟩ | ⟨m, ds, hm, hd, h⟩
  · left
    refine ⟨rfl, rfl, jexp_none (fun y => ⟨?_, ?_⟩)⟩
    · intro he; exact (hr _ _ he).2.2.1 rfl
    · intro he; exact (hr _ _ he).2.2.2 rfl
  · right
    have hsp := spanDigits_append hd.2 (r := r) (fun c y he => (hr c y he).1)
    have hnum : ∀ ds, digitsNat ds = numeral ds := fun _ => rfl
    obtain ⟨d, ds', rfl⟩ : ∃ d ds', ds = d :: ds' := by
      cases ds with
      | nil => exact absurd rfl hd.1
      | cons d ds' => exact ⟨d, ds', rfl⟩
    have hdd := hd.2 d (by simp)
    rcases h with ⟨rfl, rfl⟩ | ⟨rfl, rfl⟩ | ⟨rfl, rfl⟩
    · refine ⟨by simp, ?_⟩
      rw [List.cons_append] at hsp
      rw [List.cons_append, List.cons_append, jexp.eq_def]
      have h1 : ¬ (d = 43 ∨ d = 45) := by omega
      have h2 : ¬ d = 45 := by omega
      simp only [if_pos hm, if_neg h1, hsp, if_neg h2, if_neg hd.1, hnum]
    · refine ⟨by simp, ?_⟩
      rw [List.cons_append, List.cons_append, jexp.eq_def]
      simp only [if_pos hm, hsp, if_neg hd.1, hnum, true_or, if_true, if_neg (show ¬ (43 : Nat) = 45 by decide)]
    · refine ⟨by simp, ?_⟩
      rw [List.cons_append, List.cons_append, jexp.eq_def]
      simp only [if_pos hm, hsp, if_neg hd.1, hnum, or_true, if_true]

theorem jexp_sound (s : PyStr) : ∃ x, s = x ++ (jexp s).2 ∧ JsonExp x ((jexp s).1.getD 0) ∧ (x = [] ↔ (jexp s).1 = none) := by
  have none_case : ∀ s : PyStr, ∃ x, s = x ++ s ∧ JsonExp x ((none : Option Int).getD 0) ∧ (x = [] ↔ (none : Option Int) = none) :=
    fun s => ⟨[], rfl, .inl ⟨rfl, rfl⟩, by simp⟩
  cases s with
  | nil => exact none_case []
  | cons c r =>
    rw [jexp.eq_def]
    simp only
    split
    · rename_i hm
      cases r with
      | nil => exact none_case _
      | cons d t =>
        simp only
        by_cases hsgn : d = 43 ∨ d = 45
        · rw [if_pos hsgn]
          obtain ⟨h1, h2⟩ := spanDigits_spec t
          split
          · exact none_case _
          · rename_i hne
            refine ⟨c :: d :: (spanDigits t).1, by simp only [List.cons_append, ← h1], .inr ⟨c, (spanDigits t).1, hm, ⟨hne, h2⟩, .inr ?_⟩, by simp⟩
            rcases hsgn with rfl | rfl
            · exact .inl ⟨rfl, rfl⟩
            · exact .inr ⟨rfl, rfl⟩
        · rw [if_neg hsgn]
          obtain ⟨h1, h2⟩ := spanDigits_spec (d :: t)
          split
          · exact none_case _
          · rename_i hne
            refine ⟨c :: (spanDigits (d :: t)).1, by simp only [List.cons_append, ← h1], .inr ⟨c, (spanDigits (d :: t)).1, hm, ⟨hne, h2⟩, .inl ⟨rfl, ?_⟩⟩, by simp⟩
            rw [if_neg (fun h => hsgn (.inr h))]; rfl
    · exact none_case _

/-- What `jnumAbs` does after the integer -/
def numTail (negative : Bool) (int rest : PyStr) : Option (Json × PyStr) :=
  if (jfrac rest).1 = [] ∧ (jexp (jfrac rest).2).1 = none then
    if int.length ≤ maxStrDigits then
      some (.int (if negative then -(digitsNat int : Int) else (digitsNat int : Int)), (jexp (jfrac rest).2).2)
    else none
  else some (.float (decimalFloat negative (digitsNat (int ++ (jfrac rest).1))
    ((jexp (jfrac rest).2).1.getD 0 - (jfrac rest).1.length)), (jexp (jfrac rest).2).2)

theorem jnumAbs_eq (negative : Bool) (s : PyStr) : jnumAbs negative s = match (spanDigits s).1 with
    | [] => none
    | x :: xs => if x = 48 then numTail negative [48] (xs ++ (spanDigits s).2) else numTail negative (x :: xs) (spanDigits s).2 := by
  unfold jnumAbs
  cases h : (spanDigits s).1 with
  | nil => simp only [h]
  | cons x xs =>
    simp only [h]
    by_cases hx : x = 48
    · simp only [if_pos hx]; rfl
    · simp only [if_neg hx]; rfl

theorem numTail_complete {i f ds x r : PyStr} {e : Int} (negative : Bool) (hf : JsonFrac f ds) (hx : JsonExp x e)
    (hr : StopNum r) (hlen : f = [] → x = [] → i.length ≤ maxStrDigits) :
    numTail negative i (f ++ (x ++ r)) = some (if f = [] ∧ x = [] then .int (if negative then -(numeral i : Int) else (numeral i : Int))
      else .float (decimalFloat negative (numeral (i ++ ds)) (e - ds.length)), r) := by
  have hnum : ∀ ds, digitsNat ds = numeral ds := fun _ => rfl
  have hnd : NoDigit (x ++ r) ∧ ∀ y, x ++ r ≠ 46 :: y := by
    rcases hx with ⟨rfl, rfl⟩ | ⟨m, ds, hm, hd, h⟩
    · exact ⟨fun c y he => (hr c y he).1, fun y he => (hr _ _ he).2.1 rfl⟩
    · obtain ⟨y, rfl⟩ : ∃ y, x = m :: y := by
        rcases h with ⟨rfl, _⟩ | ⟨rfl, _⟩ | ⟨rfl, _⟩ <;> exact ⟨_, rfl⟩
      refine ⟨?_, ?_⟩
      · intro c z he
        injection he with he _
        rw [← he]
        rcases hm with rfl | rfl <;> decide
      · intro z he
        injection he with he _
        omega
  have hfd : f = [] ↔ ds = [] := by
    rcases hf with ⟨rfl, rfl⟩ | ⟨rfl, hd⟩
    · simp
    · constructor
      · intro h; cases h
      · intro h; exact absurd h hd.1
  unfold numTail
  rw [jfrac_complete hf hnd.1 hnd.2]
  rcases jexp_complete hx hr with ⟨rfl, rfl, he⟩ | ⟨hne, he⟩
  · simp only [he, hnum]
    by_cases h0 : ds = []
    · have hf0 := hfd.mpr h0
      simp only [h0, hf0, and_self, if_true, if_pos (hlen hf0 rfl)]
    · have hf0 : ¬ f = [] := fun h => h0 (hfd.mp h)
      simp only [h0, hf0, false_and, if_false, Option.getD_none]
  · simp only [he, hnum]
    simp only [hne, and_false, if_false, reduceCtorEq, Option.getD_some]

theorem jnum_complete {t r : PyStr} {v : Json} (h : JsonNumber t v) (hr : StopNum r) : jnum (t ++ r) = some (v, r) := by
  have key : ∀ (negative : Bool) {i f ds x : PyStr} {e : Int}, JsonInt i → JsonFrac f ds → JsonExp x e →
      (f = [] → x = [] → i.length ≤ maxStrDigits) →
      jnum (signText negative ++ (i ++ (f ++ x)) ++ r) = some (if f = [] ∧ x = [] then .int (if negative then -(numeral i : Int) else (numeral i : Int))
        else .float (decimalFloat negative (numeral (i ++ ds)) (e - ds.length)), r) := by
    intro negative i f ds x e hi hf hx hlen
    have hab : jnumAbs negative (i ++ (f ++ (x ++ r))) = some (if f = [] ∧ x = [] then .int (if negative then -(numeral i : Int) else (numeral i : Int))
        else .float (decimalFloat negative (numeral (i ++ ds)) (e - ds.length)), r) := by
      have hnd : NoDigit (f ++ (x ++ r)) := by
        rcases hf with ⟨rfl, rfl⟩ | ⟨rfl, hd⟩
        · rw [List.nil_append]
          rcases hx with ⟨rfl, rfl⟩ | ⟨m, ds, hm, hd, h⟩
          · exact fun c y he => (hr c y he).1
          · obtain ⟨y, rfl⟩ : ∃ y, x = m :: y := by
              rcases h with ⟨rfl, _⟩ | ⟨rfl, _⟩ | ⟨rfl, _⟩ <;> exact ⟨_, rfl⟩
            intro c z he
            injection he with he _
            rw [← he]
            rcases hm with rfl | rfl <;> decide
        · intro c z he
          injection he with he _
          rw [← he]; decide
      rw [jnumAbs_eq, spanDigits_append hi.1.2 hnd]
      obtain ⟨hd, h48⟩ := hi
      cases i with
      | nil => exact absurd rfl hd.1
      | cons c i' =>
        simp only
        by_cases hc : c = 48
        · rw [if_pos hc]
          have hi' : i' = [] := by
            rcases h48 with h | h
            · injection h
            · exact absurd (by rw [List.head?_cons, hc]) h
          subst hi'; subst hc
          rw [List.nil_append]
          exact numTail_complete negative hf hx hr hlen
        · rw [if_neg hc]
          exact numTail_complete negative hf hx hr hlen
    rw [List.append_assoc, List.append_assoc, List.append_assoc]
    cases negative with
    | true =>
      show jnum (45 :: (i ++ (f ++ (x ++ r)))) = _
      rw [jnum, if_pos rfl, hab]
    | false =>
      show jnum (i ++ (f ++ (x ++ r))) = _
      obtain ⟨hd, _⟩ := hi
      cases i with
      | nil => exact absurd rfl hd.1
      | cons c i' =>
        rw [← hab, List.cons_append, jnum, if_neg]
        have := hd.2 c (by simp); omega
  cases h with
  | @int i negative hi hl =>
    have := key negative (f := []) (ds := []) (x := []) (e := 0) hi (.inl ⟨rfl, rfl⟩) (.inl ⟨rfl, rfl⟩) (fun _ _ => hl)
    simp only [List.append_nil, and_self, if_true] at this
    exact this
  | @float i f ds x e negative hi hf hx hne =>
    have hn : ¬ (f = [] ∧ x = []) := by rintro ⟨rfl, rfl⟩; simp at hne
    have := key negative (e := e) hi hf hx (fun h1 h2 => absurd ⟨h1, h2⟩ hn)
    rw [if_neg hn] at this
    exact this

theorem numTail_sound {negative : Bool} {i s r : PyStr} {v : Json} (hi : JsonInt i) (h : numTail negative i s = some (v, r)) :
    ∃ t, s = t ++ r ∧ JsonNumber (signText negative ++ (i ++ t)) v := by
  unfold numTail at h
  obtain ⟨f, h1, h2, h3⟩ := jfrac_sound s
  obtain ⟨x, h4, h5, h6⟩ := jexp_sound (jfrac s).2
  split at h
  · rename_i hc
    obtain ⟨hc1, hc2⟩ := hc
    have e1 := h3.mpr hc1
    have e2 := h6.mpr hc2
    split at h
    · rename_i hlen
      simp only [Option.some.injEq, Prod.mk.injEq] at h
      obtain ⟨rfl, rfl⟩ := h
      refine ⟨[], ?_, ?_⟩
      · rw [e2] at h4; rw [e1] at h1; rw [List.nil_append] at *; rw [← h4]; exact h1
      · rw [List.append_nil]; exact .int negative hi hlen
    · cases h
  · rename_i hc
    simp only [Option.some.injEq, Prod.mk.injEq] at h
    obtain ⟨rfl, rfl⟩ := h
    refine ⟨f ++ x, by rw [List.append_assoc, ← h4]; exact h1, .float negative hi h2 h5 ?_⟩
    by_cases hf : f = []
    · right; intro hx; exact hc ⟨h3.mp hf, h6.mp hx⟩
    · exact .inl hf

theorem jnum_sound {s r : PyStr} {v : Json} (h : jnum s = some (v, r)) : ∃ t, s = t ++ r ∧ JsonNumber t v := by
  have key : ∀ (negative : Bool) (s : PyStr), jnumAbs negative s = some (v, r) → ∃ t, s = t ++ r ∧ JsonNumber (signText negative ++ t) v := by
    intro negative s h
    rw [jnumAbs_eq] at h
    obtain ⟨e, hd⟩ := spanDigits_spec s
    cases hs : (spanDigits s).1 with
    | nil => rw [hs] at h; cases h
    | cons x xs =>
      rw [hs] at h e hd
      simp only at h
      split at h
      · rename_i hx
        obtain ⟨t, e2, hn⟩ := numTail_sound (i := [48]) ⟨⟨by simp, by decide⟩, .inl rfl⟩ h
        refine ⟨[48] ++ t, ?_, hn⟩
        rw [e, hx, List.append_assoc, ← e2]; rfl
      · rename_i hx
        obtain ⟨t, e2, hn⟩ := numTail_sound (i := x :: xs) ⟨⟨by simp, hd⟩, .inr (by simpa using hx)⟩ h
        refine ⟨x :: xs ++ t, ?_, hn⟩
        rw [List.append_assoc, ← e2]; exact e
  cases s with
  | nil => cases h
  | cons c r' =>
    rw [jnum] at h
    split at h
    · rename_i hc
      obtain ⟨t, e, hn⟩ := key true r' h
      exact ⟨45 :: t, by rw [hc, e]; rfl, hn⟩
    · obtain ⟨t, e, hn⟩ := key false _ h
      exact ⟨t, e, hn⟩

/-! ## Constants -/

theorem stripPrefix_append (t r : PyStr) : stripPrefix t (t ++ r) = some r := by
  induction t with
  | nil => rfl
  | cons c t ih => rw [List.cons_append, stripPrefix, if_pos rfl, ih]

theorem stripPrefix_some {t s r : PyStr} (h : stripPrefix t s = some r) : s = t ++ r := by
  induction t generalizing s with
  | nil => injection h
  | cons c t ih =>
    cases s with
    | nil => cases h
    | cons d s =>
      rw [stripPrefix] at h
      split at h
      · rename_i e; rw [List.cons_append, ← ih h, e]
      · cases h

theorem jconst_sound {s r : PyStr} {v : Json} (h : jconst s = some (v, r)) : ∃ t, s = t ++ r ∧ JsonValue t v := by
  unfold jconst at h
  split at h
  · rename_i r' e
    simp only [Option.some.injEq, Prod.mk.injEq] at h; obtain ⟨rfl, rfl⟩ := h
    exact ⟨_, stripPrefix_some e, .null⟩
  split at h
  · rename_i r' e
    simp only [Option.some.injEq, Prod.mk.injEq] at h; obtain ⟨rfl, rfl⟩ := h
    exact ⟨_, stripPrefix_some e, .true⟩
  split at h
  · rename_i r' e
    simp only [Option.some.injEq, Prod.mk.injEq] at h; obtain ⟨rfl, rfl⟩ := h
    exact ⟨_, stripPrefix_some e, .false⟩
  split at h
  · rename_i r' e
    simp only [Option.some.injEq, Prod.mk.injEq] at h; obtain ⟨rfl, rfl⟩ := h
    exact ⟨_, stripPrefix_some e, .nan⟩
  split at h
  · rename_i r' e
    simp only [Option.some.injEq, Prod.mk.injEq] at h; obtain ⟨rfl, rfl⟩ := h
    exact ⟨_, stripPrefix_some e, .infinity⟩
  split at h
  · rename_i r' e
    simp only [Option.some.injEq, Prod.mk.injEq] at h; obtain ⟨rfl, rfl⟩ := h
    exact ⟨_, stripPrefix_some e, .minusInfinity⟩
  · cases h

/-- A number is no constant. -/
theorem jconst_number {t r : PyStr} {v : Json} (h : JsonNumber t v) : jconst (t ++ r) = none := by
  have key : ∀ (negative : Bool) {i y : PyStr}, JsonInt i → jconst (signText negative ++ (i ++ y) ++ r) = none := by
    intro negative i y hi
    obtain ⟨hd, _⟩ := hi
    cases i with
    | nil => exact absurd rfl hd.1
    | cons c i' =>
      have hc := hd.2 c (by simp)
      cases negative with
      | true =>
        show jconst (45 :: c :: (i' ++ y ++ r)) = none
        have : ¬ 73 = c := by omega
        simp [jconst, stripPrefix, this]
      | false =>
        show jconst (c :: (i' ++ y ++ r)) = none
        have h1 : ¬ 110 = c := by omega
        have h2 : ¬ 116 = c := by omega
        have h3 : ¬ 102 = c := by omega
        have h4 : ¬ 78 = c := by omega
        have h5 : ¬ 73 = c := by omega
        have h6 : ¬ 45 = c := by omega
        simp [jconst, stripPrefix, h1, h2, h3, h4, h5, h6]
  cases h with
  | @int i negative hi hl =>
    have := key negative (y := []) hi
    rw [List.append_nil] at this; exact this
  | @float i f ds x e negative hi hf hx hne => exact key negative hi

end NumberParser
