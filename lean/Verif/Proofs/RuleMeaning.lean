import Verif.Proofs.CountZero
import Verif.Proofs.Double
import Verif.Proofs.Numeric
import Verif.Proofs.SentenceParse

/-! The conditions of Verif/Spec/Generator.lean are those of Verif/Proofs/RuleForms.lean. -/

namespace NumberParser.Gen

open NumberParser Spec

/-! ### Trimming -/

theorem trim_general {p : Nat → Bool} {a t b : PyStr} (ha : ∀ c ∈ a, p c = true) (hb : ∀ c ∈ b, p c = true)
    (h1 : ∀ c, t.head? = some c → p c = false) (h2 : ∀ c, t.getLast? = some c → p c = false) :
    rdropWhile p ((a ++ (t ++ b)).dropWhile p) = t := by
  rw [List.dropWhile_append_of_pos ha]
  cases t with
  | nil =>
    rw [List.nil_append, rdropWhile_eq_nil_iff]
    rw [all_dropWhile_iff]
    exact List.all_eq_true.mpr hb
  | cons c cs =>
    rw [List.cons_append, List.dropWhile_cons_of_neg (by rw [h1 c rfl]; simp), ← List.cons_append]
    unfold rdropWhile
    rw [List.reverse_append, List.dropWhile_append_of_pos (by simpa using hb)]
    cases hr : (c :: cs).reverse with
    | nil => simp at hr
    | cons x xs =>
      have hx : (c :: cs).getLast? = some x := by rw [List.getLast?_eq_head?_reverse, hr]; rfl
      rw [List.dropWhile_cons_of_neg (by rw [h2 x hx]; simp), ← hr, List.reverse_reverse]

theorem trim_ends (p : Nat → Bool) (s : PyStr) :
    (∀ c, (rdropWhile p (s.dropWhile p)).head? = some c → p c = false) ∧ (∀ c, (rdropWhile p (s.dropWhile p)).getLast? = some c → p c = false) := by
  have dh : ∀ (s : PyStr) c, (s.dropWhile p).head? = some c → p c = false := by
    intro s c h
    cases hd : s.dropWhile p with
    | nil => rw [hd] at h; cases h
    | cons x xs =>
      rw [hd] at h
      injection h with h
      subst h
      have := List.head?_dropWhile_not p s
      rw [hd] at this
      simpa using this
  refine ⟨?_, ?_⟩
  · intro c h
    obtain ⟨b, hb⟩ : ∃ b, s.dropWhile p = rdropWhile p (s.dropWhile p) ++ b := by
      refine ⟨((s.dropWhile p).reverse.takeWhile p).reverse, ?_⟩
      unfold rdropWhile
      rw [← List.reverse_append, List.takeWhile_append_dropWhile, List.reverse_reverse]
    apply dh s c
    cases hr : rdropWhile p (s.dropWhile p) with
    | nil => rw [hr] at h; cases h
    | cons x xs =>
      rw [hr] at h hb
      rw [hb]; exact h
  · intro c h
    unfold rdropWhile at h
    rw [List.getLast?_reverse] at h
    exact dh _ c h

theorem trimmed_iff (p w : PyStr) : Trimmed p w ↔ w = strip p := by
  constructor
  · rintro ⟨a, b, rfl, ha, hb, h1, h2⟩
    exact (trim_general ha hb h1 h2).symm
  · rintro rfl
    obtain ⟨a, b, h, ha, hb⟩ := trim_spec isSpace p
    obtain ⟨h1, h2⟩ := trim_ends isSpace p
    exact ⟨a, b, by rw [← List.append_assoc]; exact h, ha, hb, h1, h2⟩

theorem rootWord_form (s w : PyStr) : RootWord s w ↔ RootWordF s w := by
  unfold RootWord RootWordF
  simp only [trimmed_iff]

/-! ### Integers -/

theorem intDigits_sound : ∀ (t : PyStr) (b : Bool) (ds : List Nat), intDigits b t = some ds →
    (t = [] ∧ b = true ∧ ds = []) ∨ IntegerDigits t ds ∨ (b = true ∧ ∃ u, t = 95 :: u ∧ IntegerDigits u ds) := by
  intro t
  induction t with
  | nil =>
    intro b ds h
    rw [intDigits] at h
    cases b with
    | false => cases h
    | true => injection h with h; exact .inl ⟨rfl, rfl, h.symm⟩
  | cons c cs ih =>
    intro b ds h
    rw [intDigits] at h
    split at h
    · rename_i hc
      subst hc
      cases b with
      | false => cases h
      | true =>
        rw [if_pos rfl] at h
        rcases ih false ds h with ⟨_, hb, _⟩ | hd | ⟨hb, _⟩
        · cases hb
        · exact .inr (.inr ⟨rfl, cs, rfl, hd⟩)
        · cases hb
    · cases hd : decimalValue c with
      | none => rw [hd] at h; cases h
      | some d =>
        rw [hd] at h
        simp only at h
        cases hi : intDigits true cs with
        | none => rw [hi] at h; cases h
        | some es =>
          rw [hi] at h
          injection h with h
          subst h
          right; left
          rcases ih true es hi with ⟨rfl, _, rfl⟩ | h2 | ⟨_, u, rfl, h2⟩
          · exact .one hd
          · exact .cons hd h2
          · exact .underscore hd h2

theorem intDigits_complete {t : PyStr} {ds : List Nat} (h : IntegerDigits t ds) (b : Bool) : intDigits b t = some ds := by
  have h95 : ∀ {c d : Nat}, decimalValue c = some d → c ≠ 95 := by
    rintro c d h rfl
    revert h
    rw [show decimalValue 95 = none by decide +kernel]
    exact fun h => nomatch h
  induction h generalizing b with
  | one hd =>
    rw [intDigits, if_neg (h95 hd), hd]; rfl
  | cons hd _ ih =>
    rw [intDigits, if_neg (h95 hd), hd]
    simp only
    rw [ih true]; rfl
  | underscore hd _ ih =>
    rw [intDigits, if_neg (h95 hd), hd]
    simp only
    rw [intDigits, if_pos rfl, if_pos rfl, ih false]; rfl

theorem intDigits_iff (t : PyStr) (ds : List Nat) : intDigits false t = some ds ↔ IntegerDigits t ds := by
  constructor
  · intro h
    rcases intDigits_sound t false ds h with ⟨_, hb, _⟩ | hd | ⟨hb, _⟩
    · cases hb
    · exact hd
    · cases hb
  · intro h; exact intDigits_complete h false

theorem integerDigits_head {t : PyStr} {ds : List Nat} (h : IntegerDigits t ds) : ∃ c d u, t = c :: u ∧ decimalValue c = some d := by
  cases h with
  | one hd => exact ⟨_, _, _, rfl, hd⟩
  | cons hd _ => exact ⟨_, _, _, rfl, hd⟩
  | underscore hd _ => exact ⟨_, _, _, rfl, hd⟩

theorem integerDigits_last {t : PyStr} {ds : List Nat} (h : IntegerDigits t ds) : ∃ c d, t.getLast? = some c ∧ decimalValue c = some d := by
  induction h with
  | one hd => exact ⟨_, _, rfl, hd⟩
  | @cons c d t ds hd ht ih =>
    obtain ⟨x, y, h1, h2⟩ := ih
    refine ⟨x, y, ?_, h2⟩
    rw [List.getLast?_cons, h1]; rfl
  | @underscore c d t ds hd ht ih =>
    obtain ⟨x, y, h1, h2⟩ := ih
    refine ⟨x, y, ?_, h2⟩
    rw [List.getLast?_cons, List.getLast?_cons, h1]; rfl

/-- The sign and what follows -/
def splitSign : PyStr → Bool × PyStr
  | 43 :: u => (false, u)
  | 45 :: u => (true, u)
  | u => (false, u)

theorem pyIntAny_eq (s : PyStr) : pyIntAny s =
    match intDigits false (splitSign (rdropWhile isIntSpace (s.dropWhile isIntSpace))).2 with
    | none => none
    | some ds =>
      if ds.length ≤ maxStrDigits then
        some (if (splitSign (rdropWhile isIntSpace (s.dropWhile isIntSpace))).1 then -(digitsValue ds : Int) else (digitsValue ds : Int))
      else none := rfl

theorem splitSign_spec (t : PyStr) : ∃ sign u neg, t = sign ++ u ∧
    ((sign = [] ∨ sign = [43]) ∧ neg = false ∨ sign = [45] ∧ neg = true) ∧ splitSign t = (neg, u) := by
  unfold splitSign
  split
  · exact ⟨[43], _, false, rfl, .inl ⟨.inr rfl, rfl⟩, rfl⟩
  · exact ⟨[45], _, true, rfl, .inr ⟨rfl, rfl⟩, rfl⟩
  · exact ⟨[], _, false, rfl, .inl ⟨.inl rfl, rfl⟩, rfl⟩

theorem integerText_iff (key : PyStr) (n : Int) : pyIntAny key = some n ↔ IntegerText key n := by
  have sp : ∀ c d, decimalValue c = some d → isIntSpace c = false := by
    intro c d h
    have := (decimal_facts h).2.2.1
    unfold isIntSpace; rw [this]; rfl
  have d43 : decimalValue 43 = none := by decide +kernel
  have d45 : decimalValue 45 = none := by decide +kernel
  constructor
  · intro h
    rw [pyIntAny_eq] at h
    obtain ⟨a, b, hs, ha, hb⟩ := trim_spec isIntSpace key
    generalize rdropWhile isIntSpace (key.dropWhile isIntSpace) = t at *
    have ha' : OrdinarySpace a := fun c hc => (intSpace_iff c).mp (ha c hc)
    have hb' : OrdinarySpace b := fun c hc => (intSpace_iff c).mp (hb c hc)
    obtain ⟨sign, u, neg, rfl, hsg, hm⟩ := splitSign_spec t
    rw [hm] at h
    simp only at h
    cases hd : intDigits false u with
    | none => rw [hd] at h; cases h
    | some ds =>
      rw [hd] at h
      simp only at h
      split at h
      · rename_i hlen
        injection h with h
        refine ⟨a, sign, u, b, ds, by rw [hs]; simp [List.append_assoc], ha', hb', (intDigits_iff u ds).mp hd, hlen, ?_⟩
        rcases hsg with ⟨h1, rfl⟩ | ⟨h1, rfl⟩
        · exact .inl ⟨h1, h.symm⟩
        · exact .inr ⟨h1, h.symm⟩
      · cases h
  · rintro ⟨a, sign, t, b, ds, rfl, ha, hb, ht, hlen, hn⟩
    have ha' : ∀ c ∈ a, isIntSpace c = true := fun c hc => (intSpace_iff c).mpr (ha c hc)
    have hb' : ∀ c ∈ b, isIntSpace c = true := fun c hc => (intSpace_iff c).mpr (hb c hc)
    obtain ⟨c, d, u, rfl, hcd⟩ := integerDigits_head ht
    obtain ⟨x, y, hx, hxy⟩ := integerDigits_last ht
    have c43 : c ≠ 43 := by rintro rfl; rw [d43] at hcd; cases hcd
    have c45 : c ≠ 45 := by rintro rfl; rw [d45] at hcd; cases hcd
    have htrim : rdropWhile isIntSpace ((a ++ (sign ++ (c :: u ++ b))).dropWhile isIntSpace) = sign ++ c :: u := by
      rw [← List.append_assoc sign]
      apply trim_general ha' hb'
      · intro z hz
        rcases hn with ⟨rfl | rfl, _⟩ | ⟨rfl, _⟩
        · injection hz with hz; subst hz; exact sp _ _ hcd
        · injection hz with hz; subst hz; decide
        · injection hz with hz; subst hz; decide
      · intro z hz
        have : (sign ++ c :: u).getLast? = some x := by
          rw [List.getLast?_append, hx]; rfl
        rw [this] at hz
        injection hz with hz; subst hz; exact sp _ _ hxy
    have hdg := (intDigits_iff _ _).mpr ht
    rw [pyIntAny_eq, htrim]
    rcases hn with ⟨rfl | rfl, rfl⟩ | ⟨rfl, rfl⟩
    · have hm : splitSign ([] ++ c :: u) = (false, c :: u) := by
        unfold splitSign
        split
        · rename_i h; injection h with h; exact absurd h c43
        · rename_i h; injection h with h; exact absurd h c45
        · rfl
      rw [hm]
      simp only
      rw [hdg]
      simp only
      rw [if_pos (show ds.length ≤ maxStrDigits from hlen)]; rfl
    · rw [show splitSign ([43] ++ c :: u) = (false, c :: u) from rfl]
      simp only
      rw [hdg]
      simp only
      rw [if_pos (show ds.length ≤ maxStrDigits from hlen)]; rfl
    · rw [show splitSign ([45] ++ c :: u) = (true, c :: u) from rfl]
      simp only
      rw [hdg]
      simp only
      rw [if_pos (show ds.length ≤ maxStrDigits from hlen)]; rfl

/-! ### Zeros -/

theorem roundDouble_nearest (m : Nat) :
    nearestDouble m 1 = if roundDouble m < 2 ^ 1024 then .fin ⟨(roundDouble m : Nat), 0⟩ else .inf false := by
  by_cases h : m < 2 ^ 53
  · have hr := roundDouble_small h
    rw [hr]
    have hlt : m < 2 ^ 1024 := Nat.lt_trans h (Nat.pow_lt_pow_right (by decide) (by decide))
    rw [if_pos hlt]
    exact nearestDouble_exact ⟨m, 0, h, by rw [Nat.pow_zero, Nat.mul_one]⟩ hlt
  · have hm0 : m ≠ 0 := by intro e; subst e; exact h (Nat.pow_pos (by decide))
    obtain ⟨l1, l2⟩ := log2_bounds hm0
    have hl : 53 ≤ Nat.log2 m := by
      apply Nat.le_of_not_lt
      intro hlt
      have : 2 ^ (Nat.log2 m + 1) ≤ 2 ^ 53 := Nat.pow_le_pow_right (by decide) (by omega)
      exact h (Nat.lt_of_lt_of_le l2 this)
    have hf : floorLog m 1 = (Nat.log2 m : Int) := by
      unfold floorLog
      simp only [show Nat.log2 1 = 0 by decide]
      rw [show ((Nat.log2 m : Int) - ((0 : Nat) : Int)) = (Nat.log2 m : Int) by omega]
      rw [if_neg]
      rw [show (-(Nat.log2 m : Int)).toNat = 0 by omega, Int.toNat_natCast, Nat.pow_zero, Nat.mul_one, Nat.one_mul]
      exact Nat.not_lt.mpr l1
    have hr : roundDouble m = roundHalfEven m (2 ^ (Nat.log2 m - 52)) * 2 ^ (Nat.log2 m - 52) := by
      unfold roundDouble roundHalfEven
      rw [if_neg h]
      simp only
      generalize Nat.log2 m - 52 = e
      by_cases a1 : 2 * (m % 2 ^ e) < 2 ^ e
      · rw [if_pos a1, if_neg (by omega)]
      · rw [if_neg a1]
        by_cases a2 : 2 ^ e < 2 * (m % 2 ^ e)
        · rw [if_pos a2, if_pos (.inl a2)]
        · rw [if_neg a2]
          by_cases a3 : m / 2 ^ e % 2 = 0
          · rw [if_pos a3, if_neg (by omega)]
          · rw [if_neg a3, if_pos (.inr ⟨by omega, by omega⟩)]
    unfold nearestDouble
    rw [if_neg hm0]
    simp only
    rw [hf, if_neg (by omega)]
    rw [show (max ((Nat.log2 m : Int) - 52) (-1074)).toNat = Nat.log2 m - 52 by omega, Nat.one_mul, ← hr]

theorem divTen_iff (n q : Nat) : divTen n = .ok q ↔ DoubleOf (n / 10) 1 (.fin ⟨(q : Int), 0⟩) := by
  rw [← nearestDouble_iff (by decide), roundDouble_nearest]
  unfold divTen
  simp only
  split
  · constructor
    · intro h; injection h with h; rw [h]
    · intro h; injection h with h; injection h with h; rw [Int.ofNat.inj h]
  · constructor
    · intro h; cases h
    · intro h; cases h

theorem zeros_iff (n : Int) (k : Nat) : countZero n = .ok k ↔ Zeros n k := by
  rw [countZero_eq]
  induction k generalizing n with
  | zero =>
    rw [zeros_eq]
    constructor
    · intro h
      split at h
      · exfalso
        cases hd : divTen n.toNat with
        | error e => rw [hd] at h; cases h
        | ok q =>
          rw [hd] at h
          cases hz : zeros q with
          | error e => simp only [bind, Except.bind, hz] at h; cases h
          | ok j => simp only [bind, Except.bind, hz] at h; cases h
      · exact .stop (by omega)
    · intro h
      cases h with
      | stop h => rw [if_neg (by omega)]
  | succ k ih =>
    rw [zeros_eq]
    constructor
    · intro h
      split at h
      · rename_i hc
        cases hd : divTen n.toNat with
        | error e => rw [hd] at h; cases h
        | ok q =>
          rw [hd] at h
          cases hz : zeros q with
          | error e => simp only [bind, Except.bind, hz] at h; cases h
          | ok j =>
            simp only [bind, Except.bind, hz] at h
            injection h with h
            have hj : j = k := Nat.succ.inj h
            subst hj
            have hq := (ih (q : Int)).mp (by rw [Int.toNat_natCast]; exact hz)
            refine .step (q := q) (by omega) (by omega) ?_ hq
            rw [show (n / 10).toNat = n.toNat / 10 by omega]
            exact (divTen_iff _ _).mp hd
      · cases h
    · intro h
      cases h with
      | @step _ q _ h1 h2 h3 h4 =>
        rw [if_pos (by omega)]
        rw [show (n / 10).toNat = n.toNat / 10 by omega] at h3
        have hz := (ih (q : Int)).mpr h4
        rw [Int.toNat_natCast] at hz
        simp only [bind, Except.bind, (divTen_iff _ _).mpr h3, hz]
        rfl

/-! ### The first digit -/

theorem head_one (k : Nat) : ∀ n : Nat, 10 ^ k ≤ n → n < 2 * 10 ^ k → (decDigits n).head? = some 49 := by
  induction k with
  | zero =>
    intro n h1 h2
    have : n = 1 := by simp at h1 h2; omega
    subst this; rfl
  | succ k ih =>
    intro n h1 h2
    rw [Nat.pow_succ] at h1 h2
    have hp : 0 < 10 ^ k := Nat.pow_pos (by decide)
    have := ih (n / 10) (by omega) (by omega)
    rw [decDigits_ge (by omega)]
    rw [List.head?_append, this]; rfl

theorem head_one_conv : ∀ (b n : Nat), n ≤ b → (decDigits n).head? = some 49 → ∃ k, 10 ^ k ≤ n ∧ n < 2 * 10 ^ k := by
  intro b
  induction b with
  | zero =>
    intro n hn h
    have : n = 0 := by omega
    subst this
    exact absurd h (by decide)
  | succ b ih =>
    intro n hn h
    by_cases h9 : n ≤ 9
    · rw [decDigits_lt (by omega)] at h
      injection h with h
      have : n = 1 := by omega
      subst this
      exact ⟨0, by decide, by decide⟩
    · rw [decDigits_ge (by omega), List.head?_append] at h
      have hne : decDigits (n / 10) ≠ [] := (decDigits_solid _).1
      cases hd : decDigits (n / 10) with
      | nil => exact absurd hd hne
      | cons x xs =>
        rw [hd] at h
        injection h with h
        subst h
        obtain ⟨k, h1, h2⟩ := ih (n / 10) (by omega) (by rw [hd]; rfl)
        refine ⟨k + 1, ?_, ?_⟩ <;> rw [Nat.pow_succ] <;> omega

theorem firstChar_iff (n : Int) : firstChar n = 49 ↔ StartsWithOne n := by
  unfold firstChar StartsWithOne
  have e1 : ∀ k : Nat, ((10 ^ k : Nat) : Int) = (10 : Int) ^ k := fun k => by rw [Int.natCast_pow]; rfl
  constructor
  · intro h
    split at h
    · cases h
    · rename_i hn
      have hh : (decDigits n.toNat).head? = some 49 := by
        cases hd : decDigits n.toNat with
        | nil => exact absurd hd ((decDigits_solid _).1)
        | cons x xs => rw [hd] at h; rw [← h]; rfl
      obtain ⟨k, h1, h2⟩ := head_one_conv _ _ (Nat.le_refl _) hh
      refine ⟨k, ?_, ?_⟩ <;> rw [← e1] <;> omega
  · rintro ⟨k, h1, h2⟩
    rw [← e1] at h1 h2
    have hp : 0 < 10 ^ k := Nat.pow_pos (by decide)
    rw [if_neg (by omega), List.headD_eq_head?_getD, head_one k n.toNat (by omega) (by omega)]
    rfl

/-! ### Brackets -/

theorem closeBracket_iff (s w : PyStr) : closeBracket s = some w ↔ ∃ rest, s = w ++ 125 :: rest ∧ 125 ∉ w ∧ 10 ∉ w := by
  induction s generalizing w with
  | nil => simp [closeBracket]
  | cons c s ih =>
    rw [closeBracket]
    by_cases h1 : c = 125
    · subst h1
      rw [if_pos rfl]
      constructor
      · intro h; injection h with h; subst h; exact ⟨s, rfl, by simp, by simp⟩
      · rintro ⟨rest, h, hn, _⟩
        cases w with
        | nil => rfl
        | cons x w => injection h with h _; subst h; exact absurd (List.mem_cons_self ..) hn
    · rw [if_neg h1]
      by_cases h2 : c = 10
      · subst h2
        rw [if_pos rfl]
        constructor
        · intro h; cases h
        · rintro ⟨rest, h, hn, hn'⟩
          cases w with
          | nil => injection h with h _; cases h
          | cons x w => injection h with h _; subst h; exact absurd (List.mem_cons_self ..) hn'
      · rw [if_neg h2]
        constructor
        · intro h
          cases hc : closeBracket s with
          | none => rw [hc] at h; cases h
          | some v =>
            rw [hc] at h
            injection h with h
            subst h
            obtain ⟨rest, h3, h4, h5⟩ := (ih v).mp hc
            refine ⟨rest, by rw [h3]; rfl, ?_, ?_⟩
            · simp only [List.mem_cons, not_or]; exact ⟨fun e => h1 e.symm, h4⟩
            · simp only [List.mem_cons, not_or]; exact ⟨fun e => h2 e.symm, h5⟩
        · rintro ⟨rest, h, hn, hn'⟩
          cases w with
          | nil => injection h with h _; exact absurd h h1
          | cons x w =>
            injection h with e1 e2
            subst e1
            rw [(ih w).mpr ⟨rest, e2, fun h => hn (List.mem_cons_of_mem _ h), fun h => hn' (List.mem_cons_of_mem _ h)⟩]
            rfl

theorem findBrackets_skip (s : PyStr) : ∀ n, findBracketsGo n s = findBracketsGo 0 (s.drop n) := by
  induction s with
  | nil => intro n; cases n <;> rfl
  | cons c s ih =>
    intro n
    cases n with
    | zero => rfl
    | succ n => rw [findBracketsGo, ih, List.drop_succ_cons]

theorem bracketAt_iff (c : Nat) (s w rest : PyStr) : BracketAt (c :: s) w rest ↔ c = 123 ∧ closeBracket s = some w ∧ rest = s.drop (w.length + 1) := by
  unfold BracketAt
  rw [closeBracket_iff]
  constructor
  · rintro ⟨h, h1, h2⟩
    injection h with e1 e2
    refine ⟨e1, ⟨rest, e2, h1, h2⟩, ?_⟩
    rw [e2, List.drop_append, List.drop_of_length_le (by omega)]
    simp
  · rintro ⟨rfl, ⟨r, rfl, h1, h2⟩, rfl⟩
    refine ⟨?_, h1, h2⟩
    rw [List.drop_append, List.drop_of_length_le (by omega)]
    simp

theorem brackets_unique {s : PyStr} {ws : List PyStr} (h : Brackets s ws) : ws = findBracketsGo 0 s := by
  induction h with
  | nil => rfl
  | @skip c s ws hn _ ih =>
    rw [findBracketsGo]
    split
    · rename_i hc
      split
      · rename_i w hw
        exact absurd ⟨w, _, (bracketAt_iff c s w _).mpr ⟨hc, hw, rfl⟩⟩ hn
      · exact ih
    · exact ih
  | @word s w rest ws hb _ ih =>
    cases s with
    | nil => exact absurd hb.1 (by simp)
    | cons c s =>
      obtain ⟨rfl, hw, rfl⟩ := (bracketAt_iff c s w rest).mp hb
      rw [findBracketsGo, if_pos rfl, hw]
      simp only
      rw [findBrackets_skip, ih]

theorem brackets_exist : ∀ (n : Nat) (s : PyStr), s.length ≤ n → Brackets s (findBracketsGo 0 s) := by
  intro n
  induction n with
  | zero => intro s h; cases s with
    | nil => exact .nil
    | cons c s => simp at h
  | succ n ih =>
    intro s h
    cases s with
    | nil => exact .nil
    | cons c s =>
      rw [List.length_cons] at h
      rw [findBracketsGo]
      split
      · rename_i hc
        split
        · rename_i w hw
          rw [findBrackets_skip]
          exact .word ((bracketAt_iff c s w _).mpr ⟨hc, hw, rfl⟩) (ih _ (by rw [List.length_drop]; omega))
        · rename_i hw
          refine .skip ?_ (ih s (by omega))
          rintro ⟨w, rest, hb⟩
          have := ((bracketAt_iff c s w rest).mp hb).2.1
          rw [hw] at this; cases this
      · rename_i hc
        refine .skip ?_ (ih s (by omega))
        rintro ⟨w, rest, hb⟩
        exact hc ((bracketAt_iff c s w rest).mp hb).1

theorem brackets_iff (s w : PyStr) : (∃ ws, Brackets s ws ∧ w ∈ ws) ↔ w ∈ findBrackets s := by
  constructor
  · rintro ⟨ws, h, hw⟩; rw [brackets_unique h] at hw; exact hw
  · intro h; exact ⟨_, brackets_exist _ s (Nat.le_refl _), h⟩

/-! ### The conditions -/

theorem contributes_iff (key rule : PyStr) (t : TableName) (w : PyStr) (n : Int) :
    Contributes key rule t w n ↔ ContributesF key rule t w n := by
  unfold Contributes ContributesF
  cases t <;> simp only [← integerText_iff, ← zeros_iff, rootWord_form, ← firstChar_iff, brackets_iff, ne_eq]

theorem ruleFails_iff (key rule : PyStr) : RuleFails key rule ↔ RuleFailsF key rule := by
  unfold RuleFails RuleFailsF
  simp only [← integerText_iff]

/-! ### Truncation -/

theorem truncated_iff (v : JNum) (n : Int) : Truncated v n ↔ n = v.toInt := by
  obtain ⟨a, e⟩ := v
  unfold Truncated JNum.toInt
  simp only
  have hp : (0 : Int) < 2 ^ e := Int.pow_pos (by decide)
  generalize (2 : Int) ^ e = p at *
  have pos : ∀ (a n : Int), 0 ≤ a → (n * p ≤ a ∧ a < (n + 1) * p ↔ n = a / p) := by
    intro a n _
    constructor
    · rintro ⟨h1, h2⟩
      apply Int.le_antisymm
      · exact (Int.le_ediv_iff_mul_le hp).mpr h1
      · have := (Int.ediv_lt_iff_lt_mul hp).mpr h2; omega
    · rintro rfl
      refine ⟨Int.ediv_mul_le _ (by omega), ?_⟩
      exact Int.lt_ediv_add_one_mul_self _ hp
  rcases Int.lt_or_le a 0 with h | h
  · have e1 : a.tdiv p = -((-a) / p) := by
      rw [← Int.tdiv_eq_ediv_of_nonneg (by omega), Int.neg_tdiv, Int.neg_neg]
    rw [e1]
    have := pos (-a) (-n) (by omega)
    constructor
    · rintro ⟨_, h2⟩
      have h2 := h2 h
      have : -n = -a / p := this.mp ⟨by rw [Int.neg_mul]; omega, by
        have : (-n + 1) * p = -((n - 1) * p) := by rw [← Int.neg_mul]; congr 1; omega
        rw [this]; omega⟩
      omega
    · intro hn
      refine ⟨fun h' => by omega, fun _ => ?_⟩
      have h3 := this.mpr (by omega)
      have e2 : (-n + 1) * p = -((n - 1) * p) := by rw [← Int.neg_mul]; congr 1; omega
      rw [Int.neg_mul, e2] at h3
      omega
  · rw [Int.tdiv_eq_ediv_of_nonneg h, ← pos a n h]
    constructor
    · rintro ⟨h1, _⟩; exact h1 h
    · intro h1; exact ⟨fun _ => h1, fun h' => by omega⟩

theorem whole_iff (v : JNum) : (∃ m : Int, v.num = m * 2 ^ v.exp) ↔ v.num = v.toInt * 2 ^ v.exp := by
  constructor
  · rintro ⟨m, hm⟩
    have hp : (0 : Int) < 2 ^ v.exp := Int.pow_pos (by decide)
    have : v.toInt = m := by
      unfold JNum.toInt
      rw [hm, Int.mul_tdiv_cancel _ (by omega)]
    rw [this]; exact hm
  · intro h; exact ⟨_, h⟩

end NumberParser.Gen
