import Verif.Proofs.InterpreterLimit
import Verif.Proofs.Fraction
import Verif.Props.Errors

/-!
# C87, C88: other Python interpreters

The other properties are about CPython 3.11 with its default limit of 4300 digits for conversions between `int` and `str`.  Here is what
carries over to other limits (C87) and to interpreters with the character tables of other Unicode versions (C88).
-/

namespace NumberParser.Props
open NumberParser Spec

/-! ## C87: the limit of digits -/

/-- CPython 3.11 is the interpreter of all the other properties. -/
theorem c87_python311 (s : PyStr) (lang : Option PyStr) :
    parseOn python311 s lang = parse s lang ∧ parseNumberOn python311 s lang = parseNumber s lang ∧
    parseOrdinalOn python311 s lang = parseOrdinal s lang ∧ parseFractionOn python311 s lang = parseFraction s lang := by
  rw [parseOn_model, parseNumberOn_model, parseOrdinalOn_model, parseFractionOn_model]
  exact ⟨rfl, rfl, rfl, rfl⟩

theorem sameOn_limit (L L' : Option Nat) : SameOn (withLimit L) (withLimit L') (fun _ => True) where
  ascii _ _ := trivial
  sigma := ⟨trivial, trivial⟩
  words _ _ _ _ _ _ _ _ := trivial
  lower _ _ := ⟨rfl, fun _ _ => trivial⟩
  decomp _ _ := ⟨rfl, fun _ _ => trivial⟩
  agree _ _ := ⟨rfl, rfl, rfl, rfl, rfl, rfl, rfl⟩

/-- **C87**: with a larger limit (or none) a call gives the same result or exception, except that it may succeed where the conversion of a number was refused. -/
theorem c87_larger (L L' : Option Nat) (h : LimitLE L L') (s : PyStr) (lang : Option PyStr) :
    (parseOn (withLimit L) s lang = .error .badInt ∨ parseOn (withLimit L) s lang = parseOn (withLimit L') s lang) ∧
    (parseNumberOn (withLimit L) s lang = .error .badInt ∨ parseNumberOn (withLimit L) s lang = parseNumberOn (withLimit L') s lang) ∧
    (parseOrdinalOn (withLimit L) s lang = .error .badInt ∨ parseOrdinalOn (withLimit L) s lang = parseOrdinalOn (withLimit L') s lang) ∧
    (parseFractionOn (withLimit L) s lang = .error .badInt ∨ parseFractionOn (withLimit L) s lang = parseFractionOn (withLimit L') s lang) :=
  have hs : Within (fun _ => True) s := fun _ _ => trivial
  ⟨parseOn_alike (sameOn_limit L L') h hs lang, parseNumberOn_alike (sameOn_limit L L') h hs lang,
    parseOrdinalOn_alike (sameOn_limit L L') h hs lang, parseFractionOn_alike (sameOn_limit L L') h hs lang⟩

/-- **C87**: if the limit is 1300 digits or more, or there is none, it does not matter for `parse`. -/
theorem c87_parse (L : Option Nat) (hL : LimitLE (some 1300) L) (s : PyStr) (lang : Option PyStr) :
    parseOn (withLimit L) s lang = parse s lang := parseOn_enough hL s lang

/-- **C87**: nor for `parse_number` of a text that is no digit string. -/
theorem c87_number (L : Option Nat) (hL : LimitLE (some 1300) L) (s : PyStr) (hn : ¬ NumericText s) (lang : Option PyStr) :
    parseNumberOn (withLimit L) s lang = parseNumber s lang := parseNumberOn_enough hL s hn lang

/-- **C87**: with any limit, a digit string is read if it has at most as many digits as the limit allows, and raises `ValueError` otherwise. -/
theorem c87_digits (L : Option Nat) (s : PyStr) (hn : NumericText s) (lang : Option PyStr) :
    (∀ n, parseNumberOn (withLimit L) s lang = .ok (some n) ↔ DigitTextUpTo L s n) ∧
    ((∀ n, ¬ DigitTextUpTo L s n) → parseNumberOn (withLimit L) s lang = .error .badInt) := by
  rw [parseNumberOn_numeric hn]
  constructor
  · intro n
    rw [← pyIntOn_iff]
    cases pyIntOn (withLimit L) s with
    | error e => exact ⟨fun h => (nomatch h), fun h => (nomatch h)⟩
    | ok m => exact ⟨fun h => by injection h with h; injection h with h; rw [h], fun h => by injection h with h; rw [h]; rfl⟩
  · intro h
    cases hp : pyIntOn (withLimit L) s with
    | error e => rw [pyIntOn_error hp]; rfl
    | ok n => exact absurd ((pyIntOn_iff L s n).mp hp) (h n)

/-- **C87**: nor does the limit matter for `parse_ordinal`, unless the text is a single numeral. -/
theorem c87_ordinal (L : Option Nat) (hL : LimitLE (some 1300) L) (l : PyStr) (hl : l ∈ supported) (s : PyStr) (ts : List PyStr) (hts : Tokens l s ts)
    (hn : ¬ SingleNumeral ts) : parseOrdinalOn (withLimit L) s (some l) = parseOrdinal s (some l) := by
  rw [tokens_iff] at hts
  subst hts
  exact parseOrdinalOn_enough hL hl hn

/-- **C87**: nor for `parse_fraction`, if no side is a digit string. -/
theorem c87_fraction (L : Option Nat) (hL : LimitLE (some 1300) L) (l s : PyStr)
    (hn : ∀ a b, FractionParts s a b → ¬ NumericText a ∧ ¬ NumericText b) : parseFractionOn (withLimit L) s (some l) = parseFraction s (some l) := by
  unfold parseFractionOn parseFraction
  split
  · rfl
  · apply fractionLoopOn_enough hL
    · intro pre sep post pos e hpre hp
      have hne : ∀ x ∈ FRACTION_SEPARATORS, x ≠ [] := by decide
      refine hn _ _ ⟨pre, sep, post, e, ?_, find_some hp⟩
      intro x hx
      exact (find_none (hne x (by rw [e]; simp [hx])) s).mp (hpre x hx)
    · exact fun x n h h' => c31_parse_number x (some l) n h h'

/-- With a limit of 640 digits, the smallest one that can be set, Spanish words can be refused; without a limit long digit strings are read. -/
theorem c87_refuted : parseOn (withLimit (some 640)) u!"un nonillón centillón" (some u!"es") = .error .badInt ∧
    parseOn (withLimit (some 1300)) u!"un nonillón centillón" (some u!"es") = .ok (49 :: List.replicate 654 48) ∧
    parseNumberOn (withLimit none) (List.replicate 4301 48) (some u!"en") = .ok (some 0) ∧
    parseNumber (List.replicate 4301 48) (some u!"en") = .error .badInt := by decide +kernel

/-- The hypotheses are met by long digit strings. -/
example : LimitLE (some 1300) none ∧ LimitLE (some 1300) (some 5000) ∧ ¬ LimitLE (some 1300) (some 640) ∧ DigitTextUpTo (some 2) u!" 12" 12 ∧ ¬ LimitLE none (some 3) :=
  ⟨trivial, by unfold LimitLE; decide, by unfold LimitLE; decide,
    ⟨u!" ", u!"12", [], rfl, by unfold OrdinarySpace; decide, by unfold OrdinarySpace; decide,
      .snoc (s := u!"1") (n := 1) (d := 2) (.digit (by decide +kernel)) (by decide +kernel), by unfold LimitLE; decide⟩, id⟩

/-! ## C88: other versions of Unicode -/

/-- **C88**: two interpreters with the same limit whose character tables agree on the characters of the text (and those of the number words,
and lower case and decompositions of all these) give the same results. -/
theorem c88_same (V W : Interpreter) (K : Nat → Prop) (h : SameOn V W K) (hL : V.limit = W.limit) (s : PyStr) (hs : Within K s) (lang : Option PyStr) :
    parseOn V s lang = parseOn W s lang ∧ parseNumberOn V s lang = parseNumberOn W s lang ∧
    parseOrdinalOn V s lang = parseOrdinalOn W s lang ∧ parseFractionOn V s lang = parseFractionOn W s lang := by
  have h' : SameOn W V K := by
    refine ⟨h.ascii, h.sigma, h.words, fun c hc => ⟨(h.lower c hc).1.symm, (h.lower c hc).1 ▸ (h.lower c hc).2⟩,
      fun c hc => ⟨(h.decomp c hc).1.symm, (h.decomp c hc).1 ▸ (h.decomp c hc).2⟩, fun c hc => ?_⟩
    obtain ⟨a1, a2, a3, a4, a5, a6, a7⟩ := h.agree c hc
    exact ⟨a1.symm, a2.symm, a3.symm, a4.symm, a5.symm, a6.symm, a7.symm⟩
  have r : ∀ L : Option Nat, LimitLE L L := by
    intro L; cases L with
    | none => trivial
    | some a => exact Nat.le_refl a
  have l1 : LimitLE V.limit W.limit := hL ▸ r _
  have l2 : LimitLE W.limit V.limit := hL ▸ r _
  exact ⟨(parseOn_alike h l1 hs lang).eq (parseOn_alike h' l2 hs lang), (parseNumberOn_alike h l1 hs lang).eq (parseNumberOn_alike h' l2 hs lang),
    (parseOrdinalOn_alike h l1 hs lang).eq (parseOrdinalOn_alike h' l2 hs lang), (parseFractionOn_alike h l1 hs lang).eq (parseFractionOn_alike h' l2 hs lang)⟩

def everyday (c : Nat) : Bool := decide (c < 0x980) || (decide (0x2000 ≤ c) && decide (c < 0x2070)) || c == 0x2c65 || c == 0x2c66

theorem everyday_iff (c : Nat) : everyday c = true ↔ Everyday c := by
  unfold everyday Everyday; simp [or_assoc]

theorem everyday_words : [Data.en, Data.es, Data.hi, Data.ru, Data.uk].all (fun i =>
    [i.unitNumbers, i.directNumbers, i.tens, i.hundreds, i.bigPowersOfTen].all (fun d => d.all (fun e => e.1.all everyday))) = true := by decide +kernel

theorem everyday_closed : (List.range 0x980 ++ (List.range 0x70).map (· + 0x2000) ++ [0x2c65, 0x2c66]).all
    (fun c => (lowerChar c).all everyday && (decompChar c).all everyday) = true := by decide +kernel

theorem everyday_range {c : Nat} (h : Everyday c) : c ∈ List.range 0x980 ++ (List.range 0x70).map (· + 0x2000) ++ [0x2c65, 0x2c66] := by
  rw [List.mem_append, List.mem_append, List.mem_range, List.mem_map]
  rcases h with h | h | rfl | rfl
  · exact Or.inl (Or.inl h)
  · exact Or.inl (Or.inr ⟨c - 0x2000, List.mem_range.mpr (by omega), by omega⟩)
  · exact Or.inr (by simp)
  · exact Or.inr (by simp)

/-- The everyday characters contain the number words and are closed under lower case and decomposition. -/
theorem everyday_same (V : Interpreter) (h : ∀ c, Everyday c → As311 V c) (L : Option Nat) : SameOn V (withLimit L) Everyday where
  ascii c hc := Or.inl (by omega)
  sigma := ⟨Or.inl (by decide), Or.inl (by decide)⟩
  words l hl k w v hw c hc := by
    have key : ∀ i ∈ [Data.en, Data.es, Data.hi, Data.ru, Data.uk],
        ∀ d ∈ [i.unitNumbers, i.directNumbers, i.tens, i.hundreds, i.bigPowersOfTen], ∀ e ∈ d, ∀ c ∈ e.1, Everyday c := by
      intro i hi d hd e he c hc
      have := List.all_eq_true.mp (List.all_eq_true.mp (List.all_eq_true.mp (List.all_eq_true.mp everyday_words i hi) d hd) e he) c hc
      exact (everyday_iff c).mp this
    have hi : file l ∈ [Data.en, Data.es, Data.hi, Data.ru, Data.uk] := by
      simp only [supported, List.mem_cons, List.not_mem_nil, or_false] at hl
      rcases hl with rfl | rfl | rfl | rfl | rfl
      · exact List.mem_cons_self
      · exact List.mem_cons_of_mem _ List.mem_cons_self
      · exact List.mem_cons_of_mem _ (List.mem_cons_of_mem _ List.mem_cons_self)
      · exact List.mem_cons_of_mem _ (List.mem_cons_of_mem _ (List.mem_cons_of_mem _ List.mem_cons_self))
      · exact List.mem_cons_of_mem _ (List.mem_cons_of_mem _ (List.mem_cons_of_mem _ (List.mem_cons_of_mem _ List.mem_cons_self)))
    refine key _ hi (entries l k) ?_ (w, v) hw c hc
    cases k <;> simp [entries]
  lower c hc := by
    have := List.all_eq_true.mp everyday_closed c (everyday_range hc)
    rw [Bool.and_eq_true] at this
    refine ⟨(h c hc).lower, fun d hd => (everyday_iff d).mp (List.all_eq_true.mp this.1 d ?_)⟩
    rw [← (h c hc).lower]; exact hd
  decomp c hc := by
    have := List.all_eq_true.mp everyday_closed c (everyday_range hc)
    rw [Bool.and_eq_true] at this
    refine ⟨(h c hc).decomp, fun d hd => (everyday_iff d).mp (List.all_eq_true.mp this.2 d ?_)⟩
    rw [← (h c hc).decomp]; exact hd
  agree c hc := ⟨(h c hc).word, (h c hc).mn, (h c hc).caseIgnorable, (h c hc).cased, (h c hc).ccc, (h c hc).numeric, (h c hc).decimal⟩

/-- **C88**: an interpreter whose tables are those of 3.11 for everyday characters gives the results of 3.11 for all texts of such characters, if it has the same limit. -/
theorem c88_everyday (V : Interpreter) (h : ∀ c, Everyday c → As311 V c) (hL : V.limit = some 4300) (s : PyStr) (hs : ∀ c ∈ s, Everyday c)
    (lang : Option PyStr) :
    parseOn V s lang = parse s lang ∧ parseNumberOn V s lang = parseNumber s lang ∧
    parseOrdinalOn V s lang = parseOrdinal s lang ∧ parseFractionOn V s lang = parseFraction s lang := by
  obtain ⟨h1, h2, h3, h4⟩ := c88_same V python311 Everyday (everyday_same V h (some 4300)) hL s hs lang
  obtain ⟨e1, e2, e3, e4⟩ := c87_python311 s lang
  exact ⟨h1.trans e1, h2.trans e2, h3.trans e3, h4.trans e4⟩

/-- **C88** with C87: for `parse`, and for `parse_number` of a text that is no digit string, any limit from 1300 on will do. -/
theorem c88_any_limit (V : Interpreter) (h : ∀ c, Everyday c → As311 V c) (hL : LimitLE (some 1300) V.limit) (s : PyStr) (hs : ∀ c ∈ s, Everyday c)
    (lang : Option PyStr) :
    parseOn V s lang = parse s lang ∧ (¬ NumericText s → parseNumberOn V s lang = parseNumber s lang) := by
  obtain ⟨h1, h2, _, _⟩ := c88_same V (withLimit V.limit) Everyday (everyday_same V h V.limit) rfl s hs lang
  exact ⟨h1.trans (c87_parse _ hL s lang), fun hn => h2.trans (c87_number _ hL s hn lang)⟩

/-- An interpreter with older tables, for which U+A7C0 (assigned in Unicode 14) is no word character -/
def older : Interpreter := { python311 with word := fun c => c != 0xa7c0 && isWord c }

theorem older_everyday : ∀ c, Everyday c → As311 older c := by
  intro c hc
  refine ⟨?_, rfl, rfl, rfl, rfl, rfl, rfl, rfl, rfl⟩
  show (c != 0xa7c0 && isWord c) = isWord c
  have : c ≠ 0xa7c0 := by rcases hc with hc | hc | hc | hc <;> omega
  rw [bne_iff_ne.mpr this, Bool.true_and]

/-- The restriction to characters known to both is needed: a letter added by a newer version belongs to the word for the newer one only. -/
theorem c88_refuted : parseOn older u!"twoꟀ" (some u!"en") = .ok u!"2 Ꟁ" ∧ parse u!"twoꟀ" (some u!"en") = .ok u!"twoꟀ" ∧
    parseOn older u!"Twenty-óne çats, ΔΥΟ’ς" (some u!"en") = .ok u!"21 çats, ΔΥΟ’ς" := by decide +kernel

end NumberParser.Props
