import Verif.Proofs.RuleMeaning
import Verif.Model.RuleData
import Verif.Model.Data
import Verif.Model.Parser

/-!
# C46, C47, C50: the data generator

Specification: Verif/Spec/Generator.lean.  `Contributes key rule table w n` says what a rule means; `usedRules` are the
rules of the rule sets that are used, in order.
-/

namespace NumberParser.Props

open NumberParser Gen Spec

/-- A supplementary file is a JSON object of JSON objects: no word occurs twice in a table. -/
def SuppOK (supp : Supplementary) : Prop := ∀ t, ((theTable supp.tables t).map (fun e => e.1)).Nodup

/-- The word is in the supplementary table. -/
def InSupp (supp : Supplementary) (t : TableName) (w : PyStr) : Prop := ∃ v, (w, v) ∈ theTable supp.tables t

theorem generate_tables {sets : RuleSets} {supp : Supplementary} {out : Output} (h : generate sets supp = .ok out) :
    ∃ d, extract sets = .ok d ∧ (∀ t, theTable out.tables t = orderTable (theTable d t) (theTable supp.tables t)) ∧
      out.skipTokens = sortBy strLt supp.skipTokens ∧ out.useLongScale = supp.useLongScale := by
  unfold generate at h
  cases hd : extract sets with
  | error e => rw [hd] at h; cases h
  | ok d =>
    rw [hd] at h
    injection h with h
    refine ⟨d, rfl, ?_, ?_, ?_⟩
    · intro t; rw [← h]; cases t <;> rfl
    · rw [← h]
    · rw [← h]

/-- **C47** The generated table has exactly the supplementary words, with their values, and the words of the used
rules, with the value of the last rule for the word; the supplementary value wins. -/
theorem c47_entries (sets : RuleSets) (supp : Supplementary) (out : Output) (h : generate sets supp = .ok out) (hs : SuppOK supp)
    (t : TableName) (w : PyStr) (n : Int) :
    (w, n) ∈ theTable out.tables t ↔
      (∃ v, (w, v) ∈ theTable supp.tables t ∧ Truncated v n) ∨
      (¬ InSupp supp t w ∧
        ∃ earlier r later, usedRules sets = earlier ++ r :: later ∧ Contributes r.1 r.2 t w n ∧
          ∀ r' ∈ later, ∀ m, ¬ Contributes r'.1 r'.2 t w m) := by
  obtain ⟨d, hd, ht, _⟩ := generate_tables h
  have hn := extract_distinct hd t
  rw [ht, orderTable_mem hn (hs t), Table.mem_iff hn, extract_iff hd]
  simp only [contributes_iff, truncated_iff]
  unfold InSupp
  rw [not_exists]
  rfl

/-- **C47** No word occurs twice in a generated table. -/
theorem c47_distinct (sets : RuleSets) (supp : Supplementary) (out : Output) (h : generate sets supp = .ok out) (t : TableName) :
    ((theTable out.tables t).map (fun e => e.1)).Nodup := by
  obtain ⟨d, hd, ht, _⟩ := generate_tables h
  rw [ht]
  exact orderTable_nodup (extract_distinct hd t) _

theorem strLt_iff (s t : PyStr) : strLt s t = true ↔ s < t := by
  induction s generalizing t with
  | nil => cases t <;> simp [strLt]
  | cons a s ih =>
    cases t with
    | nil => simp [strLt]
    | cons b t =>
      rw [List.cons_lt_cons_iff, ← ih]
      simp only [strLt]
      by_cases e : a = b
      · subst e; simp
      · simp [e]

/-- **C47** A generated table is sorted by value; if the supplementary numbers are integers, it is strictly sorted by
value and then word (words compare by code points). -/
theorem c47_sorted (sets : RuleSets) (supp : Supplementary) (out : Output) (h : generate sets supp = .ok out) (t : TableName) :
    (theTable out.tables t).Pairwise (fun a b => a.2 ≤ b.2) ∧
    ((∀ e ∈ theTable supp.tables t, ∃ m : Int, e.2.num = m * 2 ^ e.2.exp) →
      (theTable out.tables t).Pairwise (fun a b => a.2 < b.2 ∨ (a.2 = b.2 ∧ a.1 < b.1))) := by
  obtain ⟨d, hd, ht, _⟩ := generate_tables h
  have hn := extract_distinct hd t
  rw [ht]
  refine ⟨orderTable_sorted_value hn _, fun hw => ?_⟩
  refine (orderTable_sorted hn (fun e he => (whole_iff e.2).mp (hw e he))).imp ?_
  intro a b h
  rcases h with h | ⟨h1, h2⟩
  · exact .inl h
  · exact .inr ⟨h1, (strLt_iff _ _).mp h2⟩

/-- **C47** The skip tokens are those of the supplementary file, sorted; the scale flag is copied. -/
theorem c47_skip (sets : RuleSets) (supp : Supplementary) (out : Output) (h : generate sets supp = .ok out) :
    out.skipTokens.Perm supp.skipTokens ∧ out.skipTokens.Pairwise (fun a b => ¬ b < a) ∧
      out.useLongScale = supp.useLongScale := by
  obtain ⟨d, hd, _, h2, h3⟩ := generate_tables h
  refine ⟨by rw [h2]; exact sortBy_perm _ _, ?_, h3⟩
  rw [h2]
  refine (sortBy_sorted strLt (fun a b => strLt_asymm a b) (fun a b c => strGe_trans a b c) _).imp ?_
  intro a b h
  rw [← strLt_iff, h]; simp

set_option maxRecDepth 100000 in
/-- A concrete case: two sets, one of them not used; a later rule and the supplementary file override. -/
example :
    generate [(u!"%spellout-cardinal", [(u!"2", u!"two;"), (u!"20", u!"twenty[->>];"), (u!"100", u!"<< hundred[ >>];"), (u!"x.x", u!"<< point >>;")]),
              (u!"%spellout-ordinal", [(u!"2", u!"second;")]),
              (u!"%spellout-numbering", [(u!"3", u!"two;"), (u!"1", u!"one;")])]
        ⟨⟨[(u!"one", ⟨7, 0⟩), (u!"a", ⟨3, 0⟩)], [], [], [], [(u!"quintillion", ⟨10 ^ 18, 0⟩)]⟩, [u!"and", u!"-"], some false⟩ =
      .ok ⟨⟨[(u!"a", 3), (u!"two", 3), (u!"one", 7)], [], [(u!"twenty", 20)], [], [(u!"hundred", 100), (u!"quintillion", 10 ^ 18)]⟩,
        [u!"-", u!"and"], some false⟩ := by decide +kernel

set_option maxRecDepth 100000 in
/-- Without the condition on integers the order by word fails: 1.5 and 1.25 are sorted before they are truncated. -/
theorem c47_float_order : ∃ out, generate [] ⟨⟨[(u!"b", ⟨5, 2⟩), (u!"a", ⟨3, 1⟩)], [], [], [], []⟩, [], none⟩ = .ok out ∧
    out.tables.unit = [(u!"b", 1), (u!"a", 1)] := ⟨⟨⟨[(u!"b", 1), (u!"a", 1)], [], [], [], []⟩, [], none⟩, by decide +kernel, rfl⟩

/-! ### C46 -/

/-- The range of a table, for the words that come from the rules. -/
def TableRange (t : TableName) (n : Int) : Prop :=
  match t with
  | .unit => n ≤ 9
  | .direct => 10 ≤ n ∧ n ≤ 99
  | .tens => 20 ≤ n ∧ n % 10 = 0 ∧ ¬ StartsWithOne n ∧ (n < 10 * 2 ^ 53 → n % 100 ≠ 0)
  | .hundreds => 20 ≤ n ∧ n % 10 = 0 ∧ ¬ StartsWithOne n ∧ (n < 10 * 2 ^ 53 → n % 100 = 0 ∧ n % 1000 ≠ 0)
  | .big => ∃ k : Nat, 2 ≤ k ∧ n = 10 ^ k

theorem zeros_range {n : Int} {k : Nat} (hz : Zeros n (k + 1)) (h3 : ¬ StartsWithOne n) : 20 ≤ n ∧ n % 10 = 0 ∧ ¬ StartsWithOne n := by
  cases hz with
  | step h1 h2 _ _ =>
    refine ⟨?_, h2, h3⟩
    rcases Int.lt_or_le n 20 with h | h
    · exact absurd ⟨1, by simp; omega, by simp; omega⟩ h3
    · exact h

theorem contributes_range {key rule w : PyStr} {t : TableName} {n : Int} (h : Contributes key rule t w n) : TableRange t n := by
  obtain ⟨number, _, _, h⟩ := h
  cases t with
  | unit => obtain ⟨_, _, _, _, _, rfl, h⟩ := h; exact h
  | direct => obtain ⟨_, _, _, _, _, rfl, h⟩ := h; exact h
  | tens =>
    obtain ⟨_, _, _, _, rfl, hz, hf⟩ := h
    obtain ⟨h1, h2, h3⟩ := zeros_range hz hf
    refine ⟨h1, h2, h3, fun hlt => ?_⟩
    obtain ⟨k, hk, m, hm, hm0, hm9⟩ := zeros_small n.toNat (by omega)
    rw [← zeros_iff, countZero_eq, hk] at hz
    injection hz with hz; subst hz
    have hm0 : m ≠ 0 := by omega
    omega
  | hundreds =>
    obtain ⟨_, _, _, _, rfl, hz, hf⟩ := h
    obtain ⟨h1, h2, h3⟩ := zeros_range hz hf
    refine ⟨h1, h2, h3, fun hlt => ?_⟩
    obtain ⟨k, hk, m, hm, hm0, hm9⟩ := zeros_small n.toNat (by omega)
    rw [← zeros_iff, countZero_eq, hk] at hz
    injection hz with hz; subst hz
    have hm0 : m ≠ 0 := by omega
    omega
  | big =>
    obtain ⟨_, _, part, k, _, _, h2, h3, _⟩ := h
    exact ⟨k, h2, h3⟩

/-- **C46** Every number in a generated table is in the range of the table, unless it comes from the supplementary
file. -/
theorem c46_ranges (sets : RuleSets) (supp : Supplementary) (out : Output) (h : generate sets supp = .ok out) (hs : SuppOK supp)
    (t : TableName) (w : PyStr) (n : Int) (hm : (w, n) ∈ theTable out.tables t) (hw : ¬ InSupp supp t w) : TableRange t n := by
  rcases (c47_entries sets supp out h hs t w n).mp hm with ⟨v, hv, _⟩ | ⟨_, a, r, b, _, hc, _⟩
  · exact absurd ⟨v, hv⟩ hw
  · exact contributes_range hc

/-- **C46** The value of a scale word is the power of ten with as many zeros as the number of its rule, if that number
is `m * 10 ^ k` with a digit `m`, and `m * 5 ^ k` is below `2 ^ 53`; in particular for `10 ^ k` up to `10 ^ 22`. -/
theorem c46_scale_value (key rule w : PyStr) (n : Int) (h : Contributes key rule .big w n) (m k : Nat) (hm : 1 ≤ m ∧ m ≤ 9)
    (h53 : m * 5 ^ k < 2 ^ 53) (hk : IntegerText key ((m * 10 ^ k : Nat) : Int)) : n = 10 ^ k := by
  obtain ⟨number, hn, _, _, _, part, k', _, hz, _, h3, _⟩ := h
  rw [← integerText_iff] at hk hn
  rw [hk] at hn; injection hn with hn; subst hn
  rw [← zeros_iff, countZero_eq, Int.toNat_natCast, zeros_exact k m (.inr (by omega)) (.inl hm.2) h53] at hz
  injection hz with hz; subst hz
  exact h3

example : (9 : Nat) * 5 ^ 21 < 2 ^ 53 ∧ (1 : Nat) * 5 ^ 22 < 2 ^ 53 := by decide

set_option maxRecDepth 100000 in
/-- A rule with a number of several digits goes to TENS or HUNDREDS too: the tables are not limited to two and three
digits. -/
theorem c46_more_digits :
    generate [(u!"%spellout-cardinal", [(u!"250", u!"foo[ >>];"), (u!"2500", u!"bar >>;")])] ⟨Tables.empty, [], none⟩ =
      .ok ⟨⟨[], [], [(u!"foo", 250)], [(u!"bar", 2500)], []⟩, [], none⟩ := by decide +kernel

set_option maxRecDepth 100000 in
/-- The zeros are counted with floats: the rule for `10 ^ 24` is lost, the word for `10 ^ 35` becomes a hundred. -/
theorem c46_float_loss :
    generate [(u!"%spellout-cardinal", [(u!"100000000000000000000000", u!"<< a[ >>];"), (u!"1000000000000000000000000", u!"<< b[ >>];"),
      (u!"100000000000000000000000000000000000", u!"<< c[ >>];")])] ⟨Tables.empty, [], none⟩ =
      .ok ⟨⟨[], [], [], [], [(u!"c", 100), (u!"a", 10 ^ 23)]⟩, [], none⟩ := by decide +kernel

set_option maxRecDepth 100000 in
/-- A multiplier rule that ends with `<` ends the generator with an `IndexError`. -/
theorem c46_index_error :
    generate [(u!"%spellout-cardinal", [(u!"100", u!">><<;")])] ⟨Tables.empty, [], none⟩ = .error .index := by decide +kernel

/-! ### C50: the shipped tables -/

/-- The dictionary of a shipped data module. -/
def shipped (i : Info) : Output :=
  let c := fun (d : Dict) => (d.map (fun e => (e.1, (e.2 : Int))) : Table Int)
  ⟨⟨c i.unitNumbers, c i.directNumbers, c i.tens, c i.hundreds, c i.bigPowersOfTen⟩, i.skipTokens, some i.useLongScale⟩

set_option maxRecDepth 1000000 in
/-- **C50** (en, es, hi, ru; for uk see below) Running the generator on the rule and supplementary files of the repository gives
the data modules of the repository. -/
theorem c50_regenerate :
    generate RuleData.enRules RuleData.enSupplementary = .ok (shipped Data.en) ∧
    generate RuleData.esRules RuleData.esSupplementary = .ok (shipped Data.es) ∧
    generate RuleData.hiRules RuleData.hiSupplementary = .ok (shipped Data.hi) ∧
    generate RuleData.ruRules RuleData.ruSupplementary = .ok (shipped Data.ru) := by
  refine ⟨?_, ?_, ?_, ?_⟩ <;> decide +kernel

/-- The words that are in the shipped Ukrainian HUNDREDS table but in neither of its sources. -/
def ukHandMade : List PyStr := [u!"п'ятисот", u!"пʼятисот", u!"пятсот", u!"пятисот", u!"девятсот"]

set_option maxRecDepth 1000000 in
/-- **C50** is false for Ukrainian: the generator leaves out five words that the shipped module has (and changes nothing
else). -/
theorem c50_ukrainian_drift :
    generate RuleData.ukRules RuleData.ukSupplementary ≠ .ok (shipped Data.uk) ∧
    ukHandMade.all (fun w => Dict.mem Data.uk.hundreds w) = true ∧
    generate RuleData.ukRules RuleData.ukSupplementary =
      .ok (shipped { Data.uk with hundreds := Data.uk.hundreds.filter (fun e => !ukHandMade.elem e.1) }) := by
  refine ⟨?_, ?_, ?_⟩ <;> decide +kernel

set_option maxRecDepth 1000000 in
/-- What a user would see after regeneration: `parse_number` removes apostrophes, so that "п'ятсот" reaches the tables
as "пятсот", a word that only the shipped module has. -/
theorem c50_ukrainian_effect :
    parseNumber u!"п'ятсот" (some u!"uk") = .ok (some 500) ∧
    isNumberToken u!"пятсот" (mkLangData Data.uk) = some u!"пятсот" ∧
    isNumberToken u!"пятсот" (mkLangData { Data.uk with hundreds := Data.uk.hundreds.filter (fun e => !ukHandMade.elem e.1) }) = none := by
  decide +kernel

end NumberParser.Props
