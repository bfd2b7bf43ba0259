import Verif.Proofs.PackageFraction
import Verif.Props.VocabularyOrdinal

/-!
# C84: fractions with any list of languages

`parse_fraction` for any list of languages and any data modules: its results are determined by those of `parse_number` for the two sides.
-/

namespace NumberParser.Props
open NumberParser Gen Spec

/-- **C84** `parse_fraction` returns a fraction exactly if both sides of the first occurrence of the highest-priority separator are
numbers; it is these numbers in decimal, joined by "/". -/
theorem c84_fraction (p : Package) (s l r : PyStr) :
    parseFractionIn p s (some l) = .ok (some r) ↔
      ∃ a b m n, FractionParts s a b ∧ parseNumberIn p a (some l) = .ok (some m) ∧ parseNumberIn p b (some l) = .ok (some n) ∧
        r = decDigits m ++ u!"/" ++ decDigits n := by
  rcases parts_cases s with h | ⟨a, b, h⟩
  · rw [parseFractionIn_no_parts h]
    constructor
    · intro e; cases e
    · rintro ⟨a, b, m, n, ⟨hi, x, lo, h1, _, h3⟩, _⟩
      exact absurd ⟨a, b, h3.1⟩ (h x (by rw [h1]; simp))
  · rw [parseFractionIn_parts h]
    constructor
    · intro e
      unfold fractionOfIn at e
      cases ha : parseNumberIn p a (some l) with
      | error e' => rw [ha] at e; cases e
      | ok m =>
        cases hb : parseNumberIn p b (some l) with
        | error e' => rw [ha, hb] at e; cases e
        | ok n =>
          rw [ha, hb] at e
          cases m with
          | none => cases e
          | some m =>
            cases n with
            | none => cases e
            | some n =>
              simp only [bind, Except.bind, pure, Except.pure, Except.ok.injEq, Option.some.injEq] at e
              exact ⟨a, b, m, n, h, ha, hb, e.symm⟩
    · rintro ⟨a', b', m, n, h', ha, hb, rfl⟩
      obtain ⟨rfl, rfl⟩ := parts_unique h h'
      unfold fractionOfIn
      rw [ha, hb]; rfl

/-- **C84** Without a separator it returns none, whatever the language, even one that is not in the list. -/
theorem c84_no_separator (p : Package) (s l : PyStr) (h : ∀ x ∈ separators, ¬ Occurs x s) : parseFractionIn p s (some l) = .ok none :=
  parseFractionIn_no_parts h

/-- **C84** With a separator: it returns none exactly if one of the sides is no number and the other raises nothing, and it raises what
the left side raises, or else what the right side raises. -/
theorem c84_outcome (p : Package) (s l a b : PyStr) (h : FractionParts s a b) :
    (parseFractionIn p s (some l) = .ok none ↔
      (parseNumberIn p a (some l) = .ok none ∧ ∃ y, parseNumberIn p b (some l) = .ok y) ∨
      ((∃ x, parseNumberIn p a (some l) = .ok x) ∧ parseNumberIn p b (some l) = .ok none)) ∧
    ∀ e, parseFractionIn p s (some l) = .error e ↔ parseNumberIn p a (some l) = .error e ∨
      ((∃ x, parseNumberIn p a (some l) = .ok x) ∧ parseNumberIn p b (some l) = .error e) := by
  rw [parseFractionIn_parts h]
  unfold fractionOfIn
  cases ha : parseNumberIn p a (some l) with
  | error e' => simp [bind, Except.bind]
  | ok m =>
    cases hb : parseNumberIn p b (some l) with
    | error e' => simp [bind, Except.bind]
    | ok n => cases m <;> cases n <;> simp [bind, Except.bind, pure, Except.pure]

/-- **C84** So, with a sensible module, two sides of words of the module are read by the rules. -/
theorem c84_words (p : Package) (hp : Distinct p) (l : PyStr) (i : Info) (h : (l, i) ∈ p) (hi : Sensible i)
    (s a b t t' : PyStr) (ts ts' : List PyStr) (hs : FractionParts s a b) (ha : WordInput a) (hb : WordInput b)
    (hta : Tokens l (withoutApostrophes a) (t :: ts)) (htb : Tokens l (withoutApostrophes b) (t' :: ts')) (r : PyStr) :
    parseFractionIn p s (some l) = .ok (some r) ↔
      ∃ m n ws ws', (form t ∉ i.skipTokens ∧ m < 10 ^ 4300 ∧ OnlyWordsOf i (t :: ts) ws ∧ ReadAs i ws m) ∧
        (form t' ∉ i.skipTokens ∧ n < 10 ^ 4300 ∧ OnlyWordsOf i (t' :: ts') ws' ∧ ReadAs i ws' n) ∧
        r = decDigits m ++ u!"/" ++ decDigits n := by
  rw [c84_fraction]
  constructor
  · rintro ⟨a', b', m, n, h', h1, h2, hr⟩
    obtain ⟨rfl, rfl⟩ := parts_unique hs h'
    obtain ⟨x1, x2, ws, x3, x4⟩ := (c82_reads p hp l i h hi a t ts m ha hta).mp h1
    obtain ⟨y1, y2, ws', y3, y4⟩ := (c82_reads p hp l i h hi b t' ts' n hb htb).mp h2
    exact ⟨m, n, ws, ws', ⟨x1, x2, x3, x4⟩, ⟨y1, y2, y3, y4⟩, hr⟩
  · rintro ⟨m, n, ws, ws', ⟨x1, x2, x3, x4⟩, ⟨y1, y2, y3, y4⟩, hr⟩
    exact ⟨a, b, m, n, hs, (c82_reads p hp l i h hi a t ts m ha hta).mpr ⟨x1, x2, ws, x3, x4⟩,
      (c82_reads p hp l i h hi b t' ts' n hb htb).mpr ⟨y1, y2, ws', y3, y4⟩, hr⟩

set_option maxRecDepth 100000 in
/-- With the Portuguese data fractions would be read, the separators remain English. -/
theorem c84_example : [u!"dois mil trezentos over vinte", u!"dois/tres", u!"dois sobre três", u!"dois over nada", u!"dois / ½"].map
    (fun s => parseFractionIn [(u!"pt", portuguese)] s (some u!"pt")) =
      [.ok (some u!"2300/20"), .ok (some u!"2/3"), .ok none, .ok none, .error .badInt] := by decide +kernel

end NumberParser.Props
