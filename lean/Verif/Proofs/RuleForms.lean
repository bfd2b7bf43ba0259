import Verif.Spec.Generator

/-! The conditions of Verif/Spec/Generator.lean in terms of the functions of the model (the equivalence is proved in
Verif/Proofs/RuleMeaning.lean). -/

namespace NumberParser.Gen

open NumberParser Spec

/-- `w` is the root word of a rule: what stands before the first `[`, or, if there is none, before the first `>`,
without white space around it. -/
def RootWordF (s w : PyStr) : Prop :=
  (91 ∈ s → ∃ p, BeforeFirst 91 s p ∧ w = strip p) ∧ (91 ∉ s → ∃ p, BeforeFirst 62 s p ∧ w = strip p)

/-- A rule puts the word `w` with value `n` into a table. -/
def ContributesF (key rule : PyStr) (table : TableName) (w : PyStr) (n : Int) : Prop :=
  ∃ number, pyIntAny key = some number ∧ 61 ∉ ruleText rule ∧
    match table with
    | .unit => 62 ∉ ruleText rule ∧ 60 ∉ ruleText rule ∧ w = ruleText rule ∧ w ≠ [] ∧ w ≠ u!"ERROR" ∧ n = number ∧ number ≤ 9
    | .direct => 62 ∉ ruleText rule ∧ 60 ∉ ruleText rule ∧ w = ruleText rule ∧ w ≠ [] ∧ w ≠ u!"ERROR" ∧ n = number ∧
        10 ≤ number ∧ number ≤ 99
    | .tens => (ruleText rule).count 62 = 2 ∧ 60 ∉ ruleText rule ∧ RootWordF (ruleText rule) w ∧ w ≠ [] ∧ n = number ∧
        countZero number = .ok 1 ∧ firstChar number ≠ 49
    | .hundreds => (ruleText rule).count 62 = 2 ∧ 60 ∉ ruleText rule ∧ RootWordF (ruleText rule) w ∧ w ≠ [] ∧ n = number ∧
        countZero number = .ok 2 ∧ firstChar number ≠ 49
    | .big => (ruleText rule).count 62 = 2 ∧ (ruleText rule).count 60 = 2 ∧
        ∃ part k, AfterLast 60 (ruleText rule) (32 :: part) ∧ countZero number = .ok k ∧ 2 ≤ k ∧ n = 10 ^ k ∧
          (36 ∈ part → w ∈ findBrackets part) ∧ (36 ∉ part → RootWordF (32 :: part) w)

/-- A rule ends the generator with an exception: nothing stands after the last of two `<`, or the zeros of a huge number
would have to be counted. -/
def RuleFailsF (key rule : PyStr) : Prop :=
  ∃ number, pyIntAny key = some number ∧ 61 ∉ ruleText rule ∧ (ruleText rule).count 62 = 2 ∧
    ((60 ∉ ruleText rule ∧ HugeNumber number) ∨
     ((ruleText rule).count 60 = 2 ∧
       (AfterLast 60 (ruleText rule) [] ∨ (HugeNumber number ∧ ∃ part, AfterLast 60 (ruleText rule) (32 :: part)))))

end NumberParser.Gen
