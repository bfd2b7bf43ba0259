import Verif.Props.Files
import Verif.Props.Emit
import Verif.Model.FileBytes

/-! The generator on files, in two parts: the kernel evaluates them separately for the repository's files. -/

namespace NumberParser.Props

open NumberParser Gen Spec

deriving instance DecidableEq for Supplementary

/-- From the source file to the tables of its rules -/
def sourceTables (source : Bytes) : FRes (Option (Tables Int)) := do
  let data ← readJson source
  match ← requisiteData data with
  | none => return none
  | some requisite => return some (← extractJson requisite)

/-- From the supplementary file to its data -/
def suppData (supp : Bytes) : FRes Supplementary := do
  let data ← readJson supp
  let unit ← jget data u!"UNIT_NUMBERS" >>= jsonTableOf
  let direct ← jget data u!"DIRECT_NUMBERS" >>= jsonTableOf
  let tens ← jget data u!"TENS" >>= jsonTableOf
  let hundreds ← jget data u!"HUNDREDS" >>= jsonTableOf
  let big ← jget data u!"BIG_POWERS_OF_TEN" >>= jsonTableOf
  let skip ← jget data u!"SKIP_TOKENS" >>= jsonTokens
  let longScale ← longScaleOf data
  return ⟨⟨unit, direct, tens, hundreds, big⟩, skip, longScale⟩

theorem text_of_stages {name : PyStr} {source supp : Bytes} {sets : RuleSets} {s : Supplementary} {out : Output}
    (hn : SKIPPED_FILES.elem name = false)
    (h1 : sourceTables source = liftGen ((extract sets).map some)) (h2 : suppData supp = .ok s) (h3 : generate sets s = .ok out) :
    newTextBytes ⟨name, source, some supp⟩ = .ok (some (emit out)) := by
  obtain ⟨d, hd, hout⟩ := generate_merge.mp h3
  rw [hd] at h1
  unfold newTextBytes
  simp only
  rw [hn]
  simp only [Bool.false_eq_true, if_false, bind, Except.bind]
  unfold sourceTables at h1
  simp only [bind, Except.bind] at h1
  cases hr : readJson source with
  | error e => rw [hr] at h1; cases h1
  | ok data =>
    rw [hr] at h1
    simp only at h1 ⊢
    cases hq : requisiteData data with
    | error e => rw [hq] at h1; cases h1
    | ok o =>
      rw [hq] at h1
      cases o with
      | none => injection h1 with h1; cases h1
      | some q =>
        simp only at h1 ⊢
        cases he : extractJson q with
        | error e => rw [he] at h1; cases h1
        | ok d' =>
          rw [he] at h1
          injection h1 with h1
          injection h1 with h1
          subst h1
          simp only
          unfold suppData at h2
          simp only [bind, Except.bind] at h2
          cases hs : readJson supp with
          | error e => rw [hs] at h2; cases h2
          | ok sdata =>
            rw [hs] at h2
            simp only at h2 ⊢
            have : mergeJson d' sdata = .ok out := by
              unfold mergeJson
              simp only [bind, Except.bind]
              repeat' split at h2
              all_goals first | cases h2 | skip
              simp only [*]
              rfl
            rw [mergeText_ok this]
            rfl

end NumberParser.Props
