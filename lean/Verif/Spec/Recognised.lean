import Verif.Spec.Words

/-!
# Specification: recognised tokens
-/

namespace NumberParser.Spec
open NumberParser

/-- The token is a number word (cardinal or ordinal) or a conjunction of the language. -/
def Recognised (l t : PyStr) : Prop := NumberWord l t ∨ Skip l t

/-- No supported language recognises a token of the text that the language `l` does not recognise. -/
abbrev RecognisedOnlyIn (l s : PyStr) : Prop :=
  ∀ l' ∈ supported, ∀ ts, Tokens l' s ts → ∀ t ∈ ts, Recognised l' t → Recognised l t

end NumberParser.Spec
