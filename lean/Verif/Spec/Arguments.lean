import Verif.Model.Arguments
import Verif.Spec.Words

/-!
# Specification: kinds of arguments
-/

namespace NumberParser.Spec
open NumberParser

/-- The object for a `language` argument of the other properties: a name or `None` -/
def languageObj : Option PyStr → PyObj
  | some l => .str l
  | none => .none

/-- The object is no string. -/
def NoText (x : PyObj) : Prop := ∀ s, x ≠ .str s

/-- Bytes of ASCII white space (space, tab, line feed, vertical tab, form feed, carriage return) or of no bytes at all -/
def BlankBytes (x : PyObj) : Prop := ∃ b, x = .bytes b ∧ ∀ c ∈ b, c = 32 ∨ (9 ≤ c ∧ c ≤ 13)

/-- The language argument is neither a string nor `None`, or a string that is no supported language. -/
def BadLanguage (l : PyObj) : Prop := l ≠ .none ∧ ∀ name ∈ supported, l ≠ .str name

/-- What an operation for strings raises: `TypeError` for bytes, which have a method of this name but want other arguments, `AttributeError` for
objects without the method -/
def wrongType : PyObj → ArgErr
  | .bytes _ => .type
  | _ => .attribute

end NumberParser.Spec
