import Verif.Model.Locale
import Verif.Spec.Files

/-!
# Specification: the generator in another encoding

What it means to convert the source files to UTF-8 and the module back.
-/

namespace NumberParser.Spec

open NumberParser NumberParser.Gen

/-- `g` are the files of `f`, converted from the encoding of the platform to UTF-8. -/
structure ConvertedFiles (p : Platform) (f g : LangBytes) : Prop where
  name : g.name = f.name
  source : ∃ s, p.decode f.source = some s ∧ Utf8 s g.source
  supplementary : (f.supplementary = none ∧ g.supplementary = none) ∨
    ∃ b b' s, f.supplementary = some b ∧ g.supplementary = some b' ∧ p.decode b = some s ∧ Utf8 s b'

/-- The bytes of a text with the platform's line ends and encoding -/
def InEncoding (p : Platform) (text : PyStr) (bytes : Bytes) : Prop :=
  p.encode (text.flatMap (fun c => if c = 10 then p.lineEnd else [c])) = some bytes

/-- All numbers are below 128. -/
def Ascii (s : List Nat) : Prop := ∀ c ∈ s, c < 128

/-- ASCII texts and their bytes are the same in this encoding. -/
structure AsciiCompatible (p : Platform) : Prop where
  decode : ∀ b, Ascii b → p.decode b = some b
  encode : ∀ s, Ascii s → p.encode s = some s

/-- The files of a language consist of ASCII bytes. -/
def AsciiFiles (f : LangBytes) : Prop := Ascii f.source ∧ ∀ b, f.supplementary = some b → Ascii b

end NumberParser.Spec
