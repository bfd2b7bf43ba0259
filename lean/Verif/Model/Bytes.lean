import Verif.Model.Files

/-!
# Byte literals

`b!"…"` is a natural number that stands for the UTF-8 encoding of the string literal.  In base 256, from the least
significant digit on: eight arbitrary digits (a hash, which keeps similar lines apart in the kernel's tables), the bytes, and
a final 1.  `unpack` gives the bytes.
-/

namespace NumberParser.Gen

open NumberParser

/-- The number for a sequence of bytes -/
def pack (salt : Nat) (bytes : List Nat) : Nat := bytes.foldr (fun b n => n * 256 + b) 1 * 2 ^ 64 + salt % 2 ^ 64

macro:max "b!" s:str : term => do
  let n := pack (hash s.getString).toNat (s.getString.toUTF8.toList.map UInt8.toNat)
  `(($(Lean.quote n) : Nat))

/-- Worker of `unpack`: so many bytes of `n`, from the given bit on, in front of `t` -/
def unpackGo (n : Nat) : Nat → Nat → Bytes → Bytes
  | 0, _, t => t
  | len + 1, i, t => (n >>> i) % 256 :: unpackGo n len (i + 8) t

/-- The bytes of a literal, in front of `t` -/
def unpack (n : Nat) (t : Bytes) : Bytes := unpackGo n ((Nat.log2 n - 64) / 8) 64 t

/-- The bytes of a sequence of literals -/
def unpackAll (l : List Nat) : Bytes := l.foldr unpack []

end NumberParser.Gen
