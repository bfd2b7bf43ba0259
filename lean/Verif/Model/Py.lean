import Lean.Parser.Term

/-!
# The Python built-ins the library uses

A Python `str` is the list of its code points.  (Lean's `Nat` has no upper bound; numbers above
`0x10FFFF`, which no Python string contains, behave like unassigned code points, and lone surrogates,
which Python strings may contain, are included.)
-/

namespace NumberParser

/-- A Python `str`: its code points, in order. -/
abbrev PyStr := List Nat

/-- `u!"abc"` is the list literal of the code points of the string literal. -/
macro:max "u!" s:str : term => do
  let cs ← s.getString.toList.toArray.mapM fun c => `($(Lean.quote c.toNat))
  `(([$cs,*] : List Nat))

/-- The exceptions that can escape from the API.  Both are `ValueError`s in Python:
`unsupportedLanguage` is raised by `LanguageData.__init__` (parser.py:23-24), `badInt` by the built-ins
`int(str)` (invalid literal, or more than 4300 digits) and `str(int)` (more than 4300 digits). -/
inductive PyErr where
  | unsupportedLanguage
  | badInt
  deriving DecidableEq, Repr

abbrev Res := Except PyErr

/-- Decidable equality of results, so that concrete results can be checked by the kernel. -/
instance {α : Type} [DecidableEq α] : DecidableEq (Res α)
  | .ok a, .ok b => if h : a = b then isTrue (by rw [h]) else isFalse (fun e => h (Except.ok.inj e))
  | .error a, .error b => if h : a = b then isTrue (by rw [h]) else isFalse (fun e => h (Except.error.inj e))
  | .ok _, .error _ => isFalse (fun e => nomatch e)
  | .error _, .ok _ => isFalse (fun e => nomatch e)

/-! ## `str` -/

/-- Python's `str.isspace` on one character (CPython `Py_UNICODE_ISSPACE`); also what `re`'s `\s` matches
and what `str.strip()` removes. -/
def isSpace (c : Nat) : Bool :=
  [0x09, 0x0a, 0x0b, 0x0c, 0x0d, 0x1c, 0x1d, 0x1e, 0x1f, 0x20, 0x85, 0xa0, 0x1680,
   0x2000, 0x2001, 0x2002, 0x2003, 0x2004, 0x2005, 0x2006, 0x2007, 0x2008, 0x2009, 0x200a,
   0x2028, 0x2029, 0x202f, 0x205f, 0x3000].elem c

/-- Remove the longest suffix of characters satisfying `p`. -/
def rdropWhile (p : Nat → Bool) (s : PyStr) : PyStr := (s.reverse.dropWhile p).reverse

/-- `s.strip()` -/
def strip (s : PyStr) : PyStr := rdropWhile isSpace (s.dropWhile isSpace)

/-- Truth value of `not s.strip()`. -/
def blank (s : PyStr) : Bool := (strip s).isEmpty

/-- Worker of `replace`: `skip` characters of an already replaced occurrence are still to be dropped. -/
def replaceGo (old new : PyStr) : Nat → PyStr → PyStr
  | _, [] => []
  | skip + 1, _ :: cs => replaceGo old new skip cs
  | 0, c :: cs =>
    if old.isPrefixOf (c :: cs) then new ++ replaceGo old new (old.length - 1) cs
    else c :: replaceGo old new 0 cs

/-- `s.replace(old, new)` for a non-empty `old`: leftmost, non-overlapping occurrences. -/
def replace (s old new : PyStr) : PyStr := replaceGo old new 0 s

/-- `s.find(sub)` for a non-empty `sub`: index of the first occurrence (`none` for Python's `-1`). -/
def find (sub : PyStr) : PyStr → Option Nat
  | [] => none
  | c :: cs => if sub.isPrefixOf (c :: cs) then some 0 else (find sub cs).map (· + 1)

/-- `sep.join(parts)` -/
def join (sep : PyStr) : List PyStr → PyStr
  | [] => []
  | [a] => a
  | a :: b :: rest => a ++ sep ++ join sep (b :: rest)

/-! ## `dict` with string keys and integer values -/

/-- A Python `dict` from `str` to `int`: its items in insertion order. -/
abbrev Dict := List (PyStr × Nat)

/-- `d.get(k)` -/
def Dict.get? : Dict → PyStr → Option Nat
  | [], _ => none
  | (k, v) :: d, x => if k == x then some v else Dict.get? d x

/-- `k in d` -/
def Dict.mem (d : Dict) (k : PyStr) : Bool := (Dict.get? d k).isSome

/-- `d[k] = v`: an existing key keeps its place, a new key goes last. -/
def Dict.set : Dict → PyStr → Nat → Dict
  | [], k, v => [(k, v)]
  | (k', v') :: d, k, v => if k' == k then (k', v) :: d else (k', v') :: Dict.set d k v

/-- `{**a, **b}` / `a.update(b)` -/
def Dict.merge (a b : Dict) : Dict := b.foldl (fun d e => Dict.set d e.1 e.2) a

/-- What a data module `number_parser/data/<language>.py` defines as `info`. -/
structure Info where
  unitNumbers : Dict
  directNumbers : Dict
  tens : Dict
  hundreds : Dict
  bigPowersOfTen : Dict
  skipTokens : List PyStr
  useLongScale : Bool

/-! ## `int` and `str` conversions -/

/-- Decimal digits of `n` prepended to `acc`; `fuel > n` suffices. -/
def decGo : Nat → Nat → PyStr → PyStr
  | 0, _, acc => acc
  | fuel + 1, n, acc => if n < 10 then (48 + n) :: acc else decGo fuel (n / 10) ((48 + n % 10) :: acc)

/-- The decimal digits of `n`. -/
def decDigits (n : Nat) : PyStr := decGo (n + 1) n []

/-- The interpreter's default `sys.int_info.default_max_str_digits`. -/
def maxStrDigits : Nat := 4300

/-- `str(n)` for `n >= 0`; CPython raises `ValueError` above 4300 digits. -/
def strInt (n : Nat) : Res PyStr :=
  if (decDigits n).length ≤ maxStrDigits then .ok (decDigits n) else .error .badInt

end NumberParser
