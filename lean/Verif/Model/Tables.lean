/-!
# Lookup trees for the generated Unicode tables

Plain binary search trees.  They do not model any code of /repo; they are the carrier of the character
database of the Python interpreter (`unicodedata`, `str`, `re`), see `tools/gen_unicode.py`.
-/

namespace NumberParser

/-- A search tree of disjoint closed ranges of code points. -/
inductive RTree where
  | leaf
  | node (l : RTree) (lo hi : Nat) (r : RTree)

/-- Is the code point in one of the ranges? -/
def RTree.mem : RTree → Nat → Bool
  | .leaf, _ => false
  | .node l lo hi r, c =>
    bif Nat.blt c lo then l.mem c else bif Nat.blt hi c then r.mem c else true

/-- Lower end of the range containing the code point, if any. -/
def RTree.find? : RTree → Nat → Option Nat
  | .leaf, _ => none
  | .node l lo hi r, c =>
    bif Nat.blt c lo then l.find? c else bif Nat.blt hi c then r.find? c else some lo

/-- A search tree mapping code points to strings. -/
inductive MTree where
  | leaf
  | node (l : MTree) (key : Nat) (val : List Nat) (r : MTree)

def MTree.find? : MTree → Nat → Option (List Nat)
  | .leaf, _ => none
  | .node l k v r, c =>
    bif Nat.blt c k then l.find? c else bif Nat.blt k c then r.find? c else some v

/-- A search tree mapping ranges of code points to numbers. -/
inductive CTree where
  | leaf
  | node (l : CTree) (lo hi val : Nat) (r : CTree)

/-- Value of the range containing the code point, 0 if there is none. -/
def CTree.get : CTree → Nat → Nat
  | .leaf, _ => 0
  | .node l lo hi v r, c =>
    bif Nat.blt c lo then l.get c else bif Nat.blt hi c then r.get c else v

end NumberParser
