import Verif.Spec.Text
import Verif.Model.Data

/-!
# Specification: languages, listed words, tokens

What the tables of the data files list, which words count as number words, and what the tokens of a text are.
Nothing here refers to the parser's functions (except the Python built-ins and the comparison form).
-/

namespace NumberParser.Spec
open NumberParser

/-- The supported languages. -/
def supported : List PyStr := [u!"en", u!"es", u!"hi", u!"ru", u!"uk"]

/-- The five classes of number words in a data file. -/
inductive Class where
  | unit | direct | tens | hundreds | scale
  deriving DecidableEq, Repr

/-- The data file of a supported language. -/
def file (l : PyStr) : Info :=
  if l = u!"es" then Data.es else if l = u!"hi" then Data.hi else if l = u!"ru" then Data.ru
  else if l = u!"uk" then Data.uk else Data.en

/-- The entries of a table of the data file: words with their values. -/
def entries (l : PyStr) : Class → List (PyStr × Nat)
  | .unit => (file l).unitNumbers
  | .direct => (file l).directNumbers
  | .tens => (file l).tens
  | .hundreds => (file l).hundreds
  | .scale => (file l).bigPowersOfTen

/-- `f` is the comparison form of a word listed in class `k` with value `v`. -/
def FormOf (l : PyStr) (k : Class) (v : Nat) (f : PyStr) : Prop := ∃ w, (w, v) ∈ entries l k ∧ form w = f

/-- `t` is (a spelling of) a number word of class `k` and value `v`. -/
def Word (l : PyStr) (k : Class) (v : Nat) (t : PyStr) : Prop := FormOf l k v (form t)

/-- `t` is a cardinal number word. -/
def Cardinal (l : PyStr) (t : PyStr) : Prop := ∃ k v, Word l k v t

/-- `t` is a conjunction ("skip token"). -/
def Skip (l : PyStr) (t : PyStr) : Prop := form t ∈ (file l).skipTokens

/-- The irregular English ordinals; in a word they are replaced one after the other. -/
def irregulars : List (PyStr × PyStr) :=
  [(u!"first", u!"one"), (u!"second", u!"two"), (u!"third", u!"three"), (u!"fifth", u!"five"),
   (u!"eighth", u!"eight"), (u!"ninth", u!"nine"), (u!"twelfth", u!"twelve")]

def irregular (f : PyStr) : PyStr := irregulars.foldl (fun f p => replace f p.1 p.2) f

/-- `t` is a cardinal or ordinal number word: after replacing the irregular ordinals, its comparison form is a
cardinal, or a cardinal followed by "th", or a cardinal ending in "y" with "ieth" in place of the "y". -/
def NumberWord (l : PyStr) (t : PyStr) : Prop :=
  ∃ k v c, FormOf l k v c ∧
    (irregular (form t) = c ∨ irregular (form t) = c ++ u!"th" ∨
      ∃ stem, c = stem ++ u!"y" ∧ irregular (form t) = stem ++ u!"ieth")

/-- `t` is neither blank nor a number word nor a conjunction. -/
def Ordinary (l : PyStr) (t : PyStr) : Prop :=
  (∃ c ∈ form t, isSpace c = false) ∧ ¬ NumberWord l t ∧ ¬ Skip l t

/-! ## Tokens -/

/-- Words of word characters alternating with single other characters. -/
inductive WordTokens : List PyStr → Prop where
  | last {w : PyStr} : (∀ c ∈ w, isWord c = true) → WordTokens [w]
  | cons {w : PyStr} {c : Nat} {ts : List PyStr} : (∀ c ∈ w, isWord c = true) → isWord c = false →
      WordTokens ts → WordTokens (w :: [c] :: ts)

/-- Words without white space alternating with non-empty white space; only the first and the last word may be
empty. -/
inductive SpaceTokens : List PyStr → Prop where
  | last {w : PyStr} : (∀ c ∈ w, isSpace c = false) → SpaceTokens [w]
  | cons {w g w' : PyStr} {ts : List PyStr} : (∀ c ∈ w, isSpace c = false) → g ≠ [] → (∀ c ∈ g, isSpace c = true) →
      (w' = [] → ts = []) → SpaceTokens (w' :: ts) → SpaceTokens (w :: g :: w' :: ts)

/-- The text without soft hyphens. -/
def withoutSoftHyphens (s : PyStr) : PyStr := s.filter (fun c => c != 0xad)

/-- `ts` are the tokens of `s` in the language `l`: pieces that put together give the text without soft hyphens;
in Hindi words and white space, otherwise words and single separating characters. -/
def Tokens (l s : PyStr) (ts : List PyStr) : Prop :=
  ts.flatten = withoutSoftHyphens s ∧ if l = u!"hi" then SpaceTokens ts else WordTokens ts

/-! ## Texts with numerals put in -/

/-- `after` is `before` with decimal numerals (of numbers below 10^1300) inserted at some places; nothing else is
changed. -/
inductive WithNumerals : List PyStr → List PyStr → Prop where
  | nil : WithNumerals [] []
  | keep {t : PyStr} {before after : List PyStr} : WithNumerals before after → WithNumerals (t :: before) (t :: after)
  | insert {n : Nat} {before after : List PyStr} : n < 10 ^ 1300 → WithNumerals before after →
      WithNumerals before (decDigits n :: after)

/-- No conjunction comes directly after a cardinal number word (with only blank tokens and conjunctions between). -/
def NoConjunctionAfterNumber (l : PyStr) (ts : List PyStr) : Prop :=
  ∀ a n b k c, ts = a ++ n :: (b ++ k :: c) → Cardinal l n →
    (∀ t ∈ b, (∀ c ∈ form t, isSpace c = true) ∨ Skip l t) → ¬ Skip l k

end NumberParser.Spec
