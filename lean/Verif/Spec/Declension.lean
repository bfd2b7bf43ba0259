import Verif.Spec.Numerals

/-!
# Specification: declined numbers

Russian cardinals in the six cases, and Spanish cardinals in the two genders and before a noun, written down without reference to
the tables or the code.  In Russian every word of a number is declined ("двух тысяч двадцати одного").  The letter ё is written е,
as usual (a `Rendering` allows either).
-/

namespace NumberParser.Spec
open NumberParser

/-- The six cases of Russian: nominative, genitive, dative, accusative, instrumental, prepositional -/
inductive Case where
  | nom | gen | dat | acc | ins | prep
  deriving DecidableEq, Repr

/-- The genders; "одни" counts things that only have a plural ("одни сутки"). -/
inductive Gender where
  | masc | fem | neut | plural
  deriving DecidableEq, Repr

/-- One of six forms -/
def Case.pick (c : Case) (nom gen dat acc ins prep : PyStr) : PyStr :=
  match c with
  | .nom => nom | .gen => gen | .dat => dat | .acc => acc | .ins => ins | .prep => prep

/-- "one", by gender; the accusative of masculine animates is the genitive. -/
def ruOne (c : Case) (g : Gender) (animate : Bool) : PyStr :=
  match g with
  | .masc => c.pick u!"один" u!"одного" u!"одному" (if animate then u!"одного" else u!"один") u!"одним" u!"одном"
  | .fem => c.pick u!"одна" u!"одной" u!"одной" u!"одну" u!"одной" u!"одной"
  | .plural => c.pick u!"одни" u!"одних" u!"одним" (if animate then u!"одних" else u!"одни") u!"одними" u!"одних"
  | .neut => c.pick u!"одно" u!"одного" u!"одному" u!"одно" u!"одним" u!"одном"

/-- "two" to "four"; the accusative of animates is the genitive. -/
def ruTwo (c : Case) (g : Gender) (animate : Bool) : PyStr :=
  let nom := if g = .fem then u!"две" else u!"два"
  c.pick nom u!"двух" u!"двум" (if animate then u!"двух" else nom) u!"двумя" u!"двух"

def ruThree (c : Case) (animate : Bool) : PyStr :=
  c.pick u!"три" u!"трех" u!"трем" (if animate then u!"трех" else u!"три") u!"тремя" u!"трех"

def ruFour (c : Case) (animate : Bool) : PyStr :=
  c.pick u!"четыре" u!"четырех" u!"четырем" (if animate then u!"четырех" else u!"четыре") u!"четырьмя" u!"четырех"

/-- The declension of "пять": the words in -ь -/
def ruSoft (stem : PyStr) (c : Case) : PyStr :=
  c.pick (stem ++ u!"ь") (stem ++ u!"и") (stem ++ u!"и") (stem ++ u!"ь") (stem ++ u!"ью") (stem ++ u!"и")

def ruEight (c : Case) : PyStr := c.pick u!"восемь" u!"восьми" u!"восьми" u!"восемь" u!"восемью" u!"восьми"

/-- The stems of 9 to 19 without the -ь -/
def ruStems : List PyStr :=
  [u!"девят", u!"десят", u!"одиннадцат", u!"двенадцат", u!"тринадцат", u!"четырнадцат", u!"пятнадцат", u!"шестнадцат",
   u!"семнадцат", u!"восемнадцат", u!"девятнадцат"]

/-- `1 ≤ n < 20` -/
def ruSmallIn (c : Case) (g : Gender) (animate : Bool) (n : Nat) : PyStr :=
  if n = 1 then ruOne c g animate
  else if n = 2 then ruTwo c g animate
  else if n = 3 then ruThree c animate
  else if n = 4 then ruFour c animate
  else if n = 5 then ruSoft u!"пят" c
  else if n = 6 then ruSoft u!"шест" c
  else if n = 7 then ruSoft u!"сем" c
  else if n = 8 then ruEight c
  else ruSoft (nth ruStems (n - 9)) c

/-- The tens 50 to 80: both parts are declined. -/
def ruFifty (nom gen ins : PyStr) (c : Case) : PyStr :=
  let o := gen ++ u!"десяти"
  c.pick (nom ++ u!"десят") o o (nom ++ u!"десят") (ins ++ u!"десятью") o

/-- `2 ≤ d < 10`: the tens -/
def ruTensIn (c : Case) (d : Nat) : PyStr :=
  if d = 2 then ruSoft u!"двадцат" c
  else if d = 3 then ruSoft u!"тридцат" c
  else if d = 4 then c.pick u!"сорок" u!"сорока" u!"сорока" u!"сорок" u!"сорока" u!"сорока"
  else if d = 5 then ruFifty u!"пять" u!"пяти" u!"пятью" c
  else if d = 6 then ruFifty u!"шесть" u!"шести" u!"шестью" c
  else if d = 7 then ruFifty u!"семь" u!"семи" u!"семью" c
  else if d = 8 then ruFifty u!"восемь" u!"восьми" u!"восемью" c
  else c.pick u!"девяносто" u!"девяноста" u!"девяноста" u!"девяносто" u!"девяноста" u!"девяноста"

/-- The hundreds 200 to 900: both parts are declined. -/
def ruTwoHundred (nom gen dat ins : PyStr) (c : Case) : PyStr :=
  c.pick nom (gen ++ u!"сот") (dat ++ u!"стам") nom (ins ++ u!"стами") (gen ++ u!"стах")

/-- `1 ≤ d < 10`: the hundreds -/
def ruHundIn (c : Case) (d : Nat) : PyStr :=
  if d = 1 then c.pick u!"сто" u!"ста" u!"ста" u!"сто" u!"ста" u!"ста"
  else if d = 2 then ruTwoHundred u!"двести" u!"двух" u!"двум" u!"двумя" c
  else if d = 3 then ruTwoHundred u!"триста" u!"трех" u!"трем" u!"тремя" c
  else if d = 4 then ruTwoHundred u!"четыреста" u!"четырех" u!"четырем" u!"четырьмя" c
  else if d = 5 then ruTwoHundred u!"пятьсот" u!"пяти" u!"пяти" u!"пятью" c
  else if d = 6 then ruTwoHundred u!"шестьсот" u!"шести" u!"шести" u!"шестью" c
  else if d = 7 then ruTwoHundred u!"семьсот" u!"семи" u!"семи" u!"семью" c
  else if d = 8 then ruTwoHundred u!"восемьсот" u!"восьми" u!"восьми" u!"восемью" c
  else ruTwoHundred u!"девятьсот" u!"девяти" u!"девяти" u!"девятью" c

/-- The thousand and the masculine scale words, singular and plural.  (The nominative plural does not occur after numbers.) -/
def ruThousand (plural : Bool) (c : Case) : PyStr :=
  if plural then c.pick u!"тысячи" u!"тысяч" u!"тысячам" u!"тысячи" u!"тысячами" u!"тысячах"
  else c.pick u!"тысяча" u!"тысячи" u!"тысяче" u!"тысячу" u!"тысячей" u!"тысяче"

def ruScaleStems : List PyStr :=
  [u!"миллион", u!"миллиард", u!"триллион", u!"квадриллион", u!"квинтиллион", u!"секстиллион"]

def ruMillion (stem : PyStr) (plural : Bool) (c : Case) : PyStr :=
  if plural then c.pick (stem ++ u!"ы") (stem ++ u!"ов") (stem ++ u!"ам") (stem ++ u!"ы") (stem ++ u!"ами") (stem ++ u!"ах")
  else c.pick stem (stem ++ u!"а") (stem ++ u!"у") stem (stem ++ u!"ом") (stem ++ u!"е")

def ruScaleNoun (k : Nat) (plural : Bool) (c : Case) : PyStr :=
  if k = 0 then ruThousand plural c else ruMillion (nth ruScaleStems (k - 1)) plural c

/-- The scale word number `k` after the number `g`: singular after 1, 21, ...; otherwise in the nominative and accusative the
genitive, singular after 2-4 and plural after the others; in the other cases the plural. -/
def ruScaleIn (k : Nat) (c : Case) (g : Nat) : PyStr :=
  if slavicForm g = 0 then ruScaleNoun k false c
  else if c = .nom ∨ c = .acc then ruScaleNoun k (slavicForm g == 2) .gen
  else ruScaleNoun k true c

/-- `1 ≤ n < 100` -/
def ruBelow100In (c : Case) (g : Gender) (animate : Bool) (n : Nat) : List PyStr :=
  if n < 20 then [ruSmallIn c g animate n]
  else if n % 10 = 0 then [ruTensIn c (n / 10)]
  else [ruTensIn c (n / 10), ruSmallIn c g animate (n % 10)]

/-- `1 ≤ n < 1000` -/
def ruBelow1000In (c : Case) (g : Gender) (animate : Bool) (n : Nat) : List PyStr :=
  if n < 100 then ruBelow100In c g animate n
  else ruHundIn c (n / 100) :: (if n % 100 = 0 then [] else ruBelow100In c g animate (n % 100))

/-- `1 ≤ n < 10^24` in a case, counting things of the given gender (the scale words are inanimate). -/
def ruWordsIn (c : Case) (g : Gender) (animate : Bool) (n : Nat) : List PyStr :=
  periods 1000 (fun k p => ruBelow1000In c (if k = 0 then .fem else .masc) false p ++ [ruScaleIn k c p]) 7 (n / 1000)
    ++ (if n % 1000 = 0 then [] else ruBelow1000In c g animate (n % 1000))

/-! ## Spanish -/

/-- How a Spanish number ends: alone ("veintiuno"), before a masculine noun ("veintiún"), feminine ("veintiuna") -/
inductive Ending where
  | alone | beforeNoun | feminine
  deriving DecidableEq, Repr

def esHundFem : List PyStr :=
  [[], u!"ciento", u!"doscientas", u!"trescientas", u!"cuatrocientas", u!"quinientas",
   u!"seiscientas", u!"setecientas", u!"ochocientas", u!"novecientas"]

/-- `n < 30` -/
def esBelow30In (e : Ending) (n : Nat) : PyStr :=
  match e with
  | .alone => nth esSmall n
  | .beforeNoun => if n = 1 then u!"un" else if n = 21 then u!"veintiún" else nth esSmall n
  | .feminine => if n = 1 then u!"una" else if n = 21 then u!"veintiuna" else nth esSmall n

/-- `n < 100` -/
def esBelow100In (e : Ending) (n : Nat) : List PyStr :=
  if n < 30 then [esBelow30In e n]
  else if n % 10 = 0 then [nth esTens (n / 10)]
  else [nth esTens (n / 10), esBelow30In e (n % 10)]

/-- `n < 1000` -/
def esBelow1000In (e : Ending) (fem : Bool) (n : Nat) : List PyStr :=
  if n < 100 then esBelow100In e n
  else if n = 100 then [u!"cien"]
  else nth (if fem then esHundFem else esHund) (n / 100) :: (if n % 100 = 0 then [] else esBelow100In e (n % 100))

/-- `n < 10^6`; before `mil` "veintiún mil" or, in the feminine, also "veintiuna mil" (`e'`). -/
def esBelow1000000In (e e' : Ending) (fem : Bool) (n : Nat) : List PyStr :=
  if n < 1000 then esBelow1000In e fem n
  else (if n / 1000 = 1 then [] else esBelow1000In e' fem (n / 1000)) ++ [u!"mil"]
    ++ (if n % 1000 = 0 then [] else esBelow1000In e fem (n % 1000))

/-- `n < 10^60`, counting feminine or masculine things; the scale words are masculine. -/
def esWordsIn (e e' : Ending) (fem : Bool) (n : Nat) : List PyStr :=
  if n = 0 then [u!"cero"]
  else periods 1000000 (fun k g => esBelow1000000In .beforeNoun .beforeNoun false g ++ [if g = 1 then nth esScale1 k else nth esScale k]) 9 (n / 1000000)
    ++ (if n % 1000000 = 0 then [] else esBelow1000000In e e' fem (n % 1000000))

/-- Tens and units are joined by "y". -/
def esGapIn (a b : PyStr) : PyStr :=
  if a ∈ esTens.drop 3 ∧ b ∈ [u!"un", u!"una"] ++ (esSmall.take 10).drop 1 then u!" y " else u!" "

end NumberParser.Spec
