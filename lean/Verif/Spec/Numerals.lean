import Verif.Spec.Text

/-!
# Specification: how numbers are spelled

The standard cardinal spellings of the five languages as word lists, written down without reference to the
tables or the code.  (The word lists are those of ordinary grammar books; for Ukrainian the scale words above
the milliard follow CLDR, the source of the project's data: більйон = 10^12, більярд = 10^15.)
Filler words (English "and", "-", Spanish "y") are not in the lists: they are part of the gaps of a
`Rendering`; `enText`, `esText`, ... are the usual texts.
-/

namespace NumberParser.Spec
open NumberParser

/-- Element `i` of a list of words. -/
def nth (ws : List PyStr) (i : Nat) : PyStr := ws.getD i []

/-- The `k` base-`b` digits `n / b^(k-1) % b, ..., n / b^0 % b` of `n`, most significant first, each non-zero
digit `g` at place `j` written as `word j g`; zero digits are not written. -/
def periods (b : Nat) (word : Nat → Nat → List PyStr) : Nat → Nat → List PyStr
  | 0, _ => []
  | k + 1, n => (if n / b ^ k % b = 0 then [] else word k (n / b ^ k % b)) ++ periods b word k n

/-! ## English -/

def enSmall : List PyStr :=
  [u!"zero", u!"one", u!"two", u!"three", u!"four", u!"five",
   u!"six", u!"seven", u!"eight", u!"nine", u!"ten", u!"eleven",
   u!"twelve", u!"thirteen", u!"fourteen", u!"fifteen", u!"sixteen", u!"seventeen",
   u!"eighteen", u!"nineteen"]

def enTens : List PyStr :=
  [[], [], u!"twenty", u!"thirty", u!"forty", u!"fifty",
   u!"sixty", u!"seventy", u!"eighty", u!"ninety"]

def enScale : List PyStr :=
  [u!"thousand", u!"million", u!"billion", u!"trillion", u!"quadrillion", u!"quintillion",
   u!"sextillion"]

/-- `n < 100` -/
def enBelow100 (n : Nat) : List PyStr :=
  if n < 20 then [nth enSmall n]
  else if n % 10 = 0 then [nth enTens (n / 10)]
  else [nth enTens (n / 10), nth enSmall (n % 10)]

/-- `n < 1000` -/
def enBelow1000 (n : Nat) : List PyStr :=
  if n < 100 then enBelow100 n
  else [nth enSmall (n / 100), u!"hundred"] ++ (if n % 100 = 0 then [] else enBelow100 (n % 100))

/-- `n < 10^24` -/
def enWords (n : Nat) : List PyStr :=
  if n = 0 then [u!"zero"]
  else periods 1000 (fun k g => enBelow1000 g ++ [nth enScale k]) 7 (n / 1000)
    ++ (if n % 1000 = 0 then [] else enBelow1000 (n % 1000))

/-! ## Spanish (long scale) -/

def esSmall : List PyStr :=
  [u!"cero", u!"uno", u!"dos", u!"tres", u!"cuatro", u!"cinco",
   u!"seis", u!"siete", u!"ocho", u!"nueve", u!"diez", u!"once",
   u!"doce", u!"trece", u!"catorce", u!"quince", u!"dieciséis", u!"diecisiete",
   u!"dieciocho", u!"diecinueve", u!"veinte", u!"veintiuno", u!"veintidós", u!"veintitrés",
   u!"veinticuatro", u!"veinticinco", u!"veintiséis", u!"veintisiete", u!"veintiocho", u!"veintinueve"]

def esTens : List PyStr :=
  [[], [], [], u!"treinta", u!"cuarenta", u!"cincuenta",
   u!"sesenta", u!"setenta", u!"ochenta", u!"noventa"]

def esHund : List PyStr :=
  [[], u!"ciento", u!"doscientos", u!"trescientos", u!"cuatrocientos", u!"quinientos",
   u!"seiscientos", u!"setecientos", u!"ochocientos", u!"novecientos"]

def esScale1 : List PyStr :=
  [u!"millón", u!"billón", u!"trillón", u!"cuatrillón", u!"quintillón", u!"sextillón",
   u!"septillón", u!"octillón", u!"nonillón"]

def esScale : List PyStr :=
  [u!"millones", u!"billones", u!"trillones", u!"cuatrillones", u!"quintillones", u!"sextillones",
   u!"septillones", u!"octillones", u!"nonillones"]

/-- `n < 30`; before `mil` and the scale words `uno` is shortened. -/
def esBelow30 (short : Bool) (n : Nat) : PyStr :=
  if short ∧ n = 1 then u!"un" else if short ∧ n = 21 then u!"veintiún" else nth esSmall n

/-- `n < 100` -/
def esBelow100 (short : Bool) (n : Nat) : List PyStr :=
  if n < 30 then [esBelow30 short n]
  else if n % 10 = 0 then [nth esTens (n / 10)]
  else [nth esTens (n / 10), esBelow30 short (n % 10)]

/-- `n < 1000` -/
def esBelow1000 (short : Bool) (n : Nat) : List PyStr :=
  if n < 100 then esBelow100 short n
  else if n = 100 then [u!"cien"]
  else nth esHund (n / 100) :: (if n % 100 = 0 then [] else esBelow100 short (n % 100))

/-- `n < 10^6` -/
def esBelow1000000 (short : Bool) (n : Nat) : List PyStr :=
  if n < 1000 then esBelow1000 short n
  else (if n / 1000 = 1 then [] else esBelow1000 true (n / 1000)) ++ [u!"mil"]
    ++ (if n % 1000 = 0 then [] else esBelow1000 short (n % 1000))

/-- `n < 10^60` -/
def esWords (n : Nat) : List PyStr :=
  if n = 0 then [u!"cero"]
  else periods 1000000 (fun k g => esBelow1000000 true g ++ [if g = 1 then nth esScale1 k else nth esScale k]) 9 (n / 1000000)
    ++ (if n % 1000000 = 0 then [] else esBelow1000000 false (n % 1000000))

/-! ## Hindi -/

def hiBelow100 : List PyStr :=
  [u!"शून्य", u!"एक", u!"दो", u!"तीन", u!"चार", u!"पाँच",
   u!"छह", u!"सात", u!"आठ", u!"नौ", u!"दस", u!"ग्यारह",
   u!"बारह", u!"तेरह", u!"चौदह", u!"पन्द्रह", u!"सोलह", u!"सत्रह",
   u!"अठारह", u!"उन्नीस", u!"बीस", u!"इक्कीस", u!"बाईस", u!"तेईस",
   u!"चौबीस", u!"पच्चीस", u!"छब्बीस", u!"सत्ताईस", u!"अट्ठाईस", u!"उनतीस",
   u!"तीस", u!"इकतीस", u!"बत्तीस", u!"तैंतीस", u!"चौंतीस", u!"पैंतीस",
   u!"छत्तीस", u!"सैंतीस", u!"अड़तीस", u!"उनतालीस", u!"चालीस", u!"इकतालीस",
   u!"बयालीस", u!"तैंतालीस", u!"चौवालीस", u!"पैंतालीस", u!"छियालीस", u!"सैंतालीस",
   u!"अड़तालीस", u!"उनचास", u!"पचास", u!"इक्यावन", u!"बावन", u!"तिरेपन",
   u!"चौवन", u!"पचपन", u!"छप्पन", u!"सत्तावन", u!"अट्ठावन", u!"उनसठ",
   u!"साठ", u!"इकसठ", u!"बासठ", u!"तिरेसठ", u!"चौंसठ", u!"पैंसठ",
   u!"छियासठ", u!"सड़सठ", u!"अड़सठ", u!"उनहत्तर", u!"सत्तर", u!"इकहत्तर",
   u!"बहत्तर", u!"तिहत्तर", u!"चौहत्तर", u!"पचहत्तर", u!"छिहत्तर", u!"सतहत्तर",
   u!"अठहत्तर", u!"उनासी", u!"अस्सी", u!"इक्यासी", u!"बयासी", u!"तिरासी",
   u!"चौरासी", u!"पचासी", u!"छियासी", u!"सत्तासी", u!"अट्ठासी", u!"नवासी",
   u!"नब्बे", u!"इक्यानबे", u!"बानबे", u!"तिरानबे", u!"चौरानबे", u!"पंचानबे",
   u!"छियानबे", u!"सत्तानबे", u!"अट्ठानबे", u!"निन्यानबे"]

def hiScale : List PyStr := [u!"हज़ार", u!"लाख", u!"करोड़", u!"अरब", u!"खरब"]

/-- `n < 1000` -/
def hiBelow1000 (n : Nat) : List PyStr :=
  if n < 100 then [nth hiBelow100 n]
  else [nth hiBelow100 (n / 100), u!"सौ"] ++ (if n % 100 = 0 then [] else [nth hiBelow100 (n % 100)])

/-- `n < 10^13` -/
def hiWords (n : Nat) : List PyStr :=
  if n = 0 then [u!"शून्य"]
  else periods 100 (fun k g => [nth hiBelow100 g, nth hiScale k]) 5 (n / 1000)
    ++ (if n % 1000 = 0 then [] else hiBelow1000 (n % 1000))

/-! ## Russian and Ukrainian -/

/-- Which of three forms a noun takes after the number `g`: 0 for singular (1, 21, ...), 1 for 2-4 (22, ...), 2 otherwise. -/
def slavicForm (g : Nat) : Nat :=
  if g / 10 % 10 = 1 then 2
  else if g % 10 = 1 then 0
  else if 2 ≤ g % 10 ∧ g % 10 ≤ 4 then 1
  else 2

def ruSmall : List PyStr :=
  [u!"ноль", u!"один", u!"два", u!"три", u!"четыре", u!"пять",
   u!"шесть", u!"семь", u!"восемь", u!"девять", u!"десять", u!"одиннадцать",
   u!"двенадцать", u!"тринадцать", u!"четырнадцать", u!"пятнадцать", u!"шестнадцать", u!"семнадцать",
   u!"восемнадцать", u!"девятнадцать"]

def ruTens : List PyStr :=
  [[], [], u!"двадцать", u!"тридцать", u!"сорок", u!"пятьдесят",
   u!"шестьдесят", u!"семьдесят", u!"восемьдесят", u!"девяносто"]

def ruHund : List PyStr :=
  [[], u!"сто", u!"двести", u!"триста", u!"четыреста", u!"пятьсот",
   u!"шестьсот", u!"семьсот", u!"восемьсот", u!"девятьсот"]

/-- The scale words, in the three forms. -/
def ruScale : List (List PyStr) :=
  [[u!"тысяча", u!"тысячи", u!"тысяч"], [u!"миллион", u!"миллиона", u!"миллионов"], [u!"миллиард", u!"миллиарда", u!"миллиардов"],
   [u!"триллион", u!"триллиона", u!"триллионов"], [u!"квадриллион", u!"квадриллиона", u!"квадриллионов"],
   [u!"квинтиллион", u!"квинтиллиона", u!"квинтиллионов"], [u!"секстиллион", u!"секстиллиона", u!"секстиллионов"]]

/-- `n < 20`; the thousand is feminine. -/
def ruBelow20 (fem : Bool) (n : Nat) : PyStr :=
  if fem ∧ n = 1 then u!"одна" else if fem ∧ n = 2 then u!"две" else nth ruSmall n

/-- `n < 100` -/
def ruBelow100 (fem : Bool) (n : Nat) : List PyStr :=
  if n < 20 then [ruBelow20 fem n]
  else if n % 10 = 0 then [nth ruTens (n / 10)]
  else [nth ruTens (n / 10), ruBelow20 fem (n % 10)]

/-- `n < 1000` -/
def ruBelow1000 (fem : Bool) (n : Nat) : List PyStr :=
  if n < 100 then ruBelow100 fem n
  else nth ruHund (n / 100) :: (if n % 100 = 0 then [] else ruBelow100 fem (n % 100))

/-- `n < 10^24` -/
def ruWords (n : Nat) : List PyStr :=
  if n = 0 then [u!"ноль"]
  else periods 1000 (fun k g => ruBelow1000 (k == 0) g ++ [nth (ruScale.getD k []) (slavicForm g)]) 7 (n / 1000)
    ++ (if n % 1000 = 0 then [] else ruBelow1000 false (n % 1000))

def ukSmall : List PyStr :=
  [u!"нуль", u!"один", u!"два", u!"три", u!"чотири", u!"пʼять",
   u!"шість", u!"сім", u!"вісім", u!"девʼять", u!"десять", u!"одинадцять",
   u!"дванадцять", u!"тринадцять", u!"чотирнадцять", u!"пʼятнадцять", u!"шістнадцять", u!"сімнадцять",
   u!"вісімнадцять", u!"девʼятнадцять"]

def ukTens : List PyStr :=
  [[], [], u!"двадцять", u!"тридцять", u!"сорок", u!"пʼятдесят",
   u!"шістдесят", u!"сімдесят", u!"вісімдесят", u!"девʼяносто"]

def ukHund : List PyStr :=
  [[], u!"сто", u!"двісті", u!"триста", u!"чотириста", u!"пʼятсот",
   u!"шістсот", u!"сімсот", u!"вісімсот", u!"девʼятсот"]

/-- The scale words, in the three forms. -/
def ukScale : List (List PyStr) :=
  [[u!"тисяча", u!"тисячі", u!"тисяч"], [u!"мільйон", u!"мільйони", u!"мільйонів"], [u!"мільярд", u!"мільярди", u!"мільярдів"],
   [u!"більйон", u!"більйони", u!"більйонів"], [u!"більярд", u!"більярди", u!"більярдів"]]

/-- `n < 20`; the thousand is feminine. -/
def ukBelow20 (fem : Bool) (n : Nat) : PyStr :=
  if fem ∧ n = 1 then u!"одна" else if fem ∧ n = 2 then u!"дві" else nth ukSmall n

/-- `n < 100` -/
def ukBelow100 (fem : Bool) (n : Nat) : List PyStr :=
  if n < 20 then [ukBelow20 fem n]
  else if n % 10 = 0 then [nth ukTens (n / 10)]
  else [nth ukTens (n / 10), ukBelow20 fem (n % 10)]

/-- `n < 1000` -/
def ukBelow1000 (fem : Bool) (n : Nat) : List PyStr :=
  if n < 100 then ukBelow100 fem n
  else nth ukHund (n / 100) :: (if n % 100 = 0 then [] else ukBelow100 fem (n % 100))

/-- `n < 10^18` -/
def ukWords (n : Nat) : List PyStr :=
  if n = 0 then [u!"нуль"]
  else periods 1000 (fun k g => ukBelow1000 (k == 0) g ++ [nth (ukScale.getD k []) (slavicForm g)]) 5 (n / 1000)
    ++ (if n % 1000 = 0 then [] else ukBelow1000 false (n % 1000))

/-! ## Texts -/

/-- The words joined by the gap chosen for each pair of neighbours. -/
def phrase (gap : PyStr → PyStr → PyStr) : List PyStr → PyStr
  | [] => []
  | [w] => w
  | w :: w' :: ws => w ++ gap w w' ++ phrase gap (w' :: ws)

/-- "twenty-one", "one hundred and two", otherwise a space. -/
def enGap (w w' : PyStr) : PyStr :=
  if enTens.elem w && enSmall.elem w' then u!"-"
  else if w == u!"hundred" && (enTens.elem w' || enSmall.elem w') then u!" and "
  else u!" "

/-- "treinta y uno", otherwise a space. -/
def esGap (w w' : PyStr) : PyStr :=
  if esTens.elem w && (esSmall.elem w' || w' == u!"un") then u!" y " else u!" "

/-- The English text of `n`. -/
def enText (n : Nat) : PyStr := phrase enGap (enWords n)
def esText (n : Nat) : PyStr := phrase esGap (esWords n)
def hiText (n : Nat) : PyStr := phrase (fun _ _ => u!" ") (hiWords n)
def ruText (n : Nat) : PyStr := phrase (fun _ _ => u!" ") (ruWords n)
def ukText (n : Nat) : PyStr := phrase (fun _ _ => u!" ") (ukWords n)

end NumberParser.Spec
