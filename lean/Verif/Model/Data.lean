/- GENERATED by tools/gen_data.py from the text of /repo/number_parser/data/{en,es,hi,ru,uk}.py. Do not edit. -/
import Verif.Model.Py

namespace NumberParser.Data
open NumberParser

/-- `number_parser/data/en.py`, `info["UNIT_NUMBERS"]` -/
def enUnit : Dict := [
  (u!"zero", 0),
  (u!"one", 1),
  (u!"two", 2),
  (u!"three", 3),
  (u!"four", 4),
  (u!"five", 5),
  (u!"six", 6),
  (u!"seven", 7),
  (u!"eight", 8),
  (u!"nine", 9)]

/-- `number_parser/data/en.py`, `info["DIRECT_NUMBERS"]` -/
def enDirect : Dict := [
  (u!"ten", 10),
  (u!"eleven", 11),
  (u!"twelve", 12),
  (u!"thirteen", 13),
  (u!"fourteen", 14),
  (u!"fifteen", 15),
  (u!"sixteen", 16),
  (u!"seventeen", 17),
  (u!"eighteen", 18),
  (u!"nineteen", 19)]

/-- `number_parser/data/en.py`, `info["TENS"]` -/
def enTens : Dict := [
  (u!"twenty", 20),
  (u!"thirty", 30),
  (u!"forty", 40),
  (u!"fifty", 50),
  (u!"sixty", 60),
  (u!"seventy", 70),
  (u!"eighty", 80),
  (u!"ninety", 90)]

/-- `number_parser/data/en.py`, `info["HUNDREDS"]` -/
def enHundreds : Dict := []

/-- `number_parser/data/en.py`, `info["BIG_POWERS_OF_TEN"]` -/
def enBig : Dict := [
  (u!"hundred", 100),
  (u!"thousand", 1000),
  (u!"million", 1000000),
  (u!"billion", 1000000000),
  (u!"trillion", 1000000000000),
  (u!"quadrillion", 1000000000000000),
  (u!"quintillion", 1000000000000000000),
  (u!"sextillion", 1000000000000000000000)]

/-- `number_parser/data/en.py` (lines 1-52): the module's `info` dictionary -/
def en : Info where
  unitNumbers := enUnit
  directNumbers := enDirect
  tens := enTens
  hundreds := enHundreds
  bigPowersOfTen := enBig
  skipTokens := [u!"-", u!"and"]
  useLongScale := false

/-- `number_parser/data/es.py`, `info["UNIT_NUMBERS"]` -/
def esUnit : Dict := [
  (u!"cero", 0),
  (u!"un", 1),
  (u!"una", 1),
  (u!"uno", 1),
  (u!"dos", 2),
  (u!"tres", 3),
  (u!"cuatro", 4),
  (u!"cinco", 5),
  (u!"seis", 6),
  (u!"siete", 7),
  (u!"ocho", 8),
  (u!"nueve", 9)]

/-- `number_parser/data/es.py`, `info["DIRECT_NUMBERS"]` -/
def esDirect : Dict := [
  (u!"diez", 10),
  (u!"once", 11),
  (u!"doce", 12),
  (u!"trece", 13),
  (u!"catorce", 14),
  (u!"quince", 15),
  (u!"dieciséis", 16),
  (u!"diecisiete", 17),
  (u!"dieciocho", 18),
  (u!"diecinueve", 19),
  (u!"veinte", 20),
  (u!"veintiuna", 21),
  (u!"veintiuno", 21),
  (u!"veintiún", 21),
  (u!"veintidós", 22),
  (u!"veintitrés", 23),
  (u!"veinticuatro", 24),
  (u!"veinticinco", 25),
  (u!"veintiséis", 26),
  (u!"veintisiete", 27),
  (u!"veintiocho", 28),
  (u!"veintinueve", 29)]

/-- `number_parser/data/es.py`, `info["TENS"]` -/
def esTens : Dict := [
  (u!"treinta", 30),
  (u!"cuarenta", 40),
  (u!"cincuenta", 50),
  (u!"sesenta", 60),
  (u!"setenta", 70),
  (u!"ochenta", 80),
  (u!"noventa", 90)]

/-- `number_parser/data/es.py`, `info["HUNDREDS"]` -/
def esHundreds : Dict := [
  (u!"cien", 100),
  (u!"ciento", 100),
  (u!"doscientas", 200),
  (u!"doscientos", 200),
  (u!"trescientas", 300),
  (u!"trescientos", 300),
  (u!"cuatrocientas", 400),
  (u!"cuatrocientos", 400),
  (u!"quinientas", 500),
  (u!"quinientos", 500),
  (u!"seiscientas", 600),
  (u!"seiscientos", 600),
  (u!"setecientas", 700),
  (u!"setecientos", 700),
  (u!"ochocientas", 800),
  (u!"ochocientos", 800),
  (u!"novecientas", 900),
  (u!"novecientos", 900)]

/-- `number_parser/data/es.py`, `info["BIG_POWERS_OF_TEN"]` -/
def esBig : Dict := [
  (u!"mil", 1000),
  (u!"millones", 1000000),
  (u!"millón", 1000000),
  (u!"millardo", 1000000000),
  (u!"billones", 1000000000000),
  (u!"billón", 1000000000000),
  (u!"trillones", 1000000000000000000),
  (u!"trillón", 1000000000000000000),
  (u!"cuatrillones", 1000000000000000000000000),
  (u!"cuatrillón", 1000000000000000000000000),
  (u!"quintillones", 1000000000000000000000000000000),
  (u!"quintillón", 1000000000000000000000000000000),
  (u!"sextillones", 1000000000000000000000000000000000000),
  (u!"sextillón", 1000000000000000000000000000000000000),
  (u!"septillones", 1000000000000000000000000000000000000000000),
  (u!"septillón", 1000000000000000000000000000000000000000000),
  (u!"octillones", 1000000000000000000000000000000000000000000000000),
  (u!"octillón", 1000000000000000000000000000000000000000000000000),
  (u!"nonillones", 1000000000000000000000000000000000000000000000000000000),
  (u!"nonillón", 1000000000000000000000000000000000000000000000000000000),
  (u!"decillón", 1000000000000000000000000000000000000000000000000000000000000),
  (u!"decillones", 1000000000000000000000000000000000000000000000000000000000000000000),
  (u!"undecillones", 1000000000000000000000000000000000000000000000000000000000000000000),
  (u!"undecillón", 1000000000000000000000000000000000000000000000000000000000000000000),
  (u!"duodecillones", 1000000000000000000000000000000000000000000000000000000000000000000000000),
  (u!"duodecillón", 1000000000000000000000000000000000000000000000000000000000000000000000000),
  (u!"tredecillones", 1000000000000000000000000000000000000000000000000000000000000000000000000000000),
  (u!"tredecillón", 1000000000000000000000000000000000000000000000000000000000000000000000000000000),
  (u!"gúgol", 10000000000000000000000000000000000000000000000000000000000000000000000000000000000000000000000000000),
  (u!"vigintillones", 1000000000000000000000000000000000000000000000000000000000000000000000000000000000000000000000000000000000000000000000000),
  (u!"vigintillón", 1000000000000000000000000000000000000000000000000000000000000000000000000000000000000000000000000000000000000000000000000),
  (u!"centillón", 1000000000000000000000000000000000000000000000000000000000000000000000000000000000000000000000000000000000000000000000000000000000000000000000000000000000000000000000000000000000000000000000000000000000000000000000000000000000000000000000000000000000000000000000000000000000000000000000000000000000000000000000000000000000000000000000000000000000000000000000000000000000000000000000000000000000000000000000000000000000000000000000000000000000000000000000000000000000000000000000000000000000000000000000000000000000000000000000000000000000000000000000000000000000000000000000000000000000000000000000000)]

/-- `number_parser/data/es.py` (lines 1-107): the module's `info` dictionary -/
def es : Info where
  unitNumbers := esUnit
  directNumbers := esDirect
  tens := esTens
  hundreds := esHundreds
  bigPowersOfTen := esBig
  skipTokens := [u!"y"]
  useLongScale := true

/-- `number_parser/data/hi.py`, `info["UNIT_NUMBERS"]` -/
def hiUnit : Dict := [
  (u!"शून्य", 0),
  (u!"एक", 1),
  (u!"दो", 2),
  (u!"तीन", 3),
  (u!"चार", 4),
  (u!"पाँच", 5),
  (u!"छह", 6),
  (u!"सात", 7),
  (u!"आठ", 8),
  (u!"नौ", 9)]

/-- `number_parser/data/hi.py`, `info["DIRECT_NUMBERS"]` -/
def hiDirect : Dict := [
  (u!"दस", 10),
  (u!"ग्यारह", 11),
  (u!"बारह", 12),
  (u!"तेरह", 13),
  (u!"चौदह", 14),
  (u!"पन्द्रह", 15),
  (u!"सोलह", 16),
  (u!"सत्रह", 17),
  (u!"अठारह", 18),
  (u!"उन्नीस", 19),
  (u!"बीस", 20),
  (u!"इक्कीस", 21),
  (u!"बाईस", 22),
  (u!"तेईस", 23),
  (u!"चौबीस", 24),
  (u!"पच्चीस", 25),
  (u!"छब्बीस", 26),
  (u!"सत्ताईस", 27),
  (u!"अट्ठाईस", 28),
  (u!"उनतीस", 29),
  (u!"तीस", 30),
  (u!"इकतीस", 31),
  (u!"बत्तीस", 32),
  (u!"तैंतीस", 33),
  (u!"चौंतीस", 34),
  (u!"पैंतीस", 35),
  (u!"छत्तीस", 36),
  (u!"सैंतीस", 37),
  (u!"अड़तीस", 38),
  (u!"उनतालीस", 39),
  (u!"चालीस", 40),
  (u!"इकतालीस", 41),
  (u!"बयालीस", 42),
  (u!"तैंतालीस", 43),
  (u!"चौवालीस", 44),
  (u!"पैंतालीस", 45),
  (u!"छियालीस", 46),
  (u!"सैंतालीस", 47),
  (u!"अड़तालीस", 48),
  (u!"उनचास", 49),
  (u!"पचास", 50),
  (u!"इक्यावन", 51),
  (u!"बावन", 52),
  (u!"तिरेपन", 53),
  (u!"चौवन", 54),
  (u!"पचपन", 55),
  (u!"छप्पन", 56),
  (u!"सत्तावन", 57),
  (u!"अट्ठावन", 58),
  (u!"उनसठ", 59),
  (u!"साठ", 60),
  (u!"इकसठ", 61),
  (u!"बासठ", 62),
  (u!"तिरेसठ", 63),
  (u!"चौंसठ", 64),
  (u!"पैंसठ", 65),
  (u!"छियासठ", 66),
  (u!"सड़सठ", 67),
  (u!"अड़सठ", 68),
  (u!"उनहत्तर", 69),
  (u!"सत्तर", 70),
  (u!"इकहत्तर", 71),
  (u!"बहत्तर", 72),
  (u!"तिहत्तर", 73),
  (u!"चौहत्तर", 74),
  (u!"पचहत्तर", 75),
  (u!"छिहत्तर", 76),
  (u!"सतहत्तर", 77),
  (u!"अठहत्तर", 78),
  (u!"उनासी", 79),
  (u!"अस्सी", 80),
  (u!"इक्यासी", 81),
  (u!"बयासी", 82),
  (u!"तिरासी", 83),
  (u!"चौरासी", 84),
  (u!"पचासी", 85),
  (u!"छियासी", 86),
  (u!"सत्तासी", 87),
  (u!"अट्ठासी", 88),
  (u!"नवासी", 89),
  (u!"नब्बे", 90),
  (u!"इक्यानबे", 91),
  (u!"बानबे", 92),
  (u!"तिरानबे", 93),
  (u!"चौरानबे", 94),
  (u!"पंचानबे", 95),
  (u!"छियानबे", 96),
  (u!"सत्तानबे", 97),
  (u!"अट्ठानबे", 98),
  (u!"निन्यानबे", 99)]

/-- `number_parser/data/hi.py`, `info["TENS"]` -/
def hiTens : Dict := []

/-- `number_parser/data/hi.py`, `info["HUNDREDS"]` -/
def hiHundreds : Dict := []

/-- `number_parser/data/hi.py`, `info["BIG_POWERS_OF_TEN"]` -/
def hiBig : Dict := [
  (u!"सौ", 100),
  (u!"हज़ार", 1000),
  (u!"लाख", 100000),
  (u!"करोड़", 10000000),
  (u!"अरब", 1000000000),
  (u!"खरब", 100000000000)]

/-- `number_parser/data/hi.py` (lines 1-118): the module's `info` dictionary -/
def hi : Info where
  unitNumbers := hiUnit
  directNumbers := hiDirect
  tens := hiTens
  hundreds := hiHundreds
  bigPowersOfTen := hiBig
  skipTokens := []
  useLongScale := false

/-- `number_parser/data/ru.py`, `info["UNIT_NUMBERS"]` -/
def ruUnit : Dict := [
  (u!"ноль", 0),
  (u!"нолю", 0),
  (u!"ноля", 0),
  (u!"нуле", 0),
  (u!"нулем", 0),
  (u!"один", 1),
  (u!"одна", 1),
  (u!"одни", 1),
  (u!"одним", 1),
  (u!"одними", 1),
  (u!"одних", 1),
  (u!"одно", 1),
  (u!"одного", 1),
  (u!"одной", 1),
  (u!"одном", 1),
  (u!"одному", 1),
  (u!"одну", 1),
  (u!"два", 2),
  (u!"две", 2),
  (u!"двум", 2),
  (u!"двумя", 2),
  (u!"двух", 2),
  (u!"трем", 3),
  (u!"тремя", 3),
  (u!"трех", 3),
  (u!"три", 3),
  (u!"четыре", 4),
  (u!"четырем", 4),
  (u!"четырех", 4),
  (u!"четырьмя", 4),
  (u!"пяти", 5),
  (u!"пять", 5),
  (u!"пятью", 5),
  (u!"шести", 6),
  (u!"шесть", 6),
  (u!"шестью", 6),
  (u!"семи", 7),
  (u!"семь", 7),
  (u!"семью", 7),
  (u!"восемь", 8),
  (u!"восемью", 8),
  (u!"восьми", 8),
  (u!"девяти", 9),
  (u!"девять", 9),
  (u!"девятью", 9)]

/-- `number_parser/data/ru.py`, `info["DIRECT_NUMBERS"]` -/
def ruDirect : Dict := [
  (u!"десяти", 10),
  (u!"десять", 10),
  (u!"десятью", 10),
  (u!"одиннадцати", 11),
  (u!"одиннадцать", 11),
  (u!"одиннадцатью", 11),
  (u!"двенадцати", 12),
  (u!"двенадцать", 12),
  (u!"двенадцатью", 12),
  (u!"тринадцати", 13),
  (u!"тринадцать", 13),
  (u!"тринадцатью", 13),
  (u!"четырнадцати", 14),
  (u!"четырнадцать", 14),
  (u!"четырнадцатью", 14),
  (u!"пятнадцати", 15),
  (u!"пятнадцать", 15),
  (u!"пятнадцатью", 15),
  (u!"шестнадцати", 16),
  (u!"шестнадцать", 16),
  (u!"шестнадцатью", 16),
  (u!"семнадцати", 17),
  (u!"семнадцать", 17),
  (u!"семнадцатью", 17),
  (u!"восемнадцати", 18),
  (u!"восемнадцать", 18),
  (u!"восемнадцатью", 18),
  (u!"девятнадцати", 19),
  (u!"девятнадцать", 19),
  (u!"девятнадцатью", 19)]

/-- `number_parser/data/ru.py`, `info["TENS"]` -/
def ruTens : Dict := [
  (u!"двадцати", 20),
  (u!"двадцать", 20),
  (u!"двадцатью", 20),
  (u!"тридцати", 30),
  (u!"тридцать", 30),
  (u!"тридцатью", 30),
  (u!"сорок", 40),
  (u!"сорока", 40),
  (u!"пятидесяти", 50),
  (u!"пятьдесят", 50),
  (u!"пятьюдесятью", 50),
  (u!"шестидесяти", 60),
  (u!"шестьдесят", 60),
  (u!"шестьюдесятью", 60),
  (u!"семидесяти", 70),
  (u!"семьдесят", 70),
  (u!"семьюдесятью", 70),
  (u!"восемьдесят", 80),
  (u!"восемьюдесятью", 80),
  (u!"восьмидесяти", 80),
  (u!"девяноста", 90),
  (u!"девяносто", 90)]

/-- `number_parser/data/ru.py`, `info["HUNDREDS"]` -/
def ruHundreds : Dict := [
  (u!"ста", 100),
  (u!"сто", 100),
  (u!"двасти", 200),
  (u!"двести", 200),
  (u!"двумстам", 200),
  (u!"двумястами", 200),
  (u!"двухсот", 200),
  (u!"двухстах", 200),
  (u!"тремстам", 300),
  (u!"тремястами", 300),
  (u!"трехсот", 300),
  (u!"трехстах", 300),
  (u!"триста", 300),
  (u!"четыремстам", 400),
  (u!"четыреста", 400),
  (u!"четырехсот", 400),
  (u!"четырехстах", 400),
  (u!"четырьмястами", 400),
  (u!"пятисот", 500),
  (u!"пятистам", 500),
  (u!"пятистах", 500),
  (u!"пятьсот", 500),
  (u!"пятьюстами", 500),
  (u!"шестисот", 600),
  (u!"шестистам", 600),
  (u!"шестистах", 600),
  (u!"шестьсот", 600),
  (u!"шестьюстами", 600),
  (u!"семисот", 700),
  (u!"семистам", 700),
  (u!"семистах", 700),
  (u!"семьсот", 700),
  (u!"семьюстами", 700),
  (u!"восемьсот", 800),
  (u!"восемьюстами", 800),
  (u!"восьмисот", 800),
  (u!"восьмистам", 800),
  (u!"восьмистах", 800),
  (u!"девятисот", 900),
  (u!"девятистам", 900),
  (u!"девятистах", 900),
  (u!"девятьсот", 900),
  (u!"девятьюстами", 900)]

/-- `number_parser/data/ru.py`, `info["BIG_POWERS_OF_TEN"]` -/
def ruBig : Dict := [
  (u!"тысяч", 1000),
  (u!"тысяча", 1000),
  (u!"тысячам", 1000),
  (u!"тысячами", 1000),
  (u!"тысячах", 1000),
  (u!"тысяче", 1000),
  (u!"тысячей", 1000),
  (u!"тысячи", 1000),
  (u!"тысячу", 1000),
  (u!"миллион", 1000000),
  (u!"миллиона", 1000000),
  (u!"миллионам", 1000000),
  (u!"миллионами", 1000000),
  (u!"миллионах", 1000000),
  (u!"миллионе", 1000000),
  (u!"миллионов", 1000000),
  (u!"миллионом", 1000000),
  (u!"миллиону", 1000000),
  (u!"миллиард", 1000000000),
  (u!"миллиарда", 1000000000),
  (u!"миллиардам", 1000000000),
  (u!"миллиардами", 1000000000),
  (u!"миллиардах", 1000000000),
  (u!"миллиарде", 1000000000),
  (u!"миллиардов", 1000000000),
  (u!"миллиардом", 1000000000),
  (u!"миллиарду", 1000000000),
  (u!"триллион", 1000000000000),
  (u!"триллиона", 1000000000000),
  (u!"триллионам", 1000000000000),
  (u!"триллионами", 1000000000000),
  (u!"триллионах", 1000000000000),
  (u!"триллионе", 1000000000000),
  (u!"триллионов", 1000000000000),
  (u!"триллионом", 1000000000000),
  (u!"триллиону", 1000000000000),
  (u!"квадриллион", 1000000000000000),
  (u!"квадриллиона", 1000000000000000),
  (u!"квадриллионам", 1000000000000000),
  (u!"квадриллионами", 1000000000000000),
  (u!"квадриллионах", 1000000000000000),
  (u!"квадриллионе", 1000000000000000),
  (u!"квадриллионов", 1000000000000000),
  (u!"квадриллионом", 1000000000000000),
  (u!"квадриллиону", 1000000000000000),
  (u!"квинтиллион", 1000000000000000000),
  (u!"квинтиллиона", 1000000000000000000),
  (u!"квинтиллионам", 1000000000000000000),
  (u!"квинтиллионами", 1000000000000000000),
  (u!"квинтиллионах", 1000000000000000000),
  (u!"квинтиллионе", 1000000000000000000),
  (u!"квинтиллионов", 1000000000000000000),
  (u!"квинтиллионом", 1000000000000000000),
  (u!"квинтиллиону", 1000000000000000000),
  (u!"секстиллион", 1000000000000000000000),
  (u!"секстиллиона", 1000000000000000000000),
  (u!"секстиллионам", 1000000000000000000000),
  (u!"секстиллионами", 1000000000000000000000),
  (u!"секстиллионах", 1000000000000000000000),
  (u!"секстиллионе", 1000000000000000000000),
  (u!"секстиллионов", 1000000000000000000000),
  (u!"секстиллионом", 1000000000000000000000),
  (u!"секстиллиону", 1000000000000000000000)]

/-- `number_parser/data/ru.py` (lines 1-217): the module's `info` dictionary -/
def ru : Info where
  unitNumbers := ruUnit
  directNumbers := ruDirect
  tens := ruTens
  hundreds := ruHundreds
  bigPowersOfTen := ruBig
  skipTokens := []
  useLongScale := false

/-- `number_parser/data/uk.py`, `info["UNIT_NUMBERS"]` -/
def ukUnit : Dict := [
  (u!"нуль", 0),
  (u!"нулю", 0),
  (u!"один", 1),
  (u!"одна", 1),
  (u!"одне", 1),
  (u!"одним", 1),
  (u!"одними", 1),
  (u!"одного", 1),
  (u!"одному", 1),
  (u!"одну", 1),
  (u!"одні", 1),
  (u!"одній", 1),
  (u!"два", 2),
  (u!"двом", 2),
  (u!"двома", 2),
  (u!"двох", 2),
  (u!"двоє", 2),
  (u!"двум", 2),
  (u!"дві", 2),
  (u!"три", 3),
  (u!"троє", 3),
  (u!"трьом", 3),
  (u!"трьома", 3),
  (u!"трьох", 3),
  (u!"четверо", 4),
  (u!"чотири", 4),
  (u!"чотирьом", 4),
  (u!"чотирьома", 4),
  (u!"чотирьох", 4),
  (u!"пʼятеро", 5),
  (u!"пʼяти", 5),
  (u!"пʼятих", 5),
  (u!"пʼять", 5),
  (u!"пʼятьма", 5),
  (u!"пять", 5),
  (u!"шести", 6),
  (u!"шість", 6),
  (u!"шістьма", 6),
  (u!"семи", 7),
  (u!"сім", 7),
  (u!"сімма", 7),
  (u!"восьми", 8),
  (u!"восьмима", 8),
  (u!"вісім", 8),
  (u!"девʼяти", 9),
  (u!"девʼять", 9),
  (u!"девʼятьма", 9),
  (u!"девять", 9)]

/-- `number_parser/data/uk.py`, `info["DIRECT_NUMBERS"]` -/
def ukDirect : Dict := [
  (u!"десять", 10),
  (u!"одинадцять", 11),
  (u!"дванадцять", 12),
  (u!"тринадцять", 13),
  (u!"чотирнадцять", 14),
  (u!"пʼятнадцять", 15),
  (u!"пятнадцять", 15),
  (u!"шістнадцять", 16),
  (u!"сімнадцять", 17),
  (u!"вісімнадцять", 18),
  (u!"девʼятнадцять", 19),
  (u!"девятнадцять", 19)]

/-- `number_parser/data/uk.py`, `info["TENS"]` -/
def ukTens : Dict := [
  (u!"двадцять", 20),
  (u!"тридцять", 30),
  (u!"сорок", 40),
  (u!"пʼятдесят", 50),
  (u!"пятдесят", 50),
  (u!"шістдесят", 60),
  (u!"сімдесят", 70),
  (u!"вісімдесят", 80),
  (u!"девʼяносто", 90),
  (u!"девяносто", 90)]

/-- `number_parser/data/uk.py`, `info["HUNDREDS"]` -/
def ukHundreds : Dict := [
  (u!"сто", 100),
  (u!"двісті", 200),
  (u!"триста", 300),
  (u!"чотириста", 400),
  (u!"п'ятсот", 500),
  (u!"пʼятсот", 500),
  (u!"п'ятисот", 500),
  (u!"пʼятисот", 500),
  (u!"пятсот", 500),
  (u!"пятисот", 500),
  (u!"шістсот", 600),
  (u!"сімсот", 700),
  (u!"вісімсот", 800),
  (u!"девятсот", 900),
  (u!"дев'ятсот", 900),
  (u!"девʼятсот", 900)]

/-- `number_parser/data/uk.py`, `info["BIG_POWERS_OF_TEN"]` -/
def ukBig : Dict := [
  (u!"тисяч", 1000),
  (u!"тисяча", 1000),
  (u!"тисячі", 1000),
  (u!"мільйон", 1000000),
  (u!"мільйони", 1000000),
  (u!"мільйонів", 1000000),
  (u!"міліон", 1000000),
  (u!"мільярд", 1000000000),
  (u!"мільярди", 1000000000),
  (u!"мільярдів", 1000000000),
  (u!"міліярд", 1000000000),
  (u!"більйон", 1000000000000),
  (u!"більйони", 1000000000000),
  (u!"більйонів", 1000000000000),
  (u!"трильйон", 1000000000000),
  (u!"триліон", 1000000000000),
  (u!"більярд", 1000000000000000),
  (u!"більярди", 1000000000000000),
  (u!"більярдів", 1000000000000000),
  (u!"квадрильйон", 1000000000000000),
  (u!"квадриліон", 1000000000000000),
  (u!"квінтильйон", 1000000000000000000),
  (u!"квінтиліон", 1000000000000000000),
  (u!"секстильйон", 1000000000000000000000),
  (u!"секстиліон", 1000000000000000000000),
  (u!"септильйон", 1000000000000000000000000),
  (u!"септиліон", 1000000000000000000000000),
  (u!"октильйон", 1000000000000000000000000000),
  (u!"октиліон", 1000000000000000000000000000),
  (u!"нонильйон", 1000000000000000000000000000000),
  (u!"нонільйон", 1000000000000000000000000000000),
  (u!"ноніліон", 1000000000000000000000000000000),
  (u!"децильйон", 1000000000000000000000000000000000),
  (u!"дециліон", 1000000000000000000000000000000000),
  (u!"децільйон", 1000000000000000000000000000000000),
  (u!"ундецильйон", 1000000000000000000000000000000000000),
  (u!"ундециліон", 1000000000000000000000000000000000000),
  (u!"ундецільйон", 1000000000000000000000000000000000000),
  (u!"дуодецильйон", 1000000000000000000000000000000000000000),
  (u!"дуодециліон", 1000000000000000000000000000000000000000),
  (u!"дуодецільйон", 1000000000000000000000000000000000000000),
  (u!"тредецильйон", 1000000000000000000000000000000000000000000),
  (u!"тредециліон", 1000000000000000000000000000000000000000000),
  (u!"тредецільйон", 1000000000000000000000000000000000000000000),
  (u!"кваттуордецильйон", 1000000000000000000000000000000000000000000000),
  (u!"кваттуордециліон", 1000000000000000000000000000000000000000000000),
  (u!"квіндецильйон", 1000000000000000000000000000000000000000000000000),
  (u!"квіндециліон", 1000000000000000000000000000000000000000000000000),
  (u!"сексдецильйон", 1000000000000000000000000000000000000000000000000000),
  (u!"сексдециліон", 1000000000000000000000000000000000000000000000000000),
  (u!"септендецильйон", 1000000000000000000000000000000000000000000000000000000),
  (u!"септендециліон", 1000000000000000000000000000000000000000000000000000000),
  (u!"октодецильйон", 1000000000000000000000000000000000000000000000000000000000),
  (u!"октодециліон", 1000000000000000000000000000000000000000000000000000000000),
  (u!"новемдецильйон", 1000000000000000000000000000000000000000000000000000000000000),
  (u!"новемдециліон", 1000000000000000000000000000000000000000000000000000000000000),
  (u!"вігінтільйон", 1000000000000000000000000000000000000000000000000000000000000000),
  (u!"унвігінтільйон", 1000000000000000000000000000000000000000000000000000000000000000000),
  (u!"дуовігінтільйон", 1000000000000000000000000000000000000000000000000000000000000000000000),
  (u!"тревігінтільйон", 1000000000000000000000000000000000000000000000000000000000000000000000000),
  (u!"кваттуорвігінтільйон", 1000000000000000000000000000000000000000000000000000000000000000000000000000),
  (u!"квінвігінтільйон", 1000000000000000000000000000000000000000000000000000000000000000000000000000000),
  (u!"сексвігінтільйон", 1000000000000000000000000000000000000000000000000000000000000000000000000000000000),
  (u!"септемвігінтільйон", 1000000000000000000000000000000000000000000000000000000000000000000000000000000000000),
  (u!"октовігінтільйон", 1000000000000000000000000000000000000000000000000000000000000000000000000000000000000000),
  (u!"новемвігінтільйон", 1000000000000000000000000000000000000000000000000000000000000000000000000000000000000000000),
  (u!"тригінтільйон", 1000000000000000000000000000000000000000000000000000000000000000000000000000000000000000000000),
  (u!"унтригінтільйон", 1000000000000000000000000000000000000000000000000000000000000000000000000000000000000000000000000),
  (u!"дуотригінтільйон", 1000000000000000000000000000000000000000000000000000000000000000000000000000000000000000000000000000),
  (u!"третригінтільйон", 1000000000000000000000000000000000000000000000000000000000000000000000000000000000000000000000000000000),
  (u!"кваттуортригінтільйон", 1000000000000000000000000000000000000000000000000000000000000000000000000000000000000000000000000000000000),
  (u!"квінтригінтільйон", 1000000000000000000000000000000000000000000000000000000000000000000000000000000000000000000000000000000000000),
  (u!"секстригінтільйон", 1000000000000000000000000000000000000000000000000000000000000000000000000000000000000000000000000000000000000000),
  (u!"септентригінтільйон", 1000000000000000000000000000000000000000000000000000000000000000000000000000000000000000000000000000000000000000000),
  (u!"октотригінтільйон", 1000000000000000000000000000000000000000000000000000000000000000000000000000000000000000000000000000000000000000000000),
  (u!"новемтригінтільйон", 1000000000000000000000000000000000000000000000000000000000000000000000000000000000000000000000000000000000000000000000000),
  (u!"квадрагінтільйон", 1000000000000000000000000000000000000000000000000000000000000000000000000000000000000000000000000000000000000000000000000000),
  (u!"унквадрагінтільйон", 1000000000000000000000000000000000000000000000000000000000000000000000000000000000000000000000000000000000000000000000000000000),
  (u!"дуоквадрагінтільйон", 1000000000000000000000000000000000000000000000000000000000000000000000000000000000000000000000000000000000000000000000000000000000)]

/-- `number_parser/data/uk.py` (lines 1-179): the module's `info` dictionary -/
def uk : Info where
  unitNumbers := ukUnit
  directNumbers := ukDirect
  tens := ukTens
  hundreds := ukHundreds
  bigPowersOfTen := ukBig
  skipTokens := []
  useLongScale := false

end NumberParser.Data
