import Verif.Model.Py

/-! Generated by tools/gen_text.py: the texts of the data modules in /repo/number_parser/data. -/

namespace NumberParser.DataText

open NumberParser

/-- /repo/number_parser/data/en.py -/
def en : PyStr := List.flatten [
  u!"info = {\n",
  u!"    \"UNIT_NUMBERS\": {\n",
  u!"        \"zero\": 0,\n",
  u!"        \"one\": 1,\n",
  u!"        \"two\": 2,\n",
  u!"        \"three\": 3,\n",
  u!"        \"four\": 4,\n",
  u!"        \"five\": 5,\n",
  u!"        \"six\": 6,\n",
  u!"        \"seven\": 7,\n",
  u!"        \"eight\": 8,\n",
  u!"        \"nine\": 9\n",
  u!"    },\n",
  u!"    \"DIRECT_NUMBERS\": {\n",
  u!"        \"ten\": 10,\n",
  u!"        \"eleven\": 11,\n",
  u!"        \"twelve\": 12,\n",
  u!"        \"thirteen\": 13,\n",
  u!"        \"fourteen\": 14,\n",
  u!"        \"fifteen\": 15,\n",
  u!"        \"sixteen\": 16,\n",
  u!"        \"seventeen\": 17,\n",
  u!"        \"eighteen\": 18,\n",
  u!"        \"nineteen\": 19\n",
  u!"    },\n",
  u!"    \"TENS\": {\n",
  u!"        \"twenty\": 20,\n",
  u!"        \"thirty\": 30,\n",
  u!"        \"forty\": 40,\n",
  u!"        \"fifty\": 50,\n",
  u!"        \"sixty\": 60,\n",
  u!"        \"seventy\": 70,\n",
  u!"        \"eighty\": 80,\n",
  u!"        \"ninety\": 90\n",
  u!"    },\n",
  u!"    \"HUNDREDS\": {},\n",
  u!"    \"BIG_POWERS_OF_TEN\": {\n",
  u!"        \"hundred\": 100,\n",
  u!"        \"thousand\": 1000,\n",
  u!"        \"million\": 1000000,\n",
  u!"        \"billion\": 1000000000,\n",
  u!"        \"trillion\": 1000000000000,\n",
  u!"        \"quadrillion\": 1000000000000000,\n",
  u!"        \"quintillion\": 1000000000000000000,\n",
  u!"        \"sextillion\": 1000000000000000000000\n",
  u!"    },\n",
  u!"    \"SKIP_TOKENS\": [\n",
  u!"        \"-\",\n",
  u!"        \"and\"\n",
  u!"    ],\n",
  u!"    \"USE_LONG_SCALE\": False\n",
  u!"}\n"]

/-- /repo/number_parser/data/es.py -/
def es : PyStr := List.flatten [
  u!"info = {\n",
  u!"    \"UNIT_NUMBERS\": {\n",
  u!"        \"cero\": 0,\n",
  u!"        \"un\": 1,\n",
  u!"        \"una\": 1,\n",
  u!"        \"uno\": 1,\n",
  u!"        \"dos\": 2,\n",
  u!"        \"tres\": 3,\n",
  u!"        \"cuatro\": 4,\n",
  u!"        \"cinco\": 5,\n",
  u!"        \"seis\": 6,\n",
  u!"        \"siete\": 7,\n",
  u!"        \"ocho\": 8,\n",
  u!"        \"nueve\": 9\n",
  u!"    },\n",
  u!"    \"DIRECT_NUMBERS\": {\n",
  u!"        \"diez\": 10,\n",
  u!"        \"once\": 11,\n",
  u!"        \"doce\": 12,\n",
  u!"        \"trece\": 13,\n",
  u!"        \"catorce\": 14,\n",
  u!"        \"quince\": 15,\n",
  u!"        \"dieciséis\": 16,\n",
  u!"        \"diecisiete\": 17,\n",
  u!"        \"dieciocho\": 18,\n",
  u!"        \"diecinueve\": 19,\n",
  u!"        \"veinte\": 20,\n",
  u!"        \"veintiuna\": 21,\n",
  u!"        \"veintiuno\": 21,\n",
  u!"        \"veintiún\": 21,\n",
  u!"        \"veintidós\": 22,\n",
  u!"        \"veintitrés\": 23,\n",
  u!"        \"veinticuatro\": 24,\n",
  u!"        \"veinticinco\": 25,\n",
  u!"        \"veintiséis\": 26,\n",
  u!"        \"veintisiete\": 27,\n",
  u!"        \"veintiocho\": 28,\n",
  u!"        \"veintinueve\": 29\n",
  u!"    },\n",
  u!"    \"TENS\": {\n",
  u!"        \"treinta\": 30,\n",
  u!"        \"cuarenta\": 40,\n",
  u!"        \"cincuenta\": 50,\n",
  u!"        \"sesenta\": 60,\n",
  u!"        \"setenta\": 70,\n",
  u!"        \"ochenta\": 80,\n",
  u!"        \"noventa\": 90\n",
  u!"    },\n",
  u!"    \"HUNDREDS\": {\n",
  u!"        \"cien\": 100,\n",
  u!"        \"ciento\": 100,\n",
  u!"        \"doscientas\": 200,\n",
  u!"        \"doscientos\": 200,\n",
  u!"        \"trescientas\": 300,\n",
  u!"        \"trescientos\": 300,\n",
  u!"        \"cuatrocientas\": 400,\n",
  u!"        \"cuatrocientos\": 400,\n",
  u!"        \"quinientas\": 500,\n",
  u!"        \"quinientos\": 500,\n",
  u!"        \"seiscientas\": 600,\n",
  u!"        \"seiscientos\": 600,\n",
  u!"        \"setecientas\": 700,\n",
  u!"        \"setecientos\": 700,\n",
  u!"        \"ochocientas\": 800,\n",
  u!"        \"ochocientos\": 800,\n",
  u!"        \"novecientas\": 900,\n",
  u!"        \"novecientos\": 900\n",
  u!"    },\n",
  u!"    \"BIG_POWERS_OF_TEN\": {\n",
  u!"        \"mil\": 1000,\n",
  u!"        \"millones\": 1000000,\n",
  u!"        \"millón\": 1000000,\n",
  u!"        \"millardo\": 1000000000,\n",
  u!"        \"billones\": 1000000000000,\n",
  u!"        \"billón\": 1000000000000,\n",
  u!"        \"trillones\": 1000000000000000000,\n",
  u!"        \"trillón\": 1000000000000000000,\n",
  u!"        \"cuatrillones\": 1000000000000000000000000,\n",
  u!"        \"cuatrillón\": 1000000000000000000000000,\n",
  u!"        \"quintillones\": 1000000000000000000000000000000,\n",
  u!"        \"quintillón\": 1000000000000000000000000000000,\n",
  u!"        \"sextillones\": 1000000000000000000000000000000000000,\n",
  u!"        \"sextillón\": 1000000000000000000000000000000000000,\n",
  u!"        \"septillones\": 1000000000000000000000000000000000000000000,\n",
  u!"        \"septillón\": 1000000000000000000000000000000000000000000,\n",
  u!"        \"octillones\": 1000000000000000000000000000000000000000000000000,\n",
  u!"        \"octillón\": 1000000000000000000000000000000000000000000000000,\n",
  u!"        \"nonillones\": 1000000000000000000000000000000000000000000000000000000,\n",
  u!"        \"nonillón\": 1000000000000000000000000000000000000000000000000000000,\n",
  u!"        \"decillón\": 1000000000000000000000000000000000000000000000000000000000000,\n",
  u!"        \"decillones\": 1000000000000000000000000000000000000000000000000000000000000000000,\n",
  u!"        \"undecillones\": 1000000000000000000000000000000000000000000000000000000000000000000,\n",
  u!"        \"undecillón\": 1000000000000000000000000000000000000000000000000000000000000000000,\n",
  u!"        \"duodecillones\": 1000000000000000000000000000000000000000000000000000000000000000000000000,\n",
  u!"        \"duodecillón\": 1000000000000000000000000000000000000000000000000000000000000000000000000,\n",
  u!"        \"tredecillones\": 1000000000000000000000000000000000000000000000000000000000000000000000000000000,\n",
  u!"        \"tredecillón\": 1000000000000000000000000000000000000000000000000000000000000000000000000000000,\n",
  u!"        \"gúgol\": 10000000000000000000000000000000000000000000000000000000000000000000000000000000000000000000000000000,\n",
  u!"        \"vigintillones\": 1000000000000000000000000000000000000000000000000000000000000000000000000000000000000000000000000000000000000000000000000,\n",
  u!"        \"vigintillón\": 1000000000000000000000000000000000000000000000000000000000000000000000000000000000000000000000000000000000000000000000000,\n",
  u!"        \"centillón\": 1000000000000000000000000000000000000000000000000000000000000000000000000000000000000000000000000000000000000000000000000000000000000000000000000000000000000000000000000000000000000000000000000000000000000000000000000000000000000000000000000000000000000000000000000000000000000000000000000000000000000000000000000000000000000000000000000000000000000000000000000000000000000000000000000000000000000000000000000000000000000000000000000000000000000000000000000000000000000000000000000000000000000000000000000000000000000000000000000000000000000000000000000000000000000000000000000000000000000000000000000\n",
  u!"    },\n",
  u!"    \"SKIP_TOKENS\": [\n",
  u!"        \"y\"\n",
  u!"    ],\n",
  u!"    \"USE_LONG_SCALE\": True\n",
  u!"}\n"]

/-- /repo/number_parser/data/hi.py -/
def hi : PyStr := List.flatten [
  u!"info = {\n",
  u!"    \"UNIT_NUMBERS\": {\n",
  u!"        \"शून्य\": 0,\n",
  u!"        \"एक\": 1,\n",
  u!"        \"दो\": 2,\n",
  u!"        \"तीन\": 3,\n",
  u!"        \"चार\": 4,\n",
  u!"        \"पाँच\": 5,\n",
  u!"        \"छह\": 6,\n",
  u!"        \"सात\": 7,\n",
  u!"        \"आठ\": 8,\n",
  u!"        \"नौ\": 9\n",
  u!"    },\n",
  u!"    \"DIRECT_NUMBERS\": {\n",
  u!"        \"दस\": 10,\n",
  u!"        \"ग्यारह\": 11,\n",
  u!"        \"बारह\": 12,\n",
  u!"        \"तेरह\": 13,\n",
  u!"        \"चौदह\": 14,\n",
  u!"        \"पन्द्रह\": 15,\n",
  u!"        \"सोलह\": 16,\n",
  u!"        \"सत्रह\": 17,\n",
  u!"        \"अठारह\": 18,\n",
  u!"        \"उन्नीस\": 19,\n",
  u!"        \"बीस\": 20,\n",
  u!"        \"इक्कीस\": 21,\n",
  u!"        \"बाईस\": 22,\n",
  u!"        \"तेईस\": 23,\n",
  u!"        \"चौबीस\": 24,\n",
  u!"        \"पच्चीस\": 25,\n",
  u!"        \"छब्बीस\": 26,\n",
  u!"        \"सत्ताईस\": 27,\n",
  u!"        \"अट्ठाईस\": 28,\n",
  u!"        \"उनतीस\": 29,\n",
  u!"        \"तीस\": 30,\n",
  u!"        \"इकतीस\": 31,\n",
  u!"        \"बत्तीस\": 32,\n",
  u!"        \"तैंतीस\": 33,\n",
  u!"        \"चौंतीस\": 34,\n",
  u!"        \"पैंतीस\": 35,\n",
  u!"        \"छत्तीस\": 36,\n",
  u!"        \"सैंतीस\": 37,\n",
  u!"        \"अड़तीस\": 38,\n",
  u!"        \"उनतालीस\": 39,\n",
  u!"        \"चालीस\": 40,\n",
  u!"        \"इकतालीस\": 41,\n",
  u!"        \"बयालीस\": 42,\n",
  u!"        \"तैंतालीस\": 43,\n",
  u!"        \"चौवालीस\": 44,\n",
  u!"        \"पैंतालीस\": 45,\n",
  u!"        \"छियालीस\": 46,\n",
  u!"        \"सैंतालीस\": 47,\n",
  u!"        \"अड़तालीस\": 48,\n",
  u!"        \"उनचास\": 49,\n",
  u!"        \"पचास\": 50,\n",
  u!"        \"इक्यावन\": 51,\n",
  u!"        \"बावन\": 52,\n",
  u!"        \"तिरेपन\": 53,\n",
  u!"        \"चौवन\": 54,\n",
  u!"        \"पचपन\": 55,\n",
  u!"        \"छप्पन\": 56,\n",
  u!"        \"सत्तावन\": 57,\n",
  u!"        \"अट्ठावन\": 58,\n",
  u!"        \"उनसठ\": 59,\n",
  u!"        \"साठ\": 60,\n",
  u!"        \"इकसठ\": 61,\n",
  u!"        \"बासठ\": 62,\n",
  u!"        \"तिरेसठ\": 63,\n",
  u!"        \"चौंसठ\": 64,\n",
  u!"        \"पैंसठ\": 65,\n",
  u!"        \"छियासठ\": 66,\n",
  u!"        \"सड़सठ\": 67,\n",
  u!"        \"अड़सठ\": 68,\n",
  u!"        \"उनहत्तर\": 69,\n",
  u!"        \"सत्तर\": 70,\n",
  u!"        \"इकहत्तर\": 71,\n",
  u!"        \"बहत्तर\": 72,\n",
  u!"        \"तिहत्तर\": 73,\n",
  u!"        \"चौहत्तर\": 74,\n",
  u!"        \"पचहत्तर\": 75,\n",
  u!"        \"छिहत्तर\": 76,\n",
  u!"        \"सतहत्तर\": 77,\n",
  u!"        \"अठहत्तर\": 78,\n",
  u!"        \"उनासी\": 79,\n",
  u!"        \"अस्सी\": 80,\n",
  u!"        \"इक्यासी\": 81,\n",
  u!"        \"बयासी\": 82,\n",
  u!"        \"तिरासी\": 83,\n",
  u!"        \"चौरासी\": 84,\n",
  u!"        \"पचासी\": 85,\n",
  u!"        \"छियासी\": 86,\n",
  u!"        \"सत्तासी\": 87,\n",
  u!"        \"अट्ठासी\": 88,\n",
  u!"        \"नवासी\": 89,\n",
  u!"        \"नब्बे\": 90,\n",
  u!"        \"इक्यानबे\": 91,\n",
  u!"        \"बानबे\": 92,\n",
  u!"        \"तिरानबे\": 93,\n",
  u!"        \"चौरानबे\": 94,\n",
  u!"        \"पंचानबे\": 95,\n",
  u!"        \"छियानबे\": 96,\n",
  u!"        \"सत्तानबे\": 97,\n",
  u!"        \"अट्ठानबे\": 98,\n",
  u!"        \"निन्यानबे\": 99\n",
  u!"    },\n",
  u!"    \"TENS\": {},\n",
  u!"    \"HUNDREDS\": {},\n",
  u!"    \"BIG_POWERS_OF_TEN\": {\n",
  u!"        \"सौ\": 100,\n",
  u!"        \"हज़ार\": 1000,\n",
  u!"        \"लाख\": 100000,\n",
  u!"        \"करोड़\": 10000000,\n",
  u!"        \"अरब\": 1000000000,\n",
  u!"        \"खरब\": 100000000000\n",
  u!"    },\n",
  u!"    \"SKIP_TOKENS\": [],\n",
  u!"    \"USE_LONG_SCALE\": False\n",
  u!"}\n"]

/-- /repo/number_parser/data/ru.py -/
def ru : PyStr := List.flatten [
  u!"info = {\n",
  u!"    \"UNIT_NUMBERS\": {\n",
  u!"        \"ноль\": 0,\n",
  u!"        \"нолю\": 0,\n",
  u!"        \"ноля\": 0,\n",
  u!"        \"нуле\": 0,\n",
  u!"        \"нулем\": 0,\n",
  u!"        \"один\": 1,\n",
  u!"        \"одна\": 1,\n",
  u!"        \"одни\": 1,\n",
  u!"        \"одним\": 1,\n",
  u!"        \"одними\": 1,\n",
  u!"        \"одних\": 1,\n",
  u!"        \"одно\": 1,\n",
  u!"        \"одного\": 1,\n",
  u!"        \"одной\": 1,\n",
  u!"        \"одном\": 1,\n",
  u!"        \"одному\": 1,\n",
  u!"        \"одну\": 1,\n",
  u!"        \"два\": 2,\n",
  u!"        \"две\": 2,\n",
  u!"        \"двум\": 2,\n",
  u!"        \"двумя\": 2,\n",
  u!"        \"двух\": 2,\n",
  u!"        \"трем\": 3,\n",
  u!"        \"тремя\": 3,\n",
  u!"        \"трех\": 3,\n",
  u!"        \"три\": 3,\n",
  u!"        \"четыре\": 4,\n",
  u!"        \"четырем\": 4,\n",
  u!"        \"четырех\": 4,\n",
  u!"        \"четырьмя\": 4,\n",
  u!"        \"пяти\": 5,\n",
  u!"        \"пять\": 5,\n",
  u!"        \"пятью\": 5,\n",
  u!"        \"шести\": 6,\n",
  u!"        \"шесть\": 6,\n",
  u!"        \"шестью\": 6,\n",
  u!"        \"семи\": 7,\n",
  u!"        \"семь\": 7,\n",
  u!"        \"семью\": 7,\n",
  u!"        \"восемь\": 8,\n",
  u!"        \"восемью\": 8,\n",
  u!"        \"восьми\": 8,\n",
  u!"        \"девяти\": 9,\n",
  u!"        \"девять\": 9,\n",
  u!"        \"девятью\": 9\n",
  u!"    },\n",
  u!"    \"DIRECT_NUMBERS\": {\n",
  u!"        \"десяти\": 10,\n",
  u!"        \"десять\": 10,\n",
  u!"        \"десятью\": 10,\n",
  u!"        \"одиннадцати\": 11,\n",
  u!"        \"одиннадцать\": 11,\n",
  u!"        \"одиннадцатью\": 11,\n",
  u!"        \"двенадцати\": 12,\n",
  u!"        \"двенадцать\": 12,\n",
  u!"        \"двенадцатью\": 12,\n",
  u!"        \"тринадцати\": 13,\n",
  u!"        \"тринадцать\": 13,\n",
  u!"        \"тринадцатью\": 13,\n",
  u!"        \"четырнадцати\": 14,\n",
  u!"        \"четырнадцать\": 14,\n",
  u!"        \"четырнадцатью\": 14,\n",
  u!"        \"пятнадцати\": 15,\n",
  u!"        \"пятнадцать\": 15,\n",
  u!"        \"пятнадцатью\": 15,\n",
  u!"        \"шестнадцати\": 16,\n",
  u!"        \"шестнадцать\": 16,\n",
  u!"        \"шестнадцатью\": 16,\n",
  u!"        \"семнадцати\": 17,\n",
  u!"        \"семнадцать\": 17,\n",
  u!"        \"семнадцатью\": 17,\n",
  u!"        \"восемнадцати\": 18,\n",
  u!"        \"восемнадцать\": 18,\n",
  u!"        \"восемнадцатью\": 18,\n",
  u!"        \"девятнадцати\": 19,\n",
  u!"        \"девятнадцать\": 19,\n",
  u!"        \"девятнадцатью\": 19\n",
  u!"    },\n",
  u!"    \"TENS\": {\n",
  u!"        \"двадцати\": 20,\n",
  u!"        \"двадцать\": 20,\n",
  u!"        \"двадцатью\": 20,\n",
  u!"        \"тридцати\": 30,\n",
  u!"        \"тридцать\": 30,\n",
  u!"        \"тридцатью\": 30,\n",
  u!"        \"сорок\": 40,\n",
  u!"        \"сорока\": 40,\n",
  u!"        \"пятидесяти\": 50,\n",
  u!"        \"пятьдесят\": 50,\n",
  u!"        \"пятьюдесятью\": 50,\n",
  u!"        \"шестидесяти\": 60,\n",
  u!"        \"шестьдесят\": 60,\n",
  u!"        \"шестьюдесятью\": 60,\n",
  u!"        \"семидесяти\": 70,\n",
  u!"        \"семьдесят\": 70,\n",
  u!"        \"семьюдесятью\": 70,\n",
  u!"        \"восемьдесят\": 80,\n",
  u!"        \"восемьюдесятью\": 80,\n",
  u!"        \"восьмидесяти\": 80,\n",
  u!"        \"девяноста\": 90,\n",
  u!"        \"девяносто\": 90\n",
  u!"    },\n",
  u!"    \"HUNDREDS\": {\n",
  u!"        \"ста\": 100,\n",
  u!"        \"сто\": 100,\n",
  u!"        \"двасти\": 200,\n",
  u!"        \"двести\": 200,\n",
  u!"        \"двумстам\": 200,\n",
  u!"        \"двумястами\": 200,\n",
  u!"        \"двухсот\": 200,\n",
  u!"        \"двухстах\": 200,\n",
  u!"        \"тремстам\": 300,\n",
  u!"        \"тремястами\": 300,\n",
  u!"        \"трехсот\": 300,\n",
  u!"        \"трехстах\": 300,\n",
  u!"        \"триста\": 300,\n",
  u!"        \"четыремстам\": 400,\n",
  u!"        \"четыреста\": 400,\n",
  u!"        \"четырехсот\": 400,\n",
  u!"        \"четырехстах\": 400,\n",
  u!"        \"четырьмястами\": 400,\n",
  u!"        \"пятисот\": 500,\n",
  u!"        \"пятистам\": 500,\n",
  u!"        \"пятистах\": 500,\n",
  u!"        \"пятьсот\": 500,\n",
  u!"        \"пятьюстами\": 500,\n",
  u!"        \"шестисот\": 600,\n",
  u!"        \"шестистам\": 600,\n",
  u!"        \"шестистах\": 600,\n",
  u!"        \"шестьсот\": 600,\n",
  u!"        \"шестьюстами\": 600,\n",
  u!"        \"семисот\": 700,\n",
  u!"        \"семистам\": 700,\n",
  u!"        \"семистах\": 700,\n",
  u!"        \"семьсот\": 700,\n",
  u!"        \"семьюстами\": 700,\n",
  u!"        \"восемьсот\": 800,\n",
  u!"        \"восемьюстами\": 800,\n",
  u!"        \"восьмисот\": 800,\n",
  u!"        \"восьмистам\": 800,\n",
  u!"        \"восьмистах\": 800,\n",
  u!"        \"девятисот\": 900,\n",
  u!"        \"девятистам\": 900,\n",
  u!"        \"девятистах\": 900,\n",
  u!"        \"девятьсот\": 900,\n",
  u!"        \"девятьюстами\": 900\n",
  u!"    },\n",
  u!"    \"BIG_POWERS_OF_TEN\": {\n",
  u!"        \"тысяч\": 1000,\n",
  u!"        \"тысяча\": 1000,\n",
  u!"        \"тысячам\": 1000,\n",
  u!"        \"тысячами\": 1000,\n",
  u!"        \"тысячах\": 1000,\n",
  u!"        \"тысяче\": 1000,\n",
  u!"        \"тысячей\": 1000,\n",
  u!"        \"тысячи\": 1000,\n",
  u!"        \"тысячу\": 1000,\n",
  u!"        \"миллион\": 1000000,\n",
  u!"        \"миллиона\": 1000000,\n",
  u!"        \"миллионам\": 1000000,\n",
  u!"        \"миллионами\": 1000000,\n",
  u!"        \"миллионах\": 1000000,\n",
  u!"        \"миллионе\": 1000000,\n",
  u!"        \"миллионов\": 1000000,\n",
  u!"        \"миллионом\": 1000000,\n",
  u!"        \"миллиону\": 1000000,\n",
  u!"        \"миллиард\": 1000000000,\n",
  u!"        \"миллиарда\": 1000000000,\n",
  u!"        \"миллиардам\": 1000000000,\n",
  u!"        \"миллиардами\": 1000000000,\n",
  u!"        \"миллиардах\": 1000000000,\n",
  u!"        \"миллиарде\": 1000000000,\n",
  u!"        \"миллиардов\": 1000000000,\n",
  u!"        \"миллиардом\": 1000000000,\n",
  u!"        \"миллиарду\": 1000000000,\n",
  u!"        \"триллион\": 1000000000000,\n",
  u!"        \"триллиона\": 1000000000000,\n",
  u!"        \"триллионам\": 1000000000000,\n",
  u!"        \"триллионами\": 1000000000000,\n",
  u!"        \"триллионах\": 1000000000000,\n",
  u!"        \"триллионе\": 1000000000000,\n",
  u!"        \"триллионов\": 1000000000000,\n",
  u!"        \"триллионом\": 1000000000000,\n",
  u!"        \"триллиону\": 1000000000000,\n",
  u!"        \"квадриллион\": 1000000000000000,\n",
  u!"        \"квадриллиона\": 1000000000000000,\n",
  u!"        \"квадриллионам\": 1000000000000000,\n",
  u!"        \"квадриллионами\": 1000000000000000,\n",
  u!"        \"квадриллионах\": 1000000000000000,\n",
  u!"        \"квадриллионе\": 1000000000000000,\n",
  u!"        \"квадриллионов\": 1000000000000000,\n",
  u!"        \"квадриллионом\": 1000000000000000,\n",
  u!"        \"квадриллиону\": 1000000000000000,\n",
  u!"        \"квинтиллион\": 1000000000000000000,\n",
  u!"        \"квинтиллиона\": 1000000000000000000,\n",
  u!"        \"квинтиллионам\": 1000000000000000000,\n",
  u!"        \"квинтиллионами\": 1000000000000000000,\n",
  u!"        \"квинтиллионах\": 1000000000000000000,\n",
  u!"        \"квинтиллионе\": 1000000000000000000,\n",
  u!"        \"квинтиллионов\": 1000000000000000000,\n",
  u!"        \"квинтиллионом\": 1000000000000000000,\n",
  u!"        \"квинтиллиону\": 1000000000000000000,\n",
  u!"        \"секстиллион\": 1000000000000000000000,\n",
  u!"        \"секстиллиона\": 1000000000000000000000,\n",
  u!"        \"секстиллионам\": 1000000000000000000000,\n",
  u!"        \"секстиллионами\": 1000000000000000000000,\n",
  u!"        \"секстиллионах\": 1000000000000000000000,\n",
  u!"        \"секстиллионе\": 1000000000000000000000,\n",
  u!"        \"секстиллионов\": 1000000000000000000000,\n",
  u!"        \"секстиллионом\": 1000000000000000000000,\n",
  u!"        \"секстиллиону\": 1000000000000000000000\n",
  u!"    },\n",
  u!"    \"SKIP_TOKENS\": [],\n",
  u!"    \"USE_LONG_SCALE\": False\n",
  u!"}\n"]

/-- /repo/number_parser/data/uk.py -/
def uk : PyStr := List.flatten [
  u!"info = {\n",
  u!"    \"UNIT_NUMBERS\": {\n",
  u!"        \"нуль\": 0,\n",
  u!"        \"нулю\": 0,\n",
  u!"        \"один\": 1,\n",
  u!"        \"одна\": 1,\n",
  u!"        \"одне\": 1,\n",
  u!"        \"одним\": 1,\n",
  u!"        \"одними\": 1,\n",
  u!"        \"одного\": 1,\n",
  u!"        \"одному\": 1,\n",
  u!"        \"одну\": 1,\n",
  u!"        \"одні\": 1,\n",
  u!"        \"одній\": 1,\n",
  u!"        \"два\": 2,\n",
  u!"        \"двом\": 2,\n",
  u!"        \"двома\": 2,\n",
  u!"        \"двох\": 2,\n",
  u!"        \"двоє\": 2,\n",
  u!"        \"двум\": 2,\n",
  u!"        \"дві\": 2,\n",
  u!"        \"три\": 3,\n",
  u!"        \"троє\": 3,\n",
  u!"        \"трьом\": 3,\n",
  u!"        \"трьома\": 3,\n",
  u!"        \"трьох\": 3,\n",
  u!"        \"четверо\": 4,\n",
  u!"        \"чотири\": 4,\n",
  u!"        \"чотирьом\": 4,\n",
  u!"        \"чотирьома\": 4,\n",
  u!"        \"чотирьох\": 4,\n",
  u!"        \"пʼятеро\": 5,\n",
  u!"        \"пʼяти\": 5,\n",
  u!"        \"пʼятих\": 5,\n",
  u!"        \"пʼять\": 5,\n",
  u!"        \"пʼятьма\": 5,\n",
  u!"        \"пять\": 5,\n",
  u!"        \"шести\": 6,\n",
  u!"        \"шість\": 6,\n",
  u!"        \"шістьма\": 6,\n",
  u!"        \"семи\": 7,\n",
  u!"        \"сім\": 7,\n",
  u!"        \"сімма\": 7,\n",
  u!"        \"восьми\": 8,\n",
  u!"        \"восьмима\": 8,\n",
  u!"        \"вісім\": 8,\n",
  u!"        \"девʼяти\": 9,\n",
  u!"        \"девʼять\": 9,\n",
  u!"        \"девʼятьма\": 9,\n",
  u!"        \"девять\": 9\n",
  u!"    },\n",
  u!"    \"DIRECT_NUMBERS\": {\n",
  u!"        \"десять\": 10,\n",
  u!"        \"одинадцять\": 11,\n",
  u!"        \"дванадцять\": 12,\n",
  u!"        \"тринадцять\": 13,\n",
  u!"        \"чотирнадцять\": 14,\n",
  u!"        \"пʼятнадцять\": 15,\n",
  u!"        \"пятнадцять\": 15,\n",
  u!"        \"шістнадцять\": 16,\n",
  u!"        \"сімнадцять\": 17,\n",
  u!"        \"вісімнадцять\": 18,\n",
  u!"        \"девʼятнадцять\": 19,\n",
  u!"        \"девятнадцять\": 19\n",
  u!"    },\n",
  u!"    \"TENS\": {\n",
  u!"        \"двадцять\": 20,\n",
  u!"        \"тридцять\": 30,\n",
  u!"        \"сорок\": 40,\n",
  u!"        \"пʼятдесят\": 50,\n",
  u!"        \"пятдесят\": 50,\n",
  u!"        \"шістдесят\": 60,\n",
  u!"        \"сімдесят\": 70,\n",
  u!"        \"вісімдесят\": 80,\n",
  u!"        \"девʼяносто\": 90,\n",
  u!"        \"девяносто\": 90\n",
  u!"    },\n",
  u!"    \"HUNDREDS\": {\n",
  u!"        \"сто\": 100,\n",
  u!"        \"двісті\": 200,\n",
  u!"        \"триста\": 300,\n",
  u!"        \"чотириста\": 400,\n",
  u!"        \"п'ятсот\": 500,\n",
  u!"        \"пʼятсот\": 500,\n",
  u!"        \"п'ятисот\": 500,\n",
  u!"        \"пʼятисот\": 500,\n",
  u!"        \"пятсот\": 500,\n",
  u!"        \"пятисот\": 500,\n",
  u!"        \"шістсот\": 600,\n",
  u!"        \"сімсот\": 700,\n",
  u!"        \"вісімсот\": 800,\n",
  u!"        \"девятсот\": 900,\n",
  u!"        \"дев'ятсот\": 900,\n",
  u!"        \"девʼятсот\": 900\n",
  u!"    },\n",
  u!"    \"BIG_POWERS_OF_TEN\": {\n",
  u!"        \"тисяч\": 1000,\n",
  u!"        \"тисяча\": 1000,\n",
  u!"        \"тисячі\": 1000,\n",
  u!"        \"мільйон\": 1000000,\n",
  u!"        \"мільйони\": 1000000,\n",
  u!"        \"мільйонів\": 1000000,\n",
  u!"        \"міліон\": 1000000,\n",
  u!"        \"мільярд\": 1000000000,\n",
  u!"        \"мільярди\": 1000000000,\n",
  u!"        \"мільярдів\": 1000000000,\n",
  u!"        \"міліярд\": 1000000000,\n",
  u!"        \"більйон\": 1000000000000,\n",
  u!"        \"більйони\": 1000000000000,\n",
  u!"        \"більйонів\": 1000000000000,\n",
  u!"        \"трильйон\": 1000000000000,\n",
  u!"        \"триліон\": 1000000000000,\n",
  u!"        \"більярд\": 1000000000000000,\n",
  u!"        \"більярди\": 1000000000000000,\n",
  u!"        \"більярдів\": 1000000000000000,\n",
  u!"        \"квадрильйон\": 1000000000000000,\n",
  u!"        \"квадриліон\": 1000000000000000,\n",
  u!"        \"квінтильйон\": 1000000000000000000,\n",
  u!"        \"квінтиліон\": 1000000000000000000,\n",
  u!"        \"секстильйон\": 1000000000000000000000,\n",
  u!"        \"секстиліон\": 1000000000000000000000,\n",
  u!"        \"септильйон\": 1000000000000000000000000,\n",
  u!"        \"септиліон\": 1000000000000000000000000,\n",
  u!"        \"октильйон\": 1000000000000000000000000000,\n",
  u!"        \"октиліон\": 1000000000000000000000000000,\n",
  u!"        \"нонильйон\": 1000000000000000000000000000000,\n",
  u!"        \"нонільйон\": 1000000000000000000000000000000,\n",
  u!"        \"ноніліон\": 1000000000000000000000000000000,\n",
  u!"        \"децильйон\": 1000000000000000000000000000000000,\n",
  u!"        \"дециліон\": 1000000000000000000000000000000000,\n",
  u!"        \"децільйон\": 1000000000000000000000000000000000,\n",
  u!"        \"ундецильйон\": 1000000000000000000000000000000000000,\n",
  u!"        \"ундециліон\": 1000000000000000000000000000000000000,\n",
  u!"        \"ундецільйон\": 1000000000000000000000000000000000000,\n",
  u!"        \"дуодецильйон\": 1000000000000000000000000000000000000000,\n",
  u!"        \"дуодециліон\": 1000000000000000000000000000000000000000,\n",
  u!"        \"дуодецільйон\": 1000000000000000000000000000000000000000,\n",
  u!"        \"тредецильйон\": 1000000000000000000000000000000000000000000,\n",
  u!"        \"тредециліон\": 1000000000000000000000000000000000000000000,\n",
  u!"        \"тредецільйон\": 1000000000000000000000000000000000000000000,\n",
  u!"        \"кваттуордецильйон\": 1000000000000000000000000000000000000000000000,\n",
  u!"        \"кваттуордециліон\": 1000000000000000000000000000000000000000000000,\n",
  u!"        \"квіндецильйон\": 1000000000000000000000000000000000000000000000000,\n",
  u!"        \"квіндециліон\": 1000000000000000000000000000000000000000000000000,\n",
  u!"        \"сексдецильйон\": 1000000000000000000000000000000000000000000000000000,\n",
  u!"        \"сексдециліон\": 1000000000000000000000000000000000000000000000000000,\n",
  u!"        \"септендецильйон\": 1000000000000000000000000000000000000000000000000000000,\n",
  u!"        \"септендециліон\": 1000000000000000000000000000000000000000000000000000000,\n",
  u!"        \"октодецильйон\": 1000000000000000000000000000000000000000000000000000000000,\n",
  u!"        \"октодециліон\": 1000000000000000000000000000000000000000000000000000000000,\n",
  u!"        \"новемдецильйон\": 1000000000000000000000000000000000000000000000000000000000000,\n",
  u!"        \"новемдециліон\": 1000000000000000000000000000000000000000000000000000000000000,\n",
  u!"        \"вігінтільйон\": 1000000000000000000000000000000000000000000000000000000000000000,\n",
  u!"        \"унвігінтільйон\": 1000000000000000000000000000000000000000000000000000000000000000000,\n",
  u!"        \"дуовігінтільйон\": 1000000000000000000000000000000000000000000000000000000000000000000000,\n",
  u!"        \"тревігінтільйон\": 1000000000000000000000000000000000000000000000000000000000000000000000000,\n",
  u!"        \"кваттуорвігінтільйон\": 1000000000000000000000000000000000000000000000000000000000000000000000000000,\n",
  u!"        \"квінвігінтільйон\": 1000000000000000000000000000000000000000000000000000000000000000000000000000000,\n",
  u!"        \"сексвігінтільйон\": 1000000000000000000000000000000000000000000000000000000000000000000000000000000000,\n",
  u!"        \"септемвігінтільйон\": 1000000000000000000000000000000000000000000000000000000000000000000000000000000000000,\n",
  u!"        \"октовігінтільйон\": 1000000000000000000000000000000000000000000000000000000000000000000000000000000000000000,\n",
  u!"        \"новемвігінтільйон\": 1000000000000000000000000000000000000000000000000000000000000000000000000000000000000000000,\n",
  u!"        \"тригінтільйон\": 1000000000000000000000000000000000000000000000000000000000000000000000000000000000000000000000,\n",
  u!"        \"унтригінтільйон\": 1000000000000000000000000000000000000000000000000000000000000000000000000000000000000000000000000,\n",
  u!"        \"дуотригінтільйон\": 1000000000000000000000000000000000000000000000000000000000000000000000000000000000000000000000000000,\n",
  u!"        \"третригінтільйон\": 1000000000000000000000000000000000000000000000000000000000000000000000000000000000000000000000000000000,\n",
  u!"        \"кваттуортригінтільйон\": 1000000000000000000000000000000000000000000000000000000000000000000000000000000000000000000000000000000000,\n",
  u!"        \"квінтригінтільйон\": 1000000000000000000000000000000000000000000000000000000000000000000000000000000000000000000000000000000000000,\n",
  u!"        \"секстригінтільйон\": 1000000000000000000000000000000000000000000000000000000000000000000000000000000000000000000000000000000000000000,\n",
  u!"        \"септентригінтільйон\": 1000000000000000000000000000000000000000000000000000000000000000000000000000000000000000000000000000000000000000000,\n",
  u!"        \"октотригінтільйон\": 1000000000000000000000000000000000000000000000000000000000000000000000000000000000000000000000000000000000000000000000,\n",
  u!"        \"новемтригінтільйон\": 1000000000000000000000000000000000000000000000000000000000000000000000000000000000000000000000000000000000000000000000000,\n",
  u!"        \"квадрагінтільйон\": 1000000000000000000000000000000000000000000000000000000000000000000000000000000000000000000000000000000000000000000000000000,\n",
  u!"        \"унквадрагінтільйон\": 1000000000000000000000000000000000000000000000000000000000000000000000000000000000000000000000000000000000000000000000000000000,\n",
  u!"        \"дуоквадрагінтільйон\": 1000000000000000000000000000000000000000000000000000000000000000000000000000000000000000000000000000000000000000000000000000000000\n",
  u!"    },\n",
  u!"    \"SKIP_TOKENS\": [],\n",
  u!"    \"USE_LONG_SCALE\": False\n",
  u!"}\n"]

end NumberParser.DataText
