/- GENERATED by tools/gen_sources.py from /repo/number_parser_data/{raw_cldr,supplementary}_translation_data/*.json and
/repo/number_parser/data/*.py. Do not edit. -/
import Verif.Model.Generator

set_option maxRecDepth 100000

namespace NumberParser.Gen.Sources
open NumberParser Gen

/-- `number_parser_data/raw_cldr_translation_data/sw.json`, `SpelloutRules` -/
def swRules : RuleSets := [
  (u!"%spellout-numbering-year", [(u!"x.x", u!"=0.0=;"),
    (u!"0", u!"=%spellout-numbering=;")]),
  (u!"%spellout-numbering", [(u!"0", u!"=%spellout-cardinal=;")]),
  (u!"%spellout-cardinal", [(u!"NaN", u!"si nambari;"),
    (u!"Inf", u!"usio;"),
    (u!"-x", u!"kasoro >>;"),
    (u!"x.x", u!"<< nukta >>;"),
    (u!"0", u!"sifuri;"),
    (u!"1", u!"moja;"),
    (u!"2", u!"mbili;"),
    (u!"3", u!"tatu;"),
    (u!"4", u!"nne;"),
    (u!"5", u!"tano;"),
    (u!"6", u!"sita;"),
    (u!"7", u!"saba;"),
    (u!"8", u!"nane;"),
    (u!"9", u!"tisa;"),
    (u!"10", u!"kumi[ na >>];"),
    (u!"20", u!"ishirini[ na >>];"),
    (u!"30", u!"thelathini[ na >>];"),
    (u!"40", u!"arobaini[ na >>];"),
    (u!"50", u!"hamsini[ na >>];"),
    (u!"60", u!"sitini[ na >>];"),
    (u!"70", u!"sabini[ na >>];"),
    (u!"80", u!"themanini[ na >>];"),
    (u!"90", u!"tisini[ na >>];"),
    (u!"100", u!"mia <<[ na >>];"),
    (u!"1000", u!"elfu <<[, >>];"),
    (u!"1000000", u!"milioni <<[, >>];"),
    (u!"1000000000", u!"bilioni <<[, >>];"),
    (u!"1000000000000", u!"trilioni <<[, >>];"),
    (u!"1000000000000000", u!"kvadrilioni <<[, >>];"),
    (u!"1000000000000000000", u!"=#,##0.#=;")]),
  (u!"%spellout-ordinal", [(u!"-x", u!"wa kasoro >%spellout-cardinal>;"),
    (u!"x.x", u!"=0.0=;"),
    (u!"0", u!"wa sifuri;"),
    (u!"1", u!"kwanza;"),
    (u!"2", u!"pili;"),
    (u!"3", u!"wa =%spellout-cardinal=;")])]

/-- `number_parser_data/supplementary_translation_data/sw.json` -/
def swSupplementary : Supplementary where
  tables := {
    unit := []
    direct := []
    tens := []
    hundreds := []
    big := [] }
  skipTokens := []
  useLongScale := some false

/-- `number_parser/data/sw.py`, lines 1-29 -/
def swModule : Output where
  tables := {
    unit := [(u!"sifuri", 0), (u!"moja", 1), (u!"mbili", 2), (u!"tatu", 3), (u!"nne", 4), (u!"tano", 5), (u!"sita", 6), (u!"saba", 7), (u!"nane", 8), (u!"tisa", 9)]
    direct := []
    tens := [(u!"ishirini", 20), (u!"thelathini", 30), (u!"arobaini", 40), (u!"hamsini", 50), (u!"sitini", 60), (u!"sabini", 70), (u!"themanini", 80), (u!"tisini", 90)]
    hundreds := []
    big := [] }
  skipTokens := []
  useLongScale := some false

/-- `number_parser_data/raw_cldr_translation_data/ta.json`, `SpelloutRules` -/
def taRules : RuleSets := [
  (u!"%spellout-numbering-year", [(u!"x.x", u!"=0.0=;"),
    (u!"0", u!"=%spellout-numbering=;")]),
  (u!"%spellout-numbering", [(u!"0", u!"=%spellout-cardinal=;")]),
  (u!"%spellout-cardinal", [(u!"-x", u!"எதிர்ம >>;"),
    (u!"x.x", u!"<< புள்ளி >>;"),
    (u!"0", u!"பூஜ்யம்;"),
    (u!"1", u!"ஒன்று;"),
    (u!"2", u!"இரண்டு;"),
    (u!"3", u!"மூன்று;"),
    (u!"4", u!"நான்கு;"),
    (u!"5", u!"ஐந்து;"),
    (u!"6", u!"ஆறு;"),
    (u!"7", u!"ஏழு;"),
    (u!"8", u!"எட்டு;"),
    (u!"9", u!"ஒன்பது;"),
    (u!"10", u!"பத்து;"),
    (u!"11", u!"பதினொன்று;"),
    (u!"12", u!"பன்னிரண்டு;"),
    (u!"13", u!"பதின்மூன்று;"),
    (u!"14", u!"பதினான்கு;"),
    (u!"15", u!"பதினைந்து;"),
    (u!"16", u!"பதினாறு;"),
    (u!"17", u!"பதினேழு;"),
    (u!"18", u!"பதினெட்டு;"),
    (u!"19", u!"பத்தொன்பது;"),
    (u!"20", u!"இருபது[ >>];"),
    (u!"30", u!"முப்பது[ >>];"),
    (u!"40", u!"நாற்பது[ >>];"),
    (u!"50", u!"ஐம்பது[ >>];"),
    (u!"60", u!"அறுபது[ >>];"),
    (u!"70", u!"எழுபது[ >>];"),
    (u!"80", u!"எண்பது[ >>];"),
    (u!"90", u!"தொண்ணூறு[ >>];"),
    (u!"100", u!"நூறு[ >>];"),
    (u!"200", u!"இருநூறு[ >>];"),
    (u!"300", u!"முந்நூறு[ >>];"),
    (u!"400", u!"நாநூறூ[ >>];"),
    (u!"500", u!"ஐநூறு[ >>];"),
    (u!"600", u!"அறுநூறு[ >>];"),
    (u!"700", u!"எழுநூறு[ >>];"),
    (u!"800", u!"எண்நூறு[ >>];"),
    (u!"900", u!"தொள்ளாயிரம்[ >>];"),
    (u!"1000", u!"<< ஆயிரம்[ >>];"),
    (u!"100000", u!"<< லட்சம்[ >>];"),
    (u!"10000000", u!"<< கோடி[ >>];"),
    (u!"1000000000000000000", u!"=#,##,##0=;")]),
  (u!"%spellout-ordinal", [(u!"-x", u!"எதிர்ம >>;"),
    (u!"x.x", u!"=#,##,##0.#=;"),
    (u!"0", u!"பூஜ்யம்;"),
    (u!"1", u!"முதலாவது;"),
    (u!"2", u!"இரண்டாவது;"),
    (u!"3", u!"மூன்றாவது;"),
    (u!"4", u!"நான்காவது;"),
    (u!"5", u!"ஐந்தாவது;"),
    (u!"6", u!"ஆறாவது;"),
    (u!"7", u!"ஏழாவது;"),
    (u!"8", u!"எட்டாவது;"),
    (u!"9", u!"ஒன்பதாவது;"),
    (u!"10", u!"பத்தாவது;"),
    (u!"11", u!"பதினொன்றாவது;"),
    (u!"12", u!"பன்னிரண்டாவது;"),
    (u!"13", u!"பதிமூன்றாவது;"),
    (u!"14", u!"பதிநான்காவது;"),
    (u!"15", u!"பதினைந்தாவது;"),
    (u!"16", u!"பதினாறாவது;"),
    (u!"17", u!"பதினேழாவது;"),
    (u!"18", u!"பதினெட்டாவது;"),
    (u!"19", u!"பத்தொன்பதாவது;"),
    (u!"20", u!"இருபதாவது;"),
    (u!"21", u!"=#,##,##0=ாவது;")])]

/-- `number_parser_data/supplementary_translation_data/ta.json` -/
def taSupplementary : Supplementary where
  tables := {
    unit := []
    direct := []
    tens := []
    hundreds := []
    big := [] }
  skipTokens := []
  useLongScale := none

/-- `number_parser/data/ta.py`, lines 1-52 -/
def taModule : Output where
  tables := {
    unit := [(u!"பூஜ்யம்", 0), (u!"ஒன்று", 1), (u!"இரண்டு", 2), (u!"மூன்று", 3), (u!"நான்கு", 4), (u!"ஐந்து", 5), (u!"ஆறு", 6), (u!"ஏழு", 7), (u!"எட்டு", 8), (u!"ஒன்பது", 9)]
    direct := [(u!"பத்து", 10), (u!"பதினொன்று", 11), (u!"பன்னிரண்டு", 12), (u!"பதின்மூன்று", 13), (u!"பதினான்கு", 14), (u!"பதினைந்து", 15), (u!"பதினாறு", 16), (u!"பதினேழு", 17), (u!"பதினெட்டு", 18), (u!"பத்தொன்பது", 19)]
    tens := [(u!"இருபது", 20), (u!"முப்பது", 30), (u!"நாற்பது", 40), (u!"ஐம்பது", 50), (u!"அறுபது", 60), (u!"எழுபது", 70), (u!"எண்பது", 80), (u!"தொண்ணூறு", 90)]
    hundreds := [(u!"இருநூறு", 200), (u!"முந்நூறு", 300), (u!"நாநூறூ", 400), (u!"ஐநூறு", 500), (u!"அறுநூறு", 600), (u!"எழுநூறு", 700), (u!"எண்நூறு", 800), (u!"தொள்ளாயிரம்", 900)]
    big := [(u!"ஆயிரம்", 1000), (u!"லட்சம்", 100000), (u!"கோடி", 10000000)] }
  skipTokens := []
  useLongScale := none

/-- `number_parser_data/raw_cldr_translation_data/th.json`, `SpelloutRules` -/
def thRules : RuleSets := [
  (u!"%spellout-numbering-year", [(u!"x.x", u!"=0.0=;"),
    (u!"0", u!"=%spellout-numbering=;")]),
  (u!"%spellout-numbering", [(u!"0", u!"=%spellout-cardinal=;")]),
  (u!"%spellout-cardinal", [(u!"-x", u!"ลบ\u200b>>;"),
    (u!"x.x", u!"<<\u200bจุด\u200b>>>;"),
    (u!"0", u!"ศูนย์;"),
    (u!"1", u!"หนึ่ง;"),
    (u!"2", u!"สอง;"),
    (u!"3", u!"สาม;"),
    (u!"4", u!"สี่;"),
    (u!"5", u!"ห้า;"),
    (u!"6", u!"หก;"),
    (u!"7", u!"เจ็ด;"),
    (u!"8", u!"แปด;"),
    (u!"9", u!"เก้า;"),
    (u!"10", u!"สิบ[\u200b>%%alt-ones>];"),
    (u!"20", u!"ยี่\u200bสิบ[\u200b>%%alt-ones>];"),
    (u!"30", u!"<<\u200bสิบ[\u200b>%%alt-ones>];"),
    (u!"100", u!"<<\u200bร้อย[\u200b>>];"),
    (u!"1000", u!"<<\u200bพัน[\u200b>>];"),
    (u!"10000", u!"<<\u200bหมื่น[\u200b>>];"),
    (u!"100000", u!"<<\u200bแสน[\u200b>>];"),
    (u!"1000000", u!"<<\u200bล้าน[\u200b>>];"),
    (u!"1000000000000000000", u!"=#,##0=;")]),
  (u!"%%alt-ones", [(u!"1", u!"เอ็ด;"),
    (u!"2", u!"=%spellout-cardinal=;")]),
  (u!"%spellout-ordinal", [(u!"x.x", u!"=#,##0.#=;"),
    (u!"0", u!"ที่\u200b=%spellout-cardinal=;")])]

/-- `number_parser_data/supplementary_translation_data/th.json` -/
def thSupplementary : Supplementary where
  tables := {
    unit := []
    direct := []
    tens := []
    hundreds := []
    big := [] }
  skipTokens := []
  useLongScale := none

/-- `number_parser/data/th.py`, lines 1-21 -/
def thModule : Output where
  tables := {
    unit := [(u!"ศูนย์", 0), (u!"หนึ่ง", 1), (u!"สอง", 2), (u!"สาม", 3), (u!"สี่", 4), (u!"ห้า", 5), (u!"หก", 6), (u!"เจ็ด", 7), (u!"แปด", 8), (u!"เก้า", 9)]
    direct := []
    tens := [(u!"ยี่\u200bสิบ", 20)]
    hundreds := []
    big := [] }
  skipTokens := []
  useLongScale := none

/-- `number_parser_data/raw_cldr_translation_data/tr.json`, `SpelloutRules` -/
def trRules : RuleSets := [
  (u!"%spellout-numbering-year", [(u!"x.x", u!"=0.0=;"),
    (u!"0", u!"=%spellout-numbering=;")]),
  (u!"%spellout-numbering", [(u!"0", u!"=%spellout-cardinal=;")]),
  (u!"%spellout-cardinal", [(u!"-x", u!"eksi >>;"),
    (u!"x.x", u!"<< virgül >>;"),
    (u!"0", u!"sıfır;"),
    (u!"1", u!"bir;"),
    (u!"2", u!"iki;"),
    (u!"3", u!"üç;"),
    (u!"4", u!"dört;"),
    (u!"5", u!"beş;"),
    (u!"6", u!"altı;"),
    (u!"7", u!"yedi;"),
    (u!"8", u!"sekiz;"),
    (u!"9", u!"dokuz;"),
    (u!"10", u!"on[ >>];"),
    (u!"20", u!"yirmi[ >>];"),
    (u!"30", u!"otuz[ >>];"),
    (u!"40", u!"kırk[ >>];"),
    (u!"50", u!"elli[ >>];"),
    (u!"60", u!"altmış[ >>];"),
    (u!"70", u!"yetmiş[ >>];"),
    (u!"80", u!"seksen[ >>];"),
    (u!"90", u!"doksan[ >>];"),
    (u!"100", u!"yüz[ >>];"),
    (u!"200", u!"<< yüz[ >>];"),
    (u!"1000", u!"bin[ >>];"),
    (u!"2000", u!"<< bin[ >>];"),
    (u!"1000000", u!"<< milyon[ >>];"),
    (u!"1000000000", u!"<< milyar[ >>];"),
    (u!"1000000000000", u!"<< trilyon[ >>];"),
    (u!"1000000000000000", u!"<< katrilyon[ >>];"),
    (u!"1000000000000000000", u!"=#,##0=;")]),
  (u!"%%inci", [(u!"0", u!"inci;"),
    (u!"1", u!"' =%spellout-ordinal=;")]),
  (u!"%%nci", [(u!"0", u!"nci;"),
    (u!"1", u!"' =%spellout-ordinal=;")]),
  (u!"%%inci2", [(u!"0", u!"ıncı;"),
    (u!"1", u!"' =%spellout-ordinal=;")]),
  (u!"%%uncu2", [(u!"0", u!"üncü;"),
    (u!"1", u!"' =%spellout-ordinal=;")]),
  (u!"%%uncu", [(u!"0", u!"uncu;"),
    (u!"1", u!"' =%spellout-ordinal=;")]),
  (u!"%spellout-ordinal", [(u!"-x", u!"eksi >>;"),
    (u!"x.x", u!"=#,##0.#=;"),
    (u!"0", u!"sıfırıncı;"),
    (u!"1", u!"birinci;"),
    (u!"2", u!"ikinci;"),
    (u!"3", u!"üçüncü;"),
    (u!"4", u!"dördüncü;"),
    (u!"5", u!"beşinci;"),
    (u!"6", u!"altıncı;"),
    (u!"7", u!"yedinci;"),
    (u!"8", u!"sekizinci;"),
    (u!"9", u!"dokuzuncu;"),
    (u!"10", u!"on>%%uncu>;"),
    (u!"20", u!"yirmi>%%nci>;"),
    (u!"30", u!"otuz>%%uncu>;"),
    (u!"40", u!"kırk>%%inci2>;"),
    (u!"50", u!"elli>%%nci>;"),
    (u!"60", u!"altmış>%%inci2>;"),
    (u!"70", u!"yetmiş>%%inci>;"),
    (u!"80", u!"seksen>%%inci>;"),
    (u!"90", u!"doksan>%%inci2>;"),
    (u!"100", u!"yüz>%%uncu2>;"),
    (u!"200", u!"<%spellout-numbering< yüz>%%uncu2>;"),
    (u!"1000", u!"bin>%%inci>;"),
    (u!"2000", u!"<%spellout-numbering< bin>%%inci>;"),
    (u!"1000000", u!"<%spellout-numbering< milyon>%%uncu>;"),
    (u!"1000000000", u!"<%spellout-numbering< milyar>%%inci2>;"),
    (u!"1000000000000", u!"<%spellout-numbering< trilyon>%%uncu>;"),
    (u!"1000000000000000", u!"<%spellout-numbering< katrilyon>%%uncu>;"),
    (u!"1000000000000000000", u!"=#,##0='inci;")])]

/-- `number_parser_data/supplementary_translation_data/tr.json` -/
def trSupplementary : Supplementary where
  tables := {
    unit := []
    direct := []
    tens := []
    hundreds := []
    big := [] }
  skipTokens := []
  useLongScale := some false

/-- `number_parser/data/tr.py`, lines 1-36 -/
def trModule : Output where
  tables := {
    unit := [(u!"sıfır", 0), (u!"bir", 1), (u!"iki", 2), (u!"üç", 3), (u!"dört", 4), (u!"beş", 5), (u!"altı", 6), (u!"yedi", 7), (u!"sekiz", 8), (u!"dokuz", 9)]
    direct := []
    tens := [(u!"yirmi", 20), (u!"otuz", 30), (u!"kırk", 40), (u!"elli", 50), (u!"altmış", 60), (u!"yetmiş", 70), (u!"seksen", 80), (u!"doksan", 90)]
    hundreds := []
    big := [(u!"yüz", 100), (u!"bin", 1000), (u!"milyon", 1000000), (u!"milyar", 1000000000), (u!"trilyon", 1000000000000), (u!"katrilyon", 1000000000000000)] }
  skipTokens := []
  useLongScale := some false

/-- `number_parser_data/raw_cldr_translation_data/vi.json`, `SpelloutRules` -/
def viRules : RuleSets := [
  (u!"%spellout-numbering-year", [(u!"x.x", u!"=0.0=;"),
    (u!"0", u!"=%spellout-numbering=;")]),
  (u!"%spellout-numbering", [(u!"0", u!"=%spellout-cardinal=;")]),
  (u!"%%teen", [(u!"0", u!"=%spellout-cardinal=;"),
    (u!"5", u!"lăm;"),
    (u!"6", u!"=%spellout-cardinal=;")]),
  (u!"%%x-ty", [(u!"0", u!"=%spellout-cardinal=;"),
    (u!"1", u!"mốt;"),
    (u!"2", u!"=%%teen=;"),
    (u!"4", u!"tư;"),
    (u!"5", u!"=%%teen=;")]),
  (u!"%%after-hundred", [(u!"0", u!"lẻ =%spellout-cardinal=;"),
    (u!"10", u!"=%spellout-cardinal=;")]),
  (u!"%%after-thousand-or-more", [(u!"0", u!"không trăm =%%after-hundred=;"),
    (u!"100", u!"=%spellout-cardinal=;")]),
  (u!"%spellout-cardinal", [(u!"-x", u!"âm >>;"),
    (u!"x.x", u!"<< phẩy >>;"),
    (u!"0", u!"không;"),
    (u!"1", u!"một;"),
    (u!"2", u!"hai;"),
    (u!"3", u!"ba;"),
    (u!"4", u!"bốn;"),
    (u!"5", u!"năm;"),
    (u!"6", u!"sáu;"),
    (u!"7", u!"bảy;"),
    (u!"8", u!"tám;"),
    (u!"9", u!"chín;"),
    (u!"10", u!"mười[ >%%teen>];"),
    (u!"20", u!"<< mươi[ >%%x-ty>];"),
    (u!"100", u!"<< trăm[ >%%after-hundred>];"),
    (u!"1000", u!"<< nghìn[ >%%after-thousand-or-more>];"),
    (u!"1000000", u!"<< triệu[ >%%after-hundred>];"),
    (u!"1000000000", u!"<< tỷ[ >%%after-hundred>];"),
    (u!"1000000000000000000", u!"=#,##0=;")]),
  (u!"%spellout-ordinal", [(u!"x.x", u!"=#,##0.#=;"),
    (u!"0", u!"thứ =%spellout-cardinal=;"),
    (u!"1", u!"thứ nhất;"),
    (u!"2", u!"thứ nhì;"),
    (u!"3", u!"thứ =%spellout-cardinal=;"),
    (u!"4", u!"thứ tư;"),
    (u!"5", u!"thứ =%spellout-cardinal=;")])]

/-- `number_parser_data/supplementary_translation_data/vi.json` -/
def viSupplementary : Supplementary where
  tables := {
    unit := []
    direct := []
    tens := []
    hundreds := []
    big := [] }
  skipTokens := []
  useLongScale := none

/-- `number_parser/data/vi.py`, lines 1-24 -/
def viModule : Output where
  tables := {
    unit := [(u!"không", 0), (u!"một", 1), (u!"hai", 2), (u!"ba", 3), (u!"bốn", 4), (u!"năm", 5), (u!"sáu", 6), (u!"bảy", 7), (u!"tám", 8), (u!"chín", 9)]
    direct := []
    tens := []
    hundreds := []
    big := [(u!"trăm", 100), (u!"nghìn", 1000), (u!"triệu", 1000000), (u!"tỷ", 1000000000)] }
  skipTokens := []
  useLongScale := none

/-- `number_parser_data/raw_cldr_translation_data/yue.json`, `SpelloutRules` -/
def yueRules : RuleSets := [
  (u!"%spellout-numbering-year", [(u!"x.x", u!"=0.0=;"),
    (u!"0", u!"=%spellout-numbering=;"),
    (u!"1000", u!"=%%spellout-numbering-year-digits=;"),
    (u!"10000", u!"=%spellout-numbering=;")]),
  (u!"%%spellout-numbering-year-digits", [(u!"0", u!"=%spellout-numbering=;"),
    (u!"10", u!"<<>>>;"),
    (u!"100", u!"<<>>>;"),
    (u!"1000", u!"<<>>>;")]),
  (u!"%spellout-numbering", [(u!"-x", u!"負>>;"),
    (u!"x.x", u!"<<點>>>;"),
    (u!"0", u!"零;"),
    (u!"1", u!"一;"),
    (u!"2", u!"二;"),
    (u!"3", u!"三;"),
    (u!"4", u!"四;"),
    (u!"5", u!"五;"),
    (u!"6", u!"六;"),
    (u!"7", u!"七;"),
    (u!"8", u!"八;"),
    (u!"9", u!"九;"),
    (u!"10", u!"十[>>];"),
    (u!"20", u!"<<十[>>];"),
    (u!"100", u!"<<百[>%%number2>];"),
    (u!"1000", u!"<<千[>%%number3>];"),
    (u!"10000", u!"<<萬[>%%number4>];"),
    (u!"100000000", u!"<<億[>%%number5>];"),
    (u!"1000000000000", u!"<<兆[>%%number8>];"),
    (u!"10000000000000000", u!"<<京[>%%number13>];"),
    (u!"1000000000000000000", u!"=#,##0=;")]),
  (u!"%%number2", [(u!"1", u!"零=%spellout-numbering=;"),
    (u!"10", u!"一=%spellout-numbering=;"),
    (u!"20", u!"=%spellout-numbering=;")]),
  (u!"%%number3", [(u!"1", u!"零=%spellout-numbering=;"),
    (u!"10", u!"零一=%spellout-numbering=;"),
    (u!"20", u!"零=%spellout-numbering=;"),
    (u!"100", u!"=%spellout-numbering=;")]),
  (u!"%%number4", [(u!"1", u!"零=%spellout-numbering=;"),
    (u!"10", u!"零一=%spellout-numbering=;"),
    (u!"20", u!"零=%spellout-numbering=;"),
    (u!"1000", u!"=%spellout-numbering=;")]),
  (u!"%%number5", [(u!"1", u!"零=%spellout-numbering=;"),
    (u!"10", u!"零一=%spellout-numbering=;"),
    (u!"20", u!"零=%spellout-numbering=;"),
    (u!"10000", u!"=%spellout-numbering=;")]),
  (u!"%%number8", [(u!"1", u!"零=%spellout-numbering=;"),
    (u!"10", u!"零一=%spellout-numbering=;"),
    (u!"20", u!"零=%spellout-numbering=;"),
    (u!"10000000", u!"=%spellout-numbering=;")]),
  (u!"number13", [(u!"1", u!"零=%spellout-numbering=;")]),
  (u!"%%number13", [(u!"10", u!"零一=%spellout-numbering=;"),
    (u!"20", u!"零=%spellout-numbering=;"),
    (u!"1000000000000", u!"=%spellout-numbering=;")]),
  (u!"%spellout-cardinal-financial", [(u!"-x", u!"負>>;"),
    (u!"x.x", u!"<<點>>>;"),
    (u!"0", u!"零;"),
    (u!"1", u!"壹;"),
    (u!"2", u!"貳;"),
    (u!"3", u!"叁;"),
    (u!"4", u!"肆;"),
    (u!"5", u!"伍;"),
    (u!"6", u!"陸;"),
    (u!"7", u!"柒;"),
    (u!"8", u!"捌;"),
    (u!"9", u!"玖;"),
    (u!"10", u!"拾[>>];"),
    (u!"20", u!"<<拾[>>];"),
    (u!"100", u!"<<佰[>%%financialnumber2>];"),
    (u!"1000", u!"<<仟[>%%financialnumber3>];"),
    (u!"10000", u!"<%spellout-cardinal-financial<萬[>%%financialnumber4>];"),
    (u!"100000000", u!"<%spellout-cardinal-financial<億[>%%financialnumber5>];"),
    (u!"1000000000000", u!"<%spellout-cardinal-financial<兆[>%%financialnumber8>];"),
    (u!"10000000000000000", u!"<%spellout-cardinal-financial<京[>%%financialnumber13>];"),
    (u!"1000000000000000000", u!"=#,##0=;")]),
  (u!"%%financialnumber2", [(u!"1", u!"零=%spellout-cardinal-financial=;"),
    (u!"10", u!"壹=%spellout-cardinal-financial=;"),
    (u!"20", u!"=%spellout-cardinal-financial=;")]),
  (u!"%%financialnumber3", [(u!"1", u!"零=%spellout-cardinal-financial=;"),
    (u!"10", u!"零壹=%spellout-cardinal-financial=;"),
    (u!"20", u!"零=%spellout-cardinal-financial=;"),
    (u!"100", u!"=%spellout-cardinal-financial=;")]),
  (u!"%%financialnumber4", [(u!"1", u!"零=%spellout-cardinal-financial=;"),
    (u!"10", u!"零壹=%spellout-cardinal-financial=;"),
    (u!"20", u!"零=%spellout-cardinal-financial=;"),
    (u!"1000", u!"=%spellout-cardinal-financial=;")]),
  (u!"%%financialnumber5", [(u!"1", u!"零=%spellout-cardinal-financial=;"),
    (u!"10", u!"零壹=%spellout-cardinal-financial=;"),
    (u!"20", u!"零=%spellout-cardinal-financial=;"),
    (u!"10000", u!"=%spellout-cardinal-financial=;")]),
  (u!"%%financialnumber8", [(u!"1", u!"零=%spellout-cardinal-financial=;"),
    (u!"10", u!"零壹=%spellout-cardinal-financial=;"),
    (u!"20", u!"零=%spellout-cardinal-financial=;"),
    (u!"10000000", u!"=%spellout-cardinal-financial=;")]),
  (u!"financialnumber13", [(u!"1", u!"零=%spellout-cardinal-financial=;")]),
  (u!"%%financialnumber13", [(u!"10", u!"零壹=%spellout-cardinal-financial=;"),
    (u!"20", u!"零=%spellout-cardinal-financial=;"),
    (u!"1000000000000", u!"=%spellout-cardinal-financial=;")]),
  (u!"%spellout-cardinal", [(u!"-x", u!"負>>;"),
    (u!"x.x", u!"<<點>>>;"),
    (u!"0", u!"零;"),
    (u!"1", u!"一;"),
    (u!"2", u!"二;"),
    (u!"3", u!"三;"),
    (u!"4", u!"四;"),
    (u!"5", u!"五;"),
    (u!"6", u!"六;"),
    (u!"7", u!"七;"),
    (u!"8", u!"八;"),
    (u!"9", u!"九;"),
    (u!"10", u!"<%%cardinal-twenties<十[>%spellout-numbering>];"),
    (u!"21", u!"廿[>%spellout-numbering>];"),
    (u!"30", u!"<%spellout-numbering<十[>>];"),
    (u!"100", u!"<%spellout-numbering<百[>%%number2>];"),
    (u!"1000", u!"<%spellout-numbering<千[>%%number3>];"),
    (u!"10000", u!"<%spellout-numbering<萬[>%%number4>];"),
    (u!"100000000", u!"<%spellout-numbering<億[>%%number5>];"),
    (u!"1000000000000", u!"<%spellout-numbering<兆[>%%number8>];"),
    (u!"10000000000000000", u!"<%spellout-numbering<京[>%%number13>];"),
    (u!"1000000000000000000", u!"=#,##0=;")]),
  (u!"%spellout-cardinal-alternate2", [(u!"3", u!"=%spellout-cardinal=;")]),
  (u!"spellout-cardinal-alternate2", [(u!"2", u!"兩;")]),
  (u!"%%cardinal-twenties", [(u!"1", u!";"),
    (u!"2", u!"二;")]),
  (u!"%spellout-ordinal", [(u!"x.x", u!"=#,##0.#=;"),
    (u!"0", u!"第=%spellout-numbering=;")])]

/-- `number_parser_data/supplementary_translation_data/yue.json` -/
def yueSupplementary : Supplementary where
  tables := {
    unit := []
    direct := []
    tens := []
    hundreds := []
    big := [] }
  skipTokens := []
  useLongScale := none

/-- `number_parser/data/yue.py`, lines 1-29 -/
def yueModule : Output where
  tables := {
    unit := [(u!"零", 0), (u!"一", 1), (u!"壹", 1), (u!"二", 2), (u!"兩", 2), (u!"貳", 2), (u!"三", 3), (u!"叁", 3), (u!"四", 4), (u!"肆", 4), (u!"五", 5), (u!"伍", 5), (u!"六", 6), (u!"陸", 6), (u!"七", 7), (u!"柒", 7), (u!"八", 8), (u!"捌", 8), (u!"九", 9), (u!"玖", 9)]
    direct := []
    tens := []
    hundreds := []
    big := [] }
  skipTokens := []
  useLongScale := none

/-- `number_parser_data/raw_cldr_translation_data/yue-Hans.json`, `SpelloutRules` -/
def yue_HansRules : RuleSets := [
  (u!"%spellout-numbering-year", [(u!"x.x", u!"=0.0=;"),
    (u!"0", u!"=%spellout-numbering=;"),
    (u!"1000", u!"=%%spellout-numbering-year-digits=;"),
    (u!"10000", u!"=%spellout-numbering=;")]),
  (u!"%%spellout-numbering-year-digits", [(u!"0", u!"=%spellout-numbering=;"),
    (u!"10", u!"<<>>>;"),
    (u!"100", u!"<<>>>;"),
    (u!"1000", u!"<<>>>;")]),
  (u!"%spellout-numbering", [(u!"-x", u!"负>>;"),
    (u!"x.x", u!"<<点>>>;"),
    (u!"0", u!"零;"),
    (u!"1", u!"一;"),
    (u!"2", u!"二;"),
    (u!"3", u!"三;"),
    (u!"4", u!"四;"),
    (u!"5", u!"五;"),
    (u!"6", u!"六;"),
    (u!"7", u!"七;"),
    (u!"8", u!"八;"),
    (u!"9", u!"九;"),
    (u!"10", u!"十[>>];"),
    (u!"20", u!"<<十[>>];"),
    (u!"100", u!"<<百[>%%number2>];"),
    (u!"1000", u!"<<千[>%%number3>];"),
    (u!"10000", u!"<<万[>%%number4>];"),
    (u!"100000000", u!"<<亿[>%%number5>];"),
    (u!"1000000000000", u!"<<兆[>%%number8>];"),
    (u!"10000000000000000", u!"<<京[>%%number13>];"),
    (u!"1000000000000000000", u!"=#,##0=;")]),
  (u!"%%number2", [(u!"1", u!"零=%spellout-numbering=;"),
    (u!"10", u!"一=%spellout-numbering=;"),
    (u!"20", u!"=%spellout-numbering=;")]),
  (u!"%%number3", [(u!"1", u!"零=%spellout-numbering=;"),
    (u!"10", u!"零一=%spellout-numbering=;"),
    (u!"20", u!"零=%spellout-numbering=;"),
    (u!"100", u!"=%spellout-numbering=;")]),
  (u!"%%number4", [(u!"1", u!"零=%spellout-numbering=;"),
    (u!"10", u!"零一=%spellout-numbering=;"),
    (u!"20", u!"零=%spellout-numbering=;"),
    (u!"1000", u!"=%spellout-numbering=;")]),
  (u!"%%number5", [(u!"1", u!"零=%spellout-numbering=;"),
    (u!"10", u!"零一=%spellout-numbering=;"),
    (u!"20", u!"零=%spellout-numbering=;"),
    (u!"10000", u!"=%spellout-numbering=;")]),
  (u!"%%number8", [(u!"1", u!"零=%spellout-numbering=;"),
    (u!"10", u!"零一=%spellout-numbering=;"),
    (u!"20", u!"零=%spellout-numbering=;"),
    (u!"10000000", u!"=%spellout-numbering=;")]),
  (u!"number13", [(u!"1", u!"零=%spellout-numbering=;")]),
  (u!"%%number13", [(u!"10", u!"零一=%spellout-numbering=;"),
    (u!"20", u!"零=%spellout-numbering=;"),
    (u!"1000000000000", u!"=%spellout-numbering=;")]),
  (u!"%spellout-cardinal-financial", [(u!"-x", u!"负>>;"),
    (u!"x.x", u!"<<点>>>;"),
    (u!"0", u!"零;"),
    (u!"1", u!"壹;"),
    (u!"2", u!"贰;"),
    (u!"3", u!"叁;"),
    (u!"4", u!"肆;"),
    (u!"5", u!"伍;"),
    (u!"6", u!"陆;"),
    (u!"7", u!"柒;"),
    (u!"8", u!"捌;"),
    (u!"9", u!"玖;"),
    (u!"10", u!"拾[>>];"),
    (u!"20", u!"<<拾[>>];"),
    (u!"100", u!"<<佰[>%%financialnumber2>];"),
    (u!"1000", u!"<<仟[>%%financialnumber3>];"),
    (u!"10000", u!"<%spellout-cardinal-financial<万[>%%financialnumber4>];"),
    (u!"100000000", u!"<%spellout-cardinal-financial<亿[>%%financialnumber5>];"),
    (u!"1000000000000", u!"<%spellout-cardinal-financial<兆[>%%financialnumber8>];"),
    (u!"10000000000000000", u!"<%spellout-cardinal-financial<京[>%%financialnumber13>];"),
    (u!"1000000000000000000", u!"=#,##0=;")]),
  (u!"%%financialnumber2", [(u!"1", u!"零=%spellout-cardinal-financial=;"),
    (u!"10", u!"壹=%spellout-cardinal-financial=;"),
    (u!"20", u!"=%spellout-cardinal-financial=;")]),
  (u!"%%financialnumber3", [(u!"1", u!"零=%spellout-cardinal-financial=;"),
    (u!"10", u!"零壹=%spellout-cardinal-financial=;"),
    (u!"20", u!"零=%spellout-cardinal-financial=;"),
    (u!"100", u!"=%spellout-cardinal-financial=;")]),
  (u!"%%financialnumber4", [(u!"1", u!"零=%spellout-cardinal-financial=;"),
    (u!"10", u!"零壹=%spellout-cardinal-financial=;"),
    (u!"20", u!"零=%spellout-cardinal-financial=;"),
    (u!"1000", u!"=%spellout-cardinal-financial=;")]),
  (u!"%%financialnumber5", [(u!"1", u!"零=%spellout-cardinal-financial=;"),
    (u!"10", u!"零壹=%spellout-cardinal-financial=;"),
    (u!"20", u!"零=%spellout-cardinal-financial=;"),
    (u!"10000", u!"=%spellout-cardinal-financial=;")]),
  (u!"%%financialnumber8", [(u!"1", u!"零=%spellout-cardinal-financial=;"),
    (u!"10", u!"零壹=%spellout-cardinal-financial=;"),
    (u!"20", u!"零=%spellout-cardinal-financial=;"),
    (u!"10000000", u!"=%spellout-cardinal-financial=;")]),
  (u!"financialnumber13", [(u!"1", u!"零=%spellout-cardinal-financial=;")]),
  (u!"%%financialnumber13", [(u!"10", u!"零壹=%spellout-cardinal-financial=;"),
    (u!"20", u!"零=%spellout-cardinal-financial=;"),
    (u!"1000000000000", u!"=%spellout-cardinal-financial=;")]),
  (u!"%spellout-cardinal", [(u!"-x", u!"负>>;"),
    (u!"x.x", u!"<<点>>>;"),
    (u!"0", u!"零;"),
    (u!"1", u!"一;"),
    (u!"2", u!"二;"),
    (u!"3", u!"三;"),
    (u!"4", u!"四;"),
    (u!"5", u!"五;"),
    (u!"6", u!"六;"),
    (u!"7", u!"七;"),
    (u!"8", u!"八;"),
    (u!"9", u!"九;"),
    (u!"10", u!"<%%cardinal-twenties<十[>%spellout-numbering>];"),
    (u!"21", u!"廿[>%spellout-numbering>];"),
    (u!"30", u!"<%spellout-numbering<十[>>];"),
    (u!"100", u!"<%spellout-numbering<百[>%%number2>];"),
    (u!"1000", u!"<%spellout-numbering<千[>%%number3>];"),
    (u!"10000", u!"<%spellout-numbering<万[>%%number4>];"),
    (u!"100000000", u!"<%spellout-numbering<亿[>%%number5>];"),
    (u!"1000000000000", u!"<%spellout-numbering<兆[>%%number8>];"),
    (u!"10000000000000000", u!"<%spellout-numbering<京[>%%number13>];"),
    (u!"1000000000000000000", u!"=#,##0=;")]),
  (u!"%spellout-cardinal-alternate2", [(u!"3", u!"=%spellout-cardinal=;")]),
  (u!"spellout-cardinal-alternate2", [(u!"2", u!"两;")]),
  (u!"%%cardinal-twenties", [(u!"1", u!";"),
    (u!"2", u!"二;")]),
  (u!"%spellout-ordinal", [(u!"x.x", u!"=#,##0.#=;"),
    (u!"0", u!"第=%spellout-numbering=;")])]

/-- `number_parser_data/supplementary_translation_data/yue-Hans.json` -/
def yue_HansSupplementary : Supplementary where
  tables := {
    unit := []
    direct := []
    tens := []
    hundreds := []
    big := [] }
  skipTokens := []
  useLongScale := none

/-- `number_parser/data/yue-Hans.py`, lines 1-29 -/
def yue_HansModule : Output where
  tables := {
    unit := [(u!"零", 0), (u!"一", 1), (u!"壹", 1), (u!"两", 2), (u!"二", 2), (u!"贰", 2), (u!"三", 3), (u!"叁", 3), (u!"四", 4), (u!"肆", 4), (u!"五", 5), (u!"伍", 5), (u!"六", 6), (u!"陆", 6), (u!"七", 7), (u!"柒", 7), (u!"八", 8), (u!"捌", 8), (u!"九", 9), (u!"玖", 9)]
    direct := []
    tens := []
    hundreds := []
    big := [] }
  skipTokens := []
  useLongScale := none

/-- `number_parser_data/raw_cldr_translation_data/zh.json`, `SpelloutRules` -/
def zhRules : RuleSets := [
  (u!"%spellout-numbering-year", [(u!"x.x", u!"=0.0=;"),
    (u!"0", u!"=%spellout-numbering=;"),
    (u!"1000", u!"=%%spellout-numbering-year-digits=;"),
    (u!"10000", u!"=%spellout-numbering=;")]),
  (u!"%%spellout-numbering-year-digits", [(u!"0", u!"=%spellout-numbering=;"),
    (u!"10", u!"<<>>>;"),
    (u!"100", u!"<<>>>;"),
    (u!"1000", u!"<<>>>;")]),
  (u!"%spellout-numbering-days", [(u!"-x", u!"负>>;"),
    (u!"x.x", u!"=#,##0.#=;"),
    (u!"0", u!"〇;"),
    (u!"1", u!"初=%spellout-numbering=;"),
    (u!"11", u!"=%spellout-numbering=;"),
    (u!"21", u!"=%%numbering-days=;")]),
  (u!"%%numbering-days", [(u!"0", u!"=%spellout-numbering=;"),
    (u!"21", u!"廿>>;"),
    (u!"30", u!"<<十;"),
    (u!"31", u!"丗>>;"),
    (u!"40", u!"<<十;"),
    (u!"41", u!"卌>>;"),
    (u!"50", u!"=%spellout-numbering=;")]),
  (u!"%spellout-numbering", [(u!"-x", u!"负>>;"),
    (u!"x.x", u!"<<点>>>;"),
    (u!"0", u!"〇;"),
    (u!"1", u!"一;"),
    (u!"2", u!"二;"),
    (u!"3", u!"三;"),
    (u!"4", u!"四;"),
    (u!"5", u!"五;"),
    (u!"6", u!"六;"),
    (u!"7", u!"七;"),
    (u!"8", u!"八;"),
    (u!"9", u!"九;"),
    (u!"10", u!"十[>>];"),
    (u!"20", u!"<<十[>>];"),
    (u!"100", u!"<<百[>%%number2>];"),
    (u!"1000", u!"<<千[>%%number3>];"),
    (u!"10000", u!"<<万[>%%number4>];"),
    (u!"100000000", u!"<<亿[>%%number5>];"),
    (u!"1000000000000", u!"<<兆[>%%number8>];"),
    (u!"10000000000000000", u!"<<京[>%%number13>];"),
    (u!"1000000000000000000", u!"=#,##0=;")]),
  (u!"%%number2", [(u!"1", u!"〇=%spellout-numbering=;"),
    (u!"10", u!"一=%spellout-numbering=;"),
    (u!"20", u!"=%spellout-numbering=;")]),
  (u!"%%number3", [(u!"1", u!"〇=%spellout-numbering=;"),
    (u!"10", u!"〇一=%spellout-numbering=;"),
    (u!"20", u!"〇=%spellout-numbering=;"),
    (u!"100", u!"=%spellout-numbering=;")]),
  (u!"%%number4", [(u!"1", u!"〇=%spellout-numbering=;"),
    (u!"10", u!"〇一=%spellout-numbering=;"),
    (u!"20", u!"〇=%spellout-numbering=;"),
    (u!"1000", u!"=%spellout-numbering=;")]),
  (u!"%%number5", [(u!"1", u!"〇=%spellout-numbering=;"),
    (u!"10", u!"〇一=%spellout-numbering=;"),
    (u!"20", u!"〇=%spellout-numbering=;"),
    (u!"10000", u!"=%spellout-numbering=;")]),
  (u!"%%number8", [(u!"1", u!"〇=%spellout-numbering=;"),
    (u!"10", u!"〇一=%spellout-numbering=;"),
    (u!"20", u!"〇=%spellout-numbering=;"),
    (u!"10000000", u!"=%spellout-numbering=;")]),
  (u!"number13", [(u!"1", u!"〇=%spellout-numbering=;")]),
  (u!"%%number13", [(u!"10", u!"〇一=%spellout-numbering=;"),
    (u!"20", u!"〇=%spellout-numbering=;"),
    (u!"1000000000000", u!"=%spellout-numbering=;")]),
  (u!"%spellout-cardinal-financial", [(u!"-x", u!"负>>;"),
    (u!"x.x", u!"<<点>>>;"),
    (u!"0", u!"零;"),
    (u!"1", u!"壹;"),
    (u!"2", u!"贰;"),
    (u!"3", u!"叁;"),
    (u!"4", u!"肆;"),
    (u!"5", u!"伍;"),
    (u!"6", u!"陆;"),
    (u!"7", u!"柒;"),
    (u!"8", u!"捌;"),
    (u!"9", u!"玖;"),
    (u!"10", u!"拾[>>];"),
    (u!"20", u!"<<拾[>>];"),
    (u!"100", u!"<<佰[>%%financialnumber2>];"),
    (u!"1000", u!"<<仟[>%%financialnumber3>];"),
    (u!"10000", u!"<<万[>%%financialnumber4>];"),
    (u!"100000000", u!"<<亿[>%%financialnumber5>];"),
    (u!"1000000000000", u!"<<兆[>%%financialnumber8>];"),
    (u!"10000000000000000", u!"<<京[>%%financialnumber13>];"),
    (u!"1000000000000000000", u!"=#,##0=;")]),
  (u!"%%financialnumber2", [(u!"1", u!"零=%spellout-cardinal-financial=;"),
    (u!"10", u!"壹=%spellout-cardinal-financial=;"),
    (u!"20", u!"=%spellout-cardinal-financial=;")]),
  (u!"%%financialnumber3", [(u!"1", u!"零=%spellout-cardinal-financial=;"),
    (u!"10", u!"零壹=%spellout-cardinal-financial=;"),
    (u!"20", u!"零=%spellout-cardinal-financial=;"),
    (u!"100", u!"=%spellout-cardinal-financial=;")]),
  (u!"%%financialnumber4", [(u!"1", u!"零=%spellout-cardinal-financial=;"),
    (u!"10", u!"零壹=%spellout-cardinal-financial=;"),
    (u!"20", u!"零=%spellout-cardinal-financial=;"),
    (u!"1000", u!"=%spellout-cardinal-financial=;")]),
  (u!"%%financialnumber5", [(u!"1", u!"零=%spellout-cardinal-financial=;"),
    (u!"10", u!"零壹=%spellout-cardinal-financial=;"),
    (u!"20", u!"零=%spellout-cardinal-financial=;"),
    (u!"10000", u!"=%spellout-cardinal-financial=;")]),
  (u!"%%financialnumber8", [(u!"1", u!"零=%spellout-cardinal-financial=;"),
    (u!"10", u!"零壹=%spellout-cardinal-financial=;"),
    (u!"20", u!"零=%spellout-cardinal-financial=;"),
    (u!"10000000", u!"=%spellout-cardinal-financial=;")]),
  (u!"financialnumber13", [(u!"1", u!"零=%spellout-cardinal-financial=;")]),
  (u!"%%financialnumber13", [(u!"10", u!"零壹=%spellout-cardinal-financial=;"),
    (u!"20", u!"零=%spellout-cardinal-financial=;"),
    (u!"1000000000000", u!"=%spellout-cardinal-financial=;")]),
  (u!"%spellout-cardinal", [(u!"-x", u!"负>>;"),
    (u!"x.x", u!"<<点>>>;"),
    (u!"0", u!"零;"),
    (u!"1", u!"一;"),
    (u!"2", u!"二;"),
    (u!"3", u!"三;"),
    (u!"4", u!"四;"),
    (u!"5", u!"五;"),
    (u!"6", u!"六;"),
    (u!"7", u!"七;"),
    (u!"8", u!"八;"),
    (u!"9", u!"九;"),
    (u!"10", u!"=%spellout-numbering=;"),
    (u!"100", u!"<<百[>%%cardinal2>];"),
    (u!"1000", u!"<<千[>%%cardinal3>];"),
    (u!"10000", u!"<<万[>%%cardinal4>];"),
    (u!"100000000", u!"<<亿[>%%cardinal5>];"),
    (u!"1000000000000", u!"<<兆[>%%cardinal8>];"),
    (u!"10000000000000000", u!"<<京[>%%cardinal13>];"),
    (u!"1000000000000000000", u!"=#,##0=;")]),
  (u!"%%cardinal2", [(u!"1", u!"零=%spellout-numbering=;"),
    (u!"10", u!"一=%spellout-numbering=;"),
    (u!"20", u!"=%spellout-numbering=;")]),
  (u!"%%cardinal3", [(u!"1", u!"零=%spellout-numbering=;"),
    (u!"10", u!"零一=%spellout-cardinal=;"),
    (u!"20", u!"零=%spellout-cardinal=;"),
    (u!"100", u!"=%spellout-cardinal=;")]),
  (u!"%%cardinal4", [(u!"1", u!"零=%spellout-numbering=;"),
    (u!"10", u!"零一=%spellout-cardinal=;"),
    (u!"20", u!"零=%spellout-cardinal=;"),
    (u!"1000", u!"=%spellout-cardinal=;")]),
  (u!"%%cardinal5", [(u!"1", u!"零=%spellout-numbering=;"),
    (u!"10", u!"零一=%spellout-cardinal=;"),
    (u!"20", u!"零=%spellout-cardinal=;"),
    (u!"10000", u!"=%spellout-cardinal=;")]),
  (u!"%%cardinal8", [(u!"1", u!"零=%spellout-numbering=;"),
    (u!"10", u!"零一=%spellout-cardinal=;"),
    (u!"20", u!"零=%spellout-cardinal=;"),
    (u!"10000000", u!"=%spellout-cardinal=;")]),
  (u!"cardinal13", [(u!"1", u!"零=%spellout-numbering=;")]),
  (u!"%%cardinal13", [(u!"10", u!"零一=%spellout-cardinal=;"),
    (u!"20", u!"零=%spellout-cardinal=;"),
    (u!"1000000000000", u!"=%spellout-cardinal=;")]),
  (u!"%spellout-cardinal-alternate2", [(u!"3", u!"三;"),
    (u!"4", u!"四;"),
    (u!"5", u!"五;"),
    (u!"6", u!"六;"),
    (u!"7", u!"七;"),
    (u!"8", u!"八;"),
    (u!"9", u!"九;"),
    (u!"10", u!"=%spellout-numbering=;"),
    (u!"100", u!"<<百[>%%cardinal-alternate2-2>];"),
    (u!"1000", u!"<<千[>%%cardinal-alternate2-3>];"),
    (u!"10000", u!"<<万[>%%cardinal-alternate2-4>];"),
    (u!"100000000", u!"<<亿[>%%cardinal-alternate2-5>];"),
    (u!"1000000000000", u!"<<兆[>%%cardinal-alternate2-8>];"),
    (u!"10000000000000000", u!"<<京[>%%cardinal-alternate2-13>];"),
    (u!"1000000000000000000", u!"=#,##0=;")]),
  (u!"spellout-cardinal-alternate2", [(u!"2", u!"两;")]),
  (u!"%%cardinal-alternate2-2", [(u!"1", u!"零=%spellout-numbering=;"),
    (u!"10", u!"一=%spellout-numbering=;"),
    (u!"20", u!"=%spellout-numbering=;")]),
  (u!"%%cardinal-alternate2-3", [(u!"1", u!"零=%spellout-numbering=;"),
    (u!"10", u!"零一=%spellout-cardinal-alternate2=;"),
    (u!"20", u!"零=%spellout-cardinal-alternate2=;"),
    (u!"100", u!"=%spellout-cardinal-alternate2=;")]),
  (u!"%%cardinal-alternate2-4", [(u!"1", u!"零=%spellout-numbering=;"),
    (u!"10", u!"零一=%spellout-cardinal-alternate2=;"),
    (u!"20", u!"零=%spellout-cardinal-alternate2=;"),
    (u!"1000", u!"=%spellout-cardinal-alternate2=;")]),
  (u!"%%cardinal-alternate2-5", [(u!"1", u!"零=%spellout-numbering=;"),
    (u!"10", u!"零一=%spellout-cardinal-alternate2=;"),
    (u!"20", u!"零=%spellout-cardinal-alternate2=;"),
    (u!"10000", u!"=%spellout-cardinal-alternate2=;")]),
  (u!"%%cardinal-alternate2-8", [(u!"1", u!"零=%spellout-numbering=;"),
    (u!"10", u!"零一=%spellout-cardinal-alternate2=;"),
    (u!"20", u!"零=%spellout-cardinal-alternate2=;"),
    (u!"10000000", u!"=%spellout-cardinal-alternate2=;")]),
  (u!"cardinal-alternate2-13", [(u!"1", u!"零=%spellout-numbering=;")]),
  (u!"%%cardinal-alternate2-13", [(u!"10", u!"零一=%spellout-cardinal-alternate2=;"),
    (u!"20", u!"零=%spellout-cardinal-alternate2=;"),
    (u!"1000000000000", u!"=%spellout-cardinal-alternate2=;")]),
  (u!"%spellout-ordinal", [(u!"x.x", u!"=#,##0.#=;"),
    (u!"0", u!"第=%spellout-numbering=;")])]

/-- `number_parser_data/supplementary_translation_data/zh.json` -/
def zhSupplementary : Supplementary where
  tables := {
    unit := []
    direct := []
    tens := []
    hundreds := []
    big := [] }
  skipTokens := []
  useLongScale := none

/-- `number_parser/data/zh.py`, lines 1-30 -/
def zhModule : Output where
  tables := {
    unit := [(u!"〇", 0), (u!"零", 0), (u!"一", 1), (u!"壹", 1), (u!"两", 2), (u!"二", 2), (u!"贰", 2), (u!"三", 3), (u!"叁", 3), (u!"四", 4), (u!"肆", 4), (u!"五", 5), (u!"伍", 5), (u!"六", 6), (u!"陆", 6), (u!"七", 7), (u!"柒", 7), (u!"八", 8), (u!"捌", 8), (u!"九", 9), (u!"玖", 9)]
    direct := []
    tens := []
    hundreds := []
    big := [] }
  skipTokens := []
  useLongScale := none

/-- `number_parser_data/raw_cldr_translation_data/zh-Hant.json`, `SpelloutRules` -/
def zh_HantRules : RuleSets := [
  (u!"%spellout-numbering-year", [(u!"x.x", u!"=0.0=;"),
    (u!"0", u!"=%spellout-numbering=;"),
    (u!"1000", u!"=%spellout-numbering=;"),
    (u!"1001", u!"=%%spellout-numbering-year-digits=;"),
    (u!"2000", u!"=%spellout-numbering=;"),
    (u!"2001", u!"=%%spellout-numbering-year-digits=;"),
    (u!"3000", u!"=%spellout-numbering=;"),
    (u!"3001", u!"=%%spellout-numbering-year-digits=;"),
    (u!"4000", u!"=%spellout-numbering=;"),
    (u!"4001", u!"=%%spellout-numbering-year-digits=;"),
    (u!"5000", u!"=%spellout-numbering=;"),
    (u!"5001", u!"=%%spellout-numbering-year-digits=;"),
    (u!"6000", u!"=%spellout-numbering=;"),
    (u!"6001", u!"=%%spellout-numbering-year-digits=;"),
    (u!"7000", u!"=%spellout-numbering=;"),
    (u!"7001", u!"=%%spellout-numbering-year-digits=;"),
    (u!"8000", u!"=%spellout-numbering=;"),
    (u!"8001", u!"=%%spellout-numbering-year-digits=;"),
    (u!"9000", u!"=%spellout-numbering=;"),
    (u!"9001", u!"=%%spellout-numbering-year-digits=;"),
    (u!"10000", u!"=%spellout-numbering=;")]),
  (u!"%%spellout-numbering-year-digits", [(u!"0", u!"=%spellout-numbering=;"),
    (u!"10", u!"<<>>>;"),
    (u!"100", u!"<<>>>;"),
    (u!"1000", u!"<<>>>;")]),
  (u!"%spellout-numbering", [(u!"-x", u!"負>>;"),
    (u!"x.x", u!"<%spellout-cardinal<點>>>;"),
    (u!"0", u!"〇;"),
    (u!"1", u!"一;"),
    (u!"2", u!"二;"),
    (u!"3", u!"三;"),
    (u!"4", u!"四;"),
    (u!"5", u!"五;"),
    (u!"6", u!"六;"),
    (u!"7", u!"七;"),
    (u!"8", u!"八;"),
    (u!"9", u!"九;"),
    (u!"10", u!"十[>>];"),
    (u!"20", u!"<<十[>>];"),
    (u!"100", u!"<%spellout-cardinal<百[>%%cardinal2>];"),
    (u!"1000", u!"<%spellout-cardinal<千[>%%cardinal3>];"),
    (u!"10000", u!"<%spellout-cardinal<萬[>%%cardinal4>];"),
    (u!"100000000", u!"<%spellout-cardinal<億[>%%cardinal5>];"),
    (u!"1000000000000", u!"<%spellout-cardinal<兆[>%%cardinal8>];"),
    (u!"10000000000000000", u!"<%spellout-cardinal<京[>%%cardinal13>];"),
    (u!"1000000000000000000", u!"=#,##0=;")]),
  (u!"%spellout-cardinal-financial", [(u!"-x", u!"負>>;"),
    (u!"x.x", u!"<<點>>>;"),
    (u!"0", u!"零;"),
    (u!"1", u!"壹;"),
    (u!"2", u!"貳;"),
    (u!"3", u!"參;"),
    (u!"4", u!"肆;"),
    (u!"5", u!"伍;"),
    (u!"6", u!"陸;"),
    (u!"7", u!"柒;"),
    (u!"8", u!"捌;"),
    (u!"9", u!"玖;"),
    (u!"10", u!"拾[>>];"),
    (u!"20", u!"<<拾[>>];"),
    (u!"100", u!"<<佰[>%%financialnumber2>];"),
    (u!"1000", u!"<<仟[>%%financialnumber3>];"),
    (u!"10000", u!"<<萬[>%%financialnumber4>];"),
    (u!"100000000", u!"<<億[>%%financialnumber5>];"),
    (u!"1000000000000", u!"<<兆[>%%financialnumber8>];"),
    (u!"10000000000000000", u!"<<京[>%%financialnumber13>];"),
    (u!"1000000000000000000", u!"=#,##0=;")]),
  (u!"%%financialnumber2", [(u!"1", u!"零=%spellout-cardinal-financial=;"),
    (u!"10", u!"壹=%spellout-cardinal-financial=;"),
    (u!"20", u!"=%spellout-cardinal-financial=;")]),
  (u!"%%financialnumber3", [(u!"1", u!"零=%spellout-cardinal-financial=;"),
    (u!"10", u!"零壹=%spellout-cardinal-financial=;"),
    (u!"20", u!"零=%spellout-cardinal-financial=;"),
    (u!"100", u!"=%spellout-cardinal-financial=;")]),
  (u!"%%financialnumber4", [(u!"1", u!"零=%spellout-cardinal-financial=;"),
    (u!"10", u!"零壹=%spellout-cardinal-financial=;"),
    (u!"20", u!"零=%spellout-cardinal-financial=;"),
    (u!"1000", u!"=%spellout-cardinal-financial=;")]),
  (u!"%%financialnumber5", [(u!"1", u!"零=%spellout-cardinal-financial=;"),
    (u!"10", u!"零壹=%spellout-cardinal-financial=;"),
    (u!"20", u!"零=%spellout-cardinal-financial=;"),
    (u!"10000", u!"=%spellout-cardinal-financial=;")]),
  (u!"%%financialnumber8", [(u!"1", u!"零=%spellout-cardinal-financial=;"),
    (u!"10", u!"零壹=%spellout-cardinal-financial=;"),
    (u!"20", u!"零=%spellout-cardinal-financial=;"),
    (u!"10000000", u!"=%spellout-cardinal-financial=;")]),
  (u!"financialnumber13", [(u!"1", u!"零=%spellout-cardinal-financial=;")]),
  (u!"%%financialnumber13", [(u!"10", u!"零壹=%spellout-cardinal-financial=;"),
    (u!"20", u!"零=%spellout-cardinal-financial=;"),
    (u!"1000000000000", u!"=%spellout-cardinal-financial=;")]),
  (u!"%spellout-cardinal", [(u!"-x", u!"負>>;"),
    (u!"x.x", u!"<<點>>>;"),
    (u!"0", u!"零;"),
    (u!"1", u!"一;"),
    (u!"2", u!"二;"),
    (u!"3", u!"三;"),
    (u!"4", u!"四;"),
    (u!"5", u!"五;"),
    (u!"6", u!"六;"),
    (u!"7", u!"七;"),
    (u!"8", u!"八;"),
    (u!"9", u!"九;"),
    (u!"10", u!"=%spellout-numbering=;"),
    (u!"100", u!"<<百[>%%cardinal2>];"),
    (u!"1000", u!"<<千[>%%cardinal3>];"),
    (u!"10000", u!"<<萬[>%%cardinal4>];"),
    (u!"100000000", u!"<<億[>%%cardinal5>];"),
    (u!"1000000000000", u!"<<兆[>%%cardinal8>];"),
    (u!"10000000000000000", u!"<<京[>%%cardinal13>];"),
    (u!"1000000000000000000", u!"=#,##0=;")]),
  (u!"%%cardinal2", [(u!"1", u!"零=%spellout-numbering=;"),
    (u!"10", u!"一=%spellout-numbering=;"),
    (u!"20", u!"=%spellout-numbering=;")]),
  (u!"%%cardinal3", [(u!"1", u!"零=%spellout-numbering=;"),
    (u!"10", u!"零一=%spellout-cardinal=;"),
    (u!"20", u!"零=%spellout-cardinal=;"),
    (u!"100", u!"=%spellout-cardinal=;")]),
  (u!"%%cardinal4", [(u!"1", u!"零=%spellout-numbering=;"),
    (u!"10", u!"零一=%spellout-cardinal=;"),
    (u!"20", u!"零=%spellout-cardinal=;"),
    (u!"1000", u!"=%spellout-cardinal=;")]),
  (u!"%%cardinal5", [(u!"1", u!"零=%spellout-numbering=;"),
    (u!"10", u!"零一=%spellout-cardinal=;"),
    (u!"20", u!"零=%spellout-cardinal=;"),
    (u!"10000", u!"=%spellout-cardinal=;")]),
  (u!"%%cardinal8", [(u!"1", u!"零=%spellout-numbering=;"),
    (u!"10", u!"零一=%spellout-cardinal=;"),
    (u!"20", u!"零=%spellout-cardinal=;"),
    (u!"10000000", u!"=%spellout-cardinal=;")]),
  (u!"cardinal13", [(u!"1", u!"零=%spellout-numbering=;")]),
  (u!"%%cardinal13", [(u!"10", u!"零一=%spellout-cardinal=;"),
    (u!"20", u!"零=%spellout-cardinal=;"),
    (u!"1000000000000", u!"=%spellout-cardinal=;")]),
  (u!"%spellout-cardinal-alternate2", [(u!"3", u!"三;"),
    (u!"4", u!"四;"),
    (u!"5", u!"五;"),
    (u!"6", u!"六;"),
    (u!"7", u!"七;"),
    (u!"8", u!"八;"),
    (u!"9", u!"九;"),
    (u!"10", u!"=%spellout-numbering=;"),
    (u!"100", u!"<<百[>%%cardinal-alternate2-2>];"),
    (u!"1000", u!"<<千[>%%cardinal-alternate2-3>];"),
    (u!"10000", u!"<<萬[>%%cardinal-alternate2-4>];"),
    (u!"100000000", u!"<<億[>%%cardinal-alternate2-5>];"),
    (u!"1000000000000", u!"<<兆[>%%cardinal-alternate2-8>];"),
    (u!"10000000000000000", u!"<<京[>%%cardinal-alternate2-13>];"),
    (u!"1000000000000000000", u!"=#,##0=;")]),
  (u!"spellout-cardinal-alternate2", [(u!"2", u!"兩;")]),
  (u!"%%cardinal-alternate2-2", [(u!"1", u!"零=%spellout-numbering=;"),
    (u!"10", u!"一=%spellout-numbering=;"),
    (u!"20", u!"=%spellout-numbering=;")]),
  (u!"%%cardinal-alternate2-3", [(u!"1", u!"零=%spellout-numbering=;"),
    (u!"10", u!"零一=%spellout-cardinal-alternate2=;"),
    (u!"20", u!"零=%spellout-cardinal-alternate2=;"),
    (u!"100", u!"=%spellout-cardinal-alternate2=;")]),
  (u!"%%cardinal-alternate2-4", [(u!"1", u!"零=%spellout-numbering=;"),
    (u!"10", u!"零一=%spellout-cardinal-alternate2=;"),
    (u!"20", u!"零=%spellout-cardinal-alternate2=;"),
    (u!"1000", u!"=%spellout-cardinal-alternate2=;")]),
  (u!"%%cardinal-alternate2-5", [(u!"1", u!"零=%spellout-numbering=;"),
    (u!"10", u!"零一=%spellout-cardinal-alternate2=;"),
    (u!"20", u!"零=%spellout-cardinal-alternate2=;"),
    (u!"10000", u!"=%spellout-cardinal-alternate2=;")]),
  (u!"%%cardinal-alternate2-8", [(u!"1", u!"零=%spellout-numbering=;"),
    (u!"10", u!"零一=%spellout-cardinal-alternate2=;"),
    (u!"20", u!"零=%spellout-cardinal-alternate2=;"),
    (u!"10000000", u!"=%spellout-cardinal-alternate2=;")]),
  (u!"cardinal-alternate2-13", [(u!"1", u!"零=%spellout-numbering=;")]),
  (u!"%%cardinal-alternate2-13", [(u!"10", u!"零一=%spellout-cardinal-alternate2=;"),
    (u!"20", u!"零=%spellout-cardinal-alternate2=;"),
    (u!"1000000000000", u!"=%spellout-cardinal-alternate2=;")]),
  (u!"%spellout-ordinal", [(u!"x.x", u!"=#,##0.#=;"),
    (u!"0", u!"第=%spellout-numbering=;")])]

/-- `number_parser_data/supplementary_translation_data/zh-Hant.json` -/
def zh_HantSupplementary : Supplementary where
  tables := {
    unit := []
    direct := []
    tens := []
    hundreds := []
    big := [] }
  skipTokens := []
  useLongScale := none

/-- `number_parser/data/zh-Hant.py`, lines 1-30 -/
def zh_HantModule : Output where
  tables := {
    unit := [(u!"〇", 0), (u!"零", 0), (u!"一", 1), (u!"壹", 1), (u!"二", 2), (u!"兩", 2), (u!"貳", 2), (u!"三", 3), (u!"參", 3), (u!"四", 4), (u!"肆", 4), (u!"五", 5), (u!"伍", 5), (u!"六", 6), (u!"陸", 6), (u!"七", 7), (u!"柒", 7), (u!"八", 8), (u!"捌", 8), (u!"九", 9), (u!"玖", 9)]
    direct := []
    tens := []
    hundreds := []
    big := [] }
  skipTokens := []
  useLongScale := none

/-- The languages sw, ta, th, tr, vi, yue, yue-Hans, zh, zh-Hant: rules, supplementary data, data module -/
def partF : List (PyStr × RuleSets × Supplementary × Output) := [
  (u!"sw", swRules, swSupplementary, swModule),
  (u!"ta", taRules, taSupplementary, taModule),
  (u!"th", thRules, thSupplementary, thModule),
  (u!"tr", trRules, trSupplementary, trModule),
  (u!"vi", viRules, viSupplementary, viModule),
  (u!"yue", yueRules, yueSupplementary, yueModule),
  (u!"yue-Hans", yue_HansRules, yue_HansSupplementary, yue_HansModule),
  (u!"zh", zhRules, zhSupplementary, zhModule),
  (u!"zh-Hant", zh_HantRules, zh_HantSupplementary, zh_HantModule)]

end NumberParser.Gen.Sources
