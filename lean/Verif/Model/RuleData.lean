/- GENERATED by tools/gen_rules.py from the text of /repo/number_parser_data/{raw_cldr,supplementary}_translation_data/{en,es,hi,ru,uk}.json. Do not edit. -/
import Verif.Model.Generator

namespace NumberParser.Gen.RuleData
open NumberParser Gen

/-- `number_parser_data/raw_cldr_translation_data/en.json`, the rule set `%%2d-year` -/
def enRules0 : List (PyStr × PyStr) := [
  (u!"0", u!"hundred;"),
  (u!"1", u!"oh-=%spellout-numbering=;"),
  (u!"10", u!"=%spellout-numbering=;")]

/-- `number_parser_data/raw_cldr_translation_data/en.json`, the rule set `%spellout-numbering-year` -/
def enRules1 : List (PyStr × PyStr) := [
  (u!"-x", u!"minus >>;"),
  (u!"x.x", u!"=#,##0.#=;"),
  (u!"0", u!"=%spellout-numbering=;"),
  (u!"1010/100", u!"<< >%%2d-year>;"),
  (u!"1100/100", u!"<< >%%2d-year>;"),
  (u!"2000", u!"=%spellout-numbering=;"),
  (u!"2010/100", u!"<< >%%2d-year>;"),
  (u!"2100/100", u!"<< >%%2d-year>;"),
  (u!"3000", u!"=%spellout-numbering=;"),
  (u!"3010/100", u!"<< >%%2d-year>;"),
  (u!"3100/100", u!"<< >%%2d-year>;"),
  (u!"4000", u!"=%spellout-numbering=;"),
  (u!"4010/100", u!"<< >%%2d-year>;"),
  (u!"4100/100", u!"<< >%%2d-year>;"),
  (u!"5000", u!"=%spellout-numbering=;"),
  (u!"5010/100", u!"<< >%%2d-year>;"),
  (u!"5100/100", u!"<< >%%2d-year>;"),
  (u!"6000", u!"=%spellout-numbering=;"),
  (u!"6010/100", u!"<< >%%2d-year>;"),
  (u!"6100/100", u!"<< >%%2d-year>;"),
  (u!"7000", u!"=%spellout-numbering=;"),
  (u!"7010/100", u!"<< >%%2d-year>;"),
  (u!"7100/100", u!"<< >%%2d-year>;"),
  (u!"8000", u!"=%spellout-numbering=;"),
  (u!"8010/100", u!"<< >%%2d-year>;"),
  (u!"8100/100", u!"<< >%%2d-year>;"),
  (u!"9000", u!"=%spellout-numbering=;"),
  (u!"9010/100", u!"<< >%%2d-year>;"),
  (u!"9100/100", u!"<< >%%2d-year>;"),
  (u!"10000", u!"=%spellout-numbering=;")]

/-- `number_parser_data/raw_cldr_translation_data/en.json`, the rule set `%spellout-numbering` -/
def enRules2 : List (PyStr × PyStr) := [
  (u!"-x", u!"minus >>;"),
  (u!"Inf", u!"infinity;"),
  (u!"NaN", u!"not a number;"),
  (u!"0", u!"=%spellout-cardinal=;")]

/-- `number_parser_data/raw_cldr_translation_data/en.json`, the rule set `%spellout-numbering-verbose` -/
def enRules3 : List (PyStr × PyStr) := [
  (u!"-x", u!"minus >>;"),
  (u!"Inf", u!"infinity;"),
  (u!"NaN", u!"not a number;"),
  (u!"0", u!"=%spellout-cardinal-verbose=;")]

/-- `number_parser_data/raw_cldr_translation_data/en.json`, the rule set `%spellout-cardinal` -/
def enRules4 : List (PyStr × PyStr) := [
  (u!"-x", u!"minus >>;"),
  (u!"x.x", u!"<< point >>;"),
  (u!"Inf", u!"infinite;"),
  (u!"NaN", u!"not a number;"),
  (u!"0", u!"zero;"),
  (u!"1", u!"one;"),
  (u!"2", u!"two;"),
  (u!"3", u!"three;"),
  (u!"4", u!"four;"),
  (u!"5", u!"five;"),
  (u!"6", u!"six;"),
  (u!"7", u!"seven;"),
  (u!"8", u!"eight;"),
  (u!"9", u!"nine;"),
  (u!"10", u!"ten;"),
  (u!"11", u!"eleven;"),
  (u!"12", u!"twelve;"),
  (u!"13", u!"thirteen;"),
  (u!"14", u!"fourteen;"),
  (u!"15", u!"fifteen;"),
  (u!"16", u!"sixteen;"),
  (u!"17", u!"seventeen;"),
  (u!"18", u!"eighteen;"),
  (u!"19", u!"nineteen;"),
  (u!"20", u!"twenty[->>];"),
  (u!"30", u!"thirty[->>];"),
  (u!"40", u!"forty[->>];"),
  (u!"50", u!"fifty[->>];"),
  (u!"60", u!"sixty[->>];"),
  (u!"70", u!"seventy[->>];"),
  (u!"80", u!"eighty[->>];"),
  (u!"90", u!"ninety[->>];"),
  (u!"100", u!"<< hundred[ >>];"),
  (u!"1000", u!"<< thousand[ >>];"),
  (u!"1000000", u!"<< million[ >>];"),
  (u!"1000000000", u!"<< billion[ >>];"),
  (u!"1000000000000", u!"<< trillion[ >>];"),
  (u!"1000000000000000", u!"<< quadrillion[ >>];"),
  (u!"1000000000000000000", u!"=#,##0=;")]

/-- `number_parser_data/raw_cldr_translation_data/en.json`, the rule set `%%and` -/
def enRules5 : List (PyStr × PyStr) := [
  (u!"1", u!"' and =%spellout-cardinal-verbose=;"),
  (u!"100", u!"' =%spellout-cardinal-verbose=;")]

/-- `number_parser_data/raw_cldr_translation_data/en.json`, the rule set `%%commas` -/
def enRules6 : List (PyStr × PyStr) := [
  (u!"1", u!"' and =%spellout-cardinal-verbose=;"),
  (u!"100", u!", =%spellout-cardinal-verbose=;"),
  (u!"1000", u!", <%spellout-cardinal-verbose< thousand[>%%commas>];"),
  (u!"1000000", u!", =%spellout-cardinal-verbose=;")]

/-- `number_parser_data/raw_cldr_translation_data/en.json`, the rule set `%spellout-cardinal-verbose` -/
def enRules7 : List (PyStr × PyStr) := [
  (u!"-x", u!"minus >>;"),
  (u!"x.x", u!"<< point >>;"),
  (u!"Inf", u!"infinite;"),
  (u!"NaN", u!"not a number;"),
  (u!"0", u!"=%spellout-numbering=;"),
  (u!"100", u!"<< hundred[>%%and>];"),
  (u!"1000", u!"<< thousand[>%%and>];"),
  (u!"100000/1000", u!"<< thousand[>%%commas>];"),
  (u!"1000000", u!"<< million[>%%commas>];"),
  (u!"1000000000", u!"<< billion[>%%commas>];"),
  (u!"1000000000000", u!"<< trillion[>%%commas>];"),
  (u!"1000000000000000", u!"<< quadrillion[>%%commas>];"),
  (u!"1000000000000000000", u!"=#,##0=;")]

/-- `number_parser_data/raw_cldr_translation_data/en.json`, the rule set `%%tieth` -/
def enRules8 : List (PyStr × PyStr) := [
  (u!"0", u!"tieth;"),
  (u!"1", u!"ty-=%spellout-ordinal=;")]

/-- `number_parser_data/raw_cldr_translation_data/en.json`, the rule set `%%th` -/
def enRules9 : List (PyStr × PyStr) := [
  (u!"0", u!"th;"),
  (u!"1", u!"' =%spellout-ordinal=;")]

/-- `number_parser_data/raw_cldr_translation_data/en.json`, the rule set `%spellout-ordinal` -/
def enRules10 : List (PyStr × PyStr) := [
  (u!"-x", u!"minus >>;"),
  (u!"x.x", u!"=#,##0.#=;"),
  (u!"Inf", u!"infinitieth;"),
  (u!"0", u!"zeroth;"),
  (u!"1", u!"first;"),
  (u!"2", u!"second;"),
  (u!"3", u!"third;"),
  (u!"4", u!"fourth;"),
  (u!"5", u!"fifth;"),
  (u!"6", u!"sixth;"),
  (u!"7", u!"seventh;"),
  (u!"8", u!"eighth;"),
  (u!"9", u!"ninth;"),
  (u!"10", u!"tenth;"),
  (u!"11", u!"eleventh;"),
  (u!"12", u!"twelfth;"),
  (u!"13", u!"=%spellout-numbering=th;"),
  (u!"20", u!"twen>%%tieth>;"),
  (u!"30", u!"thir>%%tieth>;"),
  (u!"40", u!"for>%%tieth>;"),
  (u!"50", u!"fif>%%tieth>;"),
  (u!"60", u!"six>%%tieth>;"),
  (u!"70", u!"seven>%%tieth>;"),
  (u!"80", u!"eigh>%%tieth>;"),
  (u!"90", u!"nine>%%tieth>;"),
  (u!"100", u!"<%spellout-numbering< hundred>%%th>;"),
  (u!"1000", u!"<%spellout-numbering< thousand>%%th>;"),
  (u!"1000000", u!"<%spellout-numbering< million>%%th>;"),
  (u!"1000000000", u!"<%spellout-numbering< billion>%%th>;"),
  (u!"1000000000000", u!"<%spellout-numbering< trillion>%%th>;"),
  (u!"1000000000000000", u!"<%spellout-numbering< quadrillion>%%th>;"),
  (u!"1000000000000000000", u!"=#,##0=.;")]

/-- `number_parser_data/raw_cldr_translation_data/en.json`, the rule set `%%and-o` -/
def enRules11 : List (PyStr × PyStr) := [
  (u!"0", u!"th;"),
  (u!"1", u!"' and =%spellout-ordinal-verbose=;"),
  (u!"100", u!"' =%spellout-ordinal-verbose=;")]

/-- `number_parser_data/raw_cldr_translation_data/en.json`, the rule set `%%commas-o` -/
def enRules12 : List (PyStr × PyStr) := [
  (u!"0", u!"th;"),
  (u!"1", u!"' and =%spellout-ordinal-verbose=;"),
  (u!"100", u!", =%spellout-ordinal-verbose=;"),
  (u!"1000", u!", <%spellout-cardinal-verbose< thousand>%%commas-o>;"),
  (u!"1000000", u!", =%spellout-ordinal-verbose=;")]

/-- `number_parser_data/raw_cldr_translation_data/en.json`, the rule set `%spellout-ordinal-verbose` -/
def enRules13 : List (PyStr × PyStr) := [
  (u!"-x", u!"minus >>;"),
  (u!"x.x", u!"=#,##0.#=;"),
  (u!"Inf", u!"infinitieth;"),
  (u!"0", u!"=%spellout-ordinal=;"),
  (u!"100", u!"<%spellout-numbering-verbose< hundred>%%and-o>;"),
  (u!"1000", u!"<%spellout-numbering-verbose< thousand>%%and-o>;"),
  (u!"100000/1000", u!"<%spellout-numbering-verbose< thousand>%%commas-o>;"),
  (u!"1000000", u!"<%spellout-numbering-verbose< million>%%commas-o>;"),
  (u!"1000000000", u!"<%spellout-numbering-verbose< billion>%%commas-o>;"),
  (u!"1000000000000", u!"<%spellout-numbering-verbose< trillion>%%commas-o>;"),
  (u!"1000000000000000", u!"<%spellout-numbering-verbose< quadrillion>%%commas-o>;"),
  (u!"1000000000000000000", u!"=#,##0=.;")]

/-- `number_parser_data/raw_cldr_translation_data/en.json`, `SpelloutRules` -/
def enRules : RuleSets := [
  (u!"%%2d-year", enRules0),
  (u!"%spellout-numbering-year", enRules1),
  (u!"%spellout-numbering", enRules2),
  (u!"%spellout-numbering-verbose", enRules3),
  (u!"%spellout-cardinal", enRules4),
  (u!"%%and", enRules5),
  (u!"%%commas", enRules6),
  (u!"%spellout-cardinal-verbose", enRules7),
  (u!"%%tieth", enRules8),
  (u!"%%th", enRules9),
  (u!"%spellout-ordinal", enRules10),
  (u!"%%and-o", enRules11),
  (u!"%%commas-o", enRules12),
  (u!"%spellout-ordinal-verbose", enRules13)]

/-- `number_parser_data/supplementary_translation_data/en.json` -/
def enSupplementary : Supplementary where
  tables := {
    unit := []
    direct := []
    tens := []
    hundreds := []
    big := [(u!"quintillion", ⟨1000000000000000000, 0⟩), (u!"sextillion", ⟨1000000000000000000000, 0⟩)] }
  skipTokens := [u!"and", u!"-"]
  useLongScale := some false

/-- `number_parser_data/raw_cldr_translation_data/es.json`, the rule set `%%lenient-parse` -/
def esRules0 : List (PyStr × PyStr) := [
  (u!"0", u!"&[last primary ignorable ] << ' ' << ',' << '-' << '­';")]

/-- `number_parser_data/raw_cldr_translation_data/es.json`, the rule set `%spellout-numbering-year` -/
def esRules1 : List (PyStr × PyStr) := [
  (u!"x.x", u!"=0.0=;"),
  (u!"0", u!"=%spellout-numbering=;")]

/-- `number_parser_data/raw_cldr_translation_data/es.json`, the rule set `%spellout-numbering` -/
def esRules2 : List (PyStr × PyStr) := [
  (u!"-x", u!"menos >>;"),
  (u!"x.x", u!"<< punto >>;"),
  (u!"x,x", u!"<< coma >>;"),
  (u!"0", u!"cero;"),
  (u!"1", u!"uno;"),
  (u!"2", u!"dos;"),
  (u!"3", u!"tres;"),
  (u!"4", u!"cuatro;"),
  (u!"5", u!"cinco;"),
  (u!"6", u!"seis;"),
  (u!"7", u!"siete;"),
  (u!"8", u!"ocho;"),
  (u!"9", u!"nueve;"),
  (u!"10", u!"diez;"),
  (u!"11", u!"once;"),
  (u!"12", u!"doce;"),
  (u!"13", u!"trece;"),
  (u!"14", u!"catorce;"),
  (u!"15", u!"quince;"),
  (u!"16", u!"dieciséis;"),
  (u!"17", u!"dieci>>;"),
  (u!"20", u!"veinte;"),
  (u!"21", u!"veintiuno;"),
  (u!"22", u!"veintidós;"),
  (u!"23", u!"veintitrés;"),
  (u!"24", u!"veinticuatro;"),
  (u!"25", u!"veinticinco;"),
  (u!"26", u!"veintiséis;"),
  (u!"27", u!"veinti>>;"),
  (u!"30", u!"treinta[ y >>];"),
  (u!"40", u!"cuarenta[ y >>];"),
  (u!"50", u!"cincuenta[ y >>];"),
  (u!"60", u!"sesenta[ y >>];"),
  (u!"70", u!"setenta[ y >>];"),
  (u!"80", u!"ochenta[ y >>];"),
  (u!"90", u!"noventa[ y >>];"),
  (u!"100", u!"cien;"),
  (u!"101", u!"ciento >>;"),
  (u!"200", u!"doscientos[ >>];"),
  (u!"300", u!"trescientos[ >>];"),
  (u!"400", u!"cuatrocientos[ >>];"),
  (u!"500", u!"quinientos[ >>];"),
  (u!"600", u!"seiscientos[ >>];"),
  (u!"700", u!"setecientos[ >>];"),
  (u!"800", u!"ochocientos[ >>];"),
  (u!"900", u!"novecientos[ >>];"),
  (u!"1000", u!"mil[ >>];"),
  (u!"2000", u!"<%spellout-cardinal-masculine< mil[ >>];"),
  (u!"1000000", u!"un millón[ >>];"),
  (u!"2000000", u!"<%spellout-cardinal-masculine< millones[ >>];"),
  (u!"1000000000000", u!"un billón[ >>];"),
  (u!"2000000000000", u!"<%spellout-cardinal-masculine< billones[ >>];"),
  (u!"1000000000000000000", u!"=#,##0=;")]

/-- `number_parser_data/raw_cldr_translation_data/es.json`, the rule set `%spellout-cardinal-masculine` -/
def esRules3 : List (PyStr × PyStr) := [
  (u!"-x", u!"menos >>;"),
  (u!"x.x", u!"<< punto >>;"),
  (u!"x,x", u!"<< coma >>;"),
  (u!"0", u!"cero;"),
  (u!"1", u!"un;"),
  (u!"2", u!"=%spellout-numbering=;"),
  (u!"21", u!"veintiún;"),
  (u!"22", u!"=%spellout-numbering=;"),
  (u!"30", u!"treinta[ y >>];"),
  (u!"40", u!"cuarenta[ y >>];"),
  (u!"50", u!"cincuenta[ y >>];"),
  (u!"60", u!"sesenta[ y >>];"),
  (u!"70", u!"setenta[ y >>];"),
  (u!"80", u!"ochenta[ y >>];"),
  (u!"90", u!"noventa[ y >>];"),
  (u!"100", u!"cien;"),
  (u!"101", u!"ciento >>;"),
  (u!"200", u!"doscientos[ >>];"),
  (u!"300", u!"trescientos[ >>];"),
  (u!"400", u!"cuatrocientos[ >>];"),
  (u!"500", u!"quinientos[ >>];"),
  (u!"600", u!"seis­cientos[ >>];"),
  (u!"700", u!"sete­cientos[ >>];"),
  (u!"800", u!"ocho­cientos[ >>];"),
  (u!"900", u!"nove­cientos[ >>];"),
  (u!"1000", u!"mil[ >>];"),
  (u!"2000", u!"<%spellout-cardinal-masculine< mil[ >>];"),
  (u!"1000000", u!"un millón[ >>];"),
  (u!"2000000", u!"<%spellout-cardinal-masculine< millones[ >>];"),
  (u!"1000000000000", u!"un billón[ >>];"),
  (u!"2000000000000", u!"<%spellout-cardinal-masculine< billones[ >>];"),
  (u!"1000000000000000000", u!"=#,##0=;")]

/-- `number_parser_data/raw_cldr_translation_data/es.json`, the rule set `%spellout-cardinal-feminine` -/
def esRules4 : List (PyStr × PyStr) := [
  (u!"-x", u!"menos >>;"),
  (u!"x.x", u!"<< punto >>;"),
  (u!"x,x", u!"<< coma >>;"),
  (u!"0", u!"cero;"),
  (u!"1", u!"una;"),
  (u!"2", u!"=%spellout-numbering=;"),
  (u!"21", u!"veintiuna;"),
  (u!"22", u!"=%spellout-numbering=;"),
  (u!"30", u!"treinta[ y >>];"),
  (u!"40", u!"cuarenta[ y >>];"),
  (u!"50", u!"cincuenta[ y >>];"),
  (u!"60", u!"sesenta[ y >>];"),
  (u!"70", u!"setenta[ y >>];"),
  (u!"80", u!"ochenta[ y >>];"),
  (u!"90", u!"noventa[ y >>];"),
  (u!"100", u!"cien;"),
  (u!"101", u!"ciento >>;"),
  (u!"200", u!"dos­cientas[ >>];"),
  (u!"300", u!"tres­cientas[ >>];"),
  (u!"400", u!"cuatro­cientas[ >>];"),
  (u!"500", u!"quinientas[ >>];"),
  (u!"600", u!"seis­cientas[ >>];"),
  (u!"700", u!"sete­cientas[ >>];"),
  (u!"800", u!"ocho­cientas[ >>];"),
  (u!"900", u!"nove­cientas[ >>];"),
  (u!"1000", u!"mil[ >>];"),
  (u!"2000", u!"<%spellout-cardinal-masculine< mil[ >>];"),
  (u!"1000000", u!"un millón[ >>];"),
  (u!"2000000", u!"<%spellout-cardinal-masculine< millones[ >>];"),
  (u!"1000000000000", u!"un billón[ >>];"),
  (u!"2000000000000", u!"<%spellout-cardinal-masculine< billones[ >>];"),
  (u!"1000000000000000000", u!"=#,##0=;")]

/-- `number_parser_data/raw_cldr_translation_data/es.json`, the rule set `%spellout-ordinal-masculine-adjective` -/
def esRules5 : List (PyStr × PyStr) := [
  (u!"-x", u!"menos >>;"),
  (u!"x.x", u!"=#,##0.#=;"),
  (u!"0", u!"cero;"),
  (u!"1", u!"primer;"),
  (u!"2", u!"segundo;"),
  (u!"3", u!"tercer;"),
  (u!"4", u!"cuarto;"),
  (u!"5", u!"quinto;"),
  (u!"6", u!"sexto;"),
  (u!"7", u!"séptimo;"),
  (u!"8", u!"octavo;"),
  (u!"9", u!"noveno;"),
  (u!"10", u!"décimo;"),
  (u!"11", u!"undécimo;"),
  (u!"12", u!"duodécimo;"),
  (u!"13", u!"decimo>>;"),
  (u!"18", u!"decim>>;"),
  (u!"19", u!"decimo>>;"),
  (u!"20", u!"vigésimo[ >>];"),
  (u!"30", u!"trigésimo[ >>];"),
  (u!"40", u!"cuadragésimo[ >>];"),
  (u!"50", u!"quincuagésimo[ >>];"),
  (u!"60", u!"sexagésimo[ >>];"),
  (u!"70", u!"septuagésimo[ >>];"),
  (u!"80", u!"octogésimo[ >>];"),
  (u!"90", u!"nonagésimo[ >>];"),
  (u!"100", u!"centésimo[ >>];"),
  (u!"200", u!"ducentésimo[ >>];"),
  (u!"300", u!"tricentésimo[ >>];"),
  (u!"400", u!"cuadringentésimo[ >>];"),
  (u!"500", u!"quingentésimo[ >>];"),
  (u!"600", u!"sexcentésimo[ >>];"),
  (u!"700", u!"septingentésimo[ >>];"),
  (u!"800", u!"octingésimo[ >>];"),
  (u!"900", u!"noningentésimo[ >>];"),
  (u!"1000", u!"milésimo[ >>];"),
  (u!"2000", u!"<%spellout-cardinal-masculine< milésimo[ >>];"),
  (u!"1000000", u!"un millonésimo[ >>];"),
  (u!"2000000", u!"<%spellout-cardinal-masculine< millonésimo[ >>];"),
  (u!"1000000000000", u!"un billonésimo[ >>];"),
  (u!"2000000000000", u!"<%spellout-cardinal-masculine< billonésimo[ >>];"),
  (u!"1000000000000000000", u!"=#,##0=º;")]

/-- `number_parser_data/raw_cldr_translation_data/es.json`, the rule set `%spellout-ordinal-masculine-plural` -/
def esRules6 : List (PyStr × PyStr) := [
  (u!"-x", u!"menos >>;"),
  (u!"x.x", u!"=#,##0.#=;"),
  (u!"0", u!"=%spellout-ordinal-masculine=;"),
  (u!"1", u!"=%spellout-ordinal-masculine=s;"),
  (u!"1000000000000000000", u!"=#,##0=º;")]

/-- `number_parser_data/raw_cldr_translation_data/es.json`, the rule set `%spellout-ordinal-masculine` -/
def esRules7 : List (PyStr × PyStr) := [
  (u!"-x", u!"menos >>;"),
  (u!"x.x", u!"=#,##0.#=;"),
  (u!"0", u!"cero;"),
  (u!"1", u!"primero;"),
  (u!"2", u!"segundo;"),
  (u!"3", u!"tercero;"),
  (u!"4", u!"cuarto;"),
  (u!"5", u!"quinto;"),
  (u!"6", u!"sexto;"),
  (u!"7", u!"séptimo;"),
  (u!"8", u!"octavo;"),
  (u!"9", u!"noveno;"),
  (u!"10", u!"décimo;"),
  (u!"11", u!"decimo>>;"),
  (u!"18", u!"decim>>;"),
  (u!"19", u!"decimo>>;"),
  (u!"20", u!"vigésimo[ >>];"),
  (u!"30", u!"trigésimo[ >>];"),
  (u!"40", u!"cuadragésimo[ >>];"),
  (u!"50", u!"quincuagésimo[ >>];"),
  (u!"60", u!"sexagésimo[ >>];"),
  (u!"70", u!"septuagésimo[ >>];"),
  (u!"80", u!"octogésimo[ >>];"),
  (u!"90", u!"nonagésimo[ >>];"),
  (u!"100", u!"centésimo[ >>];"),
  (u!"200", u!"ducentésimo[ >>];"),
  (u!"300", u!"tricentésimo[ >>];"),
  (u!"400", u!"cuadringentésimo[ >>];"),
  (u!"500", u!"quingentésimo[ >>];"),
  (u!"600", u!"sexcentésimo[ >>];"),
  (u!"700", u!"septingentésimo[ >>];"),
  (u!"800", u!"octingésimo[ >>];"),
  (u!"900", u!"noningentésimo[ >>];"),
  (u!"1000", u!"milésimo[ >>];"),
  (u!"2000", u!"<%spellout-cardinal-masculine< milésimo[ >>];"),
  (u!"1000000", u!"un millonésimo[ >>];"),
  (u!"2000000", u!"<%spellout-cardinal-masculine< millonésimo[ >>];"),
  (u!"1000000000000", u!"un billonésimo[ >>];"),
  (u!"2000000000000", u!"<%spellout-cardinal-masculine< billonésimo[ >>];"),
  (u!"1000000000000000000", u!"=#,##0=º;")]

/-- `number_parser_data/raw_cldr_translation_data/es.json`, the rule set `%spellout-ordinal-feminine-plural` -/
def esRules8 : List (PyStr × PyStr) := [
  (u!"-x", u!"menos >>;"),
  (u!"x.x", u!"=#,##0.#=;"),
  (u!"0", u!"=%spellout-ordinal-feminine=;"),
  (u!"1", u!"=%spellout-ordinal-feminine=s;"),
  (u!"1000000000000000000", u!"=#,##0=ª;")]

/-- `number_parser_data/raw_cldr_translation_data/es.json`, the rule set `%spellout-ordinal-feminine` -/
def esRules9 : List (PyStr × PyStr) := [
  (u!"-x", u!"menos >>;"),
  (u!"x.x", u!"=#,##0.#=;"),
  (u!"0", u!"cero;"),
  (u!"1", u!"primera;"),
  (u!"2", u!"segunda;"),
  (u!"3", u!"tercera;"),
  (u!"4", u!"cuarta;"),
  (u!"5", u!"quinta;"),
  (u!"6", u!"sexta;"),
  (u!"7", u!"séptima;"),
  (u!"8", u!"octava;"),
  (u!"9", u!"novena;"),
  (u!"10", u!"décima;"),
  (u!"11", u!"decimo>>;"),
  (u!"18", u!"decim>>;"),
  (u!"19", u!"decimo>>;"),
  (u!"20", u!"vigésima[ >>];"),
  (u!"30", u!"trigésima[ >>];"),
  (u!"40", u!"cuadragésima[ >>];"),
  (u!"50", u!"quincuagésima[ >>];"),
  (u!"60", u!"sexagésima[ >>];"),
  (u!"70", u!"septuagésima[ >>];"),
  (u!"80", u!"octogésima[ >>];"),
  (u!"90", u!"nonagésima[ >>];"),
  (u!"100", u!"centésima[ >>];"),
  (u!"200", u!"ducentésima[ >>];"),
  (u!"300", u!"tricentésima[ >>];"),
  (u!"400", u!"cuadringentésima[ >>];"),
  (u!"500", u!"quingentésima[ >>];"),
  (u!"600", u!"sexcentésima[ >>];"),
  (u!"700", u!"septingentésima[ >>];"),
  (u!"800", u!"octingésima[ >>];"),
  (u!"900", u!"noningentésima[ >>];"),
  (u!"1000", u!"milésima[ >>];"),
  (u!"2000", u!"<%spellout-cardinal-masculine< milésima[ >>];"),
  (u!"1000000", u!"un millonésima[ >>];"),
  (u!"2000000", u!"<%spellout-cardinal-masculine< millonésima[ >>];"),
  (u!"1000000000000", u!"un billonésima[ >>];"),
  (u!"2000000000000", u!"<%spellout-cardinal-masculine< billonésima[ >>];"),
  (u!"1000000000000000000", u!"=#,##0=ª;")]

/-- `number_parser_data/raw_cldr_translation_data/es.json`, `SpelloutRules` -/
def esRules : RuleSets := [
  (u!"%%lenient-parse", esRules0),
  (u!"%spellout-numbering-year", esRules1),
  (u!"%spellout-numbering", esRules2),
  (u!"%spellout-cardinal-masculine", esRules3),
  (u!"%spellout-cardinal-feminine", esRules4),
  (u!"%spellout-ordinal-masculine-adjective", esRules5),
  (u!"%spellout-ordinal-masculine-plural", esRules6),
  (u!"%spellout-ordinal-masculine", esRules7),
  (u!"%spellout-ordinal-feminine-plural", esRules8),
  (u!"%spellout-ordinal-feminine", esRules9)]

/-- `number_parser_data/supplementary_translation_data/es.json` -/
def esSupplementary : Supplementary where
  tables := {
    unit := []
    direct := [(u!"diecisiete", ⟨17, 0⟩), (u!"dieciocho", ⟨18, 0⟩), (u!"diecinueve", ⟨19, 0⟩), (u!"veintisiete", ⟨27, 0⟩), (u!"veintiocho", ⟨28, 0⟩), (u!"veintinueve", ⟨29, 0⟩)]
    tens := []
    hundreds := [(u!"cien", ⟨100, 0⟩), (u!"ciento", ⟨100, 0⟩)]
    big := [(u!"millón", ⟨1000000, 0⟩), (u!"millardo", ⟨1000000000, 0⟩), (u!"billón", ⟨1000000000000, 0⟩), (u!"billones", ⟨1000000000000, 0⟩), (u!"trillón", ⟨1000000000000000000, 0⟩), (u!"trillones", ⟨1000000000000000000, 0⟩), (u!"cuatrillón", ⟨1000000000000000000000000, 0⟩), (u!"cuatrillones", ⟨1000000000000000000000000, 0⟩), (u!"quintillón", ⟨1000000000000000000000000000000, 0⟩), (u!"quintillones", ⟨1000000000000000000000000000000, 0⟩), (u!"sextillón", ⟨1000000000000000000000000000000000000, 0⟩), (u!"sextillones", ⟨1000000000000000000000000000000000000, 0⟩), (u!"septillón", ⟨1000000000000000000000000000000000000000000, 0⟩), (u!"septillones", ⟨1000000000000000000000000000000000000000000, 0⟩), (u!"octillón", ⟨1000000000000000000000000000000000000000000000000, 0⟩), (u!"octillones", ⟨1000000000000000000000000000000000000000000000000, 0⟩), (u!"nonillón", ⟨1000000000000000000000000000000000000000000000000000000, 0⟩), (u!"nonillones", ⟨1000000000000000000000000000000000000000000000000000000, 0⟩), (u!"decillón", ⟨1000000000000000000000000000000000000000000000000000000000000, 0⟩), (u!"decillones", ⟨1000000000000000000000000000000000000000000000000000000000000000000, 0⟩), (u!"undecillón", ⟨1000000000000000000000000000000000000000000000000000000000000000000, 0⟩), (u!"undecillones", ⟨1000000000000000000000000000000000000000000000000000000000000000000, 0⟩), (u!"duodecillón", ⟨1000000000000000000000000000000000000000000000000000000000000000000000000, 0⟩), (u!"duodecillones", ⟨1000000000000000000000000000000000000000000000000000000000000000000000000, 0⟩), (u!"tredecillón", ⟨1000000000000000000000000000000000000000000000000000000000000000000000000000000, 0⟩), (u!"tredecillones", ⟨1000000000000000000000000000000000000000000000000000000000000000000000000000000, 0⟩), (u!"vigintillón", ⟨1000000000000000000000000000000000000000000000000000000000000000000000000000000000000000000000000000000000000000000000000, 0⟩), (u!"vigintillones", ⟨1000000000000000000000000000000000000000000000000000000000000000000000000000000000000000000000000000000000000000000000000, 0⟩), (u!"gúgol", ⟨10000000000000000000000000000000000000000000000000000000000000000000000000000000000000000000000000000, 0⟩), (u!"centillón", ⟨1000000000000000000000000000000000000000000000000000000000000000000000000000000000000000000000000000000000000000000000000000000000000000000000000000000000000000000000000000000000000000000000000000000000000000000000000000000000000000000000000000000000000000000000000000000000000000000000000000000000000000000000000000000000000000000000000000000000000000000000000000000000000000000000000000000000000000000000000000000000000000000000000000000000000000000000000000000000000000000000000000000000000000000000000000000000000000000000000000000000000000000000000000000000000000000000000000000000000000000000000, 0⟩)] }
  skipTokens := [u!"y"]
  useLongScale := some true

/-- `number_parser_data/raw_cldr_translation_data/hi.json`, the rule set `%spellout-numbering-year` -/
def hiRules0 : List (PyStr × PyStr) := [
  (u!"x.x", u!"=0.0=;"),
  (u!"0", u!"=%spellout-numbering=;")]

/-- `number_parser_data/raw_cldr_translation_data/hi.json`, the rule set `%spellout-numbering` -/
def hiRules1 : List (PyStr × PyStr) := [
  (u!"0", u!"=%spellout-cardinal=;")]

/-- `number_parser_data/raw_cldr_translation_data/hi.json`, the rule set `%spellout-cardinal` -/
def hiRules2 : List (PyStr × PyStr) := [
  (u!"-x", u!"ऋण >>;"),
  (u!"x.x", u!"<< दशमलव >>;"),
  (u!"0", u!"शून्य;"),
  (u!"1", u!"एक;"),
  (u!"2", u!"दो;"),
  (u!"3", u!"तीन;"),
  (u!"4", u!"चार;"),
  (u!"5", u!"पाँच;"),
  (u!"6", u!"छह;"),
  (u!"7", u!"सात;"),
  (u!"8", u!"आठ;"),
  (u!"9", u!"नौ;"),
  (u!"10", u!"दस;"),
  (u!"11", u!"ग्यारह;"),
  (u!"12", u!"बारह;"),
  (u!"13", u!"तेरह;"),
  (u!"14", u!"चौदह;"),
  (u!"15", u!"पन्द्रह;"),
  (u!"16", u!"सोलह;"),
  (u!"17", u!"सत्रह;"),
  (u!"18", u!"अठारह;"),
  (u!"19", u!"उन्नीस;"),
  (u!"20", u!"बीस;"),
  (u!"21", u!"इक्कीस;"),
  (u!"22", u!"बाईस;"),
  (u!"23", u!"तेईस;"),
  (u!"24", u!"चौबीस;"),
  (u!"25", u!"पच्चीस;"),
  (u!"26", u!"छब्बीस;"),
  (u!"27", u!"सत्ताईस;"),
  (u!"28", u!"अट्ठाईस;"),
  (u!"29", u!"उनतीस;"),
  (u!"30", u!"तीस;"),
  (u!"31", u!"इकतीस;"),
  (u!"32", u!"बत्तीस;"),
  (u!"33", u!"तैंतीस;"),
  (u!"34", u!"चौंतीस;"),
  (u!"35", u!"पैंतीस;"),
  (u!"36", u!"छत्तीस;"),
  (u!"37", u!"सैंतीस;"),
  (u!"38", u!"अड़तीस;"),
  (u!"39", u!"उनतालीस;"),
  (u!"40", u!"चालीस;"),
  (u!"41", u!"इकतालीस;"),
  (u!"42", u!"बयालीस;"),
  (u!"43", u!"तैंतालीस;"),
  (u!"44", u!"चौवालीस;"),
  (u!"45", u!"पैंतालीस;"),
  (u!"46", u!"छियालीस;"),
  (u!"47", u!"सैंतालीस;"),
  (u!"48", u!"अड़तालीस;"),
  (u!"49", u!"उनचास;"),
  (u!"50", u!"पचास;"),
  (u!"51", u!"इक्यावन;"),
  (u!"52", u!"बावन;"),
  (u!"53", u!"तिरेपन;"),
  (u!"54", u!"चौवन;"),
  (u!"55", u!"पचपन;"),
  (u!"56", u!"छप्पन;"),
  (u!"57", u!"सत्तावन;"),
  (u!"58", u!"अट्ठावन;"),
  (u!"59", u!"उनसठ;"),
  (u!"60", u!"साठ;"),
  (u!"61", u!"इकसठ;"),
  (u!"62", u!"बासठ;"),
  (u!"63", u!"तिरेसठ;"),
  (u!"64", u!"चौंसठ;"),
  (u!"65", u!"पैंसठ;"),
  (u!"66", u!"छियासठ;"),
  (u!"67", u!"सड़सठ;"),
  (u!"68", u!"अड़सठ;"),
  (u!"69", u!"उनहत्तर;"),
  (u!"70", u!"सत्तर;"),
  (u!"71", u!"इकहत्तर;"),
  (u!"72", u!"बहत्तर;"),
  (u!"73", u!"तिहत्तर;"),
  (u!"74", u!"चौहत्तर;"),
  (u!"75", u!"पचहत्तर;"),
  (u!"76", u!"छिहत्तर;"),
  (u!"77", u!"सतहत्तर;"),
  (u!"78", u!"अठहत्तर;"),
  (u!"79", u!"उनासी;"),
  (u!"80", u!"अस्सी;"),
  (u!"81", u!"इक्यासी;"),
  (u!"82", u!"बयासी;"),
  (u!"83", u!"तिरासी;"),
  (u!"84", u!"चौरासी;"),
  (u!"85", u!"पचासी;"),
  (u!"86", u!"छियासी;"),
  (u!"87", u!"सत्तासी;"),
  (u!"88", u!"अट्ठासी;"),
  (u!"89", u!"नवासी;"),
  (u!"90", u!"नब्बे;"),
  (u!"91", u!"इक्यानबे;"),
  (u!"92", u!"बानबे;"),
  (u!"93", u!"तिरानबे;"),
  (u!"94", u!"चौरानबे;"),
  (u!"95", u!"पंचानबे;"),
  (u!"96", u!"छियानबे;"),
  (u!"97", u!"सत्तानबे;"),
  (u!"98", u!"अट्ठानबे;"),
  (u!"99", u!"निन्यानबे;"),
  (u!"100", u!"<< सौ[ >>];"),
  (u!"1000", u!"<< हज़ार[ >>];"),
  (u!"100000", u!"<< लाख[ >>];"),
  (u!"10000000", u!"<< करोड़[ >>];"),
  (u!"1000000000", u!"<< अरब[ >>];"),
  (u!"100000000000", u!"<< खरब[ >>];"),
  (u!"1000000000000000000", u!"=#,##,##0=;")]

/-- `number_parser_data/raw_cldr_translation_data/hi.json`, the rule set `%spellout-ordinal-masculine` -/
def hiRules3 : List (PyStr × PyStr) := [
  (u!"-x", u!"ऋण >>;"),
  (u!"x.x", u!"=#,##,##0.0=;"),
  (u!"0", u!"शून्यवाँ;"),
  (u!"1", u!"पहला;"),
  (u!"2", u!"दूसरा;"),
  (u!"3", u!"तीसरा;"),
  (u!"4", u!"चौथा;"),
  (u!"5", u!"पाँचवाँ;"),
  (u!"6", u!"छठा;"),
  (u!"7", u!"=%spellout-cardinal=वाँ;")]

/-- `number_parser_data/raw_cldr_translation_data/hi.json`, the rule set `%spellout-ordinal-feminine` -/
def hiRules4 : List (PyStr × PyStr) := [
  (u!"-x", u!"ऋण >>;"),
  (u!"x.x", u!"=#,##,##0.0=;"),
  (u!"0", u!"शून्यवी;"),
  (u!"1", u!"पहली;"),
  (u!"2", u!"दूसरी;"),
  (u!"3", u!"तीसरी;"),
  (u!"4", u!"चौथी;"),
  (u!"5", u!"पाँचवी;"),
  (u!"6", u!"छठी;"),
  (u!"7", u!"=%spellout-cardinal=वी;")]

/-- `number_parser_data/raw_cldr_translation_data/hi.json`, `SpelloutRules` -/
def hiRules : RuleSets := [
  (u!"%spellout-numbering-year", hiRules0),
  (u!"%spellout-numbering", hiRules1),
  (u!"%spellout-cardinal", hiRules2),
  (u!"%spellout-ordinal-masculine", hiRules3),
  (u!"%spellout-ordinal-feminine", hiRules4)]

/-- `number_parser_data/supplementary_translation_data/hi.json` -/
def hiSupplementary : Supplementary where
  tables := {
    unit := []
    direct := []
    tens := []
    hundreds := []
    big := [] }
  skipTokens := []
  useLongScale := some false

/-- `number_parser_data/raw_cldr_translation_data/ru.json`, the rule set `%spellout-numbering-year` -/
def ruRules0 : List (PyStr × PyStr) := [
  (u!"x.x", u!"=0.0=;"),
  (u!"0", u!"=%spellout-ordinal-masculine-genitive=;")]

/-- `number_parser_data/raw_cldr_translation_data/ru.json`, the rule set `%spellout-numbering` -/
def ruRules1 : List (PyStr × PyStr) := [
  (u!"0", u!"=%spellout-cardinal-masculine=;")]

/-- `number_parser_data/raw_cldr_translation_data/ru.json`, the rule set `%spellout-cardinal-masculine` -/
def ruRules2 : List (PyStr × PyStr) := [
  (u!"-x", u!"минус >>;"),
  (u!"x.x", u!"[<%spellout-cardinal-feminine< $(cardinal,one{целый}other{целых})$ ]>%%fractions-feminine>;"),
  (u!"0", u!"ноль;"),
  (u!"1", u!"один;"),
  (u!"2", u!"два;"),
  (u!"3", u!"три;"),
  (u!"4", u!"четыре;"),
  (u!"5", u!"пять;"),
  (u!"6", u!"шесть;"),
  (u!"7", u!"семь;"),
  (u!"8", u!"восемь;"),
  (u!"9", u!"девять;"),
  (u!"10", u!"десять;"),
  (u!"11", u!"одиннадцать;"),
  (u!"12", u!"двенадцать;"),
  (u!"13", u!"тринадцать;"),
  (u!"14", u!"четырнадцать;"),
  (u!"15", u!"пятнадцать;"),
  (u!"16", u!"шестнадцать;"),
  (u!"17", u!"семнадцать;"),
  (u!"18", u!"восемнадцать;"),
  (u!"19", u!"девятнадцать;"),
  (u!"20", u!"двадцать[ >>];"),
  (u!"30", u!"тридцать[ >>];"),
  (u!"40", u!"сорок[ >>];"),
  (u!"50", u!"пятьдесят[ >>];"),
  (u!"60", u!"шестьдесят[ >>];"),
  (u!"70", u!"семьдесят[ >>];"),
  (u!"80", u!"восемьдесят[ >>];"),
  (u!"90", u!"девяносто[ >>];"),
  (u!"100", u!"сто[ >>];"),
  (u!"200", u!"<%spellout-cardinal-feminine<сти[ >>];"),
  (u!"300", u!"<%spellout-cardinal-feminine<ста[ >>];"),
  (u!"500", u!"<%spellout-cardinal-feminine<сот[ >>];"),
  (u!"1000", u!"<%spellout-cardinal-feminine< $(cardinal,one{тысяча}few{тысячи}other{тысяч})$[ >>];"),
  (u!"1000000", u!"<%spellout-cardinal-masculine< $(cardinal,one{миллион}few{миллиона}other{миллионов})$[ >>];"),
  (u!"1000000000", u!"<%spellout-cardinal-masculine< $(cardinal,one{миллиард}few{миллиарда}other{миллиардов})$[ >>];"),
  (u!"1000000000000", u!"<%spellout-cardinal-masculine< $(cardinal,one{триллион}few{триллиона}other{триллионов})$[ >>];"),
  (u!"1000000000000000", u!"<%spellout-cardinal-masculine< $(cardinal,one{квадриллион}few{квадриллиона}other{квадриллионов})$[ >>];"),
  (u!"1000000000000000000", u!"=#,##0=;")]

/-- `number_parser_data/raw_cldr_translation_data/ru.json`, the rule set `%spellout-cardinal-neuter` -/
def ruRules3 : List (PyStr × PyStr) := [
  (u!"-x", u!"минус >>;"),
  (u!"x.x", u!"[<%spellout-cardinal-feminine< $(cardinal,one{целая}other{целых})$ ]>%%fractions-feminine>;"),
  (u!"0", u!"ноль;"),
  (u!"1", u!"одно;"),
  (u!"2", u!"=%spellout-cardinal-masculine=;"),
  (u!"20", u!"двадцать[ >>];"),
  (u!"30", u!"тридцать[ >>];"),
  (u!"40", u!"сорок[ >>];"),
  (u!"50", u!"пятьдесят[ >>];"),
  (u!"60", u!"шестьдесят[ >>];"),
  (u!"70", u!"семьдесят[ >>];"),
  (u!"80", u!"восемьдесят[ >>];"),
  (u!"90", u!"девяносто[ >>];"),
  (u!"100", u!"сто[ >>];"),
  (u!"200", u!"<%spellout-cardinal-feminine<сти[ >>];"),
  (u!"300", u!"<%spellout-cardinal-feminine<ста[ >>];"),
  (u!"500", u!"<%spellout-cardinal-feminine<сот[ >>];"),
  (u!"1000", u!"<%spellout-cardinal-feminine< $(cardinal,one{тысяча}few{тысячи}other{тысяч})$[ >>];"),
  (u!"1000000", u!"<%spellout-cardinal-masculine< $(cardinal,one{миллион}few{миллиона}other{миллионов})$[ >>];"),
  (u!"1000000000", u!"<%spellout-cardinal-masculine< $(cardinal,one{миллиард}few{миллиарда}other{миллиардов})$[ >>];"),
  (u!"1000000000000", u!"<%spellout-cardinal-masculine< $(cardinal,one{триллион}few{триллиона}other{триллионов})$[ >>];"),
  (u!"1000000000000000", u!"<%spellout-cardinal-masculine< $(cardinal,one{квадриллион}few{квадриллиона}other{квадриллионов})$[ >>];"),
  (u!"1000000000000000000", u!"=#,##0=;")]

/-- `number_parser_data/raw_cldr_translation_data/ru.json`, the rule set `%spellout-cardinal-feminine` -/
def ruRules4 : List (PyStr × PyStr) := [
  (u!"-x", u!"минус >>;"),
  (u!"x.x", u!"[<< $(cardinal,one{целая}other{целых})$ ]>%%fractions-feminine>;"),
  (u!"0", u!"ноль;"),
  (u!"1", u!"одна;"),
  (u!"2", u!"две;"),
  (u!"3", u!"=%spellout-cardinal-masculine=;"),
  (u!"20", u!"двадцать[ >>];"),
  (u!"30", u!"тридцать[ >>];"),
  (u!"40", u!"сорок[ >>];"),
  (u!"50", u!"пятьдесят[ >>];"),
  (u!"60", u!"шестьдесят[ >>];"),
  (u!"70", u!"семьдесят[ >>];"),
  (u!"80", u!"восемьдесят[ >>];"),
  (u!"90", u!"девяносто[ >>];"),
  (u!"100", u!"сто[ >>];"),
  (u!"200", u!"<%spellout-cardinal-feminine<сти[ >>];"),
  (u!"300", u!"<%spellout-cardinal-feminine<ста[ >>];"),
  (u!"500", u!"<%spellout-cardinal-feminine<сот[ >>];"),
  (u!"1000", u!"<%spellout-cardinal-feminine< $(cardinal,one{тысяча}few{тысячи}other{тысяч})$[ >>];"),
  (u!"1000000", u!"<%spellout-cardinal-masculine< $(cardinal,one{миллион}few{миллиона}other{миллионов})$[ >>];"),
  (u!"1000000000", u!"<%spellout-cardinal-masculine< $(cardinal,one{миллиард}few{миллиарда}other{миллиардов})$[ >>];"),
  (u!"1000000000000", u!"<%spellout-cardinal-masculine< $(cardinal,one{триллион}few{триллиона}other{триллионов})$[ >>];"),
  (u!"1000000000000000", u!"<%spellout-cardinal-masculine< $(cardinal,one{квадриллион}few{квадриллиона}other{квадриллионов})$[ >>];"),
  (u!"1000000000000000000", u!"=#,##0=;")]

/-- `number_parser_data/raw_cldr_translation_data/ru.json`, the rule set `%spellout-cardinal-plural` -/
def ruRules5 : List (PyStr × PyStr) := [
  (u!"-x", u!"минус >>;"),
  (u!"x.x", u!"<< запятая >>;"),
  (u!"0", u!"ноль;"),
  (u!"1", u!"одни;"),
  (u!"2", u!"две;"),
  (u!"3", u!"=%spellout-cardinal-masculine=;"),
  (u!"20", u!"двадцать[ >>];"),
  (u!"30", u!"тридцать[ >>];"),
  (u!"40", u!"сорок[ >>];"),
  (u!"50", u!"пятьдесят[ >>];"),
  (u!"60", u!"шестьдесят[ >>];"),
  (u!"70", u!"семьдесят[ >>];"),
  (u!"80", u!"восемьдесят[ >>];"),
  (u!"90", u!"девяносто[ >>];"),
  (u!"100", u!"сто[ >>];"),
  (u!"200", u!"<%spellout-cardinal-feminine<сти[ >>];"),
  (u!"300", u!"<%spellout-cardinal-feminine<ста[ >>];"),
  (u!"500", u!"<%spellout-cardinal-feminine<сот[ >>];"),
  (u!"1000", u!"<%spellout-cardinal-feminine< $(cardinal,one{тысяча}few{тысячи}other{тысяч})$[ >>];"),
  (u!"1000000", u!"<%spellout-cardinal-masculine< $(cardinal,one{миллион}few{миллиона}other{миллионов})$[ >>];"),
  (u!"1000000000", u!"<%spellout-cardinal-masculine< $(cardinal,one{миллиард}few{миллиарда}other{миллиардов})$[ >>];"),
  (u!"1000000000000", u!"<%spellout-cardinal-masculine< $(cardinal,one{триллион}few{триллиона}other{триллионов})$[ >>];"),
  (u!"1000000000000000", u!"<%spellout-cardinal-masculine< $(cardinal,one{квадриллион}few{квадриллиона}other{квадриллионов})$[ >>];"),
  (u!"1000000000000000000", u!"=#,##0=;")]

/-- `number_parser_data/raw_cldr_translation_data/ru.json`, the rule set `%%fractions-feminine` -/
def ruRules6 : List (PyStr × PyStr) := [
  (u!"10", u!"<%spellout-cardinal-feminine< $(cardinal,one{десятая}other{десятых})$;"),
  (u!"100", u!"<%spellout-cardinal-feminine< $(cardinal,one{сотая}other{сотых})$;"),
  (u!"1000", u!"<%spellout-cardinal-feminine< $(cardinal,one{тысячная}other{тысячных})$;"),
  (u!"10000", u!"<%spellout-cardinal-feminine< $(cardinal,one{десятитысячная}other{десятитысячных})$;"),
  (u!"100000", u!"<%spellout-cardinal-feminine< $(cardinal,one{стотысячная}other{стотысячных})$;"),
  (u!"1000000", u!"<%spellout-cardinal-feminine< $(cardinal,one{миллионная}other{миллионных})$;"),
  (u!"10000000", u!"<%spellout-cardinal-feminine< $(cardinal,one{десятимиллионная}other{десятимиллионных})$;"),
  (u!"100000000", u!"<%spellout-cardinal-feminine< $(cardinal,one{стомиллионная}other{стомиллионных})$;"),
  (u!"1000000000", u!"<%spellout-cardinal-feminine< $(cardinal,one{миллиардная}other{миллиардных})$;"),
  (u!"10000000000", u!"<%spellout-cardinal-feminine< $(cardinal,one{десятимиллиардная}other{десятимиллиардных})$;"),
  (u!"100000000000", u!"<%spellout-cardinal-feminine< $(cardinal,one{стомиллиардная}other{стомиллиардных})$;"),
  (u!"1000000000000", u!"<0<;")]

/-- `number_parser_data/raw_cldr_translation_data/ru.json`, the rule set `%spellout-cardinal-masculine-genitive` -/
def ruRules7 : List (PyStr × PyStr) := [
  (u!"-x", u!"минус >>;"),
  (u!"x.x", u!"[<%spellout-cardinal-feminine-genitive< $(cardinal,one{целой}other{целых})$ ]>%%fractions-feminine-genitive>;"),
  (u!"0", u!"ноля;"),
  (u!"1", u!"одного;"),
  (u!"2", u!"двух;"),
  (u!"3", u!"трех;"),
  (u!"4", u!"четырех;"),
  (u!"5", u!"пяти;"),
  (u!"6", u!"шести;"),
  (u!"7", u!"семи;"),
  (u!"8", u!"восьми;"),
  (u!"9", u!"девяти;"),
  (u!"10", u!"десяти;"),
  (u!"11", u!"одиннадцати;"),
  (u!"12", u!"двенадцати;"),
  (u!"13", u!"тринадцати;"),
  (u!"14", u!"четырнадцати;"),
  (u!"15", u!"пятнадцати;"),
  (u!"16", u!"шестнадцати;"),
  (u!"17", u!"семнадцати;"),
  (u!"18", u!"восемнадцати;"),
  (u!"19", u!"девятнадцати;"),
  (u!"20", u!"двадцати[ >>];"),
  (u!"30", u!"тридцати[ >>];"),
  (u!"40", u!"сорока[ >>];"),
  (u!"50", u!"пятидесяти[ >>];"),
  (u!"60", u!"шестидесяти[ >>];"),
  (u!"70", u!"семидесяти[ >>];"),
  (u!"80", u!"восьмидесяти[ >>];"),
  (u!"90", u!"девяноста[ >>];"),
  (u!"100", u!"ста[ >>];"),
  (u!"200", u!"<%spellout-cardinal-feminine-genitive<сот[ >>];"),
  (u!"1000", u!"<%spellout-cardinal-feminine-genitive< $(cardinal,one{тысячи}other{тысяч})$[ >>];"),
  (u!"1000000", u!"<%spellout-cardinal-masculine-genitive< $(cardinal,one{миллиона}other{миллионов})$[ >>];"),
  (u!"1000000000", u!"<%spellout-cardinal-masculine-genitive< $(cardinal,one{миллиарда}other{миллиардов})$[ >>];"),
  (u!"1000000000000", u!"<%spellout-cardinal-masculine-genitive< $(cardinal,one{триллиона}other{триллионов})$[ >>];"),
  (u!"1000000000000000", u!"<%spellout-cardinal-masculine-genitive< $(cardinal,one{квадриллиона}other{квадриллионов})$[ >>];"),
  (u!"1000000000000000000", u!"=#,##0=;")]

/-- `number_parser_data/raw_cldr_translation_data/ru.json`, the rule set `%spellout-cardinal-neuter-genitive` -/
def ruRules8 : List (PyStr × PyStr) := [
  (u!"0", u!"=%spellout-cardinal-masculine-genitive=;")]

/-- `number_parser_data/raw_cldr_translation_data/ru.json`, the rule set `%spellout-cardinal-feminine-genitive` -/
def ruRules9 : List (PyStr × PyStr) := [
  (u!"-x", u!"минус >>;"),
  (u!"x.x", u!"[<< $(cardinal,one{целой}other{целых})$ ]>%%fractions-feminine-genitive>;"),
  (u!"0", u!"ноля;"),
  (u!"1", u!"одной;"),
  (u!"2", u!"=%spellout-cardinal-masculine-genitive=;"),
  (u!"20", u!"двадцати[ >>];"),
  (u!"30", u!"тридцати[ >>];"),
  (u!"40", u!"сорока[ >>];"),
  (u!"50", u!"пятидесяти[ >>];"),
  (u!"60", u!"шестидесяти[ >>];"),
  (u!"70", u!"семидесяти[ >>];"),
  (u!"80", u!"восьмидесяти[ >>];"),
  (u!"90", u!"девяноста[ >>];"),
  (u!"100", u!"ста[ >>];"),
  (u!"200", u!"<%spellout-cardinal-feminine-genitive<сот[ >>];"),
  (u!"1000", u!"<%spellout-cardinal-feminine-genitive< $(cardinal,one{тысячи}other{тысяч})$[ >>];"),
  (u!"1000000", u!"<%spellout-cardinal-masculine-genitive< $(cardinal,one{миллиона}other{миллионов})$[ >>];"),
  (u!"1000000000", u!"<%spellout-cardinal-masculine-genitive< $(cardinal,one{миллиарда}other{миллиардов})$[ >>];"),
  (u!"1000000000000", u!"<%spellout-cardinal-masculine-genitive< $(cardinal,one{триллиона}other{триллионов})$[ >>];"),
  (u!"1000000000000000", u!"<%spellout-cardinal-masculine-genitive< $(cardinal,one{квадриллиона}other{квадриллионов})$[ >>];"),
  (u!"1000000000000000000", u!"=#,##0=;")]

/-- `number_parser_data/raw_cldr_translation_data/ru.json`, the rule set `%spellout-cardinal-plural-genitive` -/
def ruRules10 : List (PyStr × PyStr) := [
  (u!"-x", u!"минус >>;"),
  (u!"x.x", u!"<< запятая >>;"),
  (u!"0", u!"ноля;"),
  (u!"1", u!"одних;"),
  (u!"2", u!"=%spellout-cardinal-masculine-genitive=;"),
  (u!"20", u!"двадцати[ >>];"),
  (u!"30", u!"тридцати[ >>];"),
  (u!"40", u!"сорока[ >>];"),
  (u!"50", u!"пятидесяти[ >>];"),
  (u!"60", u!"шестидесяти[ >>];"),
  (u!"70", u!"семидесяти[ >>];"),
  (u!"80", u!"восьмидесяти[ >>];"),
  (u!"90", u!"девяноста[ >>];"),
  (u!"100", u!"ста[ >>];"),
  (u!"200", u!"<%spellout-cardinal-feminine-genitive<сот[ >>];"),
  (u!"1000", u!"<%spellout-cardinal-feminine-genitive< $(cardinal,one{тысячи}other{тысяч})$[ >>];"),
  (u!"1000000", u!"<%spellout-cardinal-masculine-genitive< $(cardinal,one{миллиона}other{миллионов})$[ >>];"),
  (u!"1000000000", u!"<%spellout-cardinal-masculine-genitive< $(cardinal,one{миллиарда}other{миллиардов})$[ >>];"),
  (u!"1000000000000", u!"<%spellout-cardinal-masculine-genitive< $(cardinal,one{триллиона}other{триллионов})$[ >>];"),
  (u!"1000000000000000", u!"<%spellout-cardinal-masculine-genitive< $(cardinal,one{квадриллиона}other{квадриллионов})$[ >>];"),
  (u!"1000000000000000000", u!"=#,##0=;")]

/-- `number_parser_data/raw_cldr_translation_data/ru.json`, the rule set `%%fractions-feminine-genitive` -/
def ruRules11 : List (PyStr × PyStr) := [
  (u!"10", u!"<%spellout-cardinal-feminine-genitive< $(cardinal,one{десятой}other{десятых})$;"),
  (u!"100", u!"<%spellout-cardinal-feminine-genitive< $(cardinal,one{сотой}other{сотых})$;"),
  (u!"1000", u!"<%spellout-cardinal-feminine-genitive< $(cardinal,one{тысячной}other{тысячных})$;"),
  (u!"10000", u!"<%spellout-cardinal-feminine-genitive< $(cardinal,one{десятитысячной}other{десятитысячных})$;"),
  (u!"100000", u!"<%spellout-cardinal-feminine-genitive< $(cardinal,one{стотысячной}other{стотысячных})$;"),
  (u!"1000000", u!"<%spellout-cardinal-feminine-genitive< $(cardinal,one{миллионной}other{миллионных})$;"),
  (u!"10000000", u!"<%spellout-cardinal-feminine-genitive< $(cardinal,one{десятимиллионной}other{десятимиллионных})$;"),
  (u!"100000000", u!"<%spellout-cardinal-feminine-genitive< $(cardinal,one{стомиллионной}other{стомиллионных})$;"),
  (u!"1000000000", u!"<%spellout-cardinal-feminine-genitive< $(cardinal,one{миллиардной}other{миллиардных})$;"),
  (u!"10000000000", u!"<%spellout-cardinal-feminine-genitive< $(cardinal,one{десятимиллиардной}other{десятимиллиардных})$;"),
  (u!"100000000000", u!"<%spellout-cardinal-feminine-genitive< $(cardinal,one{стомиллиардной}other{стомиллиардных})$;"),
  (u!"1000000000000", u!"<0<;")]

/-- `number_parser_data/raw_cldr_translation_data/ru.json`, the rule set `%spellout-cardinal-masculine-dative` -/
def ruRules12 : List (PyStr × PyStr) := [
  (u!"-x", u!"минус >>;"),
  (u!"x.x", u!"[<%spellout-cardinal-feminine-dative< $(cardinal,one{целой}other{целым})$ ]>%%fractions-feminine-dative>;"),
  (u!"0", u!"нолю;"),
  (u!"1", u!"одному;"),
  (u!"2", u!"двум;"),
  (u!"3", u!"трем;"),
  (u!"4", u!"четырем;"),
  (u!"5", u!"пяти;"),
  (u!"6", u!"шести;"),
  (u!"7", u!"семи;"),
  (u!"8", u!"восьми;"),
  (u!"9", u!"девяти;"),
  (u!"10", u!"десяти;"),
  (u!"11", u!"одиннадцати;"),
  (u!"12", u!"двенадцати;"),
  (u!"13", u!"тринадцати;"),
  (u!"14", u!"четырнадцати;"),
  (u!"15", u!"пятнадцати;"),
  (u!"16", u!"шестнадцати;"),
  (u!"17", u!"семнадцати;"),
  (u!"18", u!"восемнадцати;"),
  (u!"19", u!"девятнадцати;"),
  (u!"20", u!"двадцати[ >>];"),
  (u!"30", u!"тридцати[ >>];"),
  (u!"40", u!"сорока[ >>];"),
  (u!"50", u!"пятидесяти[ >>];"),
  (u!"60", u!"шестидесяти[ >>];"),
  (u!"70", u!"семидесяти[ >>];"),
  (u!"80", u!"восьмидесяти[ >>];"),
  (u!"90", u!"девяноста[ >>];"),
  (u!"100", u!"ста[ >>];"),
  (u!"200", u!"<%spellout-cardinal-feminine-dative<стам[ >>];"),
  (u!"1000", u!"<%spellout-cardinal-feminine-dative< $(cardinal,one{тысяче}other{тысячам})$[ >>];"),
  (u!"1000000", u!"<%spellout-cardinal-masculine-dative< $(cardinal,one{миллиону}other{миллионам})$[ >>];"),
  (u!"1000000000", u!"<%spellout-cardinal-masculine-dative< $(cardinal,one{миллиарду}other{миллиардам})$[ >>];"),
  (u!"1000000000000", u!"<%spellout-cardinal-masculine-dative< $(cardinal,one{триллиону}other{триллионам})$[ >>];"),
  (u!"1000000000000000", u!"<%spellout-cardinal-masculine-dative< $(cardinal,one{квадриллиону}other{квадриллионам})$[ >>];"),
  (u!"1000000000000000000", u!"=#,##0=;")]

/-- `number_parser_data/raw_cldr_translation_data/ru.json`, the rule set `%spellout-cardinal-neuter-dative` -/
def ruRules13 : List (PyStr × PyStr) := [
  (u!"0", u!"=%spellout-cardinal-masculine-dative=;")]

/-- `number_parser_data/raw_cldr_translation_data/ru.json`, the rule set `%spellout-cardinal-feminine-dative` -/
def ruRules14 : List (PyStr × PyStr) := [
  (u!"-x", u!"минус >>;"),
  (u!"x.x", u!"[<< $(cardinal,one{целой}other{целым})$ ]>%%fractions-feminine-dative>;"),
  (u!"0", u!"нолю;"),
  (u!"1", u!"одной;"),
  (u!"2", u!"=%spellout-cardinal-masculine-dative=;"),
  (u!"20", u!"двадцати[ >>];"),
  (u!"30", u!"тридцати[ >>];"),
  (u!"40", u!"сорока[ >>];"),
  (u!"50", u!"пятидесяти[ >>];"),
  (u!"60", u!"шестидесяти[ >>];"),
  (u!"70", u!"семидесяти[ >>];"),
  (u!"80", u!"восьмидесяти[ >>];"),
  (u!"90", u!"девяноста[ >>];"),
  (u!"100", u!"ста[ >>];"),
  (u!"200", u!"<%spellout-cardinal-feminine-dative<стам[ >>];"),
  (u!"1000", u!"<%spellout-cardinal-feminine-dative< $(cardinal,one{тысяче}other{тысячам})$[ >>];"),
  (u!"1000000", u!"<%spellout-cardinal-masculine-dative< $(cardinal,one{миллиону}other{миллионам})$[ >>];"),
  (u!"1000000000", u!"<%spellout-cardinal-masculine-dative< $(cardinal,one{миллиарду}other{миллиардам})$[ >>];"),
  (u!"1000000000000", u!"<%spellout-cardinal-masculine-dative< $(cardinal,one{триллиону}other{триллионам})$[ >>];"),
  (u!"1000000000000000", u!"<%spellout-cardinal-masculine-dative< $(cardinal,one{квадриллиону}other{квадриллионам})$[ >>];"),
  (u!"1000000000000000000", u!"=#,##0=;")]

/-- `number_parser_data/raw_cldr_translation_data/ru.json`, the rule set `%spellout-cardinal-plural-dative` -/
def ruRules15 : List (PyStr × PyStr) := [
  (u!"-x", u!"минус >>;"),
  (u!"x.x", u!"<< запятая >>;"),
  (u!"0", u!"нолю;"),
  (u!"1", u!"одним;"),
  (u!"2", u!"=%spellout-cardinal-masculine-dative=;"),
  (u!"20", u!"двадцати[ >>];"),
  (u!"30", u!"тридцати[ >>];"),
  (u!"40", u!"сорока[ >>];"),
  (u!"50", u!"пятидесяти[ >>];"),
  (u!"60", u!"шестидесяти[ >>];"),
  (u!"70", u!"семидесяти[ >>];"),
  (u!"80", u!"восьмидесяти[ >>];"),
  (u!"90", u!"девяноста[ >>];"),
  (u!"100", u!"ста[ >>];"),
  (u!"200", u!"<%spellout-cardinal-feminine-dative<стам[ >>];"),
  (u!"1000", u!"<%spellout-cardinal-feminine-dative< $(cardinal,one{тысяче}other{тысячам})$[ >>];"),
  (u!"1000000", u!"<%spellout-cardinal-masculine-dative< $(cardinal,one{миллиону}other{миллионам})$[ >>];"),
  (u!"1000000000", u!"<%spellout-cardinal-masculine-dative< $(cardinal,one{миллиарду}other{миллиардам})$[ >>];"),
  (u!"1000000000000", u!"<%spellout-cardinal-masculine-dative< $(cardinal,one{триллиону}other{триллионам})$[ >>];"),
  (u!"1000000000000000", u!"<%spellout-cardinal-masculine-dative< $(cardinal,one{квадриллиону}other{квадриллионам})$[ >>];"),
  (u!"1000000000000000000", u!"=#,##0=;")]

/-- `number_parser_data/raw_cldr_translation_data/ru.json`, the rule set `%%fractions-feminine-dative` -/
def ruRules16 : List (PyStr × PyStr) := [
  (u!"10", u!"<%spellout-cardinal-feminine-dative< $(cardinal,one{десятой}other{десятым})$;"),
  (u!"100", u!"<%spellout-cardinal-feminine-dative< $(cardinal,one{сотой}other{сотым})$;"),
  (u!"1000", u!"<%spellout-cardinal-feminine-dative< $(cardinal,one{тысячной}other{тысячным})$;"),
  (u!"10000", u!"<%spellout-cardinal-feminine-dative< $(cardinal,one{десятитысячной}other{десятитысячным})$;"),
  (u!"100000", u!"<%spellout-cardinal-feminine-dative< $(cardinal,one{стотысячной}other{стотысячным})$;"),
  (u!"1000000", u!"<%spellout-cardinal-feminine-dative< $(cardinal,one{миллионной}other{миллионным})$;"),
  (u!"10000000", u!"<%spellout-cardinal-feminine-dative< $(cardinal,one{десятимиллионной}other{десятимиллионным})$;"),
  (u!"100000000", u!"<%spellout-cardinal-feminine-dative< $(cardinal,one{стомиллионной}other{стомиллионным})$;"),
  (u!"1000000000", u!"<%spellout-cardinal-feminine-dative< $(cardinal,one{миллиардной}other{миллиардным})$;"),
  (u!"10000000000", u!"<%spellout-cardinal-feminine-dative< $(cardinal,one{десятимиллиардной}other{десятимиллиардным})$;"),
  (u!"100000000000", u!"<%spellout-cardinal-feminine-dative< $(cardinal,one{стомиллиардной}other{стомиллиардным})$;"),
  (u!"1000000000000", u!"<0<;")]

/-- `number_parser_data/raw_cldr_translation_data/ru.json`, the rule set `%spellout-cardinal-masculine-accusative` -/
def ruRules17 : List (PyStr × PyStr) := [
  (u!"-x", u!"минус >>;"),
  (u!"x.x", u!"[<%spellout-cardinal-feminine-accusative< $(cardinal,one{целую}other{целых})$ ]>%%fractions-feminine-accusative>;"),
  (u!"0", u!"ноль;"),
  (u!"1", u!"один;"),
  (u!"2", u!"два;"),
  (u!"3", u!"три;"),
  (u!"4", u!"четыре;"),
  (u!"5", u!"пять;"),
  (u!"6", u!"шесть;"),
  (u!"7", u!"семь;"),
  (u!"8", u!"восемь;"),
  (u!"9", u!"девять;"),
  (u!"10", u!"десять;"),
  (u!"11", u!"одиннадцать;"),
  (u!"12", u!"двенадцать;"),
  (u!"13", u!"тринадцать;"),
  (u!"14", u!"четырнадцать;"),
  (u!"15", u!"пятнадцать;"),
  (u!"16", u!"шестнадцать;"),
  (u!"17", u!"семнадцать;"),
  (u!"18", u!"восемнадцать;"),
  (u!"19", u!"девятнадцать;"),
  (u!"20", u!"двадцать[ >>];"),
  (u!"30", u!"тридцать[ >>];"),
  (u!"40", u!"сорок[ >>];"),
  (u!"50", u!"пятьдесят[ >>];"),
  (u!"60", u!"шестьдесят[ >>];"),
  (u!"70", u!"семьдесят[ >>];"),
  (u!"80", u!"восемьдесят[ >>];"),
  (u!"90", u!"девяносто[ >>];"),
  (u!"100", u!"сто[ >>];"),
  (u!"200", u!"<%spellout-cardinal-feminine-accusative<сти[ >>];"),
  (u!"300", u!"<%spellout-cardinal-feminine-accusative<ста[ >>];"),
  (u!"500", u!"<%spellout-cardinal-feminine-accusative<сот[ >>];"),
  (u!"1000", u!"<%spellout-cardinal-feminine-accusative< $(cardinal,one{тысячу}few{тысячи}other{тысяч})$[ >>];"),
  (u!"1000000", u!"<%spellout-cardinal-masculine-accusative< $(cardinal,one{миллион}few{миллиона}other{миллионов})$[ >>];"),
  (u!"1000000000", u!"<%spellout-cardinal-masculine-accusative< $(cardinal,one{миллиард}few{миллиарда}other{миллиардов})$[ >>];"),
  (u!"1000000000000", u!"<%spellout-cardinal-masculine< $(cardinal,one{триллион}few{триллиона}other{триллионов})$[ >>];"),
  (u!"1000000000000000", u!"<%spellout-cardinal-masculine< $(cardinal,one{квадриллион}few{квадриллиона}other{квадриллионов})$[ >>];"),
  (u!"1000000000000000000", u!"=#,##0=;")]

/-- `number_parser_data/raw_cldr_translation_data/ru.json`, the rule set `%spellout-cardinal-neuter-accusative` -/
def ruRules18 : List (PyStr × PyStr) := [
  (u!"-x", u!"минус >>;"),
  (u!"x.x", u!"[<%spellout-cardinal-feminine-accusative< $(cardinal,one{целую}other{целых})$ ]>%%fractions-feminine-accusative>;"),
  (u!"0", u!"ноль;"),
  (u!"1", u!"одно;"),
  (u!"2", u!"=%spellout-cardinal-masculine-accusative=;"),
  (u!"20", u!"двадцать[ >>];"),
  (u!"30", u!"тридцать[ >>];"),
  (u!"40", u!"сорок[ >>];"),
  (u!"50", u!"пятьдесят[ >>];"),
  (u!"60", u!"шестьдесят[ >>];"),
  (u!"70", u!"семьдесят[ >>];"),
  (u!"80", u!"восемьдесят[ >>];"),
  (u!"90", u!"девяносто[ >>];"),
  (u!"100", u!"сто[ >>];"),
  (u!"200", u!"<%spellout-cardinal-feminine-accusative<сти[ >>];"),
  (u!"300", u!"<%spellout-cardinal-feminine-accusative<ста[ >>];"),
  (u!"500", u!"<%spellout-cardinal-feminine-accusative<сот[ >>];"),
  (u!"1000", u!"<%spellout-cardinal-feminine-accusative< $(cardinal,one{тысячу}few{тысячи}other{тысяч})$[ >>];"),
  (u!"1000000", u!"<%spellout-cardinal-masculine-accusative< $(cardinal,one{миллион}few{миллиона}other{миллионов})$[ >>];"),
  (u!"1000000000", u!"<%spellout-cardinal-masculine-accusative< $(cardinal,one{миллиард}few{миллиарда}other{миллиардов})$[ >>];"),
  (u!"1000000000000", u!"<%spellout-cardinal-masculine< $(cardinal,one{триллион}few{триллиона}other{триллионов})$[ >>];"),
  (u!"1000000000000000", u!"<%spellout-cardinal-masculine< $(cardinal,one{квадриллион}few{квадриллиона}other{квадриллионов})$[ >>];"),
  (u!"1000000000000000000", u!"=#,##0=;")]

/-- `number_parser_data/raw_cldr_translation_data/ru.json`, the rule set `%spellout-cardinal-feminine-accusative` -/
def ruRules19 : List (PyStr × PyStr) := [
  (u!"-x", u!"минус >>;"),
  (u!"x.x", u!"[<%spellout-cardinal-feminine-accusative< $(cardinal,one{целую}other{целых})$ ]>%%fractions-feminine-accusative>;"),
  (u!"0", u!"ноль;"),
  (u!"1", u!"одну;"),
  (u!"2", u!"две;"),
  (u!"3", u!"=%spellout-cardinal-masculine-accusative=;"),
  (u!"20", u!"двадцать[ >>];"),
  (u!"30", u!"тридцать[ >>];"),
  (u!"40", u!"сорок[ >>];"),
  (u!"50", u!"пятьдесят[ >>];"),
  (u!"60", u!"шестьдесят[ >>];"),
  (u!"70", u!"семьдесят[ >>];"),
  (u!"80", u!"восемьдесят[ >>];"),
  (u!"90", u!"девяносто[ >>];"),
  (u!"100", u!"сто[ >>];"),
  (u!"200", u!"<%spellout-cardinal-feminine-accusative<сти[ >>];"),
  (u!"300", u!"<%spellout-cardinal-feminine-accusative<ста[ >>];"),
  (u!"500", u!"<%spellout-cardinal-feminine-accusative<сот[ >>];"),
  (u!"1000", u!"<%spellout-cardinal-feminine-accusative< $(cardinal,one{тысячу}few{тысячи}other{тысяч})$[ >>];"),
  (u!"1000000", u!"<%spellout-cardinal-masculine-accusative< $(cardinal,one{миллион}few{миллиона}other{миллионов})$[ >>];"),
  (u!"1000000000", u!"<%spellout-cardinal-masculine-accusative< $(cardinal,one{миллиард}few{миллиарда}other{миллиардов})$[ >>];"),
  (u!"1000000000000", u!"<%spellout-cardinal-masculine< $(cardinal,one{триллион}few{триллиона}other{триллионов})$[ >>];"),
  (u!"1000000000000000", u!"<%spellout-cardinal-masculine< $(cardinal,one{квадриллион}few{квадриллиона}other{квадриллионов})$[ >>];"),
  (u!"1000000000000000000", u!"=#,##0=;")]

/-- `number_parser_data/raw_cldr_translation_data/ru.json`, the rule set `%spellout-cardinal-plural-accusative` -/
def ruRules20 : List (PyStr × PyStr) := [
  (u!"-x", u!"минус >>;"),
  (u!"x.x", u!"<< запятая >>;"),
  (u!"0", u!"ноль;"),
  (u!"1", u!"одни;"),
  (u!"2", u!"две;"),
  (u!"3", u!"=%spellout-cardinal-masculine-accusative=;"),
  (u!"20", u!"двадцать[ >>];"),
  (u!"30", u!"тридцать[ >>];"),
  (u!"40", u!"сорок[ >>];"),
  (u!"50", u!"пятьдесят[ >>];"),
  (u!"60", u!"шестьдесят[ >>];"),
  (u!"70", u!"семьдесят[ >>];"),
  (u!"80", u!"восемьдесят[ >>];"),
  (u!"90", u!"девяносто[ >>];"),
  (u!"100", u!"сто[ >>];"),
  (u!"200", u!"<%spellout-cardinal-feminine-accusative<сти[ >>];"),
  (u!"300", u!"<%spellout-cardinal-feminine-accusative<ста[ >>];"),
  (u!"500", u!"<%spellout-cardinal-feminine-accusative<сот[ >>];"),
  (u!"1000", u!"<%spellout-cardinal-feminine-accusative< $(cardinal,one{тысячу}few{тысячи}other{тысяч})$[ >>];"),
  (u!"1000000", u!"<%spellout-cardinal-masculine-accusative< $(cardinal,one{миллион}few{миллиона}other{миллионов})$[ >>];"),
  (u!"1000000000", u!"<%spellout-cardinal-masculine-accusative< $(cardinal,one{миллиард}few{миллиарда}other{миллиардов})$[ >>];"),
  (u!"1000000000000", u!"<%spellout-cardinal-masculine< $(cardinal,one{триллион}few{триллиона}other{триллионов})$[ >>];"),
  (u!"1000000000000000", u!"<%spellout-cardinal-masculine< $(cardinal,one{квадриллион}few{квадриллиона}other{квадриллионов})$[ >>];"),
  (u!"1000000000000000000", u!"=#,##0=;")]

/-- `number_parser_data/raw_cldr_translation_data/ru.json`, the rule set `%%fractions-feminine-accusative` -/
def ruRules21 : List (PyStr × PyStr) := [
  (u!"10", u!"<%spellout-cardinal-feminine-accusative< $(cardinal,one{десятую}other{десятых})$;"),
  (u!"100", u!"<%spellout-cardinal-feminine-accusative< $(cardinal,one{сотую}other{сотых})$;"),
  (u!"1000", u!"<%spellout-cardinal-feminine-accusative< $(cardinal,one{тысячную}other{тысячных})$;"),
  (u!"10000", u!"<%spellout-cardinal-feminine-accusative< $(cardinal,one{десятитысячную}other{десятитысячных})$;"),
  (u!"100000", u!"<%spellout-cardinal-feminine-accusative< $(cardinal,one{стотысячную}other{стотысячных})$;"),
  (u!"1000000", u!"<%spellout-cardinal-feminine-accusative< $(cardinal,one{миллионную}other{миллионных})$;"),
  (u!"10000000", u!"<%spellout-cardinal-feminine-accusative< $(cardinal,one{десятимиллионную}other{десятимиллионных})$;"),
  (u!"100000000", u!"<%spellout-cardinal-feminine-accusative< $(cardinal,one{стомиллионную}other{стомиллионных})$;"),
  (u!"1000000000", u!"<%spellout-cardinal-feminine-accusative< $(cardinal,one{миллиардную}other{миллиардных})$;"),
  (u!"10000000000", u!"<%spellout-cardinal-feminine-accusative< $(cardinal,one{десятимиллиардную}other{десятимиллиардных})$;"),
  (u!"100000000000", u!"<%spellout-cardinal-feminine-accusative< $(cardinal,one{стомиллиардную}other{стомиллиардных})$;"),
  (u!"1000000000000", u!"<0<;")]

/-- `number_parser_data/raw_cldr_translation_data/ru.json`, the rule set `%spellout-cardinal-masculine-locative` -/
def ruRules22 : List (PyStr × PyStr) := [
  (u!"-x", u!"минус >>;"),
  (u!"x.x", u!"[<%spellout-cardinal-feminine-locative< $(cardinal,one{целой}other{целых})$ ]>%%fractions-feminine-locative>;"),
  (u!"0", u!"нуле;"),
  (u!"1", u!"одном;"),
  (u!"2", u!"двух;"),
  (u!"3", u!"трех;"),
  (u!"4", u!"четырех;"),
  (u!"5", u!"пяти;"),
  (u!"6", u!"шести;"),
  (u!"7", u!"семи;"),
  (u!"8", u!"восьми;"),
  (u!"9", u!"девяти;"),
  (u!"10", u!"десяти;"),
  (u!"11", u!"одиннадцати;"),
  (u!"12", u!"двенадцати;"),
  (u!"13", u!"тринадцати;"),
  (u!"14", u!"четырнадцати;"),
  (u!"15", u!"пятнадцати;"),
  (u!"16", u!"шестнадцати;"),
  (u!"17", u!"семнадцати;"),
  (u!"18", u!"восемнадцати;"),
  (u!"19", u!"девятнадцати;"),
  (u!"20", u!"двадцать[ >>];"),
  (u!"30", u!"тридцать[ >>];"),
  (u!"40", u!"сорока[ >>];"),
  (u!"50", u!"пятидесяти[ >>];"),
  (u!"60", u!"шестидесяти[ >>];"),
  (u!"70", u!"семидесяти[ >>];"),
  (u!"80", u!"восьмидесяти[ >>];"),
  (u!"90", u!"девяноста[ >>];"),
  (u!"100", u!"ста[ >>];"),
  (u!"200", u!"<%spellout-cardinal-feminine-locative<стах[ >>];"),
  (u!"1000", u!"<%spellout-cardinal-feminine-locative< $(cardinal,one{тысяче}other{тысячах})$[ >>];"),
  (u!"1000000", u!"<%spellout-cardinal-masculine-locative< $(cardinal,one{миллионе}other{миллионах})$[ >>];"),
  (u!"1000000000", u!"<%spellout-cardinal-masculine-locative< $(cardinal,one{миллиарде}other{миллиардах})$[ >>];"),
  (u!"1000000000000", u!"<%spellout-cardinal-masculine-locative< $(cardinal,one{триллионе}other{триллионах})$[ >>];"),
  (u!"1000000000000000", u!"<%spellout-cardinal-masculine-locative< $(cardinal,one{квадриллионе}other{квадриллионах})$[ >>];"),
  (u!"1000000000000000000", u!"=#,##0=;")]

/-- `number_parser_data/raw_cldr_translation_data/ru.json`, the rule set `%spellout-cardinal-neuter-locative` -/
def ruRules23 : List (PyStr × PyStr) := [
  (u!"-x", u!"минус >>;"),
  (u!"x.x", u!"[<%spellout-cardinal-feminine-locative< $(cardinal,one{целой}other{целых})$ ]>%%fractions-feminine-locative>;"),
  (u!"0", u!"нуле;"),
  (u!"1", u!"одном;"),
  (u!"2", u!"=%spellout-cardinal-masculine-locative=;"),
  (u!"20", u!"двадцати[ >>];"),
  (u!"30", u!"тридцати[ >>];"),
  (u!"40", u!"сорока[ >>];"),
  (u!"50", u!"пятидесяти[ >>];"),
  (u!"60", u!"шестидесяти[ >>];"),
  (u!"70", u!"семидесяти[ >>];"),
  (u!"80", u!"восьмидесяти[ >>];"),
  (u!"90", u!"девяноста[ >>];"),
  (u!"100", u!"ста[ >>];"),
  (u!"200", u!"<%spellout-cardinal-feminine-locative<стах[ >>];"),
  (u!"1000", u!"<%spellout-cardinal-feminine-locative< $(cardinal,one{тысяче}other{тысячах})$[ >>];"),
  (u!"1000000", u!"<%spellout-cardinal-masculine-locative< $(cardinal,one{миллионе}other{миллионах})$[ >>];"),
  (u!"1000000000", u!"<%spellout-cardinal-masculine-locative< $(cardinal,one{миллиарде}other{миллиардах})$[ >>];"),
  (u!"1000000000000", u!"<%spellout-cardinal-masculine-locative< $(cardinal,one{триллионе}other{триллионах})$[ >>];"),
  (u!"1000000000000000", u!"<%spellout-cardinal-masculine-locative< $(cardinal,one{квадриллионе}other{квадриллионах})$[ >>];"),
  (u!"1000000000000000000", u!"=#,##0=;")]

/-- `number_parser_data/raw_cldr_translation_data/ru.json`, the rule set `%spellout-cardinal-feminine-locative` -/
def ruRules24 : List (PyStr × PyStr) := [
  (u!"-x", u!"минус >>;"),
  (u!"x.x", u!"[<< $(cardinal,one{целой}other{целых})$ ]>%%fractions-feminine-locative>;"),
  (u!"0", u!"нуле;"),
  (u!"1", u!"одной;"),
  (u!"2", u!"=%spellout-cardinal-masculine-locative=;"),
  (u!"20", u!"двадцати[ >>];"),
  (u!"30", u!"тридцати[ >>];"),
  (u!"40", u!"сорока[ >>];"),
  (u!"50", u!"пятидесяти[ >>];"),
  (u!"60", u!"шестидесяти[ >>];"),
  (u!"70", u!"семидесяти[ >>];"),
  (u!"80", u!"восьмидесяти[ >>];"),
  (u!"90", u!"девяноста[ >>];"),
  (u!"100", u!"ста[ >>];"),
  (u!"200", u!"<%spellout-cardinal-feminine-locative<стах[ >>];"),
  (u!"1000", u!"<%spellout-cardinal-feminine-locative< $(cardinal,one{тысяче}other{тысячах})$[ >>];"),
  (u!"1000000", u!"<%spellout-cardinal-masculine-locative< $(cardinal,one{миллионе}other{миллионах})$[ >>];"),
  (u!"1000000000", u!"<%spellout-cardinal-masculine-locative< $(cardinal,one{миллиарде}other{миллиардах})$[ >>];"),
  (u!"1000000000000", u!"<%spellout-cardinal-masculine-locative< $(cardinal,one{триллионе}other{триллионах})$[ >>];"),
  (u!"1000000000000000", u!"<%spellout-cardinal-masculine-locative< $(cardinal,one{квадриллионе}other{квадриллионах})$[ >>];"),
  (u!"1000000000000000000", u!"=#,##0=;")]

/-- `number_parser_data/raw_cldr_translation_data/ru.json`, the rule set `%spellout-cardinal-plural-locative` -/
def ruRules25 : List (PyStr × PyStr) := [
  (u!"-x", u!"минус >>;"),
  (u!"x.x", u!"<< запятая >>;"),
  (u!"0", u!"нуле;"),
  (u!"1", u!"одних;"),
  (u!"2", u!"=%spellout-cardinal-masculine-locative=;"),
  (u!"20", u!"двадцати[ >>];"),
  (u!"30", u!"тридцати[ >>];"),
  (u!"40", u!"сорока[ >>];"),
  (u!"50", u!"пятидесяти[ >>];"),
  (u!"60", u!"шестидесяти[ >>];"),
  (u!"70", u!"семидесяти[ >>];"),
  (u!"80", u!"восьмидесяти[ >>];"),
  (u!"90", u!"девяноста[ >>];"),
  (u!"100", u!"ста[ >>];"),
  (u!"200", u!"<%spellout-cardinal-feminine-locative<стах[ >>];"),
  (u!"1000", u!"<%spellout-cardinal-feminine-locative< $(cardinal,one{тысяче}other{тысячах})$[ >>];"),
  (u!"1000000", u!"<%spellout-cardinal-masculine-locative< $(cardinal,one{миллионе}other{миллионах})$[ >>];"),
  (u!"1000000000", u!"<%spellout-cardinal-masculine-locative< $(cardinal,one{миллиарде}other{миллиардах})$[ >>];"),
  (u!"1000000000000", u!"<%spellout-cardinal-masculine-locative< $(cardinal,one{триллионе}other{триллионах})$[ >>];"),
  (u!"1000000000000000", u!"<%spellout-cardinal-masculine-locative< $(cardinal,one{квадриллионе}other{квадриллионах})$[ >>];"),
  (u!"1000000000000000000", u!"=#,##0=;")]

/-- `number_parser_data/raw_cldr_translation_data/ru.json`, the rule set `%%fractions-feminine-locative` -/
def ruRules26 : List (PyStr × PyStr) := [
  (u!"10", u!"<%spellout-cardinal-feminine-locative< $(cardinal,one{десятой}other{десятых})$;"),
  (u!"100", u!"<%spellout-cardinal-feminine-locative< $(cardinal,one{сотой}other{сотых})$;"),
  (u!"1000", u!"<%spellout-cardinal-feminine-locative< $(cardinal,one{тысячной}other{тысячных})$;"),
  (u!"10000", u!"<%spellout-cardinal-feminine-locative< $(cardinal,one{десятитысячной}other{десятитысячных})$;"),
  (u!"100000", u!"<%spellout-cardinal-feminine-locative< $(cardinal,one{стотысячной}other{стотысячных})$;"),
  (u!"1000000", u!"<%spellout-cardinal-feminine-locative< $(cardinal,one{миллионной}other{миллионных})$;"),
  (u!"10000000", u!"<%spellout-cardinal-feminine-locative< $(cardinal,one{десятимиллионной}other{десятимиллионных})$;"),
  (u!"100000000", u!"<%spellout-cardinal-feminine-locative< $(cardinal,one{стомиллионной}other{стомиллионных})$;"),
  (u!"1000000000", u!"<%spellout-cardinal-feminine-locative< $(cardinal,one{миллиардной}other{миллиардных})$;"),
  (u!"10000000000", u!"<%spellout-cardinal-feminine-locative< $(cardinal,one{десятимиллиардной}other{десятимиллиардных})$;"),
  (u!"100000000000", u!"<%spellout-cardinal-feminine-locative< $(cardinal,one{стомиллиардной}other{стомиллиардных})$;"),
  (u!"1000000000000", u!"<0<;")]

/-- `number_parser_data/raw_cldr_translation_data/ru.json`, the rule set `%spellout-cardinal-masculine-ablative` -/
def ruRules27 : List (PyStr × PyStr) := [
  (u!"-x", u!"минус >>;"),
  (u!"x.x", u!"[<%spellout-cardinal-feminine-ablative< $(cardinal,one{целой}other{целыми})$ ]>%%fractions-feminine-ablative>;"),
  (u!"0", u!"нулем;"),
  (u!"1", u!"одним;"),
  (u!"2", u!"двумя;"),
  (u!"3", u!"тремя;"),
  (u!"4", u!"четырьмя;"),
  (u!"5", u!"пятью;"),
  (u!"6", u!"шестью;"),
  (u!"7", u!"семью;"),
  (u!"8", u!"восемью;"),
  (u!"9", u!"девятью;"),
  (u!"10", u!"десятью;"),
  (u!"11", u!"одиннадцатью;"),
  (u!"12", u!"двенадцатью;"),
  (u!"13", u!"тринадцатью;"),
  (u!"14", u!"четырнадцатью;"),
  (u!"15", u!"пятнадцатью;"),
  (u!"16", u!"шестнадцатью;"),
  (u!"17", u!"семнадцатью;"),
  (u!"18", u!"восемнадцатью;"),
  (u!"19", u!"девятнадцатью;"),
  (u!"20", u!"двадцатью[ >>];"),
  (u!"30", u!"тридцатью[ >>];"),
  (u!"40", u!"сорока[ >>];"),
  (u!"50", u!"пятьюдесятью[ >>];"),
  (u!"60", u!"шестьюдесятью[ >>];"),
  (u!"70", u!"семьюдесятью[ >>];"),
  (u!"80", u!"восемьюдесятью[ >>];"),
  (u!"90", u!"девяноста[ >>];"),
  (u!"100", u!"ста[ >>];"),
  (u!"200", u!"<%spellout-cardinal-feminine-ablative<стами[ >>];"),
  (u!"1000", u!"<%spellout-cardinal-feminine-ablative< $(cardinal,one{тысячей}other{тысячами})$[ >>];"),
  (u!"1000000", u!"<%spellout-cardinal-masculine-ablative< $(cardinal,one{миллионом}other{миллионами})$[ >>];"),
  (u!"1000000000", u!"<%spellout-cardinal-masculine-ablative< $(cardinal,one{миллиардом}other{миллиардами})$[ >>];"),
  (u!"1000000000000", u!"<%spellout-cardinal-masculine-ablative< $(cardinal,one{триллионом}other{триллионами})$[ >>];"),
  (u!"1000000000000000", u!"<%spellout-cardinal-masculine-ablative< $(cardinal,one{квадриллионом}other{квадриллионами})$[ >>];"),
  (u!"1000000000000000000", u!"=#,##0=;")]

/-- `number_parser_data/raw_cldr_translation_data/ru.json`, the rule set `%spellout-cardinal-neuter-ablative` -/
def ruRules28 : List (PyStr × PyStr) := [
  (u!"0", u!"=%spellout-cardinal-masculine-ablative=;")]

/-- `number_parser_data/raw_cldr_translation_data/ru.json`, the rule set `%spellout-cardinal-feminine-ablative` -/
def ruRules29 : List (PyStr × PyStr) := [
  (u!"-x", u!"минус >>;"),
  (u!"x.x", u!"[<%spellout-cardinal-feminine-ablative< $(cardinal,one{целой}other{целыми})$ ]>%%fractions-feminine-ablative>;"),
  (u!"0", u!"нулем;"),
  (u!"1", u!"одной;"),
  (u!"2", u!"=%spellout-cardinal-masculine-ablative=;"),
  (u!"20", u!"двадцатью[ >>];"),
  (u!"30", u!"тридцатью[ >>];"),
  (u!"40", u!"сорока[ >>];"),
  (u!"50", u!"пятьюдесятью[ >>];"),
  (u!"60", u!"шестьюдесятью[ >>];"),
  (u!"70", u!"семьюдесятью[ >>];"),
  (u!"80", u!"восемьюдесятью[ >>];"),
  (u!"90", u!"девяноста[ >>];"),
  (u!"100", u!"ста[ >>];"),
  (u!"200", u!"<%spellout-cardinal-feminine-ablative<стами[ >>];"),
  (u!"1000", u!"<%spellout-cardinal-feminine-ablative< $(cardinal,one{тысячей}other{тысячами})$[ >>];"),
  (u!"1000000", u!"<%spellout-cardinal-masculine-ablative< $(cardinal,one{миллионом}other{миллионами})$[ >>];"),
  (u!"1000000000", u!"<%spellout-cardinal-masculine-ablative< $(cardinal,one{миллиардом}other{миллиардами})$[ >>];"),
  (u!"1000000000000", u!"<%spellout-cardinal-masculine-ablative< $(cardinal,one{триллионом}other{триллионами})$[ >>];"),
  (u!"1000000000000000", u!"<%spellout-cardinal-masculine-ablative< $(cardinal,one{квадриллионом}other{квадриллионами})$[ >>];"),
  (u!"1000000000000000000", u!"=#,##0=;")]

/-- `number_parser_data/raw_cldr_translation_data/ru.json`, the rule set `%spellout-cardinal-plural-ablative` -/
def ruRules30 : List (PyStr × PyStr) := [
  (u!"-x", u!"минус >>;"),
  (u!"x.x", u!"<< запятая >>;"),
  (u!"0", u!"нулем;"),
  (u!"1", u!"одними;"),
  (u!"2", u!"=%spellout-cardinal-masculine-ablative=;"),
  (u!"20", u!"двадцатью[ >>];"),
  (u!"30", u!"тридцатью[ >>];"),
  (u!"40", u!"сорока[ >>];"),
  (u!"50", u!"пятьюдесятью[ >>];"),
  (u!"60", u!"шестьюдесятью[ >>];"),
  (u!"70", u!"семьюдесятью[ >>];"),
  (u!"80", u!"восемьюдесятью[ >>];"),
  (u!"90", u!"девяноста[ >>];"),
  (u!"100", u!"ста[ >>];"),
  (u!"200", u!"<%spellout-cardinal-feminine-ablative<стами[ >>];"),
  (u!"1000", u!"<%spellout-cardinal-feminine-ablative< $(cardinal,one{тысячей}other{тысячами})$[ >>];"),
  (u!"1000000", u!"<%spellout-cardinal-masculine-ablative< $(cardinal,one{миллионом}other{миллионами})$[ >>];"),
  (u!"1000000000", u!"<%spellout-cardinal-masculine-ablative< $(cardinal,one{миллиардом}other{миллиардами})$[ >>];"),
  (u!"1000000000000", u!"<%spellout-cardinal-masculine-ablative< $(cardinal,one{триллионом}other{триллионами})$[ >>];"),
  (u!"1000000000000000", u!"<%spellout-cardinal-masculine-ablative< $(cardinal,one{квадриллионом}other{квадриллионами})$[ >>];"),
  (u!"1000000000000000000", u!"=#,##0=;")]

/-- `number_parser_data/raw_cldr_translation_data/ru.json`, the rule set `%%fractions-feminine-ablative` -/
def ruRules31 : List (PyStr × PyStr) := [
  (u!"10", u!"<%spellout-cardinal-feminine-ablative< $(cardinal,one{десятой}other{десятыми})$;"),
  (u!"100", u!"<%spellout-cardinal-feminine-ablative< $(cardinal,one{сотой}other{сотыми})$;"),
  (u!"1000", u!"<%spellout-cardinal-feminine-ablative< $(cardinal,one{тысячной}other{тысячными})$;"),
  (u!"10000", u!"<%spellout-cardinal-feminine-ablative< $(cardinal,one{десятитысячной}other{десятитысячными})$;"),
  (u!"100000", u!"<%spellout-cardinal-feminine-ablative< $(cardinal,one{стотысячной}other{стотысячными})$;"),
  (u!"1000000", u!"<%spellout-cardinal-feminine-ablative< $(cardinal,one{миллионной}other{миллионными})$;"),
  (u!"10000000", u!"<%spellout-cardinal-feminine-ablative< $(cardinal,one{десятимиллионной}other{десятимиллионными})$;"),
  (u!"100000000", u!"<%spellout-cardinal-feminine-ablative< $(cardinal,one{стомиллионной}other{стомиллионными})$;"),
  (u!"1000000000", u!"<%spellout-cardinal-feminine-ablative< $(cardinal,one{миллиардной}other{миллиардными})$;"),
  (u!"10000000000", u!"<%spellout-cardinal-feminine-ablative< $(cardinal,one{десятимиллиардной}other{десятимиллиардными})$;"),
  (u!"100000000000", u!"<%spellout-cardinal-feminine-ablative< $(cardinal,one{стомиллиардной}other{стомиллиардными})$;"),
  (u!"1000000000000", u!"<0<;")]

/-- `number_parser_data/raw_cldr_translation_data/ru.json`, the rule set `%%yj` -/
def ruRules32 : List (PyStr × PyStr) := [
  (u!"0", u!"ный;"),
  (u!"1", u!"'а =%spellout-ordinal-masculine=;")]

/-- `number_parser_data/raw_cldr_translation_data/ru.json`, the rule set `%%oe` -/
def ruRules33 : List (PyStr × PyStr) := [
  (u!"0", u!"ное;"),
  (u!"1", u!"'а =%spellout-ordinal-neuter=;")]

/-- `number_parser_data/raw_cldr_translation_data/ru.json`, the rule set `%%aja` -/
def ruRules34 : List (PyStr × PyStr) := [
  (u!"0", u!"ная;"),
  (u!"1", u!"'а =%spellout-ordinal-feminine=;")]

/-- `number_parser_data/raw_cldr_translation_data/ru.json`, the rule set `%%omu` -/
def ruRules35 : List (PyStr × PyStr) := [
  (u!"0", u!"ному;"),
  (u!"1", u!"'а =%spellout-ordinal-masculine-dative=;")]

/-- `number_parser_data/raw_cldr_translation_data/ru.json`, the rule set `%%oj` -/
def ruRules36 : List (PyStr × PyStr) := [
  (u!"0", u!"ной;"),
  (u!"1", u!"'а =%spellout-ordinal-feminine-genitive=;")]

/-- `number_parser_data/raw_cldr_translation_data/ru.json`, the rule set `%%ogo` -/
def ruRules37 : List (PyStr × PyStr) := [
  (u!"0", u!"ного;"),
  (u!"1", u!"'а =%spellout-ordinal-masculine-genitive=;")]

/-- `number_parser_data/raw_cldr_translation_data/ru.json`, the rule set `%%uju` -/
def ruRules38 : List (PyStr × PyStr) := [
  (u!"0", u!"ную;"),
  (u!"1", u!"'а =%spellout-ordinal-feminine-accusative=;")]

/-- `number_parser_data/raw_cldr_translation_data/ru.json`, the rule set `%%ym` -/
def ruRules39 : List (PyStr × PyStr) := [
  (u!"0", u!"ным;"),
  (u!"1", u!"'а =%spellout-ordinal-masculine-ablative=;")]

/-- `number_parser_data/raw_cldr_translation_data/ru.json`, the rule set `%%om` -/
def ruRules40 : List (PyStr × PyStr) := [
  (u!"0", u!"ном;"),
  (u!"1", u!"'а =%spellout-ordinal-masculine-locative=;")]

/-- `number_parser_data/raw_cldr_translation_data/ru.json`, the rule set `%%ye` -/
def ruRules41 : List (PyStr × PyStr) := [
  (u!"0", u!"ные;"),
  (u!"1", u!"'а =%spellout-ordinal-plural=;")]

/-- `number_parser_data/raw_cldr_translation_data/ru.json`, the rule set `%%yh` -/
def ruRules42 : List (PyStr × PyStr) := [
  (u!"0", u!"ных;"),
  (u!"1", u!"'а =%spellout-ordinal-plural-genitive=;")]

/-- `number_parser_data/raw_cldr_translation_data/ru.json`, the rule set `%%ymi` -/
def ruRules43 : List (PyStr × PyStr) := [
  (u!"0", u!"ными;"),
  (u!"1", u!"'а =%spellout-ordinal-plural-ablative=;")]

/-- `number_parser_data/raw_cldr_translation_data/ru.json`, the rule set `%%thousandsprefixconjoined` -/
def ruRules44 : List (PyStr × PyStr) := [
  (u!"0", u!"=%spellout-cardinal-feminine-genitive=;"),
  (u!"1", u!"одно;"),
  (u!"2", u!"=%spellout-cardinal-feminine-genitive=;"),
  (u!"21", u!"двадцатиодно;"),
  (u!"22", u!"двадцати[>>];"),
  (u!"30", u!"тридцати;"),
  (u!"31", u!"тридцатиодно;"),
  (u!"32", u!"тридцати[>>];"),
  (u!"40", u!"сорока;"),
  (u!"41", u!"сорокаодно;"),
  (u!"42", u!"сорока[>>];"),
  (u!"50", u!"пятидесяти;"),
  (u!"51", u!"пятидесятиодно;"),
  (u!"52", u!"пятидесяти[>>];"),
  (u!"60", u!"шестидесяти;"),
  (u!"61", u!"шестидесятиодно;"),
  (u!"62", u!"шестидесяти[>>];"),
  (u!"70", u!"семидесяти;"),
  (u!"71", u!"семидесятиодно;"),
  (u!"72", u!"семидесяти[>>];"),
  (u!"80", u!"восьмидесяти;"),
  (u!"81", u!"восьмидесятиодно;"),
  (u!"82", u!"восьмидесяти[>>];"),
  (u!"90", u!"=%spellout-cardinal-feminine=;"),
  (u!"91", u!"девяностоодно;"),
  (u!"92", u!"девяносто[>>];"),
  (u!"100", u!"сто[>>];"),
  (u!"200", u!"<%spellout-cardinal-feminine-genitive<сот[>>];")]

/-- `number_parser_data/raw_cldr_translation_data/ru.json`, the rule set `%%thousandsprefixseparate` -/
def ruRules45 : List (PyStr × PyStr) := [
  (u!"0", u!"=%spellout-cardinal-feminine= ;")]

/-- `number_parser_data/raw_cldr_translation_data/ru.json`, the rule set `%spellout-ordinal-masculine` -/
def ruRules46 : List (PyStr × PyStr) := [
  (u!"-x", u!"минус >>;"),
  (u!"x.x", u!"=0.#=;"),
  (u!"0", u!"нулевой;"),
  (u!"1", u!"первый;"),
  (u!"2", u!"второй;"),
  (u!"3", u!"третий;"),
  (u!"4", u!"четвертый;"),
  (u!"5", u!"пятый;"),
  (u!"6", u!"шестой;"),
  (u!"7", u!"седьмой;"),
  (u!"8", u!"восьмой;"),
  (u!"9", u!"девятый;"),
  (u!"10", u!"десятый;"),
  (u!"11", u!"одиннадцатый;"),
  (u!"12", u!"двенадцатый;"),
  (u!"13", u!"тринадцатый;"),
  (u!"14", u!"четырнадцатый;"),
  (u!"15", u!"пятнадцатый;"),
  (u!"16", u!"шестнадцатый;"),
  (u!"17", u!"семнадцатый;"),
  (u!"18", u!"восемнадцатый;"),
  (u!"19", u!"девятнадцатый;"),
  (u!"20", u!"двадцатый;"),
  (u!"21", u!"двадцать >>;"),
  (u!"30", u!"тридцатый;"),
  (u!"31", u!"тридцать >>;"),
  (u!"40", u!"сороковой;"),
  (u!"41", u!"сорок >>;"),
  (u!"50", u!"пятидесятый;"),
  (u!"51", u!"пятьдесят >>;"),
  (u!"60", u!"шестидесятый;"),
  (u!"61", u!"шестьдесят >>;"),
  (u!"70", u!"семидесятый;"),
  (u!"71", u!"семьдесят >>;"),
  (u!"80", u!"восьмидесятый;"),
  (u!"81", u!"восемьдесят >>;"),
  (u!"90", u!"девяностый;"),
  (u!"91", u!"девяносто >>;"),
  (u!"100", u!"сотый;"),
  (u!"101", u!"сто >>;"),
  (u!"200", u!"<%spellout-cardinal-feminine<сти[ >>];"),
  (u!"300", u!"<%spellout-cardinal-feminine<ста[ >>];"),
  (u!"500", u!"<%spellout-cardinal-feminine<сот[ >>];"),
  (u!"1000", u!"тысяч>%%yj>;"),
  (u!"1001", u!"одна тысяч>%%yj>;"),
  (u!"2000/1000", u!"<%%thousandsprefixconjoined<тысячный;"),
  (u!"2001/1000", u!"<%%thousandsprefixseparate<тысячи[ >>];"),
  (u!"5000/1000", u!"<%%thousandsprefixconjoined<тысячный;"),
  (u!"5001/1000", u!"<%%thousandsprefixseparate<тысяч[ >>];"),
  (u!"21001", u!"=0=.;")]

/-- `number_parser_data/raw_cldr_translation_data/ru.json`, the rule set `%spellout-ordinal-neuter` -/
def ruRules47 : List (PyStr × PyStr) := [
  (u!"-x", u!"минус >>;"),
  (u!"x.x", u!"=0.#=;"),
  (u!"0", u!"нулевое;"),
  (u!"1", u!"первое;"),
  (u!"2", u!"второе;"),
  (u!"3", u!"третье;"),
  (u!"4", u!"четвертое;"),
  (u!"5", u!"пятое;"),
  (u!"6", u!"шестое;"),
  (u!"7", u!"седьмое;"),
  (u!"8", u!"восьмое;"),
  (u!"9", u!"девятое;"),
  (u!"10", u!"десятое;"),
  (u!"11", u!"одиннадцатое;"),
  (u!"12", u!"двенадцатое;"),
  (u!"13", u!"тринадцатое;"),
  (u!"14", u!"четырнадцатое;"),
  (u!"15", u!"пятнадцатое;"),
  (u!"16", u!"шестнадцатое;"),
  (u!"17", u!"семнадцатое;"),
  (u!"18", u!"восемнадцатое;"),
  (u!"19", u!"девятнадцатое;"),
  (u!"20", u!"двадцатое;"),
  (u!"21", u!"двадцать >>;"),
  (u!"30", u!"тридцатое;"),
  (u!"31", u!"тридцать >>;"),
  (u!"40", u!"сороковое;"),
  (u!"41", u!"сорок >>;"),
  (u!"50", u!"пятидесятое;"),
  (u!"51", u!"пятьдесят >>;"),
  (u!"60", u!"шестидесятое;"),
  (u!"61", u!"шестьдесят >>;"),
  (u!"70", u!"семидесятое;"),
  (u!"71", u!"семьдесят >>;"),
  (u!"80", u!"восемьдесятое;"),
  (u!"81", u!"восемьдесят >>;"),
  (u!"90", u!"девяностое;"),
  (u!"91", u!"девяносто >>;"),
  (u!"100", u!"сотое;"),
  (u!"101", u!"сто >>;"),
  (u!"200", u!"<%spellout-cardinal-feminine<сти[ >>];"),
  (u!"300", u!"<%spellout-cardinal-feminine<ста[ >>];"),
  (u!"500", u!"<%spellout-cardinal-feminine<сот[ >>];"),
  (u!"1000", u!"тысяч>%%oe>;"),
  (u!"1001", u!"одна тысяч>%%oe>;"),
  (u!"2000/1000", u!"<%%thousandsprefixconjoined<тысячное;"),
  (u!"2001/1000", u!"<%%thousandsprefixseparate<тысячи[ >>];"),
  (u!"5000/1000", u!"<%%thousandsprefixconjoined<тысячное;"),
  (u!"5001/1000", u!"<%%thousandsprefixseparate<тысяч[ >>];"),
  (u!"21001", u!"=0=.;")]

/-- `number_parser_data/raw_cldr_translation_data/ru.json`, the rule set `%spellout-ordinal-feminine` -/
def ruRules48 : List (PyStr × PyStr) := [
  (u!"-x", u!"минус >>;"),
  (u!"x.x", u!"=0.#=;"),
  (u!"0", u!"ноль;"),
  (u!"1", u!"первая;"),
  (u!"2", u!"вторая;"),
  (u!"3", u!"третья;"),
  (u!"4", u!"четвертая;"),
  (u!"5", u!"пятая;"),
  (u!"6", u!"шестая;"),
  (u!"7", u!"седьмая;"),
  (u!"8", u!"восьмая;"),
  (u!"9", u!"девятая;"),
  (u!"10", u!"десятая;"),
  (u!"11", u!"одиннадцатая;"),
  (u!"12", u!"двенадцатая;"),
  (u!"13", u!"тринадцатая;"),
  (u!"14", u!"четырнадцатая;"),
  (u!"15", u!"пятнадцатая;"),
  (u!"16", u!"шестнадцатая;"),
  (u!"17", u!"семнадцатая;"),
  (u!"18", u!"восемнадцатая;"),
  (u!"19", u!"девятнадцатая;"),
  (u!"20", u!"двадцатая;"),
  (u!"21", u!"двадцать >>;"),
  (u!"30", u!"тридцатая;"),
  (u!"31", u!"тридцать >>;"),
  (u!"40", u!"сороковая;"),
  (u!"41", u!"сорок >>;"),
  (u!"50", u!"пятидесятая;"),
  (u!"51", u!"пятьдесят >>;"),
  (u!"60", u!"шестидесятая;"),
  (u!"61", u!"шестьдесят >>;"),
  (u!"70", u!"семидесятая;"),
  (u!"71", u!"семьдесят >>;"),
  (u!"80", u!"восьмидесятая;"),
  (u!"81", u!"восемьдесят >>;"),
  (u!"90", u!"девяностая;"),
  (u!"91", u!"девяносто >>;"),
  (u!"100", u!"сотая;"),
  (u!"101", u!"сто >>;"),
  (u!"200", u!"<%spellout-cardinal-feminine<сти[ >>];"),
  (u!"300", u!"<%spellout-cardinal-feminine<ста[ >>];"),
  (u!"500", u!"<%spellout-cardinal-feminine<сот[ >>];"),
  (u!"1000", u!"тысяч>%%aja>;"),
  (u!"1001", u!"одна тысяч>%%aja>;"),
  (u!"2000/1000", u!"<%%thousandsprefixconjoined<тысячная;"),
  (u!"2001/1000", u!"<%%thousandsprefixseparate<тысячи[ >>];"),
  (u!"5000/1000", u!"<%%thousandsprefixconjoined<тысячная;"),
  (u!"5001/1000", u!"<%%thousandsprefixseparate<тысяч[ >>];"),
  (u!"21001", u!"=0=.;")]

/-- `number_parser_data/raw_cldr_translation_data/ru.json`, the rule set `%spellout-ordinal-plural` -/
def ruRules49 : List (PyStr × PyStr) := [
  (u!"-x", u!"минус >>;"),
  (u!"x.x", u!"=0.#=;"),
  (u!"0", u!"нулевые;"),
  (u!"1", u!"первые;"),
  (u!"2", u!"вторые;"),
  (u!"3", u!"третьи;"),
  (u!"4", u!"четвертые;"),
  (u!"5", u!"пятые;"),
  (u!"6", u!"шестые;"),
  (u!"7", u!"седьмые;"),
  (u!"8", u!"восьмые;"),
  (u!"9", u!"девятые;"),
  (u!"10", u!"десятые;"),
  (u!"11", u!"одиннадцатые;"),
  (u!"12", u!"двенадцатые;"),
  (u!"13", u!"тринадцатые;"),
  (u!"14", u!"четырнадцатые;"),
  (u!"15", u!"пятнадцатые;"),
  (u!"16", u!"шестнадцатые;"),
  (u!"17", u!"семнадцатые;"),
  (u!"18", u!"восемнадцатые;"),
  (u!"19", u!"девятнадцатые;"),
  (u!"20", u!"двадцатые;"),
  (u!"21", u!"двадцать >>;"),
  (u!"30", u!"тридцатые;"),
  (u!"31", u!"тридцать >>;"),
  (u!"40", u!"сороковые;"),
  (u!"41", u!"сорок >>;"),
  (u!"50", u!"пятидесятые;"),
  (u!"51", u!"пятьдесят >>;"),
  (u!"60", u!"шестидесятые;"),
  (u!"61", u!"шестьдесят >>;"),
  (u!"70", u!"семидесятые;"),
  (u!"71", u!"семьдесят >>;"),
  (u!"80", u!"восемьдесятые;"),
  (u!"81", u!"восемьдесят >>;"),
  (u!"90", u!"девяностые;"),
  (u!"91", u!"девяносто >>;"),
  (u!"100", u!"сотые;"),
  (u!"101", u!"сто >>;"),
  (u!"200", u!"<%spellout-cardinal-feminine<сти[ >>];"),
  (u!"300", u!"<%spellout-cardinal-feminine<ста[ >>];"),
  (u!"500", u!"<%spellout-cardinal-feminine<сот[ >>];"),
  (u!"1000", u!"тысяч>%%ye>;"),
  (u!"1001", u!"одна тысяч>%%ye>;"),
  (u!"2000/1000", u!"<%%thousandsprefixconjoined<тысячные;"),
  (u!"2001/1000", u!"<%%thousandsprefixseparate<тысячи[ >>];"),
  (u!"5000/1000", u!"<%%thousandsprefixconjoined<тысячные;"),
  (u!"5001/1000", u!"<%%thousandsprefixseparate<тысяч[ >>];"),
  (u!"21001", u!"=0=.;")]

/-- `number_parser_data/raw_cldr_translation_data/ru.json`, the rule set `%spellout-ordinal-masculine-genitive` -/
def ruRules50 : List (PyStr × PyStr) := [
  (u!"-x", u!"минус >>;"),
  (u!"x.x", u!"=0.#=;"),
  (u!"0", u!"нулевого;"),
  (u!"1", u!"первого;"),
  (u!"2", u!"второго;"),
  (u!"3", u!"третьего;"),
  (u!"4", u!"четвертого;"),
  (u!"5", u!"пятого;"),
  (u!"6", u!"шестого;"),
  (u!"7", u!"седьмого;"),
  (u!"8", u!"восьмого;"),
  (u!"9", u!"девятого;"),
  (u!"10", u!"десятого;"),
  (u!"11", u!"одиннадцатого;"),
  (u!"12", u!"двенадцатого;"),
  (u!"13", u!"тринадцатого;"),
  (u!"14", u!"четырнадцатого;"),
  (u!"15", u!"пятнадцатого;"),
  (u!"16", u!"шестнадцатого;"),
  (u!"17", u!"семнадцатого;"),
  (u!"18", u!"восемнадцатого;"),
  (u!"19", u!"девятнадцатого;"),
  (u!"20", u!"двадцатого;"),
  (u!"21", u!"двадцать >>;"),
  (u!"30", u!"тридцатого;"),
  (u!"31", u!"тридцать >>;"),
  (u!"40", u!"сорокового;"),
  (u!"41", u!"сорок >>;"),
  (u!"50", u!"пятидесятого;"),
  (u!"51", u!"пятьдесят >>;"),
  (u!"60", u!"шестидесятого;"),
  (u!"61", u!"шестьдесят >>;"),
  (u!"70", u!"семидесятого;"),
  (u!"71", u!"семьдесят >>;"),
  (u!"80", u!"восьмидесятого;"),
  (u!"81", u!"восемьдесят >>;"),
  (u!"90", u!"девяностого;"),
  (u!"91", u!"девяносто >>;"),
  (u!"100", u!"сотого;"),
  (u!"101", u!"сто >>;"),
  (u!"200", u!"<%spellout-cardinal-feminine<сти[ >>];"),
  (u!"300", u!"<%spellout-cardinal-feminine<ста[ >>];"),
  (u!"500", u!"<%spellout-cardinal-feminine<сот[ >>];"),
  (u!"1000", u!"тысяч>%%ogo>;"),
  (u!"1001", u!"одна тысяч>%%ogo>;"),
  (u!"2000/1000", u!"<%%thousandsprefixconjoined<тысячного;"),
  (u!"2001/1000", u!"<%%thousandsprefixseparate<тысячи[ >>];"),
  (u!"5000/1000", u!"<%%thousandsprefixconjoined<тысячного;"),
  (u!"5001/1000", u!"<%%thousandsprefixseparate<тысяч[ >>];"),
  (u!"21001", u!"=0=.;")]

/-- `number_parser_data/raw_cldr_translation_data/ru.json`, the rule set `%spellout-ordinal-neuter-genitive` -/
def ruRules51 : List (PyStr × PyStr) := [
  (u!"0", u!"=%spellout-ordinal-masculine-genitive=;")]

/-- `number_parser_data/raw_cldr_translation_data/ru.json`, the rule set `%spellout-ordinal-feminine-genitive` -/
def ruRules52 : List (PyStr × PyStr) := [
  (u!"-x", u!"минус >>;"),
  (u!"x.x", u!"=0.#=;"),
  (u!"0", u!"нулевой;"),
  (u!"1", u!"первой;"),
  (u!"2", u!"второй;"),
  (u!"3", u!"третьей;"),
  (u!"4", u!"четвертой;"),
  (u!"5", u!"пятой;"),
  (u!"6", u!"шестой;"),
  (u!"7", u!"седьмой;"),
  (u!"8", u!"восьмой;"),
  (u!"9", u!"девятой;"),
  (u!"10", u!"десятой;"),
  (u!"11", u!"одиннадцатой;"),
  (u!"12", u!"двенадцатой;"),
  (u!"13", u!"тринадцатой;"),
  (u!"14", u!"четырнадцатой;"),
  (u!"15", u!"пятнадцатой;"),
  (u!"16", u!"шестнадцатой;"),
  (u!"17", u!"семнадцатой;"),
  (u!"18", u!"восемнадцатой;"),
  (u!"19", u!"девятнадцатой;"),
  (u!"20", u!"двадцатой;"),
  (u!"21", u!"двадцать >>;"),
  (u!"30", u!"тридцатой;"),
  (u!"31", u!"тридцать >>;"),
  (u!"40", u!"сороковой;"),
  (u!"41", u!"сорок >>;"),
  (u!"50", u!"пятидесятой;"),
  (u!"51", u!"пятьдесят >>;"),
  (u!"60", u!"шестидесятой;"),
  (u!"61", u!"шестьдесят >>;"),
  (u!"70", u!"семидесятой;"),
  (u!"71", u!"семьдесят >>;"),
  (u!"80", u!"восьмидесятой;"),
  (u!"81", u!"восемьдесят >>;"),
  (u!"90", u!"девяностой;"),
  (u!"91", u!"девяносто >>;"),
  (u!"100", u!"сотой;"),
  (u!"101", u!"сто >>;"),
  (u!"200", u!"<%spellout-cardinal-feminine<сти[ >>];"),
  (u!"300", u!"<%spellout-cardinal-feminine<ста[ >>];"),
  (u!"500", u!"<%spellout-cardinal-feminine<сот[ >>];"),
  (u!"1000", u!"тысяч>%%oj>;"),
  (u!"1001", u!"одна тысяч>%%oj>;"),
  (u!"2000/1000", u!"<%%thousandsprefixconjoined<тысячной;"),
  (u!"2001/1000", u!"<%%thousandsprefixseparate<тысячи[ >>];"),
  (u!"5000/1000", u!"<%%thousandsprefixconjoined<тысячной;"),
  (u!"5001/1000", u!"<%%thousandsprefixseparate<тысяч[ >>];"),
  (u!"21001", u!"=0=.;")]

/-- `number_parser_data/raw_cldr_translation_data/ru.json`, the rule set `%spellout-ordinal-plural-genitive` -/
def ruRules53 : List (PyStr × PyStr) := [
  (u!"-x", u!"минус >>;"),
  (u!"x.x", u!"=0.#=;"),
  (u!"0", u!"нулевых;"),
  (u!"1", u!"первых;"),
  (u!"2", u!"вторых;"),
  (u!"3", u!"третьих;"),
  (u!"4", u!"четвертых;"),
  (u!"5", u!"пятых;"),
  (u!"6", u!"шестых;"),
  (u!"7", u!"седьмых;"),
  (u!"8", u!"восьмых;"),
  (u!"9", u!"девятых;"),
  (u!"10", u!"десятых;"),
  (u!"11", u!"одиннадцатых;"),
  (u!"12", u!"двенадцатых;"),
  (u!"13", u!"тринадцатых;"),
  (u!"14", u!"четырнадцатых;"),
  (u!"15", u!"пятнадцатых;"),
  (u!"16", u!"шестнадцатых;"),
  (u!"17", u!"семнадцатых;"),
  (u!"18", u!"восемнадцатых;"),
  (u!"19", u!"девятнадцатых;"),
  (u!"20", u!"двадцатых;"),
  (u!"21", u!"двадцать >>;"),
  (u!"30", u!"тридцатых;"),
  (u!"31", u!"тридцать >>;"),
  (u!"40", u!"сороковых;"),
  (u!"41", u!"сорок >>;"),
  (u!"50", u!"пятидесятых;"),
  (u!"51", u!"пятьдесят >>;"),
  (u!"60", u!"шестидесятых;"),
  (u!"61", u!"шестьдесят >>;"),
  (u!"70", u!"семидесятых;"),
  (u!"71", u!"семьдесят >>;"),
  (u!"80", u!"восьмидесятых;"),
  (u!"81", u!"восемьдесят >>;"),
  (u!"90", u!"девяностых;"),
  (u!"91", u!"девяносто >>;"),
  (u!"100", u!"сотых;"),
  (u!"101", u!"сто >>;"),
  (u!"200", u!"<%spellout-cardinal-feminine<сти[ >>];"),
  (u!"300", u!"<%spellout-cardinal-feminine<ста[ >>];"),
  (u!"500", u!"<%spellout-cardinal-feminine<сот[ >>];"),
  (u!"1000", u!"тысяч>%%yh>;"),
  (u!"1001", u!"одна тысяч>%%yh>;"),
  (u!"2000/1000", u!"<%%thousandsprefixconjoined<тысячных;"),
  (u!"2001/1000", u!"<%%thousandsprefixseparate<тысячи[ >>];"),
  (u!"5000/1000", u!"<%%thousandsprefixconjoined<тысячных;"),
  (u!"5001/1000", u!"<%%thousandsprefixseparate<тысяч[ >>];"),
  (u!"21001", u!"=0=.;")]

/-- `number_parser_data/raw_cldr_translation_data/ru.json`, the rule set `%spellout-ordinal-masculine-dative` -/
def ruRules54 : List (PyStr × PyStr) := [
  (u!"-x", u!"минус >>;"),
  (u!"x.x", u!"=0.#=;"),
  (u!"0", u!"нулевому;"),
  (u!"1", u!"первому;"),
  (u!"2", u!"второму;"),
  (u!"3", u!"третьому;"),
  (u!"4", u!"четвертому;"),
  (u!"5", u!"пятому;"),
  (u!"6", u!"шестому;"),
  (u!"7", u!"седьмому;"),
  (u!"8", u!"восьмому;"),
  (u!"9", u!"девятому;"),
  (u!"10", u!"десятому;"),
  (u!"11", u!"одиннадцатому;"),
  (u!"12", u!"двенадцатому;"),
  (u!"13", u!"тринадцатому;"),
  (u!"14", u!"четырнадцатому;"),
  (u!"15", u!"пятнадцатому;"),
  (u!"16", u!"шестнадцатому;"),
  (u!"17", u!"семнадцатому;"),
  (u!"18", u!"восемнадцатому;"),
  (u!"19", u!"девятнадцатому;"),
  (u!"20", u!"двадцатому;"),
  (u!"21", u!"двадцать >>;"),
  (u!"30", u!"тридцатому;"),
  (u!"31", u!"тридцать >>;"),
  (u!"40", u!"сороковому;"),
  (u!"41", u!"сорок >>;"),
  (u!"50", u!"пятидесятому;"),
  (u!"51", u!"пятьдесят >>;"),
  (u!"60", u!"шестидесятому;"),
  (u!"61", u!"шестьдесят >>;"),
  (u!"70", u!"семидесятому;"),
  (u!"71", u!"семьдесят >>;"),
  (u!"80", u!"восемьдесятому;"),
  (u!"81", u!"восемьдесят >>;"),
  (u!"90", u!"девяностому;"),
  (u!"91", u!"девяносто >>;"),
  (u!"100", u!"сотому;"),
  (u!"101", u!"сто >>;"),
  (u!"200", u!"<%spellout-cardinal-feminine<сти[ >>];"),
  (u!"300", u!"<%spellout-cardinal-feminine<ста[ >>];"),
  (u!"500", u!"<%spellout-cardinal-feminine<сот[ >>];"),
  (u!"1000", u!"тысяч>%%omu>;"),
  (u!"1001", u!"одна тысяч>%%omu>;"),
  (u!"2000/1000", u!"<%%thousandsprefixconjoined<тысячному;"),
  (u!"2001/1000", u!"<%%thousandsprefixseparate<тысячи[ >>];"),
  (u!"5000/1000", u!"<%%thousandsprefixconjoined<тысячному;"),
  (u!"5001/1000", u!"<%%thousandsprefixseparate<тысяч[ >>];"),
  (u!"21001", u!"=0=.;")]

/-- `number_parser_data/raw_cldr_translation_data/ru.json`, the rule set `%spellout-ordinal-neuter-dative` -/
def ruRules55 : List (PyStr × PyStr) := [
  (u!"0", u!"=%spellout-ordinal-masculine-dative=;")]

/-- `number_parser_data/raw_cldr_translation_data/ru.json`, the rule set `%spellout-ordinal-feminine-dative` -/
def ruRules56 : List (PyStr × PyStr) := [
  (u!"0", u!"=%spellout-ordinal-feminine-genitive=;")]

/-- `number_parser_data/raw_cldr_translation_data/ru.json`, the rule set `%spellout-ordinal-plural-dative` -/
def ruRules57 : List (PyStr × PyStr) := [
  (u!"0", u!"=%spellout-ordinal-masculine-ablative=;")]

/-- `number_parser_data/raw_cldr_translation_data/ru.json`, the rule set `%spellout-ordinal-masculine-accusative` -/
def ruRules58 : List (PyStr × PyStr) := [
  (u!"0", u!"=%spellout-ordinal-masculine=;")]

/-- `number_parser_data/raw_cldr_translation_data/ru.json`, the rule set `%spellout-ordinal-neuter-accusative` -/
def ruRules59 : List (PyStr × PyStr) := [
  (u!"0", u!"=%spellout-ordinal-neuter=;")]

/-- `number_parser_data/raw_cldr_translation_data/ru.json`, the rule set `%spellout-ordinal-feminine-accusative` -/
def ruRules60 : List (PyStr × PyStr) := [
  (u!"-x", u!"минус >>;"),
  (u!"x.x", u!"=0.#=;"),
  (u!"0", u!"нулевую;"),
  (u!"1", u!"первую;"),
  (u!"2", u!"вторую;"),
  (u!"3", u!"третью;"),
  (u!"4", u!"четвертую;"),
  (u!"5", u!"пятую;"),
  (u!"6", u!"шестую;"),
  (u!"7", u!"седьмую;"),
  (u!"8", u!"восьмую;"),
  (u!"9", u!"девятую;"),
  (u!"10", u!"десятую;"),
  (u!"11", u!"одиннадцатую;"),
  (u!"12", u!"двенадцатую;"),
  (u!"13", u!"тринадцатую;"),
  (u!"14", u!"четырнадцатую;"),
  (u!"15", u!"пятнадцатую;"),
  (u!"16", u!"шестнадцатую;"),
  (u!"17", u!"семнадцатую;"),
  (u!"18", u!"восемнадцатую;"),
  (u!"19", u!"девятнадцатую;"),
  (u!"20", u!"двадцатую;"),
  (u!"21", u!"двадцать >>;"),
  (u!"30", u!"тридцатую;"),
  (u!"31", u!"тридцать >>;"),
  (u!"40", u!"сороковую;"),
  (u!"41", u!"сорок >>;"),
  (u!"50", u!"пятидесятую;"),
  (u!"51", u!"пятьдесят >>;"),
  (u!"60", u!"шестидесятую;"),
  (u!"61", u!"шестьдесят >>;"),
  (u!"70", u!"семидесятую;"),
  (u!"71", u!"семьдесят >>;"),
  (u!"80", u!"восьмидесятую;"),
  (u!"81", u!"восемьдесят >>;"),
  (u!"90", u!"девяностую;"),
  (u!"91", u!"девяносто >>;"),
  (u!"100", u!"сотую;"),
  (u!"101", u!"сто >>;"),
  (u!"200", u!"<%spellout-cardinal-feminine<сти[ >>];"),
  (u!"300", u!"<%spellout-cardinal-feminine<ста[ >>];"),
  (u!"500", u!"<%spellout-cardinal-feminine<сот[ >>];"),
  (u!"1000", u!"тысяч>%%uju>;"),
  (u!"1001", u!"одна тысяч>%%uju>;"),
  (u!"2000/1000", u!"<%%thousandsprefixconjoined<тысячную;"),
  (u!"2001/1000", u!"<%%thousandsprefixseparate<тысячи[ >>];"),
  (u!"5000/1000", u!"<%%thousandsprefixconjoined<тысячную;"),
  (u!"5001/1000", u!"<%%thousandsprefixseparate<тысяч[ >>];"),
  (u!"21001", u!"=0=.;")]

/-- `number_parser_data/raw_cldr_translation_data/ru.json`, the rule set `%spellout-ordinal-plural-accusative` -/
def ruRules61 : List (PyStr × PyStr) := [
  (u!"0", u!"=%spellout-ordinal-plural=;")]

/-- `number_parser_data/raw_cldr_translation_data/ru.json`, the rule set `%spellout-ordinal-masculine-locative` -/
def ruRules62 : List (PyStr × PyStr) := [
  (u!"-x", u!"минус >>;"),
  (u!"x.x", u!"=0.#=;"),
  (u!"0", u!"нулевом;"),
  (u!"1", u!"первом;"),
  (u!"2", u!"втором;"),
  (u!"3", u!"третьем;"),
  (u!"4", u!"четвертом;"),
  (u!"5", u!"пятом;"),
  (u!"6", u!"шестом;"),
  (u!"7", u!"седьмом;"),
  (u!"8", u!"восьмом;"),
  (u!"9", u!"девятом;"),
  (u!"10", u!"десятом;"),
  (u!"11", u!"одиннадцатом;"),
  (u!"12", u!"двенадцатом;"),
  (u!"13", u!"тринадцатом;"),
  (u!"14", u!"четырнадцатом;"),
  (u!"15", u!"пятнадцатом;"),
  (u!"16", u!"шестнадцатом;"),
  (u!"17", u!"семнадцатом;"),
  (u!"18", u!"восемнадцатом;"),
  (u!"19", u!"девятнадцатом;"),
  (u!"20", u!"двадцатом;"),
  (u!"21", u!"двадцать >>;"),
  (u!"30", u!"тридцатом;"),
  (u!"31", u!"тридцать >>;"),
  (u!"40", u!"сороковой;"),
  (u!"41", u!"сорок >>;"),
  (u!"50", u!"пятидесятом;"),
  (u!"51", u!"пятьдесят >>;"),
  (u!"60", u!"шестидесятом;"),
  (u!"61", u!"шестьдесят >>;"),
  (u!"70", u!"семидесятом;"),
  (u!"71", u!"семьдесят >>;"),
  (u!"80", u!"восьмидесятом;"),
  (u!"81", u!"восемьдесят >>;"),
  (u!"90", u!"девяностом;"),
  (u!"91", u!"девяносто >>;"),
  (u!"100", u!"сотом;"),
  (u!"101", u!"сто >>;"),
  (u!"200", u!"<%spellout-cardinal-feminine<сти[ >>];"),
  (u!"300", u!"<%spellout-cardinal-feminine<ста[ >>];"),
  (u!"500", u!"<%spellout-cardinal-feminine<сот[ >>];"),
  (u!"1000", u!"тысяч>%%om>;"),
  (u!"1001", u!"одна тысяч>%%om>;"),
  (u!"2000/1000", u!"<%%thousandsprefixconjoined<тысячном;"),
  (u!"2001/1000", u!"<%%thousandsprefixseparate<тысячи[ >>];"),
  (u!"5000/1000", u!"<%%thousandsprefixconjoined<тысячном;"),
  (u!"5001/1000", u!"<%%thousandsprefixseparate<тысяч[ >>];"),
  (u!"21001", u!"=0=.;")]

/-- `number_parser_data/raw_cldr_translation_data/ru.json`, the rule set `%spellout-ordinal-neuter-locative` -/
def ruRules63 : List (PyStr × PyStr) := [
  (u!"0", u!"=%spellout-ordinal-masculine-locative=;")]

/-- `number_parser_data/raw_cldr_translation_data/ru.json`, the rule set `%spellout-ordinal-feminine-locative` -/
def ruRules64 : List (PyStr × PyStr) := [
  (u!"0", u!"=%spellout-ordinal-feminine-genitive=;")]

/-- `number_parser_data/raw_cldr_translation_data/ru.json`, the rule set `%spellout-ordinal-plural-locative` -/
def ruRules65 : List (PyStr × PyStr) := [
  (u!"0", u!"=%spellout-ordinal-plural-genitive=;")]

/-- `number_parser_data/raw_cldr_translation_data/ru.json`, the rule set `%spellout-ordinal-masculine-ablative` -/
def ruRules66 : List (PyStr × PyStr) := [
  (u!"-x", u!"минус >>;"),
  (u!"x.x", u!"=0.#=;"),
  (u!"0", u!"нулевым;"),
  (u!"1", u!"первым;"),
  (u!"2", u!"вторым;"),
  (u!"3", u!"третьим;"),
  (u!"4", u!"четвертым;"),
  (u!"5", u!"пятым;"),
  (u!"6", u!"шестым;"),
  (u!"7", u!"седьмым;"),
  (u!"8", u!"восьмым;"),
  (u!"9", u!"девятым;"),
  (u!"10", u!"десятым;"),
  (u!"11", u!"одиннадцатым;"),
  (u!"12", u!"двенадцатым;"),
  (u!"13", u!"тринадцатым;"),
  (u!"14", u!"четырнадцатым;"),
  (u!"15", u!"пятнадцатым;"),
  (u!"16", u!"шестнадцатым;"),
  (u!"17", u!"семнадцатым;"),
  (u!"18", u!"восемнадцатым;"),
  (u!"19", u!"девятнадцатым;"),
  (u!"20", u!"двадцатым;"),
  (u!"21", u!"двадцать >>;"),
  (u!"30", u!"тридцатым;"),
  (u!"31", u!"тридцать >>;"),
  (u!"40", u!"сороковым;"),
  (u!"41", u!"сорок >>;"),
  (u!"50", u!"пятидесятым;"),
  (u!"51", u!"пятьдесят >>;"),
  (u!"60", u!"шестидесятым;"),
  (u!"61", u!"шестьдесят >>;"),
  (u!"70", u!"семидесятым;"),
  (u!"71", u!"семьдесят >>;"),
  (u!"80", u!"восьмидесятым;"),
  (u!"81", u!"восемьдесят >>;"),
  (u!"90", u!"девяностым;"),
  (u!"91", u!"девяносто >>;"),
  (u!"100", u!"сотым;"),
  (u!"101", u!"сто >>;"),
  (u!"200", u!"<%spellout-cardinal-feminine<сти[ >>];"),
  (u!"300", u!"<%spellout-cardinal-feminine<ста[ >>];"),
  (u!"500", u!"<%spellout-cardinal-feminine<сот[ >>];"),
  (u!"1000", u!"тысяч>%%ym>;"),
  (u!"1001", u!"одна тысяч>%%ym>;"),
  (u!"2000/1000", u!"<%%thousandsprefixconjoined<тысячным;"),
  (u!"2001/1000", u!"<%%thousandsprefixseparate<тысячи[ >>];"),
  (u!"5000/1000", u!"<%%thousandsprefixconjoined<тысячным;"),
  (u!"5001/1000", u!"<%%thousandsprefixseparate<тысяч[ >>];"),
  (u!"21001", u!"=0=.;")]

/-- `number_parser_data/raw_cldr_translation_data/ru.json`, the rule set `%spellout-ordinal-neuter-ablative` -/
def ruRules67 : List (PyStr × PyStr) := [
  (u!"0", u!"=%spellout-ordinal-masculine-ablative=;")]

/-- `number_parser_data/raw_cldr_translation_data/ru.json`, the rule set `%spellout-ordinal-feminine-ablative` -/
def ruRules68 : List (PyStr × PyStr) := [
  (u!"0", u!"=%spellout-ordinal-feminine-genitive=;")]

/-- `number_parser_data/raw_cldr_translation_data/ru.json`, the rule set `%spellout-ordinal-plural-ablative` -/
def ruRules69 : List (PyStr × PyStr) := [
  (u!"-x", u!"минус >>;"),
  (u!"x.x", u!"=0.#=;"),
  (u!"0", u!"нулевыми;"),
  (u!"1", u!"первыми;"),
  (u!"2", u!"вторыми;"),
  (u!"3", u!"третьими;"),
  (u!"4", u!"четвертыми;"),
  (u!"5", u!"пятыми;"),
  (u!"6", u!"шестыми;"),
  (u!"7", u!"седьмыми;"),
  (u!"8", u!"восьмыми;"),
  (u!"9", u!"девятыми;"),
  (u!"10", u!"десятыми;"),
  (u!"11", u!"одиннадцатыми;"),
  (u!"12", u!"двенадцатыми;"),
  (u!"13", u!"тринадцатыми;"),
  (u!"14", u!"четырнадцатыми;"),
  (u!"15", u!"пятнадцатыми;"),
  (u!"16", u!"шестнадцатыми;"),
  (u!"17", u!"семнадцатыми;"),
  (u!"18", u!"восемнадцатыми;"),
  (u!"19", u!"девятнадцатыми;"),
  (u!"20", u!"двадцатыми;"),
  (u!"21", u!"двадцать >>;"),
  (u!"30", u!"тридцатыми;"),
  (u!"31", u!"тридцать >>;"),
  (u!"40", u!"сороковой;"),
  (u!"41", u!"сорок >>;"),
  (u!"50", u!"пятидесятыми;"),
  (u!"51", u!"пятьдесят >>;"),
  (u!"60", u!"шестидесятыми;"),
  (u!"61", u!"шестьдесят >>;"),
  (u!"70", u!"семидесятыми;"),
  (u!"71", u!"семьдесят >>;"),
  (u!"80", u!"восьмидесятыми;"),
  (u!"81", u!"восемьдесят >>;"),
  (u!"90", u!"девяностыми;"),
  (u!"91", u!"девяносто >>;"),
  (u!"100", u!"сотыми;"),
  (u!"101", u!"сто >>;"),
  (u!"200", u!"<%spellout-cardinal-feminine<сти[ >>];"),
  (u!"300", u!"<%spellout-cardinal-feminine<ста[ >>];"),
  (u!"500", u!"<%spellout-cardinal-feminine<сот[ >>];"),
  (u!"1000", u!"тысяч>%%ymi>;"),
  (u!"1001", u!"одна тысяч>%%ymi>;"),
  (u!"2000/1000", u!"<%%thousandsprefixconjoined<тысячными;"),
  (u!"2001/1000", u!"<%%thousandsprefixseparate<тысячи[ >>];"),
  (u!"5000/1000", u!"<%%thousandsprefixconjoined<тысячными;"),
  (u!"5001/1000", u!"<%%thousandsprefixseparate<тысяч[ >>];"),
  (u!"21001", u!"=0=.;")]

/-- `number_parser_data/raw_cldr_translation_data/ru.json`, `SpelloutRules` -/
def ruRules : RuleSets := [
  (u!"%spellout-numbering-year", ruRules0),
  (u!"%spellout-numbering", ruRules1),
  (u!"%spellout-cardinal-masculine", ruRules2),
  (u!"%spellout-cardinal-neuter", ruRules3),
  (u!"%spellout-cardinal-feminine", ruRules4),
  (u!"%spellout-cardinal-plural", ruRules5),
  (u!"%%fractions-feminine", ruRules6),
  (u!"%spellout-cardinal-masculine-genitive", ruRules7),
  (u!"%spellout-cardinal-neuter-genitive", ruRules8),
  (u!"%spellout-cardinal-feminine-genitive", ruRules9),
  (u!"%spellout-cardinal-plural-genitive", ruRules10),
  (u!"%%fractions-feminine-genitive", ruRules11),
  (u!"%spellout-cardinal-masculine-dative", ruRules12),
  (u!"%spellout-cardinal-neuter-dative", ruRules13),
  (u!"%spellout-cardinal-feminine-dative", ruRules14),
  (u!"%spellout-cardinal-plural-dative", ruRules15),
  (u!"%%fractions-feminine-dative", ruRules16),
  (u!"%spellout-cardinal-masculine-accusative", ruRules17),
  (u!"%spellout-cardinal-neuter-accusative", ruRules18),
  (u!"%spellout-cardinal-feminine-accusative", ruRules19),
  (u!"%spellout-cardinal-plural-accusative", ruRules20),
  (u!"%%fractions-feminine-accusative", ruRules21),
  (u!"%spellout-cardinal-masculine-locative", ruRules22),
  (u!"%spellout-cardinal-neuter-locative", ruRules23),
  (u!"%spellout-cardinal-feminine-locative", ruRules24),
  (u!"%spellout-cardinal-plural-locative", ruRules25),
  (u!"%%fractions-feminine-locative", ruRules26),
  (u!"%spellout-cardinal-masculine-ablative", ruRules27),
  (u!"%spellout-cardinal-neuter-ablative", ruRules28),
  (u!"%spellout-cardinal-feminine-ablative", ruRules29),
  (u!"%spellout-cardinal-plural-ablative", ruRules30),
  (u!"%%fractions-feminine-ablative", ruRules31),
  (u!"%%yj", ruRules32),
  (u!"%%oe", ruRules33),
  (u!"%%aja", ruRules34),
  (u!"%%omu", ruRules35),
  (u!"%%oj", ruRules36),
  (u!"%%ogo", ruRules37),
  (u!"%%uju", ruRules38),
  (u!"%%ym", ruRules39),
  (u!"%%om", ruRules40),
  (u!"%%ye", ruRules41),
  (u!"%%yh", ruRules42),
  (u!"%%ymi", ruRules43),
  (u!"%%thousandsprefixconjoined", ruRules44),
  (u!"%%thousandsprefixseparate", ruRules45),
  (u!"%spellout-ordinal-masculine", ruRules46),
  (u!"%spellout-ordinal-neuter", ruRules47),
  (u!"%spellout-ordinal-feminine", ruRules48),
  (u!"%spellout-ordinal-plural", ruRules49),
  (u!"%spellout-ordinal-masculine-genitive", ruRules50),
  (u!"%spellout-ordinal-neuter-genitive", ruRules51),
  (u!"%spellout-ordinal-feminine-genitive", ruRules52),
  (u!"%spellout-ordinal-plural-genitive", ruRules53),
  (u!"%spellout-ordinal-masculine-dative", ruRules54),
  (u!"%spellout-ordinal-neuter-dative", ruRules55),
  (u!"%spellout-ordinal-feminine-dative", ruRules56),
  (u!"%spellout-ordinal-plural-dative", ruRules57),
  (u!"%spellout-ordinal-masculine-accusative", ruRules58),
  (u!"%spellout-ordinal-neuter-accusative", ruRules59),
  (u!"%spellout-ordinal-feminine-accusative", ruRules60),
  (u!"%spellout-ordinal-plural-accusative", ruRules61),
  (u!"%spellout-ordinal-masculine-locative", ruRules62),
  (u!"%spellout-ordinal-neuter-locative", ruRules63),
  (u!"%spellout-ordinal-feminine-locative", ruRules64),
  (u!"%spellout-ordinal-plural-locative", ruRules65),
  (u!"%spellout-ordinal-masculine-ablative", ruRules66),
  (u!"%spellout-ordinal-neuter-ablative", ruRules67),
  (u!"%spellout-ordinal-feminine-ablative", ruRules68),
  (u!"%spellout-ordinal-plural-ablative", ruRules69)]

/-- `number_parser_data/supplementary_translation_data/ru.json` -/
def ruSupplementary : Supplementary where
  tables := {
    unit := []
    direct := []
    tens := []
    hundreds := [(u!"сто", ⟨100, 0⟩), (u!"ста", ⟨100, 0⟩), (u!"двести", ⟨200, 0⟩), (u!"двухсот", ⟨200, 0⟩), (u!"двумстам", ⟨200, 0⟩), (u!"двухстах", ⟨200, 0⟩), (u!"двумястами", ⟨200, 0⟩), (u!"триста", ⟨300, 0⟩), (u!"трехсот", ⟨300, 0⟩), (u!"тремстам", ⟨300, 0⟩), (u!"трехстах", ⟨300, 0⟩), (u!"тремястами", ⟨300, 0⟩), (u!"четыреста", ⟨400, 0⟩), (u!"четырехсот", ⟨400, 0⟩), (u!"четыремстам", ⟨400, 0⟩), (u!"четырехстах", ⟨400, 0⟩), (u!"четырьмястами", ⟨400, 0⟩), (u!"пятьсот", ⟨500, 0⟩), (u!"пятисот", ⟨500, 0⟩), (u!"пятистам", ⟨500, 0⟩), (u!"пятистах", ⟨500, 0⟩), (u!"пятьюстами", ⟨500, 0⟩), (u!"шестьсот", ⟨600, 0⟩), (u!"шестисот", ⟨600, 0⟩), (u!"шестистам", ⟨600, 0⟩), (u!"шестистах", ⟨600, 0⟩), (u!"шестьюстами", ⟨600, 0⟩), (u!"семьсот", ⟨700, 0⟩), (u!"семисот", ⟨700, 0⟩), (u!"семистам", ⟨700, 0⟩), (u!"семистах", ⟨700, 0⟩), (u!"семьюстами", ⟨700, 0⟩), (u!"восемьсот", ⟨800, 0⟩), (u!"восьмисот", ⟨800, 0⟩), (u!"восьмистам", ⟨800, 0⟩), (u!"восьмистах", ⟨800, 0⟩), (u!"восемьюстами", ⟨800, 0⟩), (u!"девятьсот", ⟨900, 0⟩), (u!"девятисот", ⟨900, 0⟩), (u!"девятистам", ⟨900, 0⟩), (u!"девятистах", ⟨900, 0⟩), (u!"девятьюстами", ⟨900, 0⟩), (u!"двасти", ⟨200, 0⟩)]
    big := [(u!"квинтиллион", ⟨1000000000000000000, 0⟩), (u!"квинтиллиона", ⟨1000000000000000000, 0⟩), (u!"квинтиллионам", ⟨1000000000000000000, 0⟩), (u!"квинтиллионами", ⟨1000000000000000000, 0⟩), (u!"квинтиллионах", ⟨1000000000000000000, 0⟩), (u!"квинтиллионе", ⟨1000000000000000000, 0⟩), (u!"квинтиллионов", ⟨1000000000000000000, 0⟩), (u!"квинтиллионом", ⟨1000000000000000000, 0⟩), (u!"квинтиллиону", ⟨1000000000000000000, 0⟩), (u!"секстиллион", ⟨1000000000000000000000, 0⟩), (u!"секстиллиона", ⟨1000000000000000000000, 0⟩), (u!"секстиллионам", ⟨1000000000000000000000, 0⟩), (u!"секстиллионами", ⟨1000000000000000000000, 0⟩), (u!"секстиллионах", ⟨1000000000000000000000, 0⟩), (u!"секстиллионе", ⟨1000000000000000000000, 0⟩), (u!"секстиллионов", ⟨1000000000000000000000, 0⟩), (u!"секстиллионом", ⟨1000000000000000000000, 0⟩), (u!"секстиллиону", ⟨1000000000000000000000, 0⟩)] }
  skipTokens := []
  useLongScale := some false

/-- `number_parser_data/raw_cldr_translation_data/uk.json`, the rule set `%spellout-numbering-year` -/
def ukRules0 : List (PyStr × PyStr) := [
  (u!"x.x", u!"=0.0=;"),
  (u!"0", u!"=%spellout-numbering=;")]

/-- `number_parser_data/raw_cldr_translation_data/uk.json`, the rule set `%spellout-numbering` -/
def ukRules1 : List (PyStr × PyStr) := [
  (u!"0", u!"=%spellout-cardinal-masculine=;")]

/-- `number_parser_data/raw_cldr_translation_data/uk.json`, the rule set `%spellout-cardinal-masculine` -/
def ukRules2 : List (PyStr × PyStr) := [
  (u!"-x", u!"мінус >>;"),
  (u!"x.x", u!"<< кома >>;"),
  (u!"0", u!"нуль;"),
  (u!"1", u!"один;"),
  (u!"2", u!"два;"),
  (u!"3", u!"три;"),
  (u!"4", u!"чотири;"),
  (u!"5", u!"пʼять;"),
  (u!"6", u!"шість;"),
  (u!"7", u!"сім;"),
  (u!"8", u!"вісім;"),
  (u!"9", u!"девʼять;"),
  (u!"10", u!"десять;"),
  (u!"11", u!"одинадцять;"),
  (u!"12", u!"дванадцять;"),
  (u!"13", u!"тринадцять;"),
  (u!"14", u!"чотирнадцять;"),
  (u!"15", u!"пʼятнадцять;"),
  (u!"16", u!"шістнадцять;"),
  (u!"17", u!"сімнадцять;"),
  (u!"18", u!"вісімнадцять;"),
  (u!"19", u!"девʼятнадцять;"),
  (u!"20", u!"двадцять[ >>];"),
  (u!"30", u!"тридцять[ >>];"),
  (u!"40", u!"сорок[ >>];"),
  (u!"50", u!"пʼятдесят[ >>];"),
  (u!"60", u!"шістдесят[ >>];"),
  (u!"70", u!"сімдесят[ >>];"),
  (u!"80", u!"вісімдесят[ >>];"),
  (u!"90", u!"девʼяносто[ >>];"),
  (u!"100", u!"сто[ >>];"),
  (u!"200", u!"двісті[ >>];"),
  (u!"300", u!"триста[ >>];"),
  (u!"400", u!"чотириста[ >>];"),
  (u!"500", u!"пʼятсот[ >>];"),
  (u!"600", u!"шістсот[ >>];"),
  (u!"700", u!"сімсот[ >>];"),
  (u!"800", u!"вісімсот[ >>];"),
  (u!"900", u!"девʼятсот[ >>];"),
  (u!"1000", u!"<%spellout-cardinal-feminine< $(cardinal,one{тисяча}few{тисячі}other{тисяч})$[ >>];"),
  (u!"1000000", u!"<%spellout-cardinal-masculine< $(cardinal,one{мільйон}few{мільйони}other{мільйонів})$[ >>];"),
  (u!"1000000000", u!"<%spellout-cardinal-masculine< $(cardinal,one{мільярд}few{мільярди}other{мільярдів})$[ >>];"),
  (u!"1000000000000", u!"<%spellout-cardinal-masculine< $(cardinal,one{більйон}few{більйони}other{більйонів})$[ >>];"),
  (u!"1000000000000000", u!"<%spellout-cardinal-masculine< $(cardinal,one{більярд}few{більярди}other{більярдів})$[ >>];"),
  (u!"1000000000000000000", u!"=#,##0=;")]

/-- `number_parser_data/raw_cldr_translation_data/uk.json`, the rule set `%spellout-cardinal-neuter` -/
def ukRules3 : List (PyStr × PyStr) := [
  (u!"-x", u!"мінус >>;"),
  (u!"x.x", u!"<< кома >>;"),
  (u!"0", u!"нуль;"),
  (u!"1", u!"одне;"),
  (u!"2", u!"два;"),
  (u!"3", u!"=%spellout-cardinal-masculine=;"),
  (u!"20", u!"двадцять[ >>];"),
  (u!"30", u!"тридцять[ >>];"),
  (u!"40", u!"сорок[ >>];"),
  (u!"50", u!"пʼятдесят[ >>];"),
  (u!"60", u!"шістдесят[ >>];"),
  (u!"70", u!"сімдесят[ >>];"),
  (u!"80", u!"вісімдесят[ >>];"),
  (u!"90", u!"девʼяносто[ >>];"),
  (u!"100", u!"сто[ >>];"),
  (u!"200", u!"двісті[ >>];"),
  (u!"300", u!"триста[ >>];"),
  (u!"400", u!"чотириста[ >>];"),
  (u!"500", u!"пʼятсот[ >>];"),
  (u!"600", u!"шістсот[ >>];"),
  (u!"700", u!"сімсот[ >>];"),
  (u!"800", u!"вісімсот[ >>];"),
  (u!"900", u!"девʼятсот[ >>];"),
  (u!"1000", u!"<%spellout-cardinal-feminine< $(cardinal,one{тисяча}few{тисячі}other{тисяч})$[ >>];"),
  (u!"1000000", u!"<%spellout-cardinal-masculine< $(cardinal,one{мільйон}few{мільйони}other{мільйонів})$[ >>];"),
  (u!"1000000000", u!"<%spellout-cardinal-masculine< $(cardinal,one{мільярд}few{мільярди}other{мільярдів})$[ >>];"),
  (u!"1000000000000", u!"<%spellout-cardinal-masculine< $(cardinal,one{більйон}few{більйони}other{більйонів})$[ >>];"),
  (u!"1000000000000000", u!"<%spellout-cardinal-masculine< $(cardinal,one{більярд}few{більярди}other{більярдів})$[ >>];"),
  (u!"1000000000000000000", u!"=#,##0=;")]

/-- `number_parser_data/raw_cldr_translation_data/uk.json`, the rule set `%spellout-cardinal-feminine` -/
def ukRules4 : List (PyStr × PyStr) := [
  (u!"-x", u!"мінус >>;"),
  (u!"x.x", u!"<< кома >>;"),
  (u!"0", u!"нуль;"),
  (u!"1", u!"одна;"),
  (u!"2", u!"дві;"),
  (u!"3", u!"=%spellout-cardinal-masculine=;"),
  (u!"20", u!"двадцять[ >>];"),
  (u!"30", u!"тридцять[ >>];"),
  (u!"40", u!"сорок[ >>];"),
  (u!"50", u!"пʼятдесят[ >>];"),
  (u!"60", u!"шістдесят[ >>];"),
  (u!"70", u!"сімдесят[ >>];"),
  (u!"80", u!"вісімдесят[ >>];"),
  (u!"90", u!"девʼяносто[ >>];"),
  (u!"100", u!"сто[ >>];"),
  (u!"200", u!"двісті[ >>];"),
  (u!"300", u!"триста[ >>];"),
  (u!"400", u!"чотириста[ >>];"),
  (u!"500", u!"пʼятсот[ >>];"),
  (u!"600", u!"шістсот[ >>];"),
  (u!"700", u!"сімсот[ >>];"),
  (u!"800", u!"вісімсот[ >>];"),
  (u!"900", u!"девʼятсот[ >>];"),
  (u!"1000", u!"<%spellout-cardinal-feminine< $(cardinal,one{тисяча}few{тисячі}other{тисяч})$[ >>];"),
  (u!"1000000", u!"<%spellout-cardinal-masculine< $(cardinal,one{мільйон}few{мільйони}other{мільйонів})$[ >>];"),
  (u!"1000000000", u!"<%spellout-cardinal-masculine< $(cardinal,one{мільярд}few{мільярди}other{мільярдів})$[ >>];"),
  (u!"1000000000000", u!"<%spellout-cardinal-masculine< $(cardinal,one{більйон}few{більйони}other{більйонів})$[ >>];"),
  (u!"1000000000000000", u!"<%spellout-cardinal-masculine< $(cardinal,one{більярд}few{більярди}other{більярдів})$[ >>];"),
  (u!"1000000000000000000", u!"=#,##0=;")]

/-- `number_parser_data/raw_cldr_translation_data/uk.json`, `SpelloutRules` -/
def ukRules : RuleSets := [
  (u!"%spellout-numbering-year", ukRules0),
  (u!"%spellout-numbering", ukRules1),
  (u!"%spellout-cardinal-masculine", ukRules2),
  (u!"%spellout-cardinal-neuter", ukRules3),
  (u!"%spellout-cardinal-feminine", ukRules4)]

/-- `number_parser_data/supplementary_translation_data/uk.json` -/
def ukSupplementary : Supplementary where
  tables := {
    unit := [(u!"нуль", ⟨0, 0⟩), (u!"нулю", ⟨0, 0⟩), (u!"один", ⟨1, 0⟩), (u!"одному", ⟨1, 0⟩), (u!"одним", ⟨1, 0⟩), (u!"одними", ⟨1, 0⟩), (u!"одну", ⟨1, 0⟩), (u!"одного", ⟨1, 0⟩), (u!"одне", ⟨1, 0⟩), (u!"одні", ⟨1, 0⟩), (u!"одна", ⟨1, 0⟩), (u!"одній", ⟨1, 0⟩), (u!"два", ⟨2, 0⟩), (u!"двом", ⟨2, 0⟩), (u!"двох", ⟨2, 0⟩), (u!"двома", ⟨2, 0⟩), (u!"дві", ⟨2, 0⟩), (u!"двоє", ⟨2, 0⟩), (u!"двум", ⟨2, 0⟩), (u!"три", ⟨3, 0⟩), (u!"трьом", ⟨3, 0⟩), (u!"трьох", ⟨3, 0⟩), (u!"троє", ⟨3, 0⟩), (u!"трьома", ⟨3, 0⟩), (u!"чотири", ⟨4, 0⟩), (u!"четверо", ⟨4, 0⟩), (u!"чотирьом", ⟨4, 0⟩), (u!"чотирьох", ⟨4, 0⟩), (u!"чотирьома", ⟨4, 0⟩), (u!"пять", ⟨5, 0⟩), (u!"пʼять", ⟨5, 0⟩), (u!"пʼятеро", ⟨5, 0⟩), (u!"пʼяти", ⟨5, 0⟩), (u!"пʼятих", ⟨5, 0⟩), (u!"пʼятьма", ⟨5, 0⟩), (u!"шість", ⟨6, 0⟩), (u!"шести", ⟨6, 0⟩), (u!"шістьма", ⟨6, 0⟩), (u!"сім", ⟨7, 0⟩), (u!"семи", ⟨7, 0⟩), (u!"сімма", ⟨7, 0⟩), (u!"вісім", ⟨8, 0⟩), (u!"восьми", ⟨8, 0⟩), (u!"восьмима", ⟨8, 0⟩), (u!"девʼять", ⟨9, 0⟩), (u!"девять", ⟨9, 0⟩), (u!"девʼяти", ⟨9, 0⟩), (u!"девʼятьма", ⟨9, 0⟩)]
    direct := [(u!"десять", ⟨10, 0⟩), (u!"одинадцять", ⟨11, 0⟩), (u!"дванадцять", ⟨12, 0⟩), (u!"тринадцять", ⟨13, 0⟩), (u!"чотирнадцять", ⟨14, 0⟩), (u!"пʼятнадцять", ⟨15, 0⟩), (u!"пятнадцять", ⟨15, 0⟩), (u!"шістнадцять", ⟨16, 0⟩), (u!"сімнадцять", ⟨17, 0⟩), (u!"вісімнадцять", ⟨18, 0⟩), (u!"девʼятнадцять", ⟨19, 0⟩), (u!"девятнадцять", ⟨19, 0⟩)]
    tens := [(u!"двадцять", ⟨20, 0⟩), (u!"тридцять", ⟨30, 0⟩), (u!"сорок", ⟨40, 0⟩), (u!"пʼятдесят", ⟨50, 0⟩), (u!"пятдесят", ⟨50, 0⟩), (u!"шістдесят", ⟨60, 0⟩), (u!"сімдесят", ⟨70, 0⟩), (u!"вісімдесят", ⟨80, 0⟩), (u!"девʼяносто", ⟨90, 0⟩), (u!"девяносто", ⟨90, 0⟩)]
    hundreds := [(u!"сто", ⟨100, 0⟩), (u!"двісті", ⟨200, 0⟩), (u!"триста", ⟨300, 0⟩), (u!"чотириста", ⟨400, 0⟩), (u!"п'ятсот", ⟨500, 0⟩), (u!"шістсот", ⟨600, 0⟩), (u!"сімсот", ⟨700, 0⟩), (u!"вісімсот", ⟨800, 0⟩), (u!"дев'ятсот", ⟨900, 0⟩)]
    big := [(u!"тисяча", ⟨1000, 0⟩), (u!"мільйон", ⟨1000000, 0⟩), (u!"міліон", ⟨1000000, 0⟩), (u!"мільярд", ⟨1000000000, 0⟩), (u!"міліярд", ⟨1000000000, 0⟩), (u!"трильйон", ⟨1000000000000, 0⟩), (u!"триліон", ⟨1000000000000, 0⟩), (u!"квадрильйон", ⟨1000000000000000, 0⟩), (u!"квадриліон", ⟨1000000000000000, 0⟩), (u!"квінтильйон", ⟨1000000000000000000, 0⟩), (u!"квінтиліон", ⟨1000000000000000000, 0⟩), (u!"секстильйон", ⟨1000000000000000000000, 0⟩), (u!"секстиліон", ⟨1000000000000000000000, 0⟩), (u!"септильйон", ⟨1000000000000000000000000, 0⟩), (u!"септиліон", ⟨1000000000000000000000000, 0⟩), (u!"октильйон", ⟨1000000000000000000000000000, 0⟩), (u!"октиліон", ⟨1000000000000000000000000000, 0⟩), (u!"нонільйон", ⟨1000000000000000000000000000000, 0⟩), (u!"нонильйон", ⟨1000000000000000000000000000000, 0⟩), (u!"ноніліон", ⟨1000000000000000000000000000000, 0⟩), (u!"децильйон", ⟨1000000000000000000000000000000000, 0⟩), (u!"децільйон", ⟨1000000000000000000000000000000000, 0⟩), (u!"дециліон", ⟨1000000000000000000000000000000000, 0⟩), (u!"ундецільйон", ⟨1000000000000000000000000000000000000, 0⟩), (u!"ундецильйон", ⟨1000000000000000000000000000000000000, 0⟩), (u!"ундециліон", ⟨1000000000000000000000000000000000000, 0⟩), (u!"дуодецильйон", ⟨1000000000000000000000000000000000000000, 0⟩), (u!"дуодецільйон", ⟨1000000000000000000000000000000000000000, 0⟩), (u!"дуодециліон", ⟨1000000000000000000000000000000000000000, 0⟩), (u!"тредецильйон", ⟨1000000000000000000000000000000000000000000, 0⟩), (u!"тредециліон", ⟨1000000000000000000000000000000000000000000, 0⟩), (u!"тредецільйон", ⟨1000000000000000000000000000000000000000000, 0⟩), (u!"кваттуордецильйон", ⟨1000000000000000000000000000000000000000000000, 0⟩), (u!"кваттуордециліон", ⟨1000000000000000000000000000000000000000000000, 0⟩), (u!"квіндецильйон", ⟨1000000000000000000000000000000000000000000000000, 0⟩), (u!"квіндециліон", ⟨1000000000000000000000000000000000000000000000000, 0⟩), (u!"сексдецильйон", ⟨1000000000000000000000000000000000000000000000000000, 0⟩), (u!"сексдециліон", ⟨1000000000000000000000000000000000000000000000000000, 0⟩), (u!"септендецильйон", ⟨1000000000000000000000000000000000000000000000000000000, 0⟩), (u!"септендециліон", ⟨1000000000000000000000000000000000000000000000000000000, 0⟩), (u!"октодецильйон", ⟨1000000000000000000000000000000000000000000000000000000000, 0⟩), (u!"октодециліон", ⟨1000000000000000000000000000000000000000000000000000000000, 0⟩), (u!"новемдецильйон", ⟨1000000000000000000000000000000000000000000000000000000000000, 0⟩), (u!"новемдециліон", ⟨1000000000000000000000000000000000000000000000000000000000000, 0⟩), (u!"вігінтільйон", ⟨1000000000000000000000000000000000000000000000000000000000000000, 0⟩), (u!"унвігінтільйон", ⟨1000000000000000000000000000000000000000000000000000000000000000000, 0⟩), (u!"дуовігінтільйон", ⟨1000000000000000000000000000000000000000000000000000000000000000000000, 0⟩), (u!"тревігінтільйон", ⟨1000000000000000000000000000000000000000000000000000000000000000000000000, 0⟩), (u!"кваттуорвігінтільйон", ⟨1000000000000000000000000000000000000000000000000000000000000000000000000000, 0⟩), (u!"квінвігінтільйон", ⟨1000000000000000000000000000000000000000000000000000000000000000000000000000000, 0⟩), (u!"сексвігінтільйон", ⟨1000000000000000000000000000000000000000000000000000000000000000000000000000000000, 0⟩), (u!"септемвігінтільйон", ⟨1000000000000000000000000000000000000000000000000000000000000000000000000000000000000, 0⟩), (u!"октовігінтільйон", ⟨1000000000000000000000000000000000000000000000000000000000000000000000000000000000000000, 0⟩), (u!"новемвігінтільйон", ⟨1000000000000000000000000000000000000000000000000000000000000000000000000000000000000000000, 0⟩), (u!"тригінтільйон", ⟨1000000000000000000000000000000000000000000000000000000000000000000000000000000000000000000000, 0⟩), (u!"унтригінтільйон", ⟨1000000000000000000000000000000000000000000000000000000000000000000000000000000000000000000000000, 0⟩), (u!"дуотригінтільйон", ⟨1000000000000000000000000000000000000000000000000000000000000000000000000000000000000000000000000000, 0⟩), (u!"третригінтільйон", ⟨1000000000000000000000000000000000000000000000000000000000000000000000000000000000000000000000000000000, 0⟩), (u!"кваттуортригінтільйон", ⟨1000000000000000000000000000000000000000000000000000000000000000000000000000000000000000000000000000000000, 0⟩), (u!"квінтригінтільйон", ⟨1000000000000000000000000000000000000000000000000000000000000000000000000000000000000000000000000000000000000, 0⟩), (u!"секстригінтільйон", ⟨1000000000000000000000000000000000000000000000000000000000000000000000000000000000000000000000000000000000000000, 0⟩), (u!"септентригінтільйон", ⟨1000000000000000000000000000000000000000000000000000000000000000000000000000000000000000000000000000000000000000000, 0⟩), (u!"октотригінтільйон", ⟨1000000000000000000000000000000000000000000000000000000000000000000000000000000000000000000000000000000000000000000000, 0⟩), (u!"новемтригінтільйон", ⟨1000000000000000000000000000000000000000000000000000000000000000000000000000000000000000000000000000000000000000000000000, 0⟩), (u!"квадрагінтільйон", ⟨1000000000000000000000000000000000000000000000000000000000000000000000000000000000000000000000000000000000000000000000000000, 0⟩), (u!"унквадрагінтільйон", ⟨1000000000000000000000000000000000000000000000000000000000000000000000000000000000000000000000000000000000000000000000000000000, 0⟩), (u!"дуоквадрагінтільйон", ⟨1000000000000000000000000000000000000000000000000000000000000000000000000000000000000000000000000000000000000000000000000000000000, 0⟩)] }
  skipTokens := []
  useLongScale := some false

end NumberParser.Gen.RuleData
