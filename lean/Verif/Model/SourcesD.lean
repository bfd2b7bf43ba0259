/- GENERATED by tools/gen_sources.py from /repo/number_parser_data/{raw_cldr,supplementary}_translation_data/*.json and
/repo/number_parser/data/*.py. Do not edit. -/
import Verif.Model.Generator

set_option maxRecDepth 100000

namespace NumberParser.Gen.Sources
open NumberParser Gen

/-- `number_parser_data/raw_cldr_translation_data/ja.json`, `SpelloutRules` -/
def jaRules : RuleSets := [
  (u!"%spellout-numbering-year-latn", [(u!"x.x", u!"=0.0=;"),
    (u!"0", u!"=0=;"),
    (u!"1", u!"元;"),
    (u!"2", u!"=0=;")]),
  (u!"%spellout-numbering-year", [(u!"x.x", u!"=0.0=;"),
    (u!"0", u!"=%spellout-numbering=;"),
    (u!"1", u!"元;"),
    (u!"2", u!"=%spellout-numbering=;"),
    (u!"1000", u!"=%%spellout-numbering-year-digits=;"),
    (u!"10000", u!"=%spellout-numbering=;")]),
  (u!"%%spellout-numbering-year-digits", [(u!"0", u!"=%spellout-numbering=;"),
    (u!"10", u!"<<>>>;"),
    (u!"100", u!"<<>>>;"),
    (u!"1000", u!"<<>>>;")]),
  (u!"%spellout-numbering", [(u!"0", u!"=%spellout-cardinal=;")]),
  (u!"%spellout-cardinal-financial", [(u!"-x", u!"マイナス>>;"),
    (u!"x.x", u!"<<点>>>;"),
    (u!"0", u!"零;"),
    (u!"1", u!"壱;"),
    (u!"2", u!"弐;"),
    (u!"3", u!"参;"),
    (u!"4", u!"四;"),
    (u!"5", u!"伍;"),
    (u!"6", u!"六;"),
    (u!"7", u!"七;"),
    (u!"8", u!"八;"),
    (u!"9", u!"九;"),
    (u!"10", u!"拾[>>];"),
    (u!"20", u!"<<拾[>>];"),
    (u!"100", u!"<<百[>>];"),
    (u!"1000", u!"<<千[>>];"),
    (u!"10000", u!"<<萬[>>];"),
    (u!"100000000", u!"<<億[>>];"),
    (u!"1000000000000", u!"<<兆[>>];"),
    (u!"10000000000000000", u!"<<京[>>];"),
    (u!"1000000000000000000", u!"=#,##0=;")]),
  (u!"%spellout-cardinal", [(u!"-x", u!"マイナス>>;"),
    (u!"x.x", u!"<<・>>>;"),
    (u!"0", u!"〇;"),
    (u!"1", u!"一;"),
    (u!"2", u!"二;"),
    (u!"3", u!"三;"),
    (u!"4", u!"四;"),
    (u!"5", u!"五;"),
    (u!"6", u!"六;"),
    (u!"7", u!"七;"),
    (u!"8", u!"八;"),
    (u!"9", u!"九;"),
    (u!"10", u!"十[>>];"),
    (u!"20", u!"<<十[>>];"),
    (u!"100", u!"百[>>];"),
    (u!"200", u!"<<百[>>];"),
    (u!"1000", u!"千[>>];"),
    (u!"2000", u!"<<千[>>];"),
    (u!"10000", u!"<<万[>>];"),
    (u!"100000000", u!"<<億[>>];"),
    (u!"1000000000000", u!"<<兆[>>];"),
    (u!"10000000000000000", u!"<<京[>>];"),
    (u!"1000000000000000000", u!"=#,##0=;")]),
  (u!"%spellout-ordinal", [(u!"x.x", u!"=#,##0.#=;"),
    (u!"0", u!"第=%spellout-numbering=;")])]

/-- `number_parser_data/supplementary_translation_data/ja.json` -/
def jaSupplementary : Supplementary where
  tables := {
    unit := []
    direct := []
    tens := []
    hundreds := []
    big := [] }
  skipTokens := []
  useLongScale := none

/-- `number_parser/data/ja.py`, lines 1-25 -/
def jaModule : Output where
  tables := {
    unit := [(u!"〇", 0), (u!"零", 0), (u!"一", 1), (u!"元", 1), (u!"壱", 1), (u!"二", 2), (u!"弐", 2), (u!"三", 3), (u!"参", 3), (u!"四", 4), (u!"五", 5), (u!"伍", 5), (u!"六", 6), (u!"七", 7), (u!"八", 8), (u!"九", 9)]
    direct := []
    tens := []
    hundreds := []
    big := [] }
  skipTokens := []
  useLongScale := none

/-- `number_parser_data/raw_cldr_translation_data/ka.json`, `SpelloutRules` -/
def kaRules : RuleSets := [
  (u!"%spellout-numbering-year", [(u!"x.x", u!"=0.0=;"),
    (u!"0", u!"=%spellout-numbering=;")]),
  (u!"%spellout-numbering", [(u!"0", u!"=%spellout-cardinal=;")]),
  (u!"%spellout-cardinal", [(u!"-x", u!"მინუს >>;"),
    (u!"x.x", u!"<< მძიმე >>;"),
    (u!"0", u!"ნული;"),
    (u!"1", u!"ერთი;"),
    (u!"2", u!"ორი;"),
    (u!"3", u!"სამი;"),
    (u!"4", u!"ოთხი;"),
    (u!"5", u!"ხუთი;"),
    (u!"6", u!"ექვსი;"),
    (u!"7", u!"შვიდი;"),
    (u!"8", u!"რვა;"),
    (u!"9", u!"ცხრა;"),
    (u!"10", u!"ათი;"),
    (u!"11", u!"თერთმეტი;"),
    (u!"12", u!"თორმეტი;"),
    (u!"13", u!"ცამეტი;"),
    (u!"14", u!"თოთხმეტი;"),
    (u!"15", u!"თხუთმეტი;"),
    (u!"16", u!"თექვსმეტი;"),
    (u!"17", u!"ჩვიდმეტი;"),
    (u!"18", u!"თრვამეტი;"),
    (u!"19", u!"ცხრამეტი;"),
    (u!"20/ოცი;", u!"ოცი;"),
    (u!"21/20", u!"ოცდა\u00ad>>;"),
    (u!"40/20", u!"ორმოცი;"),
    (u!"41/20", u!"ორმოცდა\u00ad>>;"),
    (u!"60/20", u!"სამოცი;"),
    (u!"61/20", u!"სამოცდა\u00ad>>;"),
    (u!"80/20", u!"ოთხმოცი;"),
    (u!"81/20", u!"ოთხმოცდა\u00ad>>;"),
    (u!"100", u!"ას>%%hundred>;"),
    (u!"200", u!"ორას>%%hundred>;"),
    (u!"300", u!"სამას>%%hundred>;"),
    (u!"400", u!"ოთხას>%%hundred>;"),
    (u!"500", u!"ხუთას>%%hundred>;"),
    (u!"600", u!"ექვსას>%%hundred>;"),
    (u!"700", u!"შვიდას>%%hundred>;"),
    (u!"800", u!"რვაას>%%hundred>;"),
    (u!"900", u!"ცხრაას>%%hundred>;"),
    (u!"1000", u!"ათას>%%th>;"),
    (u!"2000", u!"<< ათას>%%th>;"),
    (u!"1000000", u!"<< მილიონ>%%th>;"),
    (u!"1000000000", u!"<< მილიარდ>%%th>;"),
    (u!"1000000000000", u!"<< ბილიონ>%%th>;"),
    (u!"1000000000000000", u!"<< ბილიარდ>%%th>;"),
    (u!"1000000000000000000", u!"=#,##0=;")]),
  (u!"%%hundred", [(u!"0", u!"ი;"),
    (u!"1", u!"\u00ad=%spellout-cardinal=;")]),
  (u!"%%th", [(u!"0", u!"ი;"),
    (u!"1", u!"' =%spellout-cardinal=;")])]

/-- `number_parser_data/supplementary_translation_data/ka.json` -/
def kaSupplementary : Supplementary where
  tables := {
    unit := []
    direct := []
    tens := []
    hundreds := []
    big := [] }
  skipTokens := []
  useLongScale := some false

/-- `number_parser/data/ka.py`, lines 1-46 -/
def kaModule : Output where
  tables := {
    unit := [(u!"ნული", 0), (u!"ერთი", 1), (u!"ორი", 2), (u!"სამი", 3), (u!"ოთხი", 4), (u!"ხუთი", 5), (u!"ექვსი", 6), (u!"შვიდი", 7), (u!"რვა", 8), (u!"ცხრა", 9)]
    direct := [(u!"ათი", 10), (u!"თერთმეტი", 11), (u!"თორმეტი", 12), (u!"ცამეტი", 13), (u!"თოთხმეტი", 14), (u!"თხუთმეტი", 15), (u!"თექვსმეტი", 16), (u!"ჩვიდმეტი", 17), (u!"თრვამეტი", 18), (u!"ცხრამეტი", 19)]
    tens := []
    hundreds := [(u!"ორას", 200), (u!"სამას", 300), (u!"ოთხას", 400), (u!"ხუთას", 500), (u!"ექვსას", 600), (u!"შვიდას", 700), (u!"რვაას", 800), (u!"ცხრაას", 900)]
    big := [(u!"ათას", 1000), (u!"მილიონ", 1000000), (u!"მილიარდ", 1000000000), (u!"ბილიონ", 1000000000000), (u!"ბილიარდ", 1000000000000000)] }
  skipTokens := []
  useLongScale := some false

/-- `number_parser_data/raw_cldr_translation_data/kl.json`, `SpelloutRules` -/
def klRules : RuleSets := [
  (u!"%spellout-numbering-year", [(u!"x.x", u!"=0.0=;"),
    (u!"0", u!"=%spellout-numbering=;")]),
  (u!"%spellout-numbering", [(u!"0", u!"=%spellout-cardinal=;")]),
  (u!"%%numbertimes", [(u!"1", u!"ataaseq;"),
    (u!"2", u!"marlunnik;"),
    (u!"3", u!"pingasunik;"),
    (u!"4", u!"sisamanik;"),
    (u!"5", u!"tallimanik;"),
    (u!"6", u!"arfinilinnik;"),
    (u!"7", u!"arfineq-marlunnik;"),
    (u!"8", u!"arfineq-pingasunik;"),
    (u!"9", u!"arfineq-sisamanik;"),
    (u!"10", u!"qulinik;"),
    (u!"11", u!"aqqanilinik;"),
    (u!"12", u!"aqqaneq-marlunnik;"),
    (u!"13", u!"aqqaneq-pingasunik;"),
    (u!"14", u!"aqqaneq-sisamanik;"),
    (u!"15", u!"aqqaneq-tallimanik;"),
    (u!"16", u!"arfersanilinnik;"),
    (u!"17", u!"arfersaneq-marlunnik;"),
    (u!"18", u!"arfersaneq-pingasunik;"),
    (u!"19", u!"arfersaneq-sisamanik;"),
    (u!"20", u!"<%%numbertimes< qulillit[ >>];"),
    (u!"100", u!"uutritit[ >>];"),
    (u!"200", u!"<%%numbertimes< uutritillit[ >>];")]),
  (u!"%spellout-cardinal", [(u!"-x", u!"minus >>;"),
    (u!"x.x", u!"<< komma >>;"),
    (u!"0", u!"nuulu;"),
    (u!"1", u!"ataaseq;"),
    (u!"2", u!"marluk;"),
    (u!"3", u!"pingasut;"),
    (u!"4", u!"sisamat;"),
    (u!"5", u!"tallimat;"),
    (u!"6", u!"arfinillit;"),
    (u!"7", u!"arfineq-marluk;"),
    (u!"8", u!"arfineq-pingasut;"),
    (u!"9", u!"arfineq-sisamat;"),
    (u!"10", u!"qulit;"),
    (u!"11", u!"aqqanilit;"),
    (u!"12", u!"aqqaneq-marluk;"),
    (u!"13", u!"aqqaneq-pingasut;"),
    (u!"14", u!"aqqaneq-sisamat;"),
    (u!"15", u!"aqqaneq-tallimat;"),
    (u!"16", u!"arfersanillit;"),
    (u!"17", u!"arfersaneq-marluk;"),
    (u!"18", u!"arfersaneq-pingasut;"),
    (u!"19", u!"arfersaneq-sisamat;"),
    (u!"20", u!"<%%numbertimes< qulillit[ >>];"),
    (u!"100", u!"uutritit[ >>];"),
    (u!"200", u!"<%%numbertimes< uutritillit[ >>];"),
    (u!"1000", u!"tuusintit[ >>];"),
    (u!"2000", u!"<%%numbertimes< tuusintillit[ >>];"),
    (u!"1000000", u!"millionit[ >>];"),
    (u!"2000000", u!"<%%numbertimes< millionillit[ >>];"),
    (u!"1000000000", u!"milliardit[ >>];"),
    (u!"2000000000", u!"<%%numbertimes< milliardillit[ >>];"),
    (u!"1000000000000", u!"billionit[ >>];"),
    (u!"2000000000000", u!"<%%numbertimes< billioniillit[ >>];"),
    (u!"1000000000000000", u!"billiardit[ >>];"),
    (u!"2000000000000000", u!"<%%numbertimes< billiardillit[ >>];"),
    (u!"1000000000000000000", u!"=#,##0=;")])]

/-- `number_parser_data/supplementary_translation_data/kl.json` -/
def klSupplementary : Supplementary where
  tables := {
    unit := []
    direct := []
    tens := []
    hundreds := []
    big := [] }
  skipTokens := []
  useLongScale := some false

/-- `number_parser/data/kl.py`, lines 1-38 -/
def klModule : Output where
  tables := {
    unit := [(u!"nuulu", 0), (u!"ataaseq", 1), (u!"marluk", 2), (u!"pingasut", 3), (u!"sisamat", 4), (u!"tallimat", 5), (u!"arfinillit", 6), (u!"arfineq-marluk", 7), (u!"arfineq-pingasut", 8), (u!"arfineq-sisamat", 9)]
    direct := [(u!"qulit", 10), (u!"aqqanilit", 11), (u!"aqqaneq-marluk", 12), (u!"aqqaneq-pingasut", 13), (u!"aqqaneq-sisamat", 14), (u!"aqqaneq-tallimat", 15), (u!"arfersanillit", 16), (u!"arfersaneq-marluk", 17), (u!"arfersaneq-pingasut", 18), (u!"arfersaneq-sisamat", 19)]
    tens := []
    hundreds := []
    big := [(u!"uutritillit", 100), (u!"tuusintillit", 1000), (u!"millionillit", 1000000), (u!"milliardillit", 1000000000), (u!"billioniillit", 1000000000000), (u!"billiardillit", 1000000000000000)] }
  skipTokens := []
  useLongScale := some false

/-- `number_parser_data/raw_cldr_translation_data/km.json`, `SpelloutRules` -/
def kmRules : RuleSets := [
  (u!"%%lenient-parse", [(u!"0", u!"&[last primary ignorable ] << ' ' << '\u200b' << '\u00ad';")]),
  (u!"%spellout-numbering-year", [(u!"0", u!"=%spellout-numbering=;")]),
  (u!"%spellout-numbering", [(u!"-x", u!"ដក\u200b>>;"),
    (u!"x.x", u!"<<\u200bចុច\u200b>>>;"),
    (u!"0", u!"សូន្យ;"),
    (u!"1", u!"មួយ;"),
    (u!"2", u!"ពីរ;"),
    (u!"3", u!"បី;"),
    (u!"4", u!"បួន;"),
    (u!"5", u!"ប្រាំ;"),
    (u!"6", u!"ប្រាំមួយ;"),
    (u!"7", u!"ប្រាំពីរ;"),
    (u!"8", u!"ប្រាំបី;"),
    (u!"9", u!"ប្រាំបួន;"),
    (u!"10", u!"ដប់[\u200b>>];"),
    (u!"20", u!"ម្ភៃ[\u200b>>];"),
    (u!"30", u!"សាមសិប[\u200b>>];"),
    (u!"40", u!"សែសិប[\u200b>>];"),
    (u!"50", u!"ហាសិប[\u200b>>];"),
    (u!"60", u!"ហុកសិប[\u200b>>];"),
    (u!"70", u!"ចិតសិប[\u200b>>];"),
    (u!"80", u!"ប៉ែតសិប[\u200b>>];"),
    (u!"90", u!"កៅសិប[\u200b>>];"),
    (u!"100", u!"<<\u200bរយ[\u200b>>];"),
    (u!"1000", u!"<<\u200bពាន់[\u200b>>];"),
    (u!"10000", u!"<<\u200bម៉ឺន[\u200b>>];"),
    (u!"100000", u!"<<\u200bសែន[\u200b>>];"),
    (u!"1000000", u!"<<\u200bលាន[\u200b>>];"),
    (u!"10000000000", u!"<<\u200bពាន់\u200bកោដិ[\u200b>>];"),
    (u!"1000000000000", u!"=#,##0=;")]),
  (u!"%spellout-cardinal", [(u!"0", u!"=%spellout-numbering=;")]),
  (u!"%spellout-ordinal", [(u!"0", u!"ទី=%spellout-cardinal=;")])]

/-- `number_parser_data/supplementary_translation_data/km.json` -/
def kmSupplementary : Supplementary where
  tables := {
    unit := []
    direct := []
    tens := []
    hundreds := []
    big := [] }
  skipTokens := []
  useLongScale := none

/-- `number_parser/data/km.py`, lines 1-28 -/
def kmModule : Output where
  tables := {
    unit := [(u!"សូន្យ", 0), (u!"មួយ", 1), (u!"ពីរ", 2), (u!"បី", 3), (u!"បួន", 4), (u!"ប្រាំ", 5), (u!"ប្រាំមួយ", 6), (u!"ប្រាំពីរ", 7), (u!"ប្រាំបី", 8), (u!"ប្រាំបួន", 9)]
    direct := []
    tens := [(u!"ម្ភៃ", 20), (u!"សាមសិប", 30), (u!"សែសិប", 40), (u!"ហាសិប", 50), (u!"ហុកសិប", 60), (u!"ចិតសិប", 70), (u!"ប៉ែតសិប", 80), (u!"កៅសិប", 90)]
    hundreds := []
    big := [] }
  skipTokens := []
  useLongScale := none

/-- `number_parser_data/raw_cldr_translation_data/ko.json`, `SpelloutRules` -/
def koRules : RuleSets := [
  (u!"%spellout-numbering-year", [(u!"x.x", u!"=0.0=;"),
    (u!"0", u!"=%spellout-numbering=;")]),
  (u!"%spellout-numbering", [(u!"0.x", u!"<%spellout-cardinal-sinokorean<점>>>;"),
    (u!"x.x", u!"<<점>>>;"),
    (u!"0", u!"공;"),
    (u!"1", u!"=%spellout-cardinal-sinokorean=;")]),
  (u!"%spellout-cardinal-sinokorean", [(u!"-x", u!"마이너스 >>;"),
    (u!"x.x", u!"<<점>>>;"),
    (u!"0", u!"영;"),
    (u!"1", u!"일;"),
    (u!"2", u!"이;"),
    (u!"3", u!"삼;"),
    (u!"4", u!"사;"),
    (u!"5", u!"오;"),
    (u!"6", u!"육;"),
    (u!"7", u!"칠;"),
    (u!"8", u!"팔;"),
    (u!"9", u!"구;"),
    (u!"10", u!"십[>>];"),
    (u!"20", u!"<<십[>>];"),
    (u!"100", u!"백[>>];"),
    (u!"200", u!"<<백[>>];"),
    (u!"1000", u!"천[>>];"),
    (u!"2000", u!"<<천[>>];"),
    (u!"10000", u!"만[ >>];"),
    (u!"20000", u!"<<만[ >>];"),
    (u!"100000000", u!"<<억[ >>];"),
    (u!"1000000000000", u!"<<조[ >>];"),
    (u!"10000000000000000", u!"<<경[ >>];"),
    (u!"1000000000000000000", u!"=#,##0=;")]),
  (u!"%spellout-cardinal-native-attributive", [(u!"-x", u!"마이너스 >>;"),
    (u!"x.x", u!"=%spellout-cardinal-sinokorean=;"),
    (u!"0", u!"영;"),
    (u!"1", u!"한;"),
    (u!"2", u!"두;"),
    (u!"3", u!"세;"),
    (u!"4", u!"네;"),
    (u!"5", u!"다섯;"),
    (u!"6", u!"여섯;"),
    (u!"7", u!"일곱;"),
    (u!"8", u!"여덟;"),
    (u!"9", u!"아홉;"),
    (u!"10", u!"열[>>];"),
    (u!"20", u!"스무;"),
    (u!"21", u!"스물[>>];"),
    (u!"30", u!"서른[>>];"),
    (u!"40", u!"마흔[>>];"),
    (u!"50", u!"쉰[>>];"),
    (u!"60", u!"예순[>>];"),
    (u!"70", u!"일흔[>>];"),
    (u!"80", u!"여든[>>];"),
    (u!"90", u!"아흔[>>];"),
    (u!"100", u!"백[>>];"),
    (u!"200", u!"<%spellout-cardinal-sinokorean<백[>>];"),
    (u!"1000", u!"천[>>];"),
    (u!"2000", u!"<%spellout-cardinal-sinokorean<천[>>];"),
    (u!"10000", u!"만[ >>];"),
    (u!"20000", u!"<%spellout-cardinal-sinokorean<만[ >>];"),
    (u!"100000000", u!"<%spellout-cardinal-sinokorean<억[ >>];"),
    (u!"1000000000000", u!"<%spellout-cardinal-sinokorean<조[ >>];"),
    (u!"10000000000000000", u!"<%spellout-cardinal-sinokorean<경[ >>];"),
    (u!"1000000000000000000", u!"=#,##0=;")]),
  (u!"%spellout-cardinal-native", [(u!"-x", u!"마이너스 >>;"),
    (u!"x.x", u!"=%spellout-cardinal-sinokorean=;"),
    (u!"0", u!"영;"),
    (u!"1", u!"하나;"),
    (u!"2", u!"둘;"),
    (u!"3", u!"셋;"),
    (u!"4", u!"넷;"),
    (u!"5", u!"다섯;"),
    (u!"6", u!"여섯;"),
    (u!"7", u!"일곱;"),
    (u!"8", u!"여덟;"),
    (u!"9", u!"아홉;"),
    (u!"10", u!"열[ >>];"),
    (u!"20", u!"스물[>>];"),
    (u!"30", u!"서른[>>];"),
    (u!"40", u!"마흔[>>];"),
    (u!"50", u!"쉰[>>];"),
    (u!"60", u!"예순[>>];"),
    (u!"70", u!"일흔[>>];"),
    (u!"80", u!"여든[>>];"),
    (u!"90", u!"아흔[>>];"),
    (u!"100", u!"=%spellout-cardinal-sinokorean=;")]),
  (u!"%spellout-cardinal-financial", [(u!"-x", u!"마이너스 >>;"),
    (u!"x.x", u!"=%spellout-cardinal-sinokorean=;"),
    (u!"0", u!"영;"),
    (u!"1", u!"일;"),
    (u!"2", u!"이;"),
    (u!"3", u!"삼;"),
    (u!"4", u!"사;"),
    (u!"5", u!"오;"),
    (u!"6", u!"육;"),
    (u!"7", u!"칠;"),
    (u!"8", u!"팔;"),
    (u!"9", u!"구;"),
    (u!"10", u!"<<십[>>];"),
    (u!"100", u!"<<백[>>];"),
    (u!"1000", u!"<<천[>>];"),
    (u!"10000", u!"<<만[>>];"),
    (u!"100000000", u!"<<억[>>];"),
    (u!"1000000000000", u!"<<조[>>];"),
    (u!"10000000000000000", u!"<<경[>>];"),
    (u!"1000000000000000000", u!"=#,##0=;")]),
  (u!"%spellout-ordinal-sinokorean-count", [(u!"-x", u!"마이너스 >>;"),
    (u!"x.x", u!"=#,##0.#=;"),
    (u!"0", u!"=%%spellout-ordinal-native-count-smaller= 번째;"),
    (u!"10", u!"=%%spellout-ordinal-sinokorean-count-smaller= 번째;")]),
  (u!"%%spellout-ordinal-sinokorean-count-smaller", [(u!"0", u!"영;"),
    (u!"1", u!"한;"),
    (u!"2", u!"두;"),
    (u!"3", u!"세;"),
    (u!"4", u!"네;"),
    (u!"5", u!"다섯;"),
    (u!"6", u!"여섯;"),
    (u!"7", u!"일곱;"),
    (u!"8", u!"여덟;"),
    (u!"9", u!"아홉;"),
    (u!"10", u!"열[>>];"),
    (u!"20", u!"스무;"),
    (u!"21", u!"스물[>>];"),
    (u!"30", u!"서른[>>];"),
    (u!"40", u!"마흔[>>];"),
    (u!"50", u!"=%%spellout-ordinal-sinokorean-count-larger=;")]),
  (u!"%%spellout-ordinal-sinokorean-count-larger", [(u!"1", u!"일;"),
    (u!"2", u!"이;"),
    (u!"3", u!"삼;"),
    (u!"4", u!"사;"),
    (u!"5", u!"오;"),
    (u!"6", u!"육;"),
    (u!"7", u!"칠;"),
    (u!"8", u!"팔;"),
    (u!"9", u!"구;"),
    (u!"10", u!"십[>>];"),
    (u!"20", u!"<<십[>>];"),
    (u!"50", u!"오십[>>];"),
    (u!"60", u!"육십[>>];"),
    (u!"70", u!"칠십[>>];"),
    (u!"80", u!"팔십[>>];"),
    (u!"90", u!"구십[>>];"),
    (u!"100", u!"백[>>];"),
    (u!"200", u!"<<백[>>];"),
    (u!"1000", u!"천[>>];"),
    (u!"2000", u!"<<천[>>];"),
    (u!"10000", u!"만[ >>];"),
    (u!"20000", u!"<<만[ >>];"),
    (u!"100000000", u!"<<억[ >>];"),
    (u!"1000000000000", u!"<<조[ >>];"),
    (u!"10000000000000000", u!"<<경[ >>];")]),
  (u!"%spellout-ordinal-native-count", [(u!"-x", u!"마이너스 >>;"),
    (u!"x.x", u!"=#,##0.#=;"),
    (u!"0", u!"=%%spellout-ordinal-native-count-smaller= 번째;")]),
  (u!"%%spellout-ordinal-native-count-smaller", [(u!"0", u!"영;"),
    (u!"1", u!"첫;"),
    (u!"2", u!"=%spellout-cardinal-native-attributive=;"),
    (u!"50", u!"=%%spellout-ordinal-native-count-larger=;")]),
  (u!"%%spellout-ordinal-native-count-larger", [(u!"0", u!"영;"),
    (u!"1", u!"한;"),
    (u!"2", u!"=%spellout-cardinal-native-attributive=;"),
    (u!"30", u!"서른[>>];"),
    (u!"40", u!"마흔[>>];"),
    (u!"50", u!"쉰[>%spellout-cardinal-native-attributive>];"),
    (u!"60", u!"예순[>%spellout-cardinal-native-attributive>];"),
    (u!"70", u!"일흔[>%spellout-cardinal-native-attributive>];"),
    (u!"80", u!"여든[>%spellout-cardinal-native-attributive>];"),
    (u!"90", u!"아흔[>%spellout-cardinal-native-attributive>];"),
    (u!"100", u!"백[>>];"),
    (u!"200", u!"<%spellout-cardinal-sinokorean<백[>>];"),
    (u!"1000", u!"천[>>];"),
    (u!"2000", u!"<%spellout-cardinal-sinokorean<천[>>];"),
    (u!"10000", u!"만[ >>];"),
    (u!"20000", u!"<%spellout-cardinal-sinokorean<만[ >>];"),
    (u!"100000000", u!"<%spellout-cardinal-sinokorean<억[ >>];"),
    (u!"1000000000000", u!"<%spellout-cardinal-sinokorean<조[ >>];"),
    (u!"10000000000000000", u!"<%spellout-cardinal-sinokorean<경[ >>];"),
    (u!"1000000000000000000", u!"=#,##0=;")]),
  (u!"%spellout-ordinal-sinokorean", [(u!"0", u!"=%spellout-ordinal-native=;"),
    (u!"50", u!"=%spellout-cardinal-sinokorean=째;"),
    (u!"100", u!"=%%spellout-ordinal-sinokorean-count-larger=째;")]),
  (u!"%spellout-ordinal-native", [(u!"x.x", u!"=#,##0.#=;"),
    (u!"-x", u!"마이너스 >>;"),
    (u!"0", u!"=%%spellout-ordinal-native-priv=째;")]),
  (u!"%%spellout-ordinal-native-priv", [(u!"0", u!"영;"),
    (u!"1", u!"첫;"),
    (u!"2", u!"둘;"),
    (u!"3", u!"=%%spellout-ordinal-native-smaller=;")]),
  (u!"%%spellout-ordinal-native-smaller", [(u!"0", u!";"),
    (u!"1", u!"한;"),
    (u!"2", u!"두;"),
    (u!"3", u!"셋;"),
    (u!"4", u!"넷;"),
    (u!"5", u!"다섯;"),
    (u!"6", u!"여섯;"),
    (u!"7", u!"일곱;"),
    (u!"8", u!"여덟;"),
    (u!"9", u!"아홉;"),
    (u!"10", u!"열[>>];"),
    (u!"20", u!"스무;"),
    (u!"21", u!"스물[>>];"),
    (u!"30", u!"서른[>>];"),
    (u!"40", u!"마흔[>>];"),
    (u!"50", u!"쉰[>>];"),
    (u!"60", u!"예순[>>];"),
    (u!"70", u!"일흔[>>];"),
    (u!"80", u!"여든[>>];"),
    (u!"90", u!"아흔[>>];"),
    (u!"100", u!"백[>%%spellout-ordinal-native-smaller-x02>];"),
    (u!"200", u!"<%spellout-cardinal-sinokorean<백[>%%spellout-ordinal-native-smaller-x02>];"),
    (u!"1000", u!"천[>%%spellout-ordinal-native-smaller-x02>];"),
    (u!"2000", u!"<%spellout-cardinal-sinokorean<천[>%%spellout-ordinal-native-smaller-x02>];"),
    (u!"10000", u!"만[ >%%spellout-ordinal-native-smaller-x02>];"),
    (u!"20000", u!"<%spellout-cardinal-sinokorean<만[ >%%spellout-ordinal-native-smaller-x02>];"),
    (u!"100000000", u!"<%spellout-cardinal-sinokorean<억[ >%%spellout-ordinal-native-smaller-x02>];"),
    (u!"1000000000000", u!"<%spellout-cardinal-sinokorean<조[ >%%spellout-ordinal-native-smaller-x02>];"),
    (u!"10000000000000000", u!"<%spellout-cardinal-sinokorean<경[ >%%spellout-ordinal-native-smaller-x02>];"),
    (u!"1000000000000000000", u!"=#,##0=;")]),
  (u!"spellout-ordinal-native-smaller-x02", [(u!"0", u!"=%%spellout-ordinal-native-smaller=;"),
    (u!"2", u!"둘;")]),
  (u!"%%spellout-ordinal-native-smaller-x02", [(u!"3", u!"=%%spellout-ordinal-native-smaller=;")])]

/-- `number_parser_data/supplementary_translation_data/ko.json` -/
def koSupplementary : Supplementary where
  tables := {
    unit := []
    direct := []
    tens := []
    hundreds := []
    big := [] }
  skipTokens := []
  useLongScale := some false

/-- `number_parser/data/ko.py`, lines 1-45 -/
def koModule : Output where
  tables := {
    unit := [(u!"공", 0), (u!"영", 0), (u!"일", 1), (u!"하나", 1), (u!"한", 1), (u!"두", 2), (u!"둘", 2), (u!"이", 2), (u!"삼", 3), (u!"세", 3), (u!"셋", 3), (u!"네", 4), (u!"넷", 4), (u!"사", 4), (u!"다섯", 5), (u!"오", 5), (u!"여섯", 6), (u!"육", 6), (u!"일곱", 7), (u!"칠", 7), (u!"여덟", 8), (u!"팔", 8), (u!"구", 9), (u!"아홉", 9)]
    direct := [(u!"스무", 20)]
    tens := [(u!"스물", 20), (u!"서른", 30), (u!"마흔", 40), (u!"쉰", 50), (u!"예순", 60), (u!"일흔", 70), (u!"여든", 80), (u!"아흔", 90)]
    hundreds := []
    big := [] }
  skipTokens := []
  useLongScale := some false

/-- `number_parser_data/raw_cldr_translation_data/ky.json`, `SpelloutRules` -/
def kyRules : RuleSets := [
  (u!"%spellout-numbering-year", [(u!"x.x", u!"=0.0=;"),
    (u!"0", u!"=%spellout-numbering=;")]),
  (u!"%spellout-numbering", [(u!"0", u!"=%spellout-cardinal=;")]),
  (u!"%spellout-cardinal", [(u!"-x", u!"минус >>;"),
    (u!"x.x", u!"<< бүтүн >%%z-spellout-fraction>;"),
    (u!"0", u!"нөл;"),
    (u!"1", u!"бир;"),
    (u!"2", u!"эки;"),
    (u!"3", u!"үч;"),
    (u!"4", u!"төрт;"),
    (u!"5", u!"беш;"),
    (u!"6", u!"алты;"),
    (u!"7", u!"жети;"),
    (u!"8", u!"сегиз;"),
    (u!"9", u!"тогуз;"),
    (u!"10", u!"он[ >>];"),
    (u!"20", u!"жыйырма[ >>];"),
    (u!"30", u!"отуз[ >>];"),
    (u!"40", u!"кырк[ >>];"),
    (u!"50", u!"элүү[ >>];"),
    (u!"60", u!"алтымыш[ >>];"),
    (u!"70", u!"жетимиш[ >>];"),
    (u!"80", u!"сексен[ >>];"),
    (u!"90", u!"токсон[ >>];"),
    (u!"100", u!"жүз;"),
    (u!"101", u!"<< жүз[ >>];"),
    (u!"200", u!"<< жүз[ >>];"),
    (u!"1000", u!"миң;"),
    (u!"1001", u!"<< миң[ >>];"),
    (u!"2000", u!"<< миң[ >>];"),
    (u!"1000000", u!"миллион;"),
    (u!"1000001", u!"<< миллион[ >>];"),
    (u!"2000000", u!"<< миллион[ >>];"),
    (u!"1000000000", u!"миллиард;"),
    (u!"1000000001", u!"<< миллиард[ >>];"),
    (u!"2000000000", u!"<< миллиард[ >>];"),
    (u!"1000000000000", u!"триллион;"),
    (u!"1000000000001", u!"<< триллион[ >>];"),
    (u!"2000000000000", u!"<< триллион[ >>];"),
    (u!"1000000000000000", u!"квадриллион;"),
    (u!"1000000000000001", u!"<< квадриллион[ >>];"),
    (u!"2000000000000000", u!"<< квадриллион[ >>];"),
    (u!"1000000000000000000", u!"=#,##0=;")]),
  (u!"%%and", [(u!"0", u!"' жана =%spellout-cardinal-verbose=;"),
    (u!"100", u!"' =%spellout-cardinal-verbose=;")]),
  (u!"%%commas", [(u!"0", u!"' жана =%spellout-cardinal-verbose=;"),
    (u!"100", u!", =%spellout-cardinal-verbose=;"),
    (u!"1000", u!", <%spellout-cardinal-verbose< миң[>%%commas>];"),
    (u!"1000000", u!", =%spellout-cardinal-verbose=;")]),
  (u!"%spellout-cardinal-verbose", [(u!"-x", u!"минус >>;"),
    (u!"x.x", u!"<< бүтүн >%%z-spellout-fraction>;"),
    (u!"0", u!"=%spellout-cardinal=;"),
    (u!"100", u!"жүз;"),
    (u!"101", u!"<< жүз[>%%and>];"),
    (u!"200", u!"<< жүз[>%%and>];"),
    (u!"1000", u!"миң;"),
    (u!"1001", u!"<< миң[>%%and>];"),
    (u!"2000", u!"<< миң[>%%and>];"),
    (u!"100000", u!"<< миң[>%%commas>];"),
    (u!"1000000", u!"миллион;"),
    (u!"1000001", u!"<< миллион[>%%commas>];"),
    (u!"2000000", u!"<< миллион[>%%commas>];"),
    (u!"1000000000", u!"миллиард;"),
    (u!"1000000001", u!"<< миллиард[>%%commas>];"),
    (u!"2000000000", u!"<< миллиард[>%%commas>];"),
    (u!"1000000000000", u!"триллион;"),
    (u!"1000000000001", u!"<< триллион[>%%commas>];"),
    (u!"2000000000000", u!"<< триллион[>%%commas>];"),
    (u!"1000000000000000", u!"квадриллион;"),
    (u!"1000000000000001", u!"<< квадриллион[>%%commas>];"),
    (u!"2000000000000000", u!"<< квадриллион[>%%commas>];"),
    (u!"1000000000000000000", u!"=#,##0=;")]),
  (u!"%%inci", [(u!"0", u!"инчи;"),
    (u!"1", u!"' =%spellout-ordinal=;")]),
  (u!"%%ingci", [(u!"0", u!"иңчи;"),
    (u!"1", u!"' =%spellout-ordinal=;")]),
  (u!"%%uncu", [(u!"0", u!"ынчы;"),
    (u!"1", u!"' =%spellout-ordinal=;")]),
  (u!"%%ncu", [(u!"0", u!"нчы;"),
    (u!"1", u!"' =%spellout-ordinal=;")]),
  (u!"%%yncy2", [(u!"0", u!"үнчү;"),
    (u!"1", u!"' =%spellout-ordinal=;")]),
  (u!"%%ncy", [(u!"0", u!"нчү;"),
    (u!"1", u!"' =%spellout-ordinal=;")]),
  (u!"%%yncy", [(u!"0", u!"унчу;"),
    (u!"1", u!"' =%spellout-ordinal=;")]),
  (u!"%spellout-ordinal", [(u!"-x", u!"минус >>;"),
    (u!"x.x", u!"=#,##0.#=;"),
    (u!"0", u!"нөлүнчү;"),
    (u!"1", u!"биринчи;"),
    (u!"2", u!"экинчи;"),
    (u!"3", u!"үчүнчү;"),
    (u!"4", u!"төртүнчү;"),
    (u!"5", u!"бешинчи;"),
    (u!"6", u!"алтынчы;"),
    (u!"7", u!"жетинчи;"),
    (u!"8", u!"сегизинчи;"),
    (u!"9", u!"тогузунчу;"),
    (u!"10", u!"он>%%yncy>;"),
    (u!"20", u!"жыйырма>%%ncu>;"),
    (u!"30", u!"отуз>%%yncy>;"),
    (u!"40", u!"кырк>%%uncu>;"),
    (u!"50", u!"элүү>%%ncy>;"),
    (u!"60", u!"алтымыш>%%uncu>;"),
    (u!"70", u!"жетимиш>%%inci>;"),
    (u!"80", u!"сексен>%%inci>;"),
    (u!"90", u!"токсон>%%yncy>;"),
    (u!"100", u!"жүзүнчү;"),
    (u!"101", u!"<%spellout-numbering< жүз>%%yncy2>;"),
    (u!"200", u!"<%spellout-numbering< жүз>%%yncy2>;"),
    (u!"1000", u!"миңиңчи;"),
    (u!"1001", u!"<%spellout-numbering< миң>%%ingci>;"),
    (u!"2000", u!"<%spellout-numbering< миң>%%ingci>;"),
    (u!"1000000", u!"миллионунчу;"),
    (u!"1000001", u!"<%spellout-numbering< миллион>%%yncy>;"),
    (u!"2000000", u!"<%spellout-numbering< миллион>%%yncy>;"),
    (u!"1000000000", u!"миллиардынчы;"),
    (u!"1000000001", u!"<%spellout-numbering< миллиард>%%uncu>;"),
    (u!"2000000000", u!"<%spellout-numbering< миллиард>%%uncu>;"),
    (u!"1000000000000", u!"триллионунчу;"),
    (u!"1000000000001", u!"<%spellout-numbering< триллион>%%yncy>;"),
    (u!"2000000000000", u!"<%spellout-numbering< триллион>%%yncy>;"),
    (u!"1000000000000000", u!"квадриллионунчу;"),
    (u!"1000000000000001", u!"<%spellout-numbering< квадриллион>%%yncy>;"),
    (u!"2000000000000000", u!"<%spellout-numbering< квадриллион>%%yncy>;"),
    (u!"1000000000000000000", u!"=#,##0='inci;")]),
  (u!"%%z-spellout-fraction", [(u!"10", u!"ондон <%spellout-numbering<;"),
    (u!"100", u!"жүздөн <%spellout-numbering<;"),
    (u!"1000", u!"миңден <%spellout-numbering<;"),
    (u!"10000", u!"он миңден <%spellout-numbering<;"),
    (u!"100000", u!"жүз миңден <%spellout-numbering<;"),
    (u!"1000000", u!"миллиондон <%spellout-numbering<;"),
    (u!"10000000", u!"он миллиондон <%spellout-numbering<;"),
    (u!"100000000", u!"жүз миллиондон <%spellout-numbering<;"),
    (u!"1000000000", u!"миллиарддан <%spellout-numbering<;"),
    (u!"10000000000", u!"он миллиарддан <%spellout-numbering<;"),
    (u!"100000000000", u!"жүз миллиарддан <%spellout-numbering<;"),
    (u!"1000000000000", u!"0* <#,##0<<;")])]

/-- `number_parser_data/supplementary_translation_data/ky.json` -/
def kySupplementary : Supplementary where
  tables := {
    unit := []
    direct := []
    tens := []
    hundreds := []
    big := [] }
  skipTokens := []
  useLongScale := some false

/-- `number_parser/data/ky.py`, lines 1-36 -/
def kyModule : Output where
  tables := {
    unit := [(u!"нөл", 0), (u!"бир", 1), (u!"эки", 2), (u!"үч", 3), (u!"төрт", 4), (u!"беш", 5), (u!"алты", 6), (u!"жети", 7), (u!"сегиз", 8), (u!"тогуз", 9)]
    direct := []
    tens := [(u!"жыйырма", 20), (u!"отуз", 30), (u!"кырк", 40), (u!"элүү", 50), (u!"алтымыш", 60), (u!"жетимиш", 70), (u!"сексен", 80), (u!"токсон", 90)]
    hundreds := []
    big := [(u!"жүз", 100), (u!"миң", 100000), (u!"миллион", 1000000), (u!"миллиард", 1000000000), (u!"триллион", 1000000000000), (u!"квадриллион", 1000000000000000)] }
  skipTokens := []
  useLongScale := some false

/-- `number_parser_data/raw_cldr_translation_data/lb.json`, `SpelloutRules` -/
def lbRules : RuleSets := [
  (u!"%spellout-numbering-year", [(u!"Inf", u!"Éiwegkeet;"),
    (u!"NaN", u!"net eng Nummer;"),
    (u!"-x", u!"minus >>;"),
    (u!"x.x", u!"=0.0=;"),
    (u!"0", u!"=%spellout-cardinal-neuter=;"),
    (u!"1010/100", u!"<%spellout-cardinal-masculine<honnert[>%spellout-cardinal-neuter>];"),
    (u!"2000", u!"=%spellout-cardinal-neuter=;"),
    (u!"2010/100", u!"<%spellout-cardinal-masculine<honnert[>%spellout-cardinal-neuter>];"),
    (u!"3000", u!"=%spellout-cardinal-neuter=;"),
    (u!"3010/100", u!"<%spellout-cardinal-masculine<honnert[>%spellout-cardinal-neuter>];"),
    (u!"4000", u!"=%spellout-cardinal-neuter=;"),
    (u!"4010/100", u!"<%spellout-cardinal-masculine<honnert[>%spellout-cardinal-neuter>];"),
    (u!"5000", u!"=%spellout-cardinal-neuter=;"),
    (u!"5010/100", u!"<%spellout-cardinal-masculine<honnert[>%spellout-cardinal-neuter>];"),
    (u!"6000", u!"=%spellout-cardinal-neuter=;"),
    (u!"6010/100", u!"<%spellout-cardinal-masculine<honnert[>%spellout-cardinal-neuter>];"),
    (u!"7000", u!"=%spellout-cardinal-neuter=;"),
    (u!"7010/100", u!"<%spellout-cardinal-masculine<honnert[>%spellout-cardinal-neuter>];"),
    (u!"8000", u!"=%spellout-cardinal-neuter=;"),
    (u!"8010/100", u!"<%spellout-cardinal-masculine<honnert[>%spellout-cardinal-neuter>];"),
    (u!"9000", u!"=%spellout-cardinal-neuter=;"),
    (u!"9010/100", u!"<%spellout-cardinal-masculine<honnert[>%spellout-cardinal-neuter>];"),
    (u!"10000", u!"=%spellout-cardinal-neuter=;")]),
  (u!"%spellout-numbering", [(u!"0", u!"=%spellout-cardinal-masculine=;")]),
  (u!"%spellout-cardinal-masculine", [(u!"Inf", u!"Onendlechkeet;"),
    (u!"NaN", u!"net eng Nummer;"),
    (u!"-x", u!"minus >>;"),
    (u!"x.x", u!"<< Komma >>;"),
    (u!"0", u!"null;"),
    (u!"1", u!"eent;"),
    (u!"2", u!"zwee;"),
    (u!"3", u!"dräi;"),
    (u!"4", u!"véier;"),
    (u!"5", u!"fënnef;"),
    (u!"6", u!"sechs;"),
    (u!"7", u!"siwen;"),
    (u!"8", u!"aacht;"),
    (u!"9", u!"néng;"),
    (u!"10", u!"zéng;"),
    (u!"11", u!"eelef;"),
    (u!"12", u!"zwielef;"),
    (u!"13", u!"dräizéng;"),
    (u!"14", u!"véierzéng;"),
    (u!"15", u!"fofzéng;"),
    (u!"16", u!"siechzéng;"),
    (u!"17", u!"siwwenzéng;"),
    (u!"18", u!"uechtzéng;"),
    (u!"19", u!"nonzéng;"),
    (u!"20", u!"[>%spellout-cardinal-neuter>an]zwanzeg;"),
    (u!"30", u!"[>%spellout-cardinal-neuter>an]drësseg;"),
    (u!"40", u!"[>%spellout-cardinal-neuter>an]véierzeg;"),
    (u!"50", u!"[>%spellout-cardinal-neuter>an]fofzeg;"),
    (u!"60", u!"[>%spellout-cardinal-neuter>an]siechzeg;"),
    (u!"70", u!"[>%spellout-cardinal-neuter>an]siwwenzeg;"),
    (u!"80", u!"[>%spellout-cardinal-neuter>an]achtzeg;"),
    (u!"90", u!"[>%spellout-cardinal-neuter>an]nonzeg;"),
    (u!"100", u!"\u00adhonnert\u00ad[>>];"),
    (u!"200", u!"<%spellout-cardinal-masculine<\u00adhonnert\u00ad[>>];"),
    (u!"1000", u!"\u00addausend\u00ad[>>];"),
    (u!"2000", u!"<%spellout-cardinal-masculine<\u00addausend\u00ad[>>];"),
    (u!"1000000", u!"<%spellout-cardinal-feminine< $(cardinal,one{Millioun}other{Milliounen})$[ >>];"),
    (u!"1000000000", u!"<%spellout-cardinal-feminine< $(cardinal,one{Milliard}other{Milliarden})$[ >>];"),
    (u!"1000000000000", u!"<%spellout-cardinal-feminine< $(cardinal,one{Billioun}other{Billiounen})$[ >>];"),
    (u!"1000000000000000", u!"<%spellout-cardinal-feminine< $(cardinal,one{Billiard}other{Billiarden})$[ >>];"),
    (u!"1000000000000000000", u!"=#,##0=;")]),
  (u!"%spellout-cardinal-feminine", [(u!"Inf", u!"Onendlechkeet;"),
    (u!"NaN", u!"net eng Nummer;"),
    (u!"-x", u!"minus >>;"),
    (u!"x.x", u!"=%spellout-cardinal-masculine=;"),
    (u!"0", u!"null;"),
    (u!"1", u!"eng;"),
    (u!"2", u!"zwou;"),
    (u!"3", u!"=%spellout-cardinal-masculine=;"),
    (u!"100", u!"\u00adhonnert\u00ad[>>];"),
    (u!"200", u!"<%spellout-cardinal-masculine<\u00adhonnert\u00ad[>>];"),
    (u!"1000", u!"\u00addausend\u00ad[>>];"),
    (u!"2000", u!"<%spellout-cardinal-masculine<\u00addausend\u00ad[>>];"),
    (u!"1000000", u!"<%spellout-cardinal-feminine< $(cardinal,one{Millioun}other{Milliounen})$[ >>];"),
    (u!"1000000000", u!"<%spellout-cardinal-feminine< $(cardinal,one{Milliard}other{Milliarden})$[ >>];"),
    (u!"1000000000000", u!"<%spellout-cardinal-feminine< $(cardinal,one{Billioun}other{Billiounen})$[ >>];"),
    (u!"1000000000000000", u!"<%spellout-cardinal-feminine< $(cardinal,one{Billiard}other{Billiarden})$[ >>];"),
    (u!"1000000000000000000", u!"=#,##0=;")]),
  (u!"%spellout-cardinal-neuter", [(u!"Inf", u!"Onendlechkeet;"),
    (u!"NaN", u!"net eng Nummer;"),
    (u!"-x", u!"minus >>;"),
    (u!"x.x", u!"=%spellout-cardinal-masculine=;"),
    (u!"0", u!"null;"),
    (u!"1", u!"een;"),
    (u!"2", u!"=%spellout-cardinal-masculine=;"),
    (u!"100", u!"\u00adhonnert\u00ad[>>];"),
    (u!"200", u!"<%spellout-cardinal-masculine<\u00adhonnert\u00ad[>>];"),
    (u!"1000", u!"\u00addausend\u00ad[>>];"),
    (u!"2000", u!"<%spellout-cardinal-masculine<\u00addausend\u00ad[>>];"),
    (u!"1000000", u!"<%spellout-cardinal-feminine< $(cardinal,one{Millioun}other{Milliounen})$[ >>];"),
    (u!"1000000000", u!"<%spellout-cardinal-feminine< $(cardinal,one{Milliard}other{Milliarden})$[ >>];"),
    (u!"1000000000000", u!"<%spellout-cardinal-feminine< $(cardinal,one{Billioun}other{Billiounen})$[ >>];"),
    (u!"1000000000000000", u!"<%spellout-cardinal-feminine< $(cardinal,one{Billiard}other{Billiarden})$[ >>];"),
    (u!"1000000000000000000", u!"=#,##0=;")]),
  (u!"%spellout-ordinal-masculine", [(u!"Inf", u!"onendlechten;"),
    (u!"NaN", u!"net eng Nummer;"),
    (u!"-x", u!"minus >>;"),
    (u!"x.x", u!"=#,##0.0=.;"),
    (u!"0", u!"nullten;"),
    (u!"1", u!"éischten;"),
    (u!"2", u!"zweeten;"),
    (u!"3", u!"drëtten;"),
    (u!"4", u!"véierten;"),
    (u!"5", u!"fënneften;"),
    (u!"6", u!"sechsten;"),
    (u!"7", u!"siwenten;"),
    (u!"8", u!"aachten;"),
    (u!"9", u!"=%spellout-cardinal-neuter=ten;"),
    (u!"20", u!"=%spellout-cardinal-neuter=sten;"),
    (u!"100", u!"\u00adhonnert\u00ad>%%ord-t-masc>;"),
    (u!"200", u!"<%spellout-cardinal-masculine<\u00adhonnert\u00ad>%%ord-t-masc>;"),
    (u!"1000", u!"\u00addausend\u00ad>%%ord-t-masc>;"),
    (u!"2000", u!"<%spellout-cardinal-masculine<\u00addausend\u00ad>%%ord-t-masc>;"),
    (u!"1000000", u!"<%spellout-cardinal-feminine< $(cardinal,one{Millioun}other{Milliounen})$>%%ord-M-masc>;"),
    (u!"1000000000", u!"<%spellout-cardinal-feminine< $(cardinal,one{Milliard}other{Milliarden})$>%%ord-M-masc>;"),
    (u!"1000000000000", u!"<%spellout-cardinal-feminine< $(cardinal,one{Billioun}other{Billiounen})$>%%ord-M-masc>;"),
    (u!"1000000000000000", u!"<%spellout-cardinal-feminine< $(cardinal,one{Billiard}other{Billiarden})$>%%ord-M-masc>;"),
    (u!"1000000000000000000", u!"=#,##0=.;")]),
  (u!"%%ord-t-masc", [(u!"0", u!"en;"),
    (u!"1", u!"=%spellout-ordinal-masculine=;")]),
  (u!"%%ord-M-masc", [(u!"0", u!"ten;"),
    (u!"1", u!"' =%spellout-ordinal-masculine=;")]),
  (u!"%spellout-ordinal-feminine", [(u!"Inf", u!"onendlechter;"),
    (u!"NaN", u!"net eng Nummer;"),
    (u!"-x", u!"minus >>;"),
    (u!"x.x", u!"=#,##0.0=.;"),
    (u!"0", u!"nullter;"),
    (u!"1", u!"éischter;"),
    (u!"2", u!"zweeter;"),
    (u!"3", u!"drëtter;"),
    (u!"4", u!"véierter;"),
    (u!"5", u!"fënnefter;"),
    (u!"6", u!"sechster;"),
    (u!"7", u!"siwenter;"),
    (u!"8", u!"aachter;"),
    (u!"9", u!"=%spellout-cardinal-neuter=ter;"),
    (u!"20", u!"=%spellout-cardinal-neuter=ster;"),
    (u!"100", u!"\u00adhonnert\u00ad>%%ord-t-fem>;"),
    (u!"200", u!"<%spellout-cardinal-masculine<\u00adhonnert\u00ad>%%ord-t-fem>;"),
    (u!"1000", u!"\u00addausend\u00ad>%%ord-t-fem>;"),
    (u!"2000", u!"<%spellout-cardinal-masculine<\u00addausend\u00ad>%%ord-t-fem>;"),
    (u!"1000000", u!"<%spellout-cardinal-feminine< $(cardinal,one{Millioun}other{Milliounen})$>%%ord-M-fem>;"),
    (u!"1000000000", u!"<%spellout-cardinal-feminine< $(cardinal,one{Milliard}other{Milliarden})$>%%ord-M-fem>;"),
    (u!"1000000000000", u!"<%spellout-cardinal-feminine< $(cardinal,one{Billioun}other{Billiounen})$>%%ord-M-fem>;"),
    (u!"1000000000000000", u!"<%spellout-cardinal-feminine< $(cardinal,one{Billiard}other{Billiarden})$>%%ord-M-fem>;"),
    (u!"1000000000000000000", u!"=#,##0=.;")]),
  (u!"%%ord-t-fem", [(u!"0", u!"er;"),
    (u!"1", u!"=%spellout-ordinal-feminine=;")]),
  (u!"%%ord-M-fem", [(u!"0", u!"ter;"),
    (u!"1", u!"' =%spellout-ordinal-feminine=;")]),
  (u!"%spellout-ordinal-neuter", [(u!"Inf", u!"onendlecht;"),
    (u!"NaN", u!"net eng Nummer;"),
    (u!"-x", u!"minus >>;"),
    (u!"x.x", u!"=#,##0.0=.;"),
    (u!"0", u!"nullt;"),
    (u!"1", u!"éischt;"),
    (u!"2", u!"zweet;"),
    (u!"3", u!"drëtt;"),
    (u!"4", u!"véiert;"),
    (u!"5", u!"fënneft;"),
    (u!"6", u!"sechst;"),
    (u!"7", u!"siwent;"),
    (u!"8", u!"aacht;"),
    (u!"9", u!"=%spellout-cardinal-neuter=t;"),
    (u!"20", u!"=%spellout-cardinal-neuter=st;"),
    (u!"100", u!"\u00adhonnert\u00ad>%%ord-t-neut>;"),
    (u!"200", u!"<%spellout-cardinal-masculine<\u00adhonnert\u00ad>%%ord-t-neut>;"),
    (u!"1000", u!"\u00addausend\u00ad>%%ord-t-neut>;"),
    (u!"2000", u!"<%spellout-cardinal-masculine<\u00addausend\u00ad>%%ord-t-neut>;"),
    (u!"1000000", u!"<%spellout-cardinal-feminine< $(cardinal,one{Millioun}other{Milliounen})$>%%ord-M-neut>;"),
    (u!"1000000000", u!"<%spellout-cardinal-feminine< $(cardinal,one{Milliard}other{Milliarden})$>%%ord-M-neut>;"),
    (u!"1000000000000", u!"<%spellout-cardinal-feminine< $(cardinal,one{Billioun}other{Billiounen})$>%%ord-M-neut>;"),
    (u!"1000000000000000", u!"<%spellout-cardinal-feminine< $(cardinal,one{Billiard}other{Billiarden})$>%%ord-M-neut>;"),
    (u!"1000000000000000000", u!"=#,##0=.;")]),
  (u!"%%ord-t-neut", [(u!"0", u!"et;"),
    (u!"1", u!"=%spellout-ordinal-neuter=;")]),
  (u!"%%ord-M-neut", [(u!"0", u!"t;"),
    (u!"1", u!"' =%spellout-ordinal-neuter=;")])]

/-- `number_parser_data/supplementary_translation_data/lb.json` -/
def lbSupplementary : Supplementary where
  tables := {
    unit := []
    direct := []
    tens := []
    hundreds := []
    big := [] }
  skipTokens := []
  useLongScale := some true

/-- `number_parser/data/lb.py`, lines 1-43 -/
def lbModule : Output where
  tables := {
    unit := [(u!"null", 0), (u!"een", 1), (u!"eent", 1), (u!"eng", 1), (u!"zwee", 2), (u!"zwou", 2), (u!"dräi", 3), (u!"véier", 4), (u!"fënnef", 5), (u!"sechs", 6), (u!"siwen", 7), (u!"aacht", 8), (u!"néng", 9)]
    direct := [(u!"zéng", 10), (u!"eelef", 11), (u!"zwielef", 12), (u!"dräizéng", 13), (u!"véierzéng", 14), (u!"fofzéng", 15), (u!"siechzéng", 16), (u!"siwwenzéng", 17), (u!"uechtzéng", 18), (u!"nonzéng", 19)]
    tens := []
    hundreds := []
    big := [(u!"Millioun", 1000000), (u!"Milliounen", 1000000), (u!"Milliard", 1000000000), (u!"Milliarden", 1000000000), (u!"Billioun", 1000000000000), (u!"Billiounen", 1000000000000), (u!"Billiard", 1000000000000000), (u!"Billiarden", 1000000000000000)] }
  skipTokens := []
  useLongScale := some true

/-- `number_parser_data/raw_cldr_translation_data/lo.json`, `SpelloutRules` -/
def loRules : RuleSets := [
  (u!"%spellout-numbering-year", [(u!"x.x", u!"=0.0=;"),
    (u!"0", u!"=%spellout-numbering=;")]),
  (u!"%spellout-numbering", [(u!"0", u!"=%spellout-cardinal=;")]),
  (u!"%spellout-cardinal", [(u!"-x", u!"ลบ\u200b>>;"),
    (u!"x.x", u!"<<\u200bจุด\u200b>>>;"),
    (u!"0", u!"ศูนย์;"),
    (u!"1", u!"ໜຶ່ງ;"),
    (u!"2", u!"ສອງ;"),
    (u!"3", u!"ສາມ;"),
    (u!"4", u!"ສີ່;"),
    (u!"5", u!"ຫ້າ;"),
    (u!"6", u!"ຫົກ;"),
    (u!"7", u!"ເຈັດ;"),
    (u!"8", u!"ແປດ;"),
    (u!"9", u!"ເກົ້າ;"),
    (u!"10", u!"ສິບ[\u200b>%%alt-ones>];"),
    (u!"20", u!"ຊາວ[\u200b>%%alt-ones>];"),
    (u!"30", u!"<<\u200bສິບ[\u200b>%%alt-ones>];"),
    (u!"100", u!"<<\u200bร้อย[\u200b>>];"),
    (u!"1000", u!"<<\u200bพัน[\u200b>>];"),
    (u!"10000", u!"<<\u200bหมื่น[\u200b>>];"),
    (u!"100000", u!"<<\u200bแสน[\u200b>>];"),
    (u!"1000000", u!"<<\u200bล้าน[\u200b>>];"),
    (u!"1000000000000000000", u!"=#,##0=;")]),
  (u!"%%alt-ones", [(u!"1", u!"ເອັດ;"),
    (u!"2", u!"=%spellout-cardinal=;")]),
  (u!"%spellout-ordinal", [(u!"x.x", u!"=#,##0.#=;"),
    (u!"0", u!"ที่\u200b=%spellout-cardinal=;")])]

/-- `number_parser_data/supplementary_translation_data/lo.json` -/
def loSupplementary : Supplementary where
  tables := {
    unit := []
    direct := []
    tens := []
    hundreds := []
    big := [] }
  skipTokens := []
  useLongScale := none

/-- `number_parser/data/lo.py`, lines 1-21 -/
def loModule : Output where
  tables := {
    unit := [(u!"ศูนย์", 0), (u!"ໜຶ່ງ", 1), (u!"ສອງ", 2), (u!"ສາມ", 3), (u!"ສີ່", 4), (u!"ຫ້າ", 5), (u!"ຫົກ", 6), (u!"ເຈັດ", 7), (u!"ແປດ", 8), (u!"ເກົ້າ", 9)]
    direct := []
    tens := [(u!"ຊາວ", 20)]
    hundreds := []
    big := [] }
  skipTokens := []
  useLongScale := none

/-- `number_parser_data/raw_cldr_translation_data/lrc.json`, `SpelloutRules` -/
def lrcRules : RuleSets := [
  (u!"%spellout-numbering-year", [(u!"x.x", u!"=0.0=;"),
    (u!"0", u!"=%spellout-numbering=;")]),
  (u!"%spellout-numbering", [(u!"0", u!"=%spellout-cardinal=;")]),
  (u!"%spellout-cardinal", [(u!"-x", u!"منفی >>;"),
    (u!"x.x", u!"<< مومٱیز >>;"),
    (u!"0", u!"صفر;"),
    (u!"1", u!"یٱک;"),
    (u!"2", u!"دۏ;"),
    (u!"3", u!"ساٛ;"),
    (u!"4", u!"چار;"),
    (u!"5", u!"پنج;"),
    (u!"6", u!"شٱش;"),
    (u!"7", u!"هفت;"),
    (u!"8", u!"هشت;"),
    (u!"9", u!"نۏ;"),
    (u!"10", u!"دٱ;"),
    (u!"11", u!"یازدٱ;"),
    (u!"12", u!"دۊۋازدٱ;"),
    (u!"13", u!"سینزٱ;"),
    (u!"14", u!"چاردٱ;"),
    (u!"15", u!"پۊمزٱ;"),
    (u!"16", u!"شۊمزٱ;"),
    (u!"17", u!"هاٛبدٱ;"),
    (u!"18", u!"هیژدٱ;"),
    (u!"19", u!"نۊزدٱ;"),
    (u!"20", u!"بیست[ و >>];"),
    (u!"30", u!"سی[ و >>];"),
    (u!"40", u!"چاٛهل[ و >>];"),
    (u!"50", u!"پنجا[ و >>];"),
    (u!"60", u!"شٱصد[ و >>];"),
    (u!"70", u!"هفتاد[ و >>];"),
    (u!"80", u!"هشتاد[ و >>];"),
    (u!"90", u!"نٱۋد[ و >>];"),
    (u!"100", u!"صد[ و >>];"),
    (u!"200", u!"داٛۋیسد[ و >>];"),
    (u!"300", u!"سیصد[ و >>];"),
    (u!"400", u!"چارصد[ و >>];"),
    (u!"500", u!"پۊمصد[ و >>];"),
    (u!"600", u!"شٱشصد[ و >>];"),
    (u!"700", u!"هفصد[ و >>];"),
    (u!"800", u!"هشصد[ و >>];"),
    (u!"900", u!"نۏصد[ و >>];"),
    (u!"1000", u!"<< هزار[ و >>];"),
    (u!"1000000", u!"<< ماٛلیۊن[ و >>];"),
    (u!"1000000000", u!"<< میلیارد[ و >>];"),
    (u!"1000000000000", u!"<< هزار میلیاد[ و >>];"),
    (u!"1000000000000000000", u!"=#,##0=;")])]

/-- `number_parser_data/supplementary_translation_data/lrc.json` -/
def lrcSupplementary : Supplementary where
  tables := {
    unit := []
    direct := []
    tens := []
    hundreds := []
    big := [] }
  skipTokens := []
  useLongScale := some false

/-- `number_parser/data/lrc.py`, lines 1-54 -/
def lrcModule : Output where
  tables := {
    unit := [(u!"صفر", 0), (u!"یٱک", 1), (u!"دۏ", 2), (u!"ساٛ", 3), (u!"چار", 4), (u!"پنج", 5), (u!"شٱش", 6), (u!"هفت", 7), (u!"هشت", 8), (u!"نۏ", 9)]
    direct := [(u!"دٱ", 10), (u!"یازدٱ", 11), (u!"دۊۋازدٱ", 12), (u!"سینزٱ", 13), (u!"چاردٱ", 14), (u!"پۊمزٱ", 15), (u!"شۊمزٱ", 16), (u!"هاٛبدٱ", 17), (u!"هیژدٱ", 18), (u!"نۊزدٱ", 19)]
    tens := [(u!"بیست", 20), (u!"سی", 30), (u!"چاٛهل", 40), (u!"پنجا", 50), (u!"شٱصد", 60), (u!"هفتاد", 70), (u!"هشتاد", 80), (u!"نٱۋد", 90)]
    hundreds := [(u!"داٛۋیسد", 200), (u!"سیصد", 300), (u!"چارصد", 400), (u!"پۊمصد", 500), (u!"شٱشصد", 600), (u!"هفصد", 700), (u!"هشصد", 800), (u!"نۏصد", 900)]
    big := [(u!"هزار", 1000), (u!"ماٛلیۊن", 1000000), (u!"میلیارد", 1000000000), (u!"هزار میلیاد", 1000000000000)] }
  skipTokens := []
  useLongScale := some false

/-- `number_parser_data/raw_cldr_translation_data/lt.json`, `SpelloutRules` -/
def ltRules : RuleSets := [
  (u!"%spellout-numbering-year", [(u!"x.x", u!"=0.0=;"),
    (u!"0", u!"=%spellout-numbering=;")]),
  (u!"%spellout-numbering", [(u!"0", u!"=%spellout-cardinal-masculine=;")]),
  (u!"%%spellout-cardinal-feminine-accusative", [(u!"0", u!"ERROR;"),
    (u!"2", u!"dvi;"),
    (u!"3", u!"tris;"),
    (u!"4", u!"keturias;"),
    (u!"5", u!"penkias;"),
    (u!"6", u!"šešias;"),
    (u!"7", u!"septynias;"),
    (u!"8", u!"aštuonias;"),
    (u!"9", u!"devynias;"),
    (u!"10", u!"ERROR;")]),
  (u!"%%spellout-thousands", [(u!"0", u!"tūkstančių;"),
    (u!"1", u!"=%spellout-cardinal-masculine= tūkstantis;"),
    (u!"2", u!"=%spellout-cardinal-masculine= tūkstančiai;"),
    (u!"10", u!"=%spellout-cardinal-masculine= tūkstančių;"),
    (u!"21", u!"=%spellout-cardinal-masculine= tūkstantis;"),
    (u!"22", u!"=%spellout-cardinal-masculine= tūkstančiai;"),
    (u!"30", u!"=%spellout-cardinal-masculine= tūkstančių;"),
    (u!"31", u!"=%spellout-cardinal-masculine= tūkstantis;"),
    (u!"32", u!"=%spellout-cardinal-masculine= tūkstančiai;"),
    (u!"40", u!"=%spellout-cardinal-masculine= tūkstančių;"),
    (u!"41", u!"=%spellout-cardinal-masculine= tūkstantis;"),
    (u!"42", u!"=%spellout-cardinal-masculine= tūkstančiai;"),
    (u!"50", u!"=%spellout-cardinal-masculine= tūkstančių;"),
    (u!"51", u!"=%spellout-cardinal-masculine= tūkstantis;"),
    (u!"52", u!"=%spellout-cardinal-masculine= tūkstančiai;"),
    (u!"60", u!"=%spellout-cardinal-masculine= tūkstančių;"),
    (u!"61", u!"=%spellout-cardinal-masculine= tūkstantis;"),
    (u!"62", u!"=%spellout-cardinal-masculine= tūkstančiai;"),
    (u!"70", u!"=%spellout-cardinal-masculine= tūkstančių;"),
    (u!"71", u!"=%spellout-cardinal-masculine= tūkstantis;"),
    (u!"72", u!"=%spellout-cardinal-masculine= tūkstančiai;"),
    (u!"80", u!"=%spellout-cardinal-masculine= tūkstančių;"),
    (u!"81", u!"=%spellout-cardinal-masculine= tūkstantis;"),
    (u!"82", u!"=%spellout-cardinal-masculine= tūkstančiai;"),
    (u!"90", u!"=%spellout-cardinal-masculine= tūkstančių;"),
    (u!"91", u!"=%spellout-cardinal-masculine= tūkstantis;"),
    (u!"92", u!"=%spellout-cardinal-masculine= tūkstančiai;"),
    (u!"100", u!"šimtas >>;"),
    (u!"200", u!"<%spellout-cardinal-masculine< šimtai >>;")]),
  (u!"%spellout-cardinal-masculine", [(u!"-x", u!"mīnus >>;"),
    (u!"x.x", u!"<< kablelis >>;"),
    (u!"0", u!"nulis;"),
    (u!"1", u!"vienas;"),
    (u!"2", u!"du;"),
    (u!"3", u!"trys;"),
    (u!"4", u!"keturi;"),
    (u!"5", u!"penki;"),
    (u!"6", u!"šeši;"),
    (u!"7", u!"septyni;"),
    (u!"8", u!"aštuoni;"),
    (u!"9", u!"devyni;"),
    (u!"10", u!"dešimt;"),
    (u!"11", u!"vienuolika;"),
    (u!"12", u!"dvylika;"),
    (u!"13", u!"trylika;"),
    (u!"14", u!">>olika;"),
    (u!"20", u!"<%%spellout-cardinal-feminine-accusative<dešimt[ >>];"),
    (u!"100", u!"šimtas[ >>];"),
    (u!"200", u!"<%spellout-cardinal-masculine< šimtai[ >>];"),
    (u!"1000", u!"tūkstantis[ >>];"),
    (u!"2000/1000", u!"<%%spellout-thousands<[ >>];"),
    (u!"1000000", u!"vienas milijonas[ >>];"),
    (u!"2000000", u!"<%spellout-cardinal-masculine< milijonų[ >>];"),
    (u!"1000000000", u!"vienas milijardas[ >>];"),
    (u!"2000000000", u!"<%spellout-cardinal-masculine< milijardų[ >>];"),
    (u!"1000000000000", u!"vienas trilijonas[ >>];"),
    (u!"2000000000000", u!"<%spellout-cardinal-masculine<trilijonų[ >>];"),
    (u!"1000000000000000", u!"vienas kvadrilijonas[ >>];"),
    (u!"2000000000000000", u!"<%spellout-cardinal-masculine< kvadrilijonų[ >>];"),
    (u!"1000000000000000000", u!"=#,##0=;")]),
  (u!"%spellout-cardinal-feminine", [(u!"-x", u!"mīnus >>;"),
    (u!"x.x", u!"<< kablelis >>;"),
    (u!"0", u!"nulis;"),
    (u!"1", u!"viena;"),
    (u!"2", u!"dvi;"),
    (u!"3", u!"trys;"),
    (u!"4", u!"=%spellout-cardinal-masculine=os;"),
    (u!"10", u!"=%spellout-cardinal-masculine=;"),
    (u!"20", u!"<%%spellout-cardinal-feminine-accusative<dešimt[ >>];"),
    (u!"100", u!"šimtas[ >>];"),
    (u!"200", u!"<%spellout-cardinal-masculine< šimtai[ >>];"),
    (u!"1000", u!"tūkstantis[ >>];"),
    (u!"2000/1000", u!"<%%spellout-thousands<[ >>];"),
    (u!"1000000", u!"vienas milijonas[ >>];"),
    (u!"2000000", u!"<%spellout-cardinal-masculine< milijonų[ >>];"),
    (u!"1000000000", u!"vienas milijardas[ >>];"),
    (u!"2000000000", u!"<%spellout-cardinal-masculine< milijardų[ >>];"),
    (u!"1000000000000", u!"vienas trilijonas[ >>];"),
    (u!"2000000000000", u!"<%spellout-cardinal-masculine< trilijonų[ >>];"),
    (u!"1000000000000000", u!"vienas kvadrilijonas[ >>];"),
    (u!"2000000000000000", u!"<%spellout-cardinal-masculine< kvadrilijonų[ >>];"),
    (u!"1000000000000000000", u!"=#,##0=;")])]

/-- `number_parser_data/supplementary_translation_data/lt.json` -/
def ltSupplementary : Supplementary where
  tables := {
    unit := []
    direct := []
    tens := []
    hundreds := []
    big := [] }
  skipTokens := []
  useLongScale := some false

/-- `number_parser/data/lt.py`, lines 1-40 -/
def ltModule : Output where
  tables := {
    unit := [(u!"nulis", 0), (u!"viena", 1), (u!"vienas", 1), (u!"du", 2), (u!"dvi", 2), (u!"tris", 3), (u!"trys", 3), (u!"keturi", 4), (u!"keturias", 4), (u!"penki", 5), (u!"penkias", 5), (u!"šeši", 6), (u!"šešias", 6), (u!"septyni", 7), (u!"septynias", 7), (u!"aštuoni", 8), (u!"aštuonias", 8), (u!"devyni", 9), (u!"devynias", 9)]
    direct := [(u!"dešimt", 10), (u!"vienuolika", 11), (u!"dvylika", 12), (u!"trylika", 13)]
    tens := []
    hundreds := []
    big := [(u!"šimtai", 100), (u!"milijonų", 1000000), (u!"milijardų", 1000000000), (u!"trilijonų", 1000000000000), (u!"kvadrilijonų", 1000000000000000)] }
  skipTokens := []
  useLongScale := some false

/-- `number_parser_data/raw_cldr_translation_data/lv.json`, `SpelloutRules` -/
def lvRules : RuleSets := [
  (u!"%spellout-numbering-year", [(u!"x.x", u!"=0.0=;"),
    (u!"0", u!"=%spellout-numbering=;")]),
  (u!"%spellout-numbering", [(u!"0", u!"=%spellout-cardinal-masculine=;")]),
  (u!"%%spellout-prefixed", [(u!"0", u!"ERROR;"),
    (u!"1", u!"vien;"),
    (u!"2", u!"div;"),
    (u!"3", u!"trīs;"),
    (u!"4", u!"četr;"),
    (u!"5", u!"piec;"),
    (u!"6", u!"seš;"),
    (u!"7", u!"septiņ;"),
    (u!"8", u!"astoņ;"),
    (u!"9", u!"deviņ;"),
    (u!"10", u!"ERROR;")]),
  (u!"%spellout-cardinal-masculine", [(u!"-x", u!"mīnus >>;"),
    (u!"x.x", u!"<< komats >>;"),
    (u!"0", u!"nulle;"),
    (u!"1", u!"viens;"),
    (u!"2", u!"divi;"),
    (u!"3", u!"trīs;"),
    (u!"4", u!"četri;"),
    (u!"5", u!"pieci;"),
    (u!"6", u!"seši;"),
    (u!"7", u!"septiņi;"),
    (u!"8", u!"astoņi;"),
    (u!"9", u!"deviņi;"),
    (u!"10", u!"desmit;"),
    (u!"11", u!">%%spellout-prefixed>padsmit;"),
    (u!"20", u!"<%%spellout-prefixed<desmit[ >>];"),
    (u!"100", u!"simt[ >>];"),
    (u!"200", u!"<%%spellout-prefixed<simt[ >>];"),
    (u!"1000", u!"tūkstoš[ >>];"),
    (u!"2000", u!"<%%spellout-prefixed<tūkstoš[ >>];"),
    (u!"10000/1000", u!"<%spellout-cardinal-masculine< tūkstoši[ >>];"),
    (u!"1000000", u!"viens miljons[ >>];"),
    (u!"2000000", u!"<%spellout-cardinal-masculine< miljoni[ >>];"),
    (u!"1000000000", u!"viens miljards[ >>];"),
    (u!"2000000000", u!"<%spellout-cardinal-masculine< miljardi[ >>];"),
    (u!"1000000000000", u!"viens biljons[ >>];"),
    (u!"2000000000000", u!"<%spellout-cardinal-masculine< biljoni[ >>];"),
    (u!"1000000000000000", u!"viens biljards[ >>];"),
    (u!"2000000000000000", u!"<%spellout-cardinal-masculine< biljardi[ >>];"),
    (u!"1000000000000000000", u!"=#,##0=;")]),
  (u!"%spellout-cardinal-feminine", [(u!"-x", u!"mīnus >>;"),
    (u!"x.x", u!"<< komats >>;"),
    (u!"0", u!"nulle;"),
    (u!"1", u!"viena;"),
    (u!"2", u!"divas;"),
    (u!"3", u!"trīs;"),
    (u!"4", u!"četras;"),
    (u!"5", u!"piecas;"),
    (u!"6", u!"sešas;"),
    (u!"7", u!"septiņas;"),
    (u!"8", u!"astoņas;"),
    (u!"9", u!"deviņas;"),
    (u!"10", u!"=%spellout-cardinal-masculine=;"),
    (u!"20", u!"<%%spellout-prefixed<desmit[ >>];"),
    (u!"100", u!"simt[ >>];"),
    (u!"200", u!"<%%spellout-prefixed<simt[ >>];"),
    (u!"1000", u!"tūkstoš[ >>];"),
    (u!"2000", u!"<%%spellout-prefixed<tūkstoš[ >>];"),
    (u!"10000/1000", u!"<%spellout-cardinal-masculine< tūkstoši[ >>];"),
    (u!"1000000", u!"viens miljons[ >>];"),
    (u!"2000000", u!"<%spellout-cardinal-masculine< miljoni[ >>];"),
    (u!"1000000000", u!"viens miljards[ >>];"),
    (u!"2000000000", u!"<%spellout-cardinal-masculine< miljardi[ >>];"),
    (u!"1000000000000", u!"viens biljons[ >>];"),
    (u!"2000000000000", u!"<%spellout-cardinal-masculine< biljoni[ >>];"),
    (u!"1000000000000000", u!"viens biljards[ >>];"),
    (u!"2000000000000000", u!"<%spellout-cardinal-masculine< biljardi[ >>];"),
    (u!"1000000000000000000", u!"=#,##0=;")])]

/-- `number_parser_data/supplementary_translation_data/lv.json` -/
def lvSupplementary : Supplementary where
  tables := {
    unit := []
    direct := []
    tens := []
    hundreds := []
    big := [] }
  skipTokens := []
  useLongScale := some false

/-- `number_parser/data/lv.py`, lines 1-35 -/
def lvModule : Output where
  tables := {
    unit := [(u!"nulle", 0), (u!"viena", 1), (u!"viens", 1), (u!"divas", 2), (u!"divi", 2), (u!"trīs", 3), (u!"četras", 4), (u!"četri", 4), (u!"piecas", 5), (u!"pieci", 5), (u!"sešas", 6), (u!"seši", 6), (u!"septiņas", 7), (u!"septiņi", 7), (u!"astoņas", 8), (u!"astoņi", 8), (u!"deviņas", 9), (u!"deviņi", 9)]
    direct := [(u!"desmit", 10)]
    tens := []
    hundreds := []
    big := [(u!"miljoni", 1000000), (u!"miljardi", 1000000000), (u!"biljoni", 1000000000000), (u!"biljardi", 1000000000000000)] }
  skipTokens := []
  useLongScale := some false

/-- `number_parser_data/raw_cldr_translation_data/mk.json`, `SpelloutRules` -/
def mkRules : RuleSets := [
  (u!"%spellout-numbering-year", [(u!"x.x", u!"=0.0=;"),
    (u!"0", u!"=%spellout-numbering=;")]),
  (u!"%spellout-numbering", [(u!"0", u!"=%spellout-cardinal-masculine=;")]),
  (u!"%spellout-cardinal-masculine", [(u!"-x", u!"минус >>;"),
    (u!"x.x", u!"<< кома >>;"),
    (u!"0", u!"нула;"),
    (u!"1", u!"еден;"),
    (u!"2", u!"два;"),
    (u!"3", u!"три;"),
    (u!"4", u!"четири;"),
    (u!"5", u!"пет;"),
    (u!"6", u!"шест;"),
    (u!"7", u!"седум;"),
    (u!"8", u!"осум;"),
    (u!"9", u!"девет;"),
    (u!"10", u!"десет;"),
    (u!"11", u!"единаесет;"),
    (u!"12", u!"дванаесет;"),
    (u!"13", u!"тринаесет;"),
    (u!"14", u!"четиринаесет;"),
    (u!"15", u!"петнаесет;"),
    (u!"16", u!"шеснаесет;"),
    (u!"17", u!"седумнаесет;"),
    (u!"18", u!"осумнаесет;"),
    (u!"19", u!"деветнаесет;"),
    (u!"20", u!"дваесет[ и >>];"),
    (u!"30", u!"триесет[ и >>];"),
    (u!"40", u!"четириесет[ и >>];"),
    (u!"50", u!"педесет[ и >>];"),
    (u!"60", u!"шеесет[ и >>];"),
    (u!"70", u!"седумдесет[ и >>];"),
    (u!"80", u!"осумдесет[ и >>];"),
    (u!"90", u!"деведесет[ и >>];"),
    (u!"100", u!"<%spellout-cardinal-feminine<сто[ >>];"),
    (u!"1000", u!"<%spellout-cardinal-feminine< илјада[ >>];"),
    (u!"1000000", u!"<%spellout-cardinal-masculine< милион[ >>];"),
    (u!"1000000000", u!"<%spellout-cardinal-masculine< милијарда[ >>];"),
    (u!"1000000000000", u!"<%spellout-cardinal-masculine< билион[ >>];"),
    (u!"1000000000000000", u!"<%spellout-cardinal-masculine< билијарда[ >>];"),
    (u!"1000000000000000000", u!"=#,##0=;")]),
  (u!"%spellout-cardinal-neuter", [(u!"-x", u!"минус >>;"),
    (u!"x.x", u!"<< кома >>;"),
    (u!"0", u!"нула;"),
    (u!"1", u!"едно;"),
    (u!"2", u!"два;"),
    (u!"3", u!"=%spellout-cardinal-masculine=;"),
    (u!"20", u!"дваесет[ и >>];"),
    (u!"30", u!"триесет[ и >>];"),
    (u!"40", u!"четириесет[ и >>];"),
    (u!"50", u!"педесет[ и >>];"),
    (u!"60", u!"шеесет[ и >>];"),
    (u!"70", u!"седумдесет[ и >>];"),
    (u!"80", u!"осумдесет[ и >>];"),
    (u!"90", u!"деведесет[ и >>];"),
    (u!"100", u!"<%spellout-cardinal-feminine<сто[ >>];"),
    (u!"1000", u!"<%spellout-cardinal-feminine< илјада[ >>];"),
    (u!"1000000", u!"<%spellout-cardinal-masculine< милион[ >>];"),
    (u!"1000000000", u!"<%spellout-cardinal-masculine< милијарда[ >>];"),
    (u!"1000000000000", u!"<%spellout-cardinal-masculine< билион[ >>];"),
    (u!"1000000000000000", u!"<%spellout-cardinal-masculine< билијарда[ >>];"),
    (u!"1000000000000000000", u!"=#,##0=;")]),
  (u!"%spellout-cardinal-feminine", [(u!"-x", u!"минус >>;"),
    (u!"x.x", u!"<< кома >>;"),
    (u!"0", u!"нула;"),
    (u!"1", u!"една;"),
    (u!"2", u!"две;"),
    (u!"3", u!"=%spellout-cardinal-masculine=;"),
    (u!"20", u!"дваесет[ и >>];"),
    (u!"30", u!"триесет[ и >>];"),
    (u!"40", u!"четириесет[ и >>];"),
    (u!"50", u!"педесет[ и >>];"),
    (u!"60", u!"шеесет[ и >>];"),
    (u!"70", u!"седумдесет[ и >>];"),
    (u!"80", u!"осумдесет[ и >>];"),
    (u!"90", u!"деведесет[ и >>];"),
    (u!"100", u!"<%spellout-cardinal-feminine<сто[ >>];"),
    (u!"1000", u!"<%spellout-cardinal-feminine< илјада[ >>];"),
    (u!"1000000", u!"<%spellout-cardinal-masculine< милион[ >>];"),
    (u!"1000000000", u!"<%spellout-cardinal-masculine< милијарда[ >>];"),
    (u!"1000000000000", u!"<%spellout-cardinal-masculine< билион[ >>];"),
    (u!"1000000000000000", u!"<%spellout-cardinal-masculine< билијарда[ >>];"),
    (u!"1000000000000000000", u!"=#,##0=;")])]

/-- `number_parser_data/supplementary_translation_data/mk.json` -/
def mkSupplementary : Supplementary where
  tables := {
    unit := []
    direct := []
    tens := []
    hundreds := []
    big := [] }
  skipTokens := []
  useLongScale := some true

/-- `number_parser/data/mk.py`, lines 1-49 -/
def mkModule : Output where
  tables := {
    unit := [(u!"нула", 0), (u!"еден", 1), (u!"една", 1), (u!"едно", 1), (u!"два", 2), (u!"две", 2), (u!"три", 3), (u!"четири", 4), (u!"пет", 5), (u!"шест", 6), (u!"седум", 7), (u!"осум", 8), (u!"девет", 9)]
    direct := [(u!"десет", 10), (u!"единаесет", 11), (u!"дванаесет", 12), (u!"тринаесет", 13), (u!"четиринаесет", 14), (u!"петнаесет", 15), (u!"шеснаесет", 16), (u!"седумнаесет", 17), (u!"осумнаесет", 18), (u!"деветнаесет", 19)]
    tens := [(u!"дваесет", 20), (u!"триесет", 30), (u!"четириесет", 40), (u!"педесет", 50), (u!"шеесет", 60), (u!"седумдесет", 70), (u!"осумдесет", 80), (u!"деведесет", 90)]
    hundreds := []
    big := [(u!"илјада", 1000), (u!"милион", 1000000), (u!"милијарда", 1000000000), (u!"билион", 1000000000000), (u!"билијарда", 1000000000000000)] }
  skipTokens := []
  useLongScale := some true

/-- `number_parser_data/raw_cldr_translation_data/ms.json`, `SpelloutRules` -/
def msRules : RuleSets := [
  (u!"%spellout-numbering-year", [(u!"x.x", u!"=0.0=;"),
    (u!"0", u!"=%spellout-numbering=;")]),
  (u!"%spellout-numbering", [(u!"0", u!"=%spellout-cardinal=;")]),
  (u!"%spellout-cardinal", [(u!"-x", u!"negatif >>;"),
    (u!"x.x", u!"<< perpuluhan >>;"),
    (u!"0", u!"kosong;"),
    (u!"1", u!"satu;"),
    (u!"2", u!"dua;"),
    (u!"3", u!"tiga;"),
    (u!"4", u!"empat;"),
    (u!"5", u!"lima;"),
    (u!"6", u!"enam;"),
    (u!"7", u!"tujuh;"),
    (u!"8", u!"lapan;"),
    (u!"9", u!"sembilan;"),
    (u!"10", u!"sepuluh;"),
    (u!"11", u!"sebelas;"),
    (u!"12", u!">> belas;"),
    (u!"20", u!"<< puluh[ >>];"),
    (u!"100", u!"seratus[ >>];"),
    (u!"200", u!"<< ratus[ >>];"),
    (u!"1000", u!"seribu[ >>];"),
    (u!"2000", u!"<< ribu[ >>];"),
    (u!"1000000", u!"sejuta[ >>];"),
    (u!"2000000", u!"<< juta[ >>];"),
    (u!"1000000000", u!"<< bilion[ >>];"),
    (u!"1000000000000", u!"<< trilion[ >>];"),
    (u!"1000000000000000", u!"<< kuadrilion[ >>];"),
    (u!"1000000000000000000", u!"=#,##0=;")]),
  (u!"%spellout-ordinal", [(u!"-x", u!"negatif >>;"),
    (u!"x.x", u!"=#,##0.#=;"),
    (u!"0", u!"kekosong;"),
    (u!"1", u!"pertama;"),
    (u!"2", u!"ke=%spellout-cardinal=;")])]

/-- `number_parser_data/supplementary_translation_data/ms.json` -/
def msSupplementary : Supplementary where
  tables := {
    unit := []
    direct := []
    tens := []
    hundreds := []
    big := [] }
  skipTokens := []
  useLongScale := some false

/-- `number_parser/data/ms.py`, lines 1-30 -/
def msModule : Output where
  tables := {
    unit := [(u!"kosong", 0), (u!"satu", 1), (u!"dua", 2), (u!"tiga", 3), (u!"empat", 4), (u!"lima", 5), (u!"enam", 6), (u!"tujuh", 7), (u!"lapan", 8), (u!"sembilan", 9)]
    direct := [(u!"sepuluh", 10), (u!"sebelas", 11)]
    tens := []
    hundreds := []
    big := [(u!"ratus", 100), (u!"ribu", 1000), (u!"juta", 1000000), (u!"bilion", 1000000000), (u!"trilion", 1000000000000), (u!"kuadrilion", 1000000000000000)] }
  skipTokens := []
  useLongScale := some false

/-- `number_parser_data/raw_cldr_translation_data/mt.json`, `SpelloutRules` -/
def mtRules : RuleSets := [
  (u!"%%lenient-parse", [(u!"0", u!"&[last primary ignorable ] << ' ' << ',' << '-' << '\u00ad';")]),
  (u!"%spellout-numbering-year", [(u!"x.x", u!"=0.0=;"),
    (u!"0", u!"=%spellout-numbering=;")]),
  (u!"%spellout-numbering", [(u!"0", u!"=%%spellout-cardinal-type-b-masculine=;")]),
  (u!"%%spellout-cardinal-type-b-masculine", [(u!"-x", u!"minus >>;"),
    (u!"x.x", u!"<< punt >>;"),
    (u!"0", u!"żero;"),
    (u!"1", u!"wieħed;"),
    (u!"2", u!"tnejn;"),
    (u!"3", u!"tlieta;"),
    (u!"4", u!"erbgħa;"),
    (u!"5", u!"ħamsa;"),
    (u!"6", u!"sitta;"),
    (u!"7", u!"sebgħa;"),
    (u!"8", u!"tmienja;"),
    (u!"9", u!"disgħa;"),
    (u!"10", u!"għaxra;"),
    (u!"11", u!"ħdax;"),
    (u!"12", u!"tnax;"),
    (u!"13", u!"tlettax;"),
    (u!"14", u!"erbatax;"),
    (u!"15", u!"ħmistax;"),
    (u!"16", u!"sittax;"),
    (u!"17", u!"sbatax;"),
    (u!"18", u!"tmintax;"),
    (u!"19", u!"dsatax;"),
    (u!"20", u!"[>> u ]għoxrin;"),
    (u!"30", u!"[>> u ]tletin;"),
    (u!"40", u!"[>> u ]erbgħin;"),
    (u!"50", u!"[>> u ]ħamsin;"),
    (u!"60", u!"[>> u ]sittin;"),
    (u!"70", u!"[>> u ]sebgħin;"),
    (u!"80", u!"[>> u ]tmenin;"),
    (u!"90", u!"[>> u ]disgħin;"),
    (u!"100", u!"mija[ u >>];"),
    (u!"200", u!"mitejn[ u >>];"),
    (u!"300", u!"<%spellout-cardinal-masculine< mija[ u >>];"),
    (u!"1000", u!"elf[>%%and-type-b-masculine>];"),
    (u!"2000", u!"elfejn[>%%and-type-b-masculine>];"),
    (u!"3000", u!"<%%thousands< elef[>%%and-type-b-masculine>];"),
    (u!"11000/1000", u!"<%spellout-cardinal-masculine< elf[>%%and-type-b-masculine>];"),
    (u!"1000000", u!"miljun[>%%and-type-b-masculine>];"),
    (u!"2000000", u!"<%spellout-cardinal-masculine< miljuni[>%%and-type-b-masculine>];"),
    (u!"11000000/1,000", u!"<%spellout-cardinal-masculine< miljun[>%%and-type-b-masculine>];"),
    (u!"1000000000", u!"biljun[>%%and-type-b-masculine>];"),
    (u!"2000000000", u!"<%spellout-cardinal-masculine< biljuni[>%%and-type-b-masculine>];"),
    (u!"11000000000/1,000", u!"<%spellout-cardinal-masculine< biljun[>%%and-type-b-masculine>];"),
    (u!"1000000000000", u!"triljun[>%%and-type-b-masculine>];"),
    (u!"2000000000000", u!"<%spellout-cardinal-masculine< triljuni[>%%and-type-b-masculine>];"),
    (u!"11000000000000/1,000", u!"<%spellout-cardinal-masculine< triljun[>%%and-type-b-masculine>];"),
    (u!"1000000000000000", u!"kvadriljun[>%%and-type-b-masculine>];"),
    (u!"2000000000000000", u!"<%spellout-cardinal-masculine< kvadriljuni[>%%and-type-b-masculine>];"),
    (u!"11000000000000000/1,000", u!"<%spellout-cardinal-masculine< kvadriljun[>%%and-type-b-masculine>];"),
    (u!"1000000000000000000", u!"=#,##0=;")]),
  (u!"%%and-type-b-masculine", [(u!"0", u!";"),
    (u!"1", u!"' u =%%spellout-cardinal-type-b-masculine=;")]),
  (u!"%%spellout-cardinal-type-b-feminine", [(u!"-x", u!"minus >>;"),
    (u!"x.x", u!"<< punt >>;"),
    (u!"0", u!"żero;"),
    (u!"1", u!"waħda;"),
    (u!"2", u!"tnejn;"),
    (u!"3", u!"tlieta;"),
    (u!"4", u!"erbgħa;"),
    (u!"5", u!"ħamsa;"),
    (u!"6", u!"sitta;"),
    (u!"7", u!"sebgħa;"),
    (u!"8", u!"tmienja;"),
    (u!"9", u!"disgħa;"),
    (u!"10", u!"għaxra;"),
    (u!"11", u!"ħdax;"),
    (u!"12", u!"tnax;"),
    (u!"13", u!"tlettax;"),
    (u!"14", u!"erbatax;"),
    (u!"15", u!"ħmistax;"),
    (u!"16", u!"sittax;"),
    (u!"17", u!"sbatax;"),
    (u!"18", u!"tmintax;"),
    (u!"19", u!"dsatax;"),
    (u!"20", u!"[>> u ]għoxrin;"),
    (u!"30", u!"[>> u ]tletin;"),
    (u!"40", u!"[>> u ]erbgħin;"),
    (u!"50", u!"[>> u ]ħamsin;"),
    (u!"60", u!"[>> u ]sittin;"),
    (u!"70", u!"[>> u ]sebgħin;"),
    (u!"80", u!"[>> u ]tmenin;"),
    (u!"90", u!"[>> u ]disgħin;"),
    (u!"100", u!"mija[ u >>];"),
    (u!"200", u!"mitejn[ u >>];"),
    (u!"300", u!"<%spellout-cardinal-masculine< mija[ u >>];"),
    (u!"1000", u!"elf[>%%and-type-b-feminine>];"),
    (u!"2000", u!"elfejn[>%%and-type-b-feminine>];"),
    (u!"3000", u!"<%%thousands< elef[>%%and-type-b-feminine>];"),
    (u!"11000/1000", u!"<%spellout-cardinal-masculine< elf[>%%and-type-b-feminine>];"),
    (u!"1000000", u!"miljun[>%%and-type-b-feminine>];"),
    (u!"2000000", u!"<%spellout-cardinal-masculine< miljuni[>%%and-type-b-feminine>];"),
    (u!"11000000/1,000", u!"<%spellout-cardinal-masculine< miljun[>%%and-type-b-feminine>];"),
    (u!"1000000000", u!"biljun[>%%and-type-b-feminine>];"),
    (u!"2000000000", u!"<%spellout-cardinal-masculine< biljuni[>%%and-type-b-feminine>];"),
    (u!"11000000000/1,000", u!"<%spellout-cardinal-masculine< biljun[>%%and-type-b-feminine>];"),
    (u!"1000000000000", u!"triljun[>%%and-type-b-feminine>];"),
    (u!"2000000000000", u!"<%spellout-cardinal-masculine< triljuni[>%%and-type-b-feminine>];"),
    (u!"11000000000000/1,000", u!"<%spellout-cardinal-masculine< triljun[>%%and-type-b-feminine>];"),
    (u!"1000000000000000", u!"kvadriljun[>%%and-type-b-feminine>];"),
    (u!"2000000000000000", u!"<%spellout-cardinal-masculine< kvadriljuni[>%%and-type-b-feminine>];"),
    (u!"11000000000000000/1,000", u!"<%spellout-cardinal-masculine< kvadriljun[>%%and-type-b-feminine>];"),
    (u!"1000000000000000000", u!"=#,##0=;")]),
  (u!"%%and-type-b-feminine", [(u!"0", u!";"),
    (u!"1", u!"' u =%%spellout-cardinal-type-b-feminine=;")]),
  (u!"%spellout-cardinal-masculine", [(u!"-x", u!"minus >>;"),
    (u!"x.x", u!"<< punt >>;"),
    (u!"0", u!"żero;"),
    (u!"1", u!"wieħed;"),
    (u!"2", u!"żewġ;"),
    (u!"3", u!"tliet;"),
    (u!"4", u!"erbaʼ;"),
    (u!"5", u!"ħames;"),
    (u!"6", u!"sitt;"),
    (u!"7", u!"sebaʼ;"),
    (u!"8", u!"tmien;"),
    (u!"9", u!"disaʼ;"),
    (u!"10", u!"għaxar;"),
    (u!"11", u!"ħdax-il;"),
    (u!"12", u!"tnax-il;"),
    (u!"13", u!"tlettax-il;"),
    (u!"14", u!"erbatax-il;"),
    (u!"15", u!"ħmistax-il;"),
    (u!"16", u!"sittax-il;"),
    (u!"17", u!"sbatax-il;"),
    (u!"18", u!"tmintax-il;"),
    (u!"19", u!"dsatax-il;"),
    (u!"20", u!"[>%spellout-cardinal-masculine> u ]għoxrin;"),
    (u!"30", u!"[>%spellout-cardinal-masculine> u ]tletin;"),
    (u!"40", u!"[>%spellout-cardinal-masculine> u ]erbgħin;"),
    (u!"50", u!"[>%spellout-cardinal-masculine> u ]ħamsin;"),
    (u!"60", u!"[>%spellout-cardinal-masculine> u ]sittin;"),
    (u!"70", u!"[>%spellout-cardinal-masculine> u ]sebgħin;"),
    (u!"80", u!"[>%spellout-cardinal-masculine> u ]tmenin;"),
    (u!"90", u!"[>%spellout-cardinal-masculine> u ]disgħin;"),
    (u!"100", u!"mitt;"),
    (u!"101", u!"mija u >%spellout-cardinal-masculine>;"),
    (u!"200", u!"mitejn[ u >%spellout-cardinal-masculine>];"),
    (u!"300", u!"<%spellout-cardinal-masculine< mija[>%%and-type-a-masculine>];"),
    (u!"1000", u!"elf[>%%and-type-a-masculine>];"),
    (u!"2000", u!"elfejn[>%%and-type-a-masculine>];"),
    (u!"3000", u!"<%%thousands< elef[>%%and-type-a-masculine>];"),
    (u!"11000/1000", u!"<%spellout-cardinal-masculine< elf[>%%and-type-a-masculine>];"),
    (u!"1000000", u!"miljun[>%%and-type-a-masculine>];"),
    (u!"2000000", u!"<%spellout-cardinal-masculine< miljuni[>%%and-type-a-masculine>];"),
    (u!"11000000/1,000", u!"<%spellout-cardinal-masculine< miljun[>%%and-type-a-masculine>];"),
    (u!"1000000000", u!"biljun[>%%and-type-a-masculine>];"),
    (u!"2000000000", u!"<%spellout-cardinal-masculine< biljuni[>%%and-type-a-masculine>];"),
    (u!"11000000000/1,000", u!"<%spellout-cardinal-masculine< biljun[>%%and-type-a-masculine>];"),
    (u!"1000000000000", u!"triljun[>%%and-type-a-masculine>];"),
    (u!"2000000000000", u!"<%spellout-cardinal-masculine< triljuni[>%%and-type-a-masculine>];"),
    (u!"11000000000000/1,000", u!"<%spellout-cardinal-masculine< triljun[>%%and-type-a-masculine>];"),
    (u!"1000000000000000", u!"kvadriljun[>%%and-type-a-masculine>];"),
    (u!"2000000000000000", u!"<%spellout-cardinal-masculine< kvadriljuni[>%%and-type-a-masculine>];"),
    (u!"11000000000000000/1,000", u!"<%spellout-cardinal-masculine< kvadriljun[>%%and-type-a-masculine>];"),
    (u!"1000000000000000000", u!"=#,##0=;")]),
  (u!"%%and-type-a-masculine", [(u!"0", u!";"),
    (u!"1", u!"' u =%spellout-cardinal-masculine=;")]),
  (u!"%spellout-cardinal-feminine", [(u!"-x", u!"minus >>;"),
    (u!"x.x", u!"<< punt >>;"),
    (u!"0", u!"żero;"),
    (u!"1", u!"waħda;"),
    (u!"2", u!"żewġ;"),
    (u!"3", u!"tliet;"),
    (u!"4", u!"erbaʼ;"),
    (u!"5", u!"ħames;"),
    (u!"6", u!"sitt;"),
    (u!"7", u!"sebaʼ;"),
    (u!"8", u!"tmien;"),
    (u!"9", u!"disaʼ;"),
    (u!"10", u!"għaxar;"),
    (u!"11", u!"ħdax-il;"),
    (u!"12", u!"tnax-il;"),
    (u!"13", u!"tlettax-il;"),
    (u!"14", u!"erbatax-il;"),
    (u!"15", u!"ħmistax-il;"),
    (u!"16", u!"sittax-il;"),
    (u!"17", u!"sbatax-il;"),
    (u!"18", u!"tmintax-il;"),
    (u!"19", u!"dsatax-il;"),
    (u!"20", u!"[>%spellout-cardinal-feminine> u ]għoxrin;"),
    (u!"30", u!"[>%spellout-cardinal-feminine> u ]tletin;"),
    (u!"40", u!"[>%spellout-cardinal-feminine> u ]erbgħin;"),
    (u!"50", u!"[>%spellout-cardinal-feminine> u ]ħamsin;"),
    (u!"60", u!"[>%spellout-cardinal-feminine> u ]sittin;"),
    (u!"70", u!"[>%spellout-cardinal-feminine> u ]sebgħin;"),
    (u!"80", u!"[>%spellout-cardinal-feminine> u ]tmenin;"),
    (u!"90", u!"[>%spellout-cardinal-feminine> u ]disgħin;"),
    (u!"100", u!"mitt;"),
    (u!"101", u!"mija u >%spellout-cardinal-feminine>;"),
    (u!"200", u!"mitejn[ u >%spellout-cardinal-feminine>];"),
    (u!"300", u!"<%spellout-cardinal-masculine< mija[>%%and-type-a-feminine>];"),
    (u!"1000", u!"elf[>%%and-type-a-feminine>];"),
    (u!"2000", u!"elfejn[>%%and-type-a-feminine>];"),
    (u!"3000", u!"<%%thousands< elef[>%%and-type-a-feminine>];"),
    (u!"11000/1000", u!"<%spellout-cardinal-masculine< elf[>%%and-type-a-feminine>];"),
    (u!"1000000", u!"miljun[>%%and-type-a-feminine>];"),
    (u!"2000000", u!"<%spellout-cardinal-masculine< miljuni[>%%and-type-a-feminine>];"),
    (u!"11000000/1,000", u!"<%spellout-cardinal-masculine< miljun[>%%and-type-a-feminine>];"),
    (u!"1000000000", u!"biljun[>%%and-type-a-feminine>];"),
    (u!"2000000000", u!"<%spellout-cardinal-masculine< biljuni[>%%and-type-a-feminine>];"),
    (u!"11000000000/1,000", u!"<%spellout-cardinal-masculine< biljun[>%%and-type-a-feminine>];"),
    (u!"1000000000000", u!"triljun[>%%and-type-a-feminine>];"),
    (u!"2000000000000", u!"<%spellout-cardinal-masculine< triljuni[>%%and-type-a-feminine>];"),
    (u!"11000000000000/1,000", u!"<%spellout-cardinal-masculine< triljun[>%%and-type-a-feminine>];"),
    (u!"1000000000000000", u!"kvadriljun[>%%and-type-a-feminine>];"),
    (u!"2000000000000000", u!"<%spellout-cardinal-masculine< kvadriljuni[>%%and-type-a-feminine>];"),
    (u!"11000000000000000/1,000", u!"<%spellout-cardinal-masculine< kvadriljun[>%%and-type-a-feminine>];"),
    (u!"1000000000000000000", u!"=#,##0=;")]),
  (u!"%%and-type-a-feminine", [(u!"0", u!";"),
    (u!"1", u!"' u =%spellout-cardinal-feminine=;")]),
  (u!"%%thousands", [(u!"0", u!"ERROR-=0=;"),
    (u!"3", u!"tlitt;"),
    (u!"4", u!"erbat;"),
    (u!"5", u!"ħamest;"),
    (u!"6", u!"sitt;"),
    (u!"7", u!"sebat;"),
    (u!"8", u!"tmint;"),
    (u!"9", u!"disat;"),
    (u!"10", u!"għaxart;")])]

/-- `number_parser_data/supplementary_translation_data/mt.json` -/
def mtSupplementary : Supplementary where
  tables := {
    unit := []
    direct := []
    tens := []
    hundreds := []
    big := [] }
  skipTokens := []
  useLongScale := some false

/-- `number_parser/data/mt.py`, lines 1-59 -/
def mtModule : Output where
  tables := {
    unit := [(u!"żero", 0), (u!"waħda", 1), (u!"wieħed", 1), (u!"tnejn", 2), (u!"żewġ", 2), (u!"tliet", 3), (u!"tlieta", 3), (u!"erbaʼ", 4), (u!"erbgħa", 4), (u!"ħames", 5), (u!"ħamsa", 5), (u!"sitt", 6), (u!"sitta", 6), (u!"sebaʼ", 7), (u!"sebgħa", 7), (u!"tmien", 8), (u!"tmienja", 8), (u!"disaʼ", 9), (u!"disgħa", 9)]
    direct := [(u!"għaxar", 10), (u!"għaxra", 10), (u!"ħdax", 11), (u!"ħdax-il", 11), (u!"tnax", 12), (u!"tnax-il", 12), (u!"tlettax", 13), (u!"tlettax-il", 13), (u!"erbatax", 14), (u!"erbatax-il", 14), (u!"ħmistax", 15), (u!"ħmistax-il", 15), (u!"sittax", 16), (u!"sittax-il", 16), (u!"sbatax", 17), (u!"sbatax-il", 17), (u!"tmintax", 18), (u!"tmintax-il", 18), (u!"dsatax", 19), (u!"dsatax-il", 19)]
    tens := []
    hundreds := [(u!"mitejn", 200)]
    big := [(u!"mija", 100), (u!"elef", 1000), (u!"miljuni", 1000000), (u!"biljuni", 1000000000), (u!"triljuni", 1000000000000), (u!"kvadriljuni", 1000000000000000)] }
  skipTokens := []
  useLongScale := some false

/-- `number_parser_data/raw_cldr_translation_data/my.json`, `SpelloutRules` -/
def myRules : RuleSets := [
  (u!"%spellout-numbering-year", [(u!"x.x", u!"=0.0=;"),
    (u!"0", u!"=%spellout-cardinal=;")]),
  (u!"%spellout-numbering", [(u!"0", u!"=%spellout-cardinal=;")]),
  (u!"%spellout-cardinal", [(u!"-x", u!"အနုတ်>>;"),
    (u!"x.x", u!"<<ဒသမ>>;"),
    (u!"0", u!"သုည;"),
    (u!"1", u!"တစ်;"),
    (u!"2", u!"နှစ်;"),
    (u!"3", u!"သုံး;"),
    (u!"4", u!"လေး;"),
    (u!"5", u!"ငါး;"),
    (u!"6", u!"ခြောက်;"),
    (u!"7", u!"ခုနှစ်;"),
    (u!"8", u!"ရှစ်;"),
    (u!"9", u!"ကိုး;"),
    (u!"10", u!"ဆယ်;"),
    (u!"11", u!"ဆယ့်[>>];"),
    (u!"20", u!"<<ဆယ်[>>];"),
    (u!"100", u!"<<ရာ;"),
    (u!"101", u!"<<ရာ့[>>];"),
    (u!"1000", u!"<<ထောင်;"),
    (u!"1001", u!"<<ထောင့်[>>];"),
    (u!"10000", u!"<<သောင်း[>>];"),
    (u!"100000", u!"<<သိန်း[>>];"),
    (u!"1000000", u!"<<သန်း[>>];"),
    (u!"10000000", u!"<<ကုဋေ[>>];"),
    (u!"100000000000000", u!"<<ကောဋိ[>>];"),
    (u!"1000000000000000000", u!"=#,##0=;")]),
  (u!"%spellout-ordinal", [(u!"-x", u!"အနုတ်>>;"),
    (u!"x.x", u!"=#,##0.#=;"),
    (u!"0", u!"=%spellout-cardinal=;"),
    (u!"1", u!"ပထမ;"),
    (u!"2", u!"ဒုတိယ;"),
    (u!"3", u!"တတိယ;"),
    (u!"4", u!"စတုတ္ထ;"),
    (u!"5", u!"ပဉ္စမ;"),
    (u!"6", u!"ဆဋ္ဌမ;"),
    (u!"7", u!"သတ္တမ;"),
    (u!"8", u!"အဋ္ဌမ;"),
    (u!"9", u!"နဝမ;"),
    (u!"10", u!"ဒသမ;"),
    (u!"11", u!"=%spellout-cardinal=;")])]

/-- `number_parser_data/supplementary_translation_data/my.json` -/
def mySupplementary : Supplementary where
  tables := {
    unit := []
    direct := []
    tens := []
    hundreds := []
    big := [] }
  skipTokens := []
  useLongScale := some false

/-- `number_parser/data/my.py`, lines 1-22 -/
def myModule : Output where
  tables := {
    unit := [(u!"သုည", 0), (u!"တစ်", 1), (u!"နှစ်", 2), (u!"သုံး", 3), (u!"လေး", 4), (u!"ငါး", 5), (u!"ခြောက်", 6), (u!"ခုနှစ်", 7), (u!"ရှစ်", 8), (u!"ကိုး", 9)]
    direct := [(u!"ဆယ်", 10)]
    tens := []
    hundreds := []
    big := [] }
  skipTokens := []
  useLongScale := some false

/-- `number_parser_data/raw_cldr_translation_data/nb.json`, `SpelloutRules` -/
def nbRules : RuleSets := [
  (u!"%spellout-numbering-year", [(u!"-x", u!"minus >>;"),
    (u!"x.x", u!"=0.0=;"),
    (u!"0", u!"=%spellout-numbering=;"),
    (u!"1100/100", u!"<<\u00adhundre[ og >>];"),
    (u!"10000", u!"=%spellout-numbering=;")]),
  (u!"%spellout-numbering", [(u!"0", u!"=%%spellout-cardinal-reale=;")]),
  (u!"%spellout-cardinal-masculine", [(u!"0", u!"=%%spellout-cardinal-reale=;")]),
  (u!"%spellout-cardinal-feminine", [(u!"-x", u!"minus >>;"),
    (u!"x.x", u!"<< komma >>;"),
    (u!"0", u!"null;"),
    (u!"1", u!"ei;"),
    (u!"2", u!"=%%spellout-cardinal-reale=;"),
    (u!"100", u!"hundre[ og >>];"),
    (u!"200", u!"<%spellout-cardinal-neuter< hundre[ og >>];"),
    (u!"1000", u!"tusen[ >%%and-small-f>];"),
    (u!"2000", u!"<%spellout-cardinal-neuter< tusen[ >%%and-small-f>];"),
    (u!"1000000", u!"én million[ >>];"),
    (u!"2000000", u!"<%%spellout-cardinal-reale< millioner[ >>];"),
    (u!"1000000000", u!"én milliard[ >>];"),
    (u!"2000000000", u!"<%%spellout-cardinal-reale< milliarder[ >>];"),
    (u!"1000000000000", u!"én billion[ >>];"),
    (u!"2000000000000", u!"<%%spellout-cardinal-reale< billioner[ >>];"),
    (u!"1000000000000000", u!"én billiard[ >>];"),
    (u!"2000000000000000", u!"<%%spellout-cardinal-reale< billiarder[ >>];"),
    (u!"1000000000000000000", u!"=#,##0=;")]),
  (u!"%%and-small-f", [(u!"0", u!"og =%spellout-cardinal-feminine=;"),
    (u!"100", u!"=%spellout-cardinal-feminine=;")]),
  (u!"%spellout-cardinal-neuter", [(u!"-x", u!"minus >>;"),
    (u!"x.x", u!"<< komma >>;"),
    (u!"0", u!"null;"),
    (u!"1", u!"ett;"),
    (u!"2", u!"=%%spellout-cardinal-reale=;"),
    (u!"20", u!"tjue[\u00ad>>];"),
    (u!"30", u!"tretti[\u00ad>>];"),
    (u!"40", u!"førti[\u00ad>>];"),
    (u!"50", u!"femti[\u00ad>>];"),
    (u!"60", u!"seksti[\u00ad>>];"),
    (u!"70", u!"sytti[\u00ad>>];"),
    (u!"80", u!"åtti[\u00ad>>];"),
    (u!"90", u!"nitti[\u00ad>>];"),
    (u!"100", u!"hundre[ og >>];"),
    (u!"200", u!"<%spellout-cardinal-neuter< hundre[ og >>];"),
    (u!"1000", u!"tusen[ >%%and-small-n>];"),
    (u!"2000", u!"<%spellout-cardinal-neuter< tusen[ >%%and-small-n>];"),
    (u!"1000000", u!"én million[ >>];"),
    (u!"2000000", u!"<%%spellout-cardinal-reale< millioner[ >>];"),
    (u!"1000000000", u!"én milliard[ >>];"),
    (u!"2000000000", u!"<%%spellout-cardinal-reale< milliarder[ >>];"),
    (u!"1000000000000", u!"én billion[ >>];"),
    (u!"2000000000000", u!"<%%spellout-cardinal-reale< billioner[ >>];"),
    (u!"1000000000000000", u!"én billiard[ >>];"),
    (u!"2000000000000000", u!"<%%spellout-cardinal-reale< billiarder[ >>];"),
    (u!"1000000000000000000", u!"=#,##0=;")]),
  (u!"%%and-small-n", [(u!"0", u!"og =%spellout-cardinal-neuter=;"),
    (u!"100", u!"=%spellout-cardinal-neuter=;")]),
  (u!"%%spellout-cardinal-reale", [(u!"-x", u!"minus >>;"),
    (u!"x.x", u!"<< komma >>;"),
    (u!"0", u!"null;"),
    (u!"1", u!"én;"),
    (u!"2", u!"to;"),
    (u!"3", u!"tre;"),
    (u!"4", u!"fire;"),
    (u!"5", u!"fem;"),
    (u!"6", u!"seks;"),
    (u!"7", u!"sju;"),
    (u!"8", u!"åtte;"),
    (u!"9", u!"ni;"),
    (u!"10", u!"ti;"),
    (u!"11", u!"elleve;"),
    (u!"12", u!"tolv;"),
    (u!"13", u!"tretten;"),
    (u!"14", u!"fjorten;"),
    (u!"15", u!"femten;"),
    (u!"16", u!"seksten;"),
    (u!"17", u!"sytten;"),
    (u!"18", u!"atten;"),
    (u!"19", u!"nitten;"),
    (u!"20", u!"tjue[\u00ad>>];"),
    (u!"30", u!"tretti[\u00ad>>];"),
    (u!"40", u!"førti[\u00ad>>];"),
    (u!"50", u!"femti[\u00ad>>];"),
    (u!"60", u!"seksti[\u00ad>>];"),
    (u!"70", u!"sytti[\u00ad>>];"),
    (u!"80", u!"åtti[\u00ad>>];"),
    (u!"90", u!"nitti[\u00ad>>];"),
    (u!"100", u!"hundre[ og >>];"),
    (u!"200", u!"<%spellout-cardinal-neuter< hundre[ og >>];"),
    (u!"1000", u!"tusen[ >%%and-small>];"),
    (u!"2000", u!"<%spellout-cardinal-neuter< tusen[ >%%and-small>];"),
    (u!"1000000", u!"én million[ >>];"),
    (u!"2000000", u!"<< millioner[ >>];"),
    (u!"1000000000", u!"én milliard[ >>];"),
    (u!"2000000000", u!"<< milliarder[ >>];"),
    (u!"1000000000000", u!"én billion[ >>];"),
    (u!"2000000000000", u!"<< billioner[ >>];"),
    (u!"1000000000000000", u!"én billiard[ >>];"),
    (u!"2000000000000000", u!"<< billiarder[ >>];"),
    (u!"1000000000000000000", u!"=#,##0=;")]),
  (u!"%%and-small", [(u!"0", u!"og =%%spellout-cardinal-reale=;"),
    (u!"100", u!"=%%spellout-cardinal-reale=;")]),
  (u!"%spellout-ordinal-masculine", [(u!"-x", u!"minus >>;"),
    (u!"x.x", u!"=#,##0.#=;"),
    (u!"0", u!"nullte;"),
    (u!"1", u!"første;"),
    (u!"2", u!"andre;"),
    (u!"3", u!"tredje;"),
    (u!"4", u!"fjerde;"),
    (u!"5", u!"femte;"),
    (u!"6", u!"sjette;"),
    (u!"7", u!"sjuende;"),
    (u!"8", u!"åttende;"),
    (u!"9", u!"niende;"),
    (u!"10", u!"tiende;"),
    (u!"11", u!"ellevte;"),
    (u!"12", u!"tolvte;"),
    (u!"13", u!"=%spellout-cardinal-neuter=de;"),
    (u!"20", u!"tjue>%%ord-masc-nde>;"),
    (u!"30", u!"tretti>%%ord-masc-nde>;"),
    (u!"40", u!"førti>%%ord-masc-nde>;"),
    (u!"50", u!"femti>%%ord-masc-nde>;"),
    (u!"60", u!"seksti>%%ord-masc-nde>;"),
    (u!"70", u!"sytti>%%ord-masc-nde>;"),
    (u!"80", u!"åtti>%%ord-masc-nde>;"),
    (u!"90", u!"nitti>%%ord-masc-nde>;"),
    (u!"100", u!"<%spellout-numbering<\u00adhundre>%%ord-masc-de>;"),
    (u!"1000", u!"<%spellout-numbering<\u00adtusen>%%ord-masc-de>;"),
    (u!"1000000", u!"én million>%%ord-masc-te>;"),
    (u!"2000000", u!"<%%spellout-cardinal-reale< million>%%ord-masc-teer>;"),
    (u!"1000000000", u!"én milliard>%%ord-masc-te>;"),
    (u!"2000000000", u!"<%%spellout-cardinal-reale< milliard>%%ord-masc-teer>;"),
    (u!"1000000000000", u!"én billion>%%ord-masc-te>;"),
    (u!"2000000000000", u!"<%%spellout-cardinal-reale< billion>%%ord-masc-teer>;"),
    (u!"1000000000000000", u!"én billiard>%%ord-masc-te>;"),
    (u!"2000000000000000", u!"<%%spellout-cardinal-reale< billiard>%%ord-masc-teer>;"),
    (u!"1000000000000000000", u!"=#,##0=.;")]),
  (u!"%%ord-masc-nde", [(u!"0", u!"ende;"),
    (u!"1", u!"\u00ad=%spellout-ordinal-masculine=;")]),
  (u!"%%ord-masc-de", [(u!"0", u!"de;"),
    (u!"1", u!"' =%spellout-ordinal-masculine=;")]),
  (u!"%%ord-masc-te", [(u!"0", u!"te;"),
    (u!"1", u!"' =%spellout-ordinal-masculine=;")]),
  (u!"%%ord-masc-teer", [(u!"0", u!"te;"),
    (u!"1", u!"er =%spellout-ordinal-masculine=;")]),
  (u!"%spellout-ordinal-neuter", [(u!"-x", u!"minus >>;"),
    (u!"x.x", u!"=#,##0.#=;"),
    (u!"0", u!"nullte;"),
    (u!"1", u!"første;"),
    (u!"2", u!"andre;"),
    (u!"3", u!"tredje;"),
    (u!"4", u!"fjerde;"),
    (u!"5", u!"femte;"),
    (u!"6", u!"sjette;"),
    (u!"7", u!"sjuende;"),
    (u!"8", u!"åttende;"),
    (u!"9", u!"niende;"),
    (u!"10", u!"tiende;"),
    (u!"11", u!"ellevte;"),
    (u!"12", u!"tolvte;"),
    (u!"13", u!"=%spellout-cardinal-neuter=de;"),
    (u!"20", u!"tjue>%%ord-neut-nde>;"),
    (u!"30", u!"tretti>%%ord-neut-nde>;"),
    (u!"40", u!"førti>%%ord-neut-nde>;"),
    (u!"50", u!"femti>%%ord-neut-nde>;"),
    (u!"60", u!"seksti>%%ord-neut-nde>;"),
    (u!"70", u!"sytti>%%ord-neut-nde>;"),
    (u!"80", u!"åtti>%%ord-neut-nde>;"),
    (u!"90", u!"nitti>%%ord-neut-nde>;"),
    (u!"100", u!"<%spellout-numbering<\u00adhundre>%%ord-neut-de>;"),
    (u!"1000", u!"<%spellout-numbering<\u00adtusen>%%ord-neut-de>;"),
    (u!"1000000", u!"én million>%%ord-neut-te>;"),
    (u!"2000000", u!"<%%spellout-cardinal-reale< million>%%ord-neut-teer>;"),
    (u!"1000000000", u!"én milliard>%%ord-neut-te>;"),
    (u!"2000000000", u!"<%%spellout-cardinal-reale< milliard>%%ord-neut-teer>;"),
    (u!"1000000000000", u!"én billion>%%ord-neut-te>;"),
    (u!"2000000000000", u!"<%%spellout-cardinal-reale< billion>%%ord-neut-teer>;"),
    (u!"1000000000000000", u!"én billiard>%%ord-neut-te>;"),
    (u!"2000000000000000", u!"<%%spellout-cardinal-reale< billiard>%%ord-neut-teer>;"),
    (u!"1000000000000000000", u!"=#,##0=.;")]),
  (u!"%%ord-neut-nde", [(u!"0", u!"ende;"),
    (u!"1", u!"\u00ad=%spellout-ordinal-neuter=;")]),
  (u!"%%ord-neut-de", [(u!"0", u!"de;"),
    (u!"1", u!"' =%spellout-ordinal-neuter=;")]),
  (u!"%%ord-neut-te", [(u!"0", u!"te;"),
    (u!"1", u!"' =%spellout-ordinal-neuter=;")]),
  (u!"%%ord-neut-teer", [(u!"0", u!"te;"),
    (u!"1", u!"er =%spellout-ordinal-neuter=;")]),
  (u!"%spellout-ordinal-feminine", [(u!"-x", u!"minus >>;"),
    (u!"x.x", u!"=#,##0.#=;"),
    (u!"0", u!"nullte;"),
    (u!"1", u!"første;"),
    (u!"2", u!"andre;"),
    (u!"3", u!"tredje;"),
    (u!"4", u!"fjerde;"),
    (u!"5", u!"femte;"),
    (u!"6", u!"sjette;"),
    (u!"7", u!"sjuende;"),
    (u!"8", u!"åttende;"),
    (u!"9", u!"niende;"),
    (u!"10", u!"tiende;"),
    (u!"11", u!"ellevte;"),
    (u!"12", u!"tolvte;"),
    (u!"13", u!"=%spellout-cardinal-neuter=de;"),
    (u!"20", u!"tjue>%%ord-fem-nde>;"),
    (u!"30", u!"tretti>%%ord-fem-nde>;"),
    (u!"40", u!"førti>%%ord-fem-nde>;"),
    (u!"50", u!"femti>%%ord-fem-nde>;"),
    (u!"60", u!"seksti>%%ord-fem-nde>;"),
    (u!"70", u!"sytti>%%ord-fem-nde>;"),
    (u!"80", u!"åtti>%%ord-fem-nde>;"),
    (u!"90", u!"nitti>%%ord-fem-nde>;"),
    (u!"100", u!"<%spellout-numbering<\u00adhundre>%%ord-fem-de>;"),
    (u!"1000", u!"<%spellout-numbering<\u00adtusen>%%ord-fem-de>;"),
    (u!"1000000", u!"én million>%%ord-fem-te>;"),
    (u!"2000000", u!"<%%spellout-cardinal-reale< million>%%ord-fem-teer>;"),
    (u!"1000000000", u!"én milliard>%%ord-fem-te>;"),
    (u!"2000000000", u!"<%%spellout-cardinal-reale< milliard>%%ord-fem-teer>;"),
    (u!"1000000000000", u!"én billion>%%ord-fem-te>;"),
    (u!"2000000000000", u!"<%%spellout-cardinal-reale< billion>%%ord-fem-teer>;"),
    (u!"1000000000000000", u!"én billiard>%%ord-fem-te>;"),
    (u!"2000000000000000", u!"<%%spellout-cardinal-reale< billiard>%%ord-fem-teer>;"),
    (u!"1000000000000000000", u!"=#,##0=.;")]),
  (u!"%%ord-fem-nde", [(u!"0", u!"ende;"),
    (u!"1", u!"\u00ad=%spellout-ordinal-feminine=;")]),
  (u!"%%ord-fem-de", [(u!"0", u!"de;"),
    (u!"1", u!"' =%spellout-ordinal-feminine=;")]),
  (u!"%%ord-fem-te", [(u!"0", u!"te;"),
    (u!"1", u!"' =%spellout-ordinal-feminine=;")]),
  (u!"%%ord-fem-teer", [(u!"0", u!"te;"),
    (u!"1", u!"er =%spellout-ordinal-feminine=;")]),
  (u!"%spellout-ordinal-plural", [(u!"-x", u!"minus >>;"),
    (u!"x.x", u!"=#,##0.#=;"),
    (u!"0", u!"nullte;"),
    (u!"1", u!"første;"),
    (u!"2", u!"andre;"),
    (u!"3", u!"tredje;"),
    (u!"4", u!"fjerde;"),
    (u!"5", u!"femte;"),
    (u!"6", u!"sjette;"),
    (u!"7", u!"sjuende;"),
    (u!"8", u!"åttende;"),
    (u!"9", u!"niende;"),
    (u!"10", u!"tiende;"),
    (u!"11", u!"ellevte;"),
    (u!"12", u!"tolvte;"),
    (u!"13", u!"=%spellout-cardinal-neuter=de;"),
    (u!"20", u!"tjue>%%ord-plural-nde>;"),
    (u!"30", u!"tretti>%%ord-plural-nde>;"),
    (u!"40", u!"førti>%%ord-plural-nde>;"),
    (u!"50", u!"femti>%%ord-plural-nde>;"),
    (u!"60", u!"seksti>%%ord-plural-nde>;"),
    (u!"70", u!"sytti>%%ord-plural-nde>;"),
    (u!"80", u!"åtti>%%ord-plural-nde>;"),
    (u!"90", u!"nitti>%%ord-plural-nde>;"),
    (u!"100", u!"<%spellout-numbering<\u00adhundre>%%ord-plural-de>;"),
    (u!"1000", u!"<%spellout-numbering<\u00adtusen>%%ord-plural-de>;"),
    (u!"1000000", u!"én million>%%ord-plural-te>;"),
    (u!"2000000", u!"<%%spellout-cardinal-reale< million>%%ord-plural-teer>;"),
    (u!"1000000000", u!"én milliard>%%ord-plural-te>;"),
    (u!"2000000000", u!"<%%spellout-cardinal-reale< milliard>%%ord-plural-teer>;"),
    (u!"1000000000000", u!"én billion>%%ord-plural-te>;"),
    (u!"2000000000000", u!"<%%spellout-cardinal-reale< billion>%%ord-plural-teer>;"),
    (u!"1000000000000000", u!"én billiard>%%ord-plural-te>;"),
    (u!"2000000000000000", u!"<%%spellout-cardinal-reale< billiard>%%ord-plural-teer>;"),
    (u!"1000000000000000000", u!"=#,##0=.;")]),
  (u!"%%ord-plural-nde", [(u!"0", u!"ende;"),
    (u!"1", u!"\u00ad=%spellout-ordinal-plural=;")]),
  (u!"%%ord-plural-de", [(u!"0", u!"de;"),
    (u!"1", u!"' =%spellout-ordinal-plural=;")]),
  (u!"%%ord-plural-te", [(u!"0", u!"te;"),
    (u!"1", u!"' =%spellout-ordinal-plural=;")]),
  (u!"%%ord-plural-teer", [(u!"0", u!"te;"),
    (u!"1", u!"er =%spellout-ordinal-plural=;")])]

/-- `number_parser_data/supplementary_translation_data/nb.json` -/
def nbSupplementary : Supplementary where
  tables := {
    unit := []
    direct := []
    tens := []
    hundreds := []
    big := [] }
  skipTokens := []
  useLongScale := some true

/-- `number_parser/data/nb.py`, lines 1-49 -/
def nbModule : Output where
  tables := {
    unit := [(u!"null", 0), (u!"ei", 1), (u!"ett", 1), (u!"én", 1), (u!"to", 2), (u!"tre", 3), (u!"fire", 4), (u!"fem", 5), (u!"seks", 6), (u!"sju", 7), (u!"åtte", 8), (u!"ni", 9)]
    direct := [(u!"ti", 10), (u!"elleve", 11), (u!"tolv", 12), (u!"tretten", 13), (u!"fjorten", 14), (u!"femten", 15), (u!"seksten", 16), (u!"sytten", 17), (u!"atten", 18), (u!"nitten", 19)]
    tens := [(u!"tjue", 20), (u!"tretti", 30), (u!"førti", 40), (u!"femti", 50), (u!"seksti", 60), (u!"sytti", 70), (u!"åtti", 80), (u!"nitti", 90)]
    hundreds := []
    big := [(u!"hundre", 100), (u!"tusen", 1000), (u!"millioner", 1000000), (u!"milliarder", 1000000000), (u!"billioner", 1000000000000), (u!"billiarder", 1000000000000000)] }
  skipTokens := []
  useLongScale := some true

/-- `number_parser_data/raw_cldr_translation_data/nl.json`, `SpelloutRules` -/
def nlRules : RuleSets := [
  (u!"%%2d-year", [(u!"0", u!"honderd;"),
    (u!"1", u!"=%spellout-numbering=;")]),
  (u!"%spellout-numbering-year", [(u!"-x", u!"min >>;"),
    (u!"x.x", u!"=0.0=;"),
    (u!"0", u!"=%spellout-numbering=;"),
    (u!"1100/100", u!"<<>%%2d-year>;"),
    (u!"2000", u!"=%spellout-numbering=;"),
    (u!"2100/100", u!"<<>%%2d-year>;"),
    (u!"3000", u!"=%spellout-numbering=;"),
    (u!"3100/100", u!"<<>%%2d-year>;"),
    (u!"4000", u!"=%spellout-numbering=;"),
    (u!"4100/100", u!"<<>%%2d-year>;"),
    (u!"5000", u!"=%spellout-numbering=;"),
    (u!"5100/100", u!"<<>%%2d-year>;"),
    (u!"6000", u!"=%spellout-numbering=;"),
    (u!"6100/100", u!"<<>%%2d-year>;"),
    (u!"7000", u!"=%spellout-numbering=;"),
    (u!"7100/100", u!"<<>%%2d-year>;"),
    (u!"8000", u!"=%spellout-numbering=;"),
    (u!"8100/100", u!"<<>%%2d-year>;"),
    (u!"9000", u!"=%spellout-numbering=;"),
    (u!"9100/100", u!"<<>%%2d-year>;"),
    (u!"10000", u!"=%spellout-numbering=;")]),
  (u!"%spellout-numbering", [(u!"0", u!"=%spellout-cardinal=;")]),
  (u!"%%number-en", [(u!"1", u!"een\u00aden\u00ad;"),
    (u!"2", u!"twee\u00adën\u00ad;"),
    (u!"3", u!"drie\u00adën\u00ad;"),
    (u!"4", u!"=%spellout-cardinal=\u00aden\u00ad;")]),
  (u!"%spellout-cardinal", [(u!"-x", u!"min >>;"),
    (u!"x.x", u!"<< komma >>;"),
    (u!"0", u!"nul;"),
    (u!"1", u!"een;"),
    (u!"2", u!"twee;"),
    (u!"3", u!"drie;"),
    (u!"4", u!"vier;"),
    (u!"5", u!"vijf;"),
    (u!"6", u!"zes;"),
    (u!"7", u!"zeven;"),
    (u!"8", u!"acht;"),
    (u!"9", u!"negen;"),
    (u!"10", u!"tien;"),
    (u!"11", u!"elf;"),
    (u!"12", u!"twaalf;"),
    (u!"13", u!"dertien;"),
    (u!"14", u!"veertien;"),
    (u!"15", u!"vijftien;"),
    (u!"16", u!"zestien;"),
    (u!"17", u!"zeventien;"),
    (u!"18", u!"achttien;"),
    (u!"19", u!"negentien;"),
    (u!"20", u!"[>%%number-en>]twintig;"),
    (u!"30", u!"[>%%number-en>]dertig;"),
    (u!"40", u!"[>%%number-en>]veertig;"),
    (u!"50", u!"[>%%number-en>]vijftig;"),
    (u!"60", u!"[>%%number-en>]zestig;"),
    (u!"70", u!"[>%%number-en>]zeventig;"),
    (u!"80", u!"[>%%number-en>]tachtig;"),
    (u!"90", u!"[>%%number-en>]negentig;"),
    (u!"100", u!"honderd[>>];"),
    (u!"200", u!"<<\u00adhonderd[\u00ad>>];"),
    (u!"1000", u!"duizend[\u00ad>>];"),
    (u!"2000", u!"<<\u00adduizend[\u00ad>>];"),
    (u!"100000/1000", u!"<<\u00adduizend[\u00ad>>];"),
    (u!"1000000", u!"<< miljoen[ >>];"),
    (u!"1000000000", u!"<< miljard[ >>];"),
    (u!"1000000000000", u!"<< biljoen[ >>];"),
    (u!"1000000000000000", u!"<< biljard[ >>];"),
    (u!"1000000000000000000", u!"=#,##0=;")]),
  (u!"%%ord-ste", [(u!"0", u!"ste;"),
    (u!"1", u!"\u00ad=%spellout-ordinal=;")]),
  (u!"%spellout-ordinal", [(u!"-x", u!"min >>;"),
    (u!"x.x", u!"=#,##0.#=;"),
    (u!"0", u!"nulste;"),
    (u!"1", u!"eerste;"),
    (u!"2", u!"tweede;"),
    (u!"3", u!"derde;"),
    (u!"4", u!"=%spellout-cardinal=de;"),
    (u!"8", u!"=%spellout-cardinal=ste;"),
    (u!"9", u!"=%spellout-cardinal=de;"),
    (u!"20", u!"=%spellout-cardinal=ste;"),
    (u!"100", u!"honderd>%%ord-ste>;"),
    (u!"200", u!"<%spellout-cardinal<\u00adhonderd>%%ord-ste>;"),
    (u!"1000", u!"duizend>%%ord-ste>;"),
    (u!"2000", u!"<%spellout-cardinal<\u00adduizend>%%ord-ste>;"),
    (u!"1000000", u!"<%spellout-cardinal<\u00admiljoen>%%ord-ste>;"),
    (u!"1000000000", u!"<%spellout-cardinal<\u00admiljard>%%ord-ste>;"),
    (u!"1000000000000", u!"<%spellout-cardinal<\u00adbiljoen>%%ord-ste>;"),
    (u!"1000000000000000", u!"<%spellout-cardinal<\u00adbiljard>%%ord-ste>;"),
    (u!"1000000000000000000", u!"=#,##0=.;")])]

/-- `number_parser_data/supplementary_translation_data/nl.json` -/
def nlSupplementary : Supplementary where
  tables := {
    unit := []
    direct := []
    tens := []
    hundreds := []
    big := [] }
  skipTokens := []
  useLongScale := some true

/-- `number_parser/data/nl.py`, lines 1-36 -/
def nlModule : Output where
  tables := {
    unit := [(u!"nul", 0), (u!"een", 1), (u!"twee", 2), (u!"drie", 3), (u!"vier", 4), (u!"vijf", 5), (u!"zes", 6), (u!"zeven", 7), (u!"acht", 8), (u!"negen", 9)]
    direct := [(u!"tien", 10), (u!"elf", 11), (u!"twaalf", 12), (u!"dertien", 13), (u!"veertien", 14), (u!"vijftien", 15), (u!"zestien", 16), (u!"zeventien", 17), (u!"achttien", 18), (u!"negentien", 19)]
    tens := []
    hundreds := []
    big := [(u!"miljoen", 1000000), (u!"miljard", 1000000000), (u!"biljoen", 1000000000000), (u!"biljard", 1000000000000000)] }
  skipTokens := []
  useLongScale := some true

/-- The languages ja, ka, kl, km, ko, ky, lb, lo, lrc, lt, lv, mk, ms, mt, my, nb, nl: rules, supplementary data, data module -/
def partD : List (PyStr × RuleSets × Supplementary × Output) := [
  (u!"ja", jaRules, jaSupplementary, jaModule),
  (u!"ka", kaRules, kaSupplementary, kaModule),
  (u!"kl", klRules, klSupplementary, klModule),
  (u!"km", kmRules, kmSupplementary, kmModule),
  (u!"ko", koRules, koSupplementary, koModule),
  (u!"ky", kyRules, kySupplementary, kyModule),
  (u!"lb", lbRules, lbSupplementary, lbModule),
  (u!"lo", loRules, loSupplementary, loModule),
  (u!"lrc", lrcRules, lrcSupplementary, lrcModule),
  (u!"lt", ltRules, ltSupplementary, ltModule),
  (u!"lv", lvRules, lvSupplementary, lvModule),
  (u!"mk", mkRules, mkSupplementary, mkModule),
  (u!"ms", msRules, msSupplementary, msModule),
  (u!"mt", mtRules, mtSupplementary, mtModule),
  (u!"my", myRules, mySupplementary, myModule),
  (u!"nb", nbRules, nbSupplementary, nbModule),
  (u!"nl", nlRules, nlSupplementary, nlModule)]

end NumberParser.Gen.Sources
