/- GENERATED by tools/gen_sources.py from /repo/number_parser_data/{raw_cldr,supplementary}_translation_data/*.json and
/repo/number_parser/data/*.py. Do not edit. -/
import Verif.Model.Generator

set_option maxRecDepth 100000

namespace NumberParser.Gen.Sources
open NumberParser Gen

/-- `number_parser_data/raw_cldr_translation_data/nn.json`, `SpelloutRules` -/
def nnRules : RuleSets := [
  (u!"%spellout-numbering-year", [(u!"-x", u!"minus >>;"),
    (u!"x.x", u!"=0.0=;"),
    (u!"0", u!"=%spellout-numbering=;"),
    (u!"1100/100", u!"<< hundre[ og >>];"),
    (u!"10000", u!"=%spellout-numbering=;")]),
  (u!"%spellout-numbering", [(u!"0", u!"=%spellout-cardinal-reale=;")]),
  (u!"%spellout-cardinal-neuter", [(u!"-x", u!"minus >>;"),
    (u!"x.x", u!"<< komma >>;"),
    (u!"0", u!"null;"),
    (u!"1", u!"eitt;"),
    (u!"2", u!"=%spellout-cardinal-reale=;")]),
  (u!"%spellout-cardinal-masculine", [(u!"0", u!"=%spellout-cardinal-reale=;")]),
  (u!"%spellout-cardinal-feminine", [(u!"0", u!"=%spellout-cardinal-reale=;")]),
  (u!"%spellout-cardinal-reale", [(u!"-x", u!"minus >>;"),
    (u!"x.x", u!"<< komma >>;"),
    (u!"0", u!"null;"),
    (u!"1", u!"éin;"),
    (u!"2", u!"to;"),
    (u!"3", u!"tre;"),
    (u!"4", u!"fire;"),
    (u!"5", u!"fem;"),
    (u!"6", u!"seks;"),
    (u!"7", u!"sju;"),
    (u!"8", u!"åtte;"),
    (u!"9", u!"ni;"),
    (u!"10", u!"ti;"),
    (u!"11", u!"elleve;"),
    (u!"12", u!"tolv;"),
    (u!"13", u!"tretten;"),
    (u!"14", u!"fjorten;"),
    (u!"15", u!"femten;"),
    (u!"16", u!"seksten;"),
    (u!"17", u!"sytten;"),
    (u!"18", u!"atten;"),
    (u!"19", u!"nitten;"),
    (u!"20", u!"tjue[\u00ad>>];"),
    (u!"30", u!"tretti[\u00ad>>];"),
    (u!"40", u!"førti[\u00ad>>];"),
    (u!"50", u!"femti[\u00ad>>];"),
    (u!"60", u!"seksti[\u00ad>>];"),
    (u!"70", u!"sytti[\u00ad>>];"),
    (u!"80", u!"åtti[\u00ad>>];"),
    (u!"90", u!"nitti[\u00ad>>];"),
    (u!"100", u!"<%spellout-cardinal-neuter< hundre[ og >>];"),
    (u!"1000", u!"<%spellout-cardinal-neuter< tusen[ og >>];"),
    (u!"1000000", u!"éin million[ >>];"),
    (u!"2000000", u!"<< millionar[ >>];"),
    (u!"1000000000", u!"éin milliard[ >>];"),
    (u!"2000000000", u!"<< milliardar[ >>];"),
    (u!"1000000000000", u!"éin billion[ >>];"),
    (u!"2000000000000", u!"<< billionar[ >>];"),
    (u!"1000000000000000", u!"éin billiard[ >>];"),
    (u!"2000000000000000", u!"<< biliardar[ >>];"),
    (u!"1000000000000000000", u!"=#,##0=;")])]

/-- `number_parser_data/supplementary_translation_data/nn.json` -/
def nnSupplementary : Supplementary where
  tables := {
    unit := []
    direct := []
    tens := []
    hundreds := []
    big := [] }
  skipTokens := []
  useLongScale := some true

/-- `number_parser/data/nn.py`, lines 1-48 -/
def nnModule : Output where
  tables := {
    unit := [(u!"null", 0), (u!"eitt", 1), (u!"éin", 1), (u!"to", 2), (u!"tre", 3), (u!"fire", 4), (u!"fem", 5), (u!"seks", 6), (u!"sju", 7), (u!"åtte", 8), (u!"ni", 9)]
    direct := [(u!"ti", 10), (u!"elleve", 11), (u!"tolv", 12), (u!"tretten", 13), (u!"fjorten", 14), (u!"femten", 15), (u!"seksten", 16), (u!"sytten", 17), (u!"atten", 18), (u!"nitten", 19)]
    tens := [(u!"tjue", 20), (u!"tretti", 30), (u!"førti", 40), (u!"femti", 50), (u!"seksti", 60), (u!"sytti", 70), (u!"åtti", 80), (u!"nitti", 90)]
    hundreds := []
    big := [(u!"hundre", 100), (u!"tusen", 1000), (u!"millionar", 1000000), (u!"milliardar", 1000000000), (u!"billionar", 1000000000000), (u!"biliardar", 1000000000000000)] }
  skipTokens := []
  useLongScale := some true

/-- `number_parser_data/raw_cldr_translation_data/pl.json`, `SpelloutRules` -/
def plRules : RuleSets := [
  (u!"%spellout-numbering-year", [(u!"x.x", u!"=0.0=;"),
    (u!"0", u!"=%spellout-numbering=;")]),
  (u!"%spellout-numbering", [(u!"0", u!"=%spellout-cardinal-masculine=;")]),
  (u!"%spellout-cardinal-masculine", [(u!"-x", u!"minus >>;"),
    (u!"x.x", u!"<%spellout-cardinal-masculine< przecinek >%%spellout-fraction>;"),
    (u!"0", u!"zero;"),
    (u!"1", u!"jeden;"),
    (u!"2", u!"dwa;"),
    (u!"3", u!"trzy;"),
    (u!"4", u!"cztery;"),
    (u!"5", u!"pięć;"),
    (u!"6", u!"sześć;"),
    (u!"7", u!"siedem;"),
    (u!"8", u!"osiem;"),
    (u!"9", u!"dziewięć;"),
    (u!"10", u!"dziesięć;"),
    (u!"11", u!"jedenaście;"),
    (u!"12", u!"dwanaście;"),
    (u!"13", u!"trzynaście;"),
    (u!"14", u!"czternaście;"),
    (u!"15", u!"piętnaście;"),
    (u!"16", u!"szesnaście;"),
    (u!"17", u!"siedemnaście;"),
    (u!"18", u!"osiemnaście;"),
    (u!"19", u!"dziewiętnaście;"),
    (u!"20", u!"<%%spellout-cardinal-tens<[ >>];"),
    (u!"100", u!"sto[ >>];"),
    (u!"200", u!"dwieście[ >>];"),
    (u!"300", u!"<%spellout-cardinal-feminine<sta[ >>];"),
    (u!"500", u!"<%spellout-cardinal-feminine<set[ >>];"),
    (u!"1000", u!"tysiąc[ >>];"),
    (u!"2000", u!"<< $(cardinal,few{tysiące}other{tysięcy})$[ >>];"),
    (u!"1000000", u!"milion[ >>];"),
    (u!"2000000", u!"<< $(cardinal,few{miliony}other{milionów})$[ >>];"),
    (u!"1000000000", u!"miliard[ >>];"),
    (u!"2000000000", u!"<< $(cardinal,few{miliardy}other{miliardów})$[ >>];"),
    (u!"1000000000000", u!"bilion[ >>];"),
    (u!"2000000000000", u!"<< $(cardinal,few{biliony}other{bilionów})$[ >>];"),
    (u!"1000000000000000", u!"biliard[ >>];"),
    (u!"2000000000000000", u!"<< $(cardinal,few{biliardy}other{biliardów})$[ >>];"),
    (u!"1000000000000000000", u!"=#,##0=;")]),
  (u!"%spellout-cardinal-masculine-personal", [(u!"-x", u!"minus >>;"),
    (u!"x.x", u!"<%spellout-cardinal-masculine-personal< przecinek >>;"),
    (u!"0", u!"zero;"),
    (u!"1", u!"jeden;"),
    (u!"2", u!"dwaj;"),
    (u!"3", u!"trzej;"),
    (u!"4", u!"czterej;"),
    (u!"5", u!"=%spellout-cardinal-masculine-genitive=;"),
    (u!"1000", u!"tysiąc[ >%%spellout-cardinal-masculine-genitive-ones>];"),
    (u!"2000", u!"<%spellout-cardinal-masculine< $(cardinal,few{tysiące}other{tysięcy})$[ >%%spellout-cardinal-masculine-genitive-ones>];"),
    (u!"1000000", u!"milion[ >>];"),
    (u!"2000000", u!"<%spellout-cardinal-masculine< $(cardinal,few{miliony}other{milionów})$[ >>];"),
    (u!"1000000000", u!"miliard[ >%%spellout-cardinal-masculine-genitive-ones>];"),
    (u!"2000000000", u!"<%spellout-cardinal-masculine< $(cardinal,few{miliardy}other{miliardów})$[ >>];"),
    (u!"1000000000000", u!"bilion[ >%%spellout-cardinal-masculine-genitive-ones>];"),
    (u!"2000000000000", u!"<%spellout-cardinal-masculine< $(cardinal,few{biliony}other{bilionów})$[ >>];"),
    (u!"1000000000000000", u!"biliard[ >%%spellout-cardinal-masculine-genitive-ones>];"),
    (u!"2000000000000000", u!"<%spellout-cardinal-masculine< $(cardinal,few{biliardy}other{biliardów})$[ >>];"),
    (u!"1000000000000000000", u!"=#,##0=;")]),
  (u!"%spellout-cardinal-feminine", [(u!"-x", u!"minus >>;"),
    (u!"x.x", u!"<%spellout-cardinal-feminine< przecinek >%%spellout-fraction>;"),
    (u!"0", u!"zero;"),
    (u!"1", u!"jedna;"),
    (u!"2", u!"dwie;"),
    (u!"3", u!"trzy;"),
    (u!"4", u!"cztery;"),
    (u!"5", u!"pięć;"),
    (u!"6", u!"sześć;"),
    (u!"7", u!"siedem;"),
    (u!"8", u!"osiem;"),
    (u!"9", u!"dziewięć;"),
    (u!"10", u!"dziesięć;"),
    (u!"11", u!"jedenaście;"),
    (u!"12", u!"dwanaście;"),
    (u!"13", u!"trzynaście;"),
    (u!"14", u!"czternaście;"),
    (u!"15", u!"piętnaście;"),
    (u!"16", u!"szesnaście;"),
    (u!"17", u!"siedemnaście;"),
    (u!"18", u!"osiemnaście;"),
    (u!"19", u!"dziewiętnaście;"),
    (u!"20", u!"<%%spellout-cardinal-tens<[ >%%spellout-cardinal-feminine-ones>];"),
    (u!"100", u!"sto[ >%%spellout-cardinal-feminine-ones>];"),
    (u!"200", u!"dwieście[ >%%spellout-cardinal-feminine-ones>];"),
    (u!"300", u!"<%spellout-cardinal-feminine<sta[ >%%spellout-cardinal-feminine-ones>];"),
    (u!"500", u!"<%spellout-cardinal-feminine<set[ >%%spellout-cardinal-feminine-ones>];"),
    (u!"1000", u!"tysiąc[ >%%spellout-cardinal-feminine-ones>];"),
    (u!"2000", u!"<%spellout-cardinal-masculine< $(cardinal,few{tysiące}other{tysięcy})$[ >%%spellout-cardinal-feminine-ones>];"),
    (u!"1000000", u!"milion[ >%%spellout-cardinal-feminine-ones>];"),
    (u!"2000000", u!"<%spellout-cardinal-masculine< $(cardinal,few{miliony}other{milionów})$[ >%%spellout-cardinal-feminine-ones>];"),
    (u!"1000000000", u!"miliard[ >>];"),
    (u!"2000000000", u!"<%spellout-cardinal-masculine< $(cardinal,few{miliardy}other{miliardów})$[ >%%spellout-cardinal-feminine-ones>];"),
    (u!"1000000000000", u!"bilion[ >>];"),
    (u!"2000000000000", u!"<%spellout-cardinal-masculine< $(cardinal,few{biliony}other{bilionów})$[ >%%spellout-cardinal-feminine-ones>];"),
    (u!"1000000000000000", u!"biliard[ >%%spellout-cardinal-masculine-genitive-ones>];"),
    (u!"2000000000000000", u!"<%spellout-cardinal-masculine< $(cardinal,few{biliardy}other{biliardów})$[ >%%spellout-cardinal-feminine-ones>];"),
    (u!"1000000000000000000", u!"=#,##0=;")]),
  (u!"%spellout-cardinal-neuter", [(u!"-x", u!"minus >>;"),
    (u!"x.x", u!"<%spellout-cardinal-neuter< przecinek >%%spellout-fraction>;"),
    (u!"0", u!"zero;"),
    (u!"1", u!"jedno;"),
    (u!"2", u!"=%spellout-cardinal-masculine=;")]),
  (u!"%spellout-cardinal-masculine-genitive", [(u!"-x", u!"minus >>;"),
    (u!"x.x", u!"<%spellout-cardinal-masculine-genitive< przecinek >>;"),
    (u!"0", u!"zera;"),
    (u!"1", u!"jednego;"),
    (u!"2", u!"dwóch;"),
    (u!"3", u!"trzech;"),
    (u!"4", u!"czterech;"),
    (u!"5", u!"pięciu;"),
    (u!"6", u!"sześciu;"),
    (u!"7", u!"siedmiu;"),
    (u!"8", u!"ośmiu;"),
    (u!"9", u!"dziewięciu;"),
    (u!"10", u!"dziesięciu;"),
    (u!"11", u!"jedenastu;"),
    (u!"12", u!"dwunastu;"),
    (u!"13", u!"trzynastu;"),
    (u!"14", u!"czternastu;"),
    (u!"15", u!"piętnastu;"),
    (u!"16", u!"szesnastu;"),
    (u!"17", u!"siedemnastu;"),
    (u!"18", u!"osiemnastu;"),
    (u!"19", u!"dziewiętnastu;"),
    (u!"20", u!"<%%spellout-cardinal-genitive-tens<[ >%%spellout-cardinal-masculine-genitive-ones>];"),
    (u!"100", u!"stu[ >%%spellout-cardinal-masculine-genitive-ones>];"),
    (u!"200", u!"dwustu[ >%%spellout-cardinal-masculine-genitive-ones>];"),
    (u!"300", u!"<%spellout-cardinal-feminine<stu[ >%%spellout-cardinal-masculine-genitive-ones>];"),
    (u!"500", u!"<%spellout-cardinal-feminine-genitive<set[ >%%spellout-cardinal-masculine-genitive-ones>];"),
    (u!"1000", u!"tysiąca[ >%%spellout-cardinal-masculine-genitive-ones>];"),
    (u!"2000", u!"<< tysięcy[ >%%spellout-cardinal-masculine-genitive-ones>];"),
    (u!"1000000", u!"miliona[ >%%spellout-cardinal-masculine-genitive-ones>];"),
    (u!"2000000", u!"<< milionów[ >%%spellout-cardinal-masculine-genitive-ones>];"),
    (u!"1000000000", u!"miliarda[ >%%spellout-cardinal-masculine-genitive-ones>];"),
    (u!"2000000000", u!"<< miliardów[ >%%spellout-cardinal-masculine-genitive-ones>];"),
    (u!"1000000000000", u!"biliona[ >%%spellout-cardinal-masculine-genitive-ones>];"),
    (u!"2000000000000", u!"<< bilionów[ >%%spellout-cardinal-masculine-genitive-ones>];"),
    (u!"1000000000000000", u!"biliarda[ >%%spellout-cardinal-masculine-genitive-ones>];"),
    (u!"2000000000000000", u!"<< biliardów[ >%%spellout-cardinal-masculine-genitive-ones>];"),
    (u!"1000000000000000000", u!"=#,##0=;")]),
  (u!"%spellout-cardinal-feminine-genitive", [(u!"-x", u!"minus >>;"),
    (u!"x.x", u!"<%spellout-cardinal-feminine-genitive< przecinek >>;"),
    (u!"0", u!"zera;"),
    (u!"1", u!"jednej;"),
    (u!"2", u!"=%spellout-cardinal-masculine-genitive=;")]),
  (u!"%spellout-cardinal-neuter-genitive", [(u!"0", u!"=%spellout-cardinal-masculine-genitive=;")]),
  (u!"%spellout-cardinal-masculine-dative", [(u!"-x", u!"minus >>;"),
    (u!"x.x", u!"<%spellout-cardinal-masculine-dative< przecinek >>;"),
    (u!"0", u!"zeru;"),
    (u!"1", u!"jednemu;"),
    (u!"2", u!"dwóm;"),
    (u!"3", u!"trzem;"),
    (u!"4", u!"czterem;"),
    (u!"5", u!"pięciu;"),
    (u!"6", u!"sześciu;"),
    (u!"7", u!"siedmiu;"),
    (u!"8", u!"ośmiu;"),
    (u!"9", u!"dziewięciu;"),
    (u!"10", u!"dziesięciu;"),
    (u!"11", u!"jedenastu;"),
    (u!"12", u!"dwunastu;"),
    (u!"13", u!"trzynastu;"),
    (u!"14", u!"czternastu;"),
    (u!"15", u!"piętnastu;"),
    (u!"16", u!"szesnastu;"),
    (u!"17", u!"siedemnastu;"),
    (u!"18", u!"osiemnastu;"),
    (u!"19", u!"dziewiętnastu;"),
    (u!"20", u!"<%%spellout-cardinal-genitive-tens<[ >%%spellout-cardinal-masculine-dative-ones>];"),
    (u!"100", u!"stu[ >%%spellout-cardinal-masculine-dative-ones>];"),
    (u!"200", u!"dwustu[ >%%spellout-cardinal-masculine-dative-ones>];"),
    (u!"300", u!"<%spellout-cardinal-feminine<stu[ >%%spellout-cardinal-masculine-dative-ones>];"),
    (u!"500", u!"<%spellout-cardinal-feminine-genitive<set[ >%%spellout-cardinal-masculine-dative-ones>];"),
    (u!"1000", u!"tysiącowi[ >%%spellout-cardinal-masculine-dative-ones>];"),
    (u!"2000", u!"<< tysiącom[ >%%spellout-cardinal-masculine-dative-ones>];"),
    (u!"1000000", u!"milionowi[ >%%spellout-cardinal-masculine-dative-ones>];"),
    (u!"2000000", u!"<< milionom[ >%%spellout-cardinal-masculine-dative-ones>];"),
    (u!"1000000000", u!"miliardowi[ >%%spellout-cardinal-masculine-dative-ones>];"),
    (u!"2000000000", u!"<< miliardom[ >%%spellout-cardinal-masculine-dative-ones>];"),
    (u!"1000000000000", u!"bilionowi[ >%%spellout-cardinal-masculine-dative-ones>];"),
    (u!"2000000000000", u!"<< bilionom[ >%%spellout-cardinal-masculine-dative-ones>];"),
    (u!"1000000000000000", u!"biliardowi[ >%%spellout-cardinal-masculine-dative-ones>];"),
    (u!"2000000000000000", u!"<< biliardom[ >%%spellout-cardinal-masculine-dative-ones>];"),
    (u!"1000000000000000000", u!"=#,##0=;")]),
  (u!"%spellout-cardinal-feminine-dative", [(u!"-x", u!"minus >>;"),
    (u!"x.x", u!"<%spellout-cardinal-feminine-dative< przecinek >>;"),
    (u!"0", u!"zeru;"),
    (u!"1", u!"jednej;"),
    (u!"2", u!"=%spellout-cardinal-masculine-dative=;")]),
  (u!"%spellout-cardinal-neuter-dative", [(u!"0", u!"=%spellout-cardinal-masculine-dative=;")]),
  (u!"%spellout-cardinal-masculine-accusative", [(u!"0", u!"=%spellout-cardinal-masculine=;")]),
  (u!"%spellout-cardinal-masculine-accusative-animate", [(u!"-x", u!"minus >%spellout-cardinal-masculine-accusative-animate>;"),
    (u!"x.x", u!"<%spellout-cardinal-masculine-accusative-animate< przecinek >>;"),
    (u!"0", u!"zero;"),
    (u!"1", u!"jednego;"),
    (u!"2", u!"=%spellout-cardinal-masculine=;")]),
  (u!"%spellout-cardinal-masculine-accusative-personal", [(u!"-x", u!"minus >>;"),
    (u!"x.x", u!"<%spellout-cardinal-masculine-accusative-personal< przecinek >>;"),
    (u!"0", u!"=%spellout-cardinal-masculine-genitive=;"),
    (u!"1000", u!"tysiąc[ >%%spellout-cardinal-masculine-genitive-ones>];"),
    (u!"2000", u!"<%spellout-cardinal-masculine< $(cardinal,few{tysiące}other{tysięcy})$[ >%%spellout-cardinal-masculine-genitive-ones>];"),
    (u!"1000000", u!"milion[ >>];"),
    (u!"2000000", u!"<%spellout-cardinal-masculine< $(cardinal,few{miliony}other{milionów})$[ >>];"),
    (u!"1000000000", u!"miliard[ >>];"),
    (u!"2000000000", u!"<%spellout-cardinal-masculine< $(cardinal,few{miliardy}other{miliardów})$[ >>];"),
    (u!"1000000000000", u!"bilion[ >>];"),
    (u!"2000000000000", u!"<%spellout-cardinal-masculine< $(cardinal,few{biliony}other{bilionów})$[ >>];"),
    (u!"1000000000000000", u!"biliard[ >>];"),
    (u!"2000000000000000", u!"<%spellout-cardinal-masculine< $(cardinal,few{biliardy}other{biliardów})$[ >>];"),
    (u!"1000000000000000000", u!"=#,##0=;")]),
  (u!"%spellout-cardinal-feminine-accusative", [(u!"-x", u!"minus >>;"),
    (u!"x.x", u!"<%spellout-cardinal-feminine-accusative< przecinek >>;"),
    (u!"0", u!"zero;"),
    (u!"1", u!"jedną;"),
    (u!"2", u!"=%spellout-cardinal-feminine=;")]),
  (u!"%spellout-cardinal-neuter-accusative", [(u!"-x", u!"minus >>;"),
    (u!"x.x", u!"<%spellout-cardinal-neuter-accusative< przecinek >>;"),
    (u!"0", u!"zero;"),
    (u!"1", u!"jedno;"),
    (u!"2", u!"=%spellout-cardinal-masculine=;")]),
  (u!"%spellout-cardinal-masculine-instrumental", [(u!"-x", u!"minus >>;"),
    (u!"x.x", u!"<%spellout-cardinal-masculine-instrumental< przecinek >>;"),
    (u!"0", u!"zerem;"),
    (u!"1", u!"jednym;"),
    (u!"2", u!"dwoma;"),
    (u!"3", u!"trzema;"),
    (u!"4", u!"czterema;"),
    (u!"5", u!"pięcioma;"),
    (u!"6", u!"sześcioma;"),
    (u!"7", u!"siedmioma;"),
    (u!"8", u!"ośmioma;"),
    (u!"9", u!"dziewięcioma;"),
    (u!"10", u!"dziesięcioma;"),
    (u!"11", u!"jedenastoma;"),
    (u!"12", u!"dwunastoma;"),
    (u!"13", u!"trzynastoma;"),
    (u!"14", u!"czternastoma;"),
    (u!"15", u!"piętnastoma;"),
    (u!"16", u!"szesnastoma;"),
    (u!"17", u!"siedemnastoma;"),
    (u!"18", u!"osiemnastoma;"),
    (u!"19", u!"dziewiętnastoma;"),
    (u!"20", u!"dwudziestoma[ >%%spellout-cardinal-masculine-instrumental-ones>];"),
    (u!"30", u!"trzydziestoma[ >%%spellout-cardinal-masculine-instrumental-ones>];"),
    (u!"40", u!"czterdziestoma[ >%%spellout-cardinal-masculine-instrumental-ones>];"),
    (u!"50", u!"pięćdziesięcioma[ >%%spellout-cardinal-masculine-instrumental-ones>];"),
    (u!"60", u!"sześćdziesięcioma[ >%%spellout-cardinal-masculine-instrumental-ones>];"),
    (u!"70", u!"siedemdziesięcioma[ >%%spellout-cardinal-masculine-instrumental-ones>];"),
    (u!"80", u!"osiemdziesięcioma[ >%%spellout-cardinal-masculine-instrumental-ones>];"),
    (u!"90", u!"dziewięćdziesięcioma[ >%%spellout-cardinal-masculine-instrumental-ones>];"),
    (u!"100", u!"stu[ >%%spellout-cardinal-masculine-instrumental-ones>];"),
    (u!"200", u!"dwustu[ >%%spellout-cardinal-masculine-instrumental-ones>];"),
    (u!"300", u!"<%spellout-cardinal-feminine<stu[ >%%spellout-cardinal-masculine-instrumental-ones>];"),
    (u!"500", u!"<%spellout-cardinal-feminine-genitive<set[ >%%spellout-cardinal-masculine-instrumental-ones>];"),
    (u!"1000", u!"tysiącem[ >%%spellout-cardinal-masculine-instrumental-ones>];"),
    (u!"2000", u!"<< tysiącami[ >%%spellout-cardinal-masculine-instrumental-ones>];"),
    (u!"1000000", u!"milionem[ >%%spellout-cardinal-masculine-instrumental-ones>];"),
    (u!"2000000", u!"<< milionami[ >%%spellout-cardinal-masculine-instrumental-ones>];"),
    (u!"1000000000", u!"miliardem[ >%%spellout-cardinal-masculine-instrumental-ones>];"),
    (u!"2000000000", u!"<< miliardami[ >%%spellout-cardinal-masculine-instrumental-ones>];"),
    (u!"1000000000000", u!"bilionem[ >%%spellout-cardinal-masculine-instrumental-ones>];"),
    (u!"2000000000000", u!"<< bilionami[ >%%spellout-cardinal-masculine-instrumental-ones>];"),
    (u!"1000000000000000", u!"biliardem[ >%%spellout-cardinal-masculine-instrumental-ones>];"),
    (u!"2000000000000000", u!"<< biliardami[ >%%spellout-cardinal-masculine-instrumental-ones>];"),
    (u!"1000000000000000000", u!"=#,##0=;")]),
  (u!"%spellout-cardinal-feminine-instrumental", [(u!"-x", u!"minus >>;"),
    (u!"x.x", u!"<%spellout-cardinal-feminine-instrumental< przecinek >>;"),
    (u!"0", u!"zerem;"),
    (u!"1", u!"jedną;"),
    (u!"2", u!"dwiema;"),
    (u!"3", u!"=%spellout-cardinal-masculine-instrumental=;")]),
  (u!"%spellout-cardinal-neuter-instrumental", [(u!"0", u!"=%spellout-cardinal-masculine-instrumental=;")]),
  (u!"%spellout-cardinal-masculine-locative", [(u!"-x", u!"minus >%spellout-cardinal-masculine-locative>;"),
    (u!"x.x", u!"<%spellout-cardinal-masculine-locative< przecinek >>;"),
    (u!"0", u!"zerze;"),
    (u!"1", u!"jednym;"),
    (u!"2", u!"dwóch;"),
    (u!"3", u!"trzech;"),
    (u!"4", u!"czterech;"),
    (u!"5", u!"pięciu;"),
    (u!"6", u!"sześciu;"),
    (u!"7", u!"siedmiu;"),
    (u!"8", u!"ośmiu;"),
    (u!"9", u!"dziewięciu;"),
    (u!"10", u!"dziesięciu;"),
    (u!"11", u!"jedenastu;"),
    (u!"12", u!"dwunastu;"),
    (u!"13", u!"trzynastu;"),
    (u!"14", u!"czternastu;"),
    (u!"15", u!"piętnastu;"),
    (u!"16", u!"szesnastu;"),
    (u!"17", u!"siedemnastu;"),
    (u!"18", u!"osiemnastu;"),
    (u!"19", u!"dziewiętnastu;"),
    (u!"20", u!"<%%spellout-cardinal-genitive-tens<[ >%%spellout-cardinal-masculine-locative-ones>];"),
    (u!"100", u!"stu[ >%%spellout-cardinal-masculine-locative-ones>];"),
    (u!"200", u!"dwustu[ >%%spellout-cardinal-masculine-locative-ones>];"),
    (u!"300", u!"<%spellout-cardinal-feminine<stu[ >%%spellout-cardinal-masculine-locative-ones>];"),
    (u!"500", u!"<%spellout-cardinal-feminine-genitive<set[ >%%spellout-cardinal-masculine-locative-ones>];"),
    (u!"1000", u!"tysiącu[ >%%spellout-cardinal-masculine-locative-ones>];"),
    (u!"2000", u!"<< tysiącach[ >%%spellout-cardinal-masculine-locative-ones>];"),
    (u!"1000000", u!"milionie[ >%%spellout-cardinal-masculine-locative-ones>];"),
    (u!"2000000", u!"<< milionach[ >%%spellout-cardinal-masculine-locative-ones>];"),
    (u!"1000000000", u!"miliardzie[ >%%spellout-cardinal-masculine-locative-ones>];"),
    (u!"2000000000", u!"<< miliardach[ >%%spellout-cardinal-masculine-locative-ones>];"),
    (u!"1000000000000", u!"bilionie[ >%%spellout-cardinal-masculine-locative-ones>];"),
    (u!"2000000000000", u!"<< bilionach[ >%%spellout-cardinal-masculine-locative-ones>];"),
    (u!"1000000000000000", u!"biliardzie[ >%%spellout-cardinal-masculine-locative-ones>];"),
    (u!"2000000000000000", u!"<< biliardach[ >%%spellout-cardinal-masculine-locative-ones>];"),
    (u!"1000000000000000000", u!"=#,##0=;")]),
  (u!"%spellout-cardinal-feminine-locative", [(u!"-x", u!"minus >>;"),
    (u!"x.x", u!"<%spellout-cardinal-feminine-locative< przecinek >>;"),
    (u!"0", u!"zerze;"),
    (u!"1", u!"jednej;"),
    (u!"2", u!"=%spellout-cardinal-masculine-locative=;")]),
  (u!"%%spellout-cardinal-masculine-genitive-ones", [(u!"1", u!"jeden;"),
    (u!"2", u!"=%spellout-cardinal-masculine-genitive=;")]),
  (u!"%%spellout-cardinal-masculine-dative-ones", [(u!"1", u!"jeden;"),
    (u!"2", u!"=%spellout-cardinal-masculine-dative=;")]),
  (u!"%%spellout-cardinal-masculine-instrumental-ones", [(u!"1", u!"jeden;"),
    (u!"2", u!"=%spellout-cardinal-masculine-instrumental=;")]),
  (u!"%%spellout-cardinal-masculine-locative-ones", [(u!"1", u!"jeden;"),
    (u!"2", u!"=%spellout-cardinal-masculine-locative=;")]),
  (u!"%%spellout-cardinal-feminine-ones", [(u!"1", u!"jeden;"),
    (u!"2", u!"=%spellout-cardinal-feminine=;")]),
  (u!"%spellout-cardinal-neuter-locative", [(u!"0", u!"=%spellout-cardinal-masculine-locative=;")]),
  (u!"%%spellout-cardinal-tens", [(u!"1", u!"dziesięć;"),
    (u!"2", u!"dwadzieścia;"),
    (u!"3", u!"trzydzieści;"),
    (u!"4", u!"czterdzieści;"),
    (u!"5", u!"pięćdziesiąt;"),
    (u!"6", u!"sześćdziesiąt;"),
    (u!"7", u!"siedemdziesiąt;"),
    (u!"8", u!"osiemdziesiąt;"),
    (u!"9", u!"dziewięćdziesiąt;")]),
  (u!"%%spellout-cardinal-genitive-tens", [(u!"1", u!"dziesięciu;"),
    (u!"2", u!"dwudziestu;"),
    (u!"3", u!"trzydziestu;"),
    (u!"4", u!"czterdziestu;"),
    (u!"5", u!"pięćdziesięciu;"),
    (u!"6", u!"sześćdziesięciu;"),
    (u!"7", u!"siedemdziesięciu;"),
    (u!"8", u!"osiemdziesięciu;"),
    (u!"9", u!"dziewięćdziesięciu;")]),
  (u!"%%spellout-fraction", [(u!"10", u!"<%spellout-cardinal-masculine<<;"),
    (u!"100", u!"<%spellout-cardinal-masculine<<;"),
    (u!"1000", u!"<%spellout-cardinal-masculine<<;"),
    (u!"10000", u!"<%%spellout-fraction-digits<<;"),
    (u!"100000", u!"<%%spellout-fraction-digits<<;"),
    (u!"1000000", u!"<%%spellout-fraction-digits<<;"),
    (u!"10000000", u!"<%%spellout-fraction-digits<<;"),
    (u!"100000000", u!"<%%spellout-fraction-digits<<;"),
    (u!"1000000000", u!"<%%spellout-fraction-digits<<;"),
    (u!"10000000000", u!"<0<;")]),
  (u!"%%spellout-fraction-digits", [(u!"0", u!"=%spellout-cardinal-masculine=;"),
    (u!"10", u!"<< >>;")])]

/-- `number_parser_data/supplementary_translation_data/pl.json` -/
def plSupplementary : Supplementary where
  tables := {
    unit := []
    direct := []
    tens := []
    hundreds := []
    big := [] }
  skipTokens := []
  useLongScale := some true

/-- `number_parser/data/pl.py`, lines 1-142 -/
def plModule : Output where
  tables := {
    unit := [(u!"zera", 0), (u!"zerem", 0), (u!"zero", 0), (u!"zeru", 0), (u!"zerze", 0), (u!"dziesięciu", 1), (u!"dziesięć", 1), (u!"jeden", 1), (u!"jedna", 1), (u!"jednego", 1), (u!"jednej", 1), (u!"jednemu", 1), (u!"jedno", 1), (u!"jednym", 1), (u!"jedną", 1), (u!"dwa", 2), (u!"dwadzieścia", 2), (u!"dwaj", 2), (u!"dwie", 2), (u!"dwiema", 2), (u!"dwoma", 2), (u!"dwudziestu", 2), (u!"dwóch", 2), (u!"dwóm", 2), (u!"trzech", 3), (u!"trzej", 3), (u!"trzem", 3), (u!"trzema", 3), (u!"trzy", 3), (u!"trzydziestu", 3), (u!"trzydzieści", 3), (u!"czterdziestu", 4), (u!"czterdzieści", 4), (u!"czterech", 4), (u!"czterej", 4), (u!"czterem", 4), (u!"czterema", 4), (u!"cztery", 4), (u!"pięcioma", 5), (u!"pięciu", 5), (u!"pięć", 5), (u!"pięćdziesiąt", 5), (u!"pięćdziesięciu", 5), (u!"sześcioma", 6), (u!"sześciu", 6), (u!"sześć", 6), (u!"sześćdziesiąt", 6), (u!"sześćdziesięciu", 6), (u!"siedem", 7), (u!"siedemdziesiąt", 7), (u!"siedemdziesięciu", 7), (u!"siedmioma", 7), (u!"siedmiu", 7), (u!"osiem", 8), (u!"osiemdziesiąt", 8), (u!"osiemdziesięciu", 8), (u!"ośmioma", 8), (u!"ośmiu", 8), (u!"dziewięcioma", 9), (u!"dziewięciu", 9), (u!"dziewięć", 9), (u!"dziewięćdziesiąt", 9), (u!"dziewięćdziesięciu", 9)]
    direct := [(u!"dziesięcioma", 10), (u!"dziesięciu", 10), (u!"dziesięć", 10), (u!"jedenastoma", 11), (u!"jedenastu", 11), (u!"jedenaście", 11), (u!"dwanaście", 12), (u!"dwunastoma", 12), (u!"dwunastu", 12), (u!"trzynastoma", 13), (u!"trzynastu", 13), (u!"trzynaście", 13), (u!"czternastoma", 14), (u!"czternastu", 14), (u!"czternaście", 14), (u!"piętnastoma", 15), (u!"piętnastu", 15), (u!"piętnaście", 15), (u!"szesnastoma", 16), (u!"szesnastu", 16), (u!"szesnaście", 16), (u!"siedemnastoma", 17), (u!"siedemnastu", 17), (u!"siedemnaście", 17), (u!"osiemnastoma", 18), (u!"osiemnastu", 18), (u!"osiemnaście", 18), (u!"dziewiętnastoma", 19), (u!"dziewiętnastu", 19), (u!"dziewiętnaście", 19)]
    tens := [(u!"dwudziestoma", 20), (u!"trzydziestoma", 30), (u!"czterdziestoma", 40), (u!"pięćdziesięcioma", 50), (u!"sześćdziesięcioma", 60), (u!"siedemdziesięcioma", 70), (u!"osiemdziesięcioma", 80), (u!"dziewięćdziesięcioma", 90)]
    hundreds := [(u!"dwieście", 200), (u!"dwustu", 200)]
    big := [(u!"tysiącach", 1000), (u!"tysiącami", 1000), (u!"tysiące", 1000), (u!"tysiącom", 1000), (u!"tysięcy", 1000), (u!"milionach", 1000000), (u!"milionami", 1000000), (u!"milionom", 1000000), (u!"miliony", 1000000), (u!"milionów", 1000000), (u!"miliardach", 1000000000), (u!"miliardami", 1000000000), (u!"miliardom", 1000000000), (u!"miliardy", 1000000000), (u!"miliardów", 1000000000), (u!"bilionach", 1000000000000), (u!"bilionami", 1000000000000), (u!"bilionom", 1000000000000), (u!"biliony", 1000000000000), (u!"bilionów", 1000000000000), (u!"biliardach", 1000000000000000), (u!"biliardami", 1000000000000000), (u!"biliardom", 1000000000000000), (u!"biliardy", 1000000000000000), (u!"biliardów", 1000000000000000)] }
  skipTokens := []
  useLongScale := some true

/-- `number_parser_data/raw_cldr_translation_data/pt.json`, `SpelloutRules` -/
def ptRules : RuleSets := [
  (u!"%%lenient-parse", [(u!"0", u!"&[last primary ignorable ] << ' ' << ',' << '-' << '\u00ad';")]),
  (u!"%spellout-numbering-year", [(u!"x.x", u!"=0.0=;"),
    (u!"0", u!"=%spellout-numbering=;")]),
  (u!"%spellout-numbering", [(u!"0", u!"=%spellout-cardinal-masculine=;")]),
  (u!"%spellout-cardinal-masculine", [(u!"-x", u!"menos >>;"),
    (u!"x.x", u!"<< vírgula >>;"),
    (u!"0", u!"zero;"),
    (u!"1", u!"um;"),
    (u!"2", u!"dois;"),
    (u!"3", u!"três;"),
    (u!"4", u!"quatro;"),
    (u!"5", u!"cinco;"),
    (u!"6", u!"seis;"),
    (u!"7", u!"sete;"),
    (u!"8", u!"oito;"),
    (u!"9", u!"nove;"),
    (u!"10", u!"dez;"),
    (u!"11", u!"onze;"),
    (u!"12", u!"doze;"),
    (u!"13", u!"treze;"),
    (u!"14", u!"catorze;"),
    (u!"15", u!"quinze;"),
    (u!"16", u!"dezesseis;"),
    (u!"17", u!"dezessete;"),
    (u!"18", u!"dezoito;"),
    (u!"19", u!"dezenove;"),
    (u!"20", u!"vinte[ e >>];"),
    (u!"30", u!"trinta[ e >>];"),
    (u!"40", u!"quarenta[ e >>];"),
    (u!"50", u!"cinquenta[ e >>];"),
    (u!"60", u!"sessenta[ e >>];"),
    (u!"70", u!"setenta[ e >>];"),
    (u!"80", u!"oitenta[ e >>];"),
    (u!"90", u!"noventa[ e >>];"),
    (u!"100", u!"cem;"),
    (u!"101", u!"cento e >>;"),
    (u!"200", u!"duzentos[ e >>];"),
    (u!"300", u!"trezentos[ e >>];"),
    (u!"400", u!"quatrocentos[ e >>];"),
    (u!"500", u!"quinhentos[ e >>];"),
    (u!"600", u!"seiscentos[ e >>];"),
    (u!"700", u!"setecentos[ e >>];"),
    (u!"800", u!"oitocentos[ e >>];"),
    (u!"900", u!"novecentos[ e >>];"),
    (u!"1000", u!"mil[ e >>];"),
    (u!"2000", u!"<< mil[ e >>];"),
    (u!"1000000", u!"um milhão[ e >>];"),
    (u!"2000000", u!"<< milhões[ e >>];"),
    (u!"1000000000", u!"um bilhão[ e >>];"),
    (u!"2000000000", u!"<< bilhões[ e >>];"),
    (u!"1000000000000", u!"um trilhão[ e >>];"),
    (u!"2000000000000", u!"<< trilhões[ e >>];"),
    (u!"1000000000000000", u!"um quatrilhão[ e >>];"),
    (u!"2000000000000000", u!"<< quatrilhões[ e >>];"),
    (u!"1000000000000000000", u!"=#,##0=;")]),
  (u!"%spellout-cardinal-feminine", [(u!"-x", u!"menos >>;"),
    (u!"x.x", u!"<< vírgula >>;"),
    (u!"0", u!"zero;"),
    (u!"1", u!"uma;"),
    (u!"2", u!"duas;"),
    (u!"3", u!"=%spellout-cardinal-masculine=;"),
    (u!"20", u!"vinte[ e >>];"),
    (u!"30", u!"trinta[ e >>];"),
    (u!"40", u!"quarenta[ e >>];"),
    (u!"50", u!"cinquenta[ e >>];"),
    (u!"60", u!"sessenta[ e >>];"),
    (u!"70", u!"setenta[ e >>];"),
    (u!"80", u!"oitenta[ e >>];"),
    (u!"90", u!"noventa[ e >>];"),
    (u!"100", u!"cem;"),
    (u!"101", u!"cento e >>;"),
    (u!"200", u!"duzentas[ e >>];"),
    (u!"300", u!"trezentas[ e >>];"),
    (u!"400", u!"quatrocentas[ e >>];"),
    (u!"500", u!"quinhentas[ e >>];"),
    (u!"600", u!"seiscentas[ e >>];"),
    (u!"700", u!"setecentas[ e >>];"),
    (u!"800", u!"oitocentas[ e >>];"),
    (u!"900", u!"novecentas[ e >>];"),
    (u!"1000", u!"mil[ e >>];"),
    (u!"2000", u!"<< mil[ e >>];"),
    (u!"1000000", u!"um milhão[ e >>];"),
    (u!"2000000", u!"<%spellout-cardinal-masculine< milhões[ e >>];"),
    (u!"1000000000", u!"um bilhão[ e >>];"),
    (u!"2000000000", u!"<%spellout-cardinal-masculine< bilhões[ e >>];"),
    (u!"1000000000000", u!"um trilhão[ e >>];"),
    (u!"2000000000000", u!"<%spellout-cardinal-masculine< trilhões[ e >>];"),
    (u!"1000000000000000", u!"um quatrilhão[ e >>];"),
    (u!"2000000000000000", u!"<%spellout-cardinal-masculine< quatrilhões[ e >>];"),
    (u!"1000000000000000000", u!"=#,##0=;")]),
  (u!"%spellout-ordinal-masculine", [(u!"-x", u!"menos >>;"),
    (u!"x.x", u!"=#,##0.#=;"),
    (u!"0", u!"zero;"),
    (u!"1", u!"primeiro;"),
    (u!"2", u!"segundo;"),
    (u!"3", u!"terceiro;"),
    (u!"4", u!"quarto;"),
    (u!"5", u!"quinto;"),
    (u!"6", u!"sexto;"),
    (u!"7", u!"sétimo;"),
    (u!"8", u!"oitavo;"),
    (u!"9", u!"nono;"),
    (u!"10", u!"décimo[ >>];"),
    (u!"20", u!"vigésimo[ >>];"),
    (u!"30", u!"trigésimo[ >>];"),
    (u!"40", u!"quadragésimo[ >>];"),
    (u!"50", u!"quinquagésimo[ >>];"),
    (u!"60", u!"sexagésimo[ >>];"),
    (u!"70", u!"septuagésimo[ >>];"),
    (u!"80", u!"octogésimo[ >>];"),
    (u!"90", u!"nonagésimo[ >>];"),
    (u!"100", u!"centésimo[ >>];"),
    (u!"200", u!"ducentésimo[ >>];"),
    (u!"300", u!"tricentésimo[ >>];"),
    (u!"400", u!"quadringentésimo[ >>];"),
    (u!"500", u!"quingentésimo[ >>];"),
    (u!"600", u!"sexcentésimo[ >>];"),
    (u!"700", u!"septingentésimo[ >>];"),
    (u!"800", u!"octingentésimo[ >>];"),
    (u!"900", u!"noningentésimo[ >>];"),
    (u!"1000", u!"milésimo[ >>];"),
    (u!"2000", u!"<%spellout-cardinal-masculine< \u00admilésimo[ >>];"),
    (u!"1000000", u!"um milionésimo[ >>];"),
    (u!"2000000", u!"<%spellout-cardinal-masculine< milionésimo[ >>];"),
    (u!"1000000000", u!"um bilionésimo[ >>];"),
    (u!"2000000000", u!"<%spellout-cardinal-masculine< bilionésimo[ >>];"),
    (u!"1000000000000", u!"um trilionésimo[ >>];"),
    (u!"2000000000000", u!"<%spellout-cardinal-masculine< trilionésima[ >>];"),
    (u!"1000000000000000", u!"um quadrilionésimo[ >>];"),
    (u!"2000000000000000", u!"<%spellout-cardinal-masculine< quadrilionésimo[ >>];"),
    (u!"1000000000000000000", u!"=#,##0=º;")]),
  (u!"%spellout-ordinal-feminine", [(u!"-x", u!"menos >>;"),
    (u!"x.x", u!"=#,##0.#=;"),
    (u!"0", u!"zero;"),
    (u!"1", u!"primeira;"),
    (u!"2", u!"segunda;"),
    (u!"3", u!"terceira;"),
    (u!"4", u!"quarta;"),
    (u!"5", u!"quinta;"),
    (u!"6", u!"sexta;"),
    (u!"7", u!"sétima;"),
    (u!"8", u!"oitava;"),
    (u!"9", u!"nona;"),
    (u!"10", u!"décima[ >>];"),
    (u!"20", u!"vigésima[ >>];"),
    (u!"30", u!"trigésima[ >>];"),
    (u!"40", u!"quadragésima[ >>];"),
    (u!"50", u!"quinquagésima[ >>];"),
    (u!"60", u!"sexagésima[ >>];"),
    (u!"70", u!"septuagésima[ >>];"),
    (u!"80", u!"octogésima[ >>];"),
    (u!"90", u!"nonagésima[ >>];"),
    (u!"100", u!"centésima[ >>];"),
    (u!"200", u!"ducentésima[ >>];"),
    (u!"300", u!"tricentésima[ >>];"),
    (u!"400", u!"quadringentésima[ >>];"),
    (u!"500", u!"quingentésima[ >>];"),
    (u!"600", u!"sexcentésima[ >>];"),
    (u!"700", u!"septingentésima[ >>];"),
    (u!"800", u!"octingentésima[ >>];"),
    (u!"900", u!"noningentésima[ >>];"),
    (u!"1000", u!"milésima[ >>];"),
    (u!"2000", u!"<%spellout-cardinal-feminine< \u00admilésima[ >>];"),
    (u!"1000000", u!"uma milionésima[ >>];"),
    (u!"2000000", u!"<%spellout-cardinal-feminine< milionésima[ >>];"),
    (u!"1000000000", u!"uma bilionésima[ >>];"),
    (u!"2000000000", u!"<%spellout-cardinal-feminine< bilionésima[ >>];"),
    (u!"1000000000000", u!"uma trilionésima[ >>];"),
    (u!"2000000000000", u!"<%spellout-cardinal-feminine< trilionésima[ >>];"),
    (u!"1000000000000000", u!"uma quadrilionésima[ >>];"),
    (u!"2000000000000000", u!"<%spellout-cardinal-feminine< quadrilionésima[ >>];"),
    (u!"1000000000000000000", u!"=#,##0=ª;")])]

/-- `number_parser_data/supplementary_translation_data/pt.json` -/
def ptSupplementary : Supplementary where
  tables := {
    unit := []
    direct := []
    tens := []
    hundreds := []
    big := [] }
  skipTokens := []
  useLongScale := some false

/-- `number_parser/data/pt.py`, lines 1-65 -/
def ptModule : Output where
  tables := {
    unit := [(u!"zero", 0), (u!"um", 1), (u!"uma", 1), (u!"dois", 2), (u!"duas", 2), (u!"três", 3), (u!"quatro", 4), (u!"cinco", 5), (u!"seis", 6), (u!"sete", 7), (u!"oito", 8), (u!"nove", 9)]
    direct := [(u!"dez", 10), (u!"onze", 11), (u!"doze", 12), (u!"treze", 13), (u!"catorze", 14), (u!"quinze", 15), (u!"dezesseis", 16), (u!"dezessete", 17), (u!"dezoito", 18), (u!"dezenove", 19)]
    tens := [(u!"vinte", 20), (u!"trinta", 30), (u!"quarenta", 40), (u!"cinquenta", 50), (u!"sessenta", 60), (u!"setenta", 70), (u!"oitenta", 80), (u!"noventa", 90)]
    hundreds := [(u!"duzentas", 200), (u!"duzentos", 200), (u!"trezentas", 300), (u!"trezentos", 300), (u!"quatrocentas", 400), (u!"quatrocentos", 400), (u!"quinhentas", 500), (u!"quinhentos", 500), (u!"seiscentas", 600), (u!"seiscentos", 600), (u!"setecentas", 700), (u!"setecentos", 700), (u!"oitocentas", 800), (u!"oitocentos", 800), (u!"novecentas", 900), (u!"novecentos", 900)]
    big := [(u!"mil", 1000), (u!"milhões", 1000000), (u!"bilhões", 1000000000), (u!"trilhões", 1000000000000), (u!"quatrilhões", 1000000000000000)] }
  skipTokens := []
  useLongScale := some false

/-- `number_parser_data/raw_cldr_translation_data/pt-PT.json`, `SpelloutRules` -/
def pt_PTRules : RuleSets := [
  (u!"%%lenient-parse", [(u!"0", u!"&[last primary ignorable ] << ' ' << ',' << '-' << '\u00ad';")]),
  (u!"%spellout-numbering-year", [(u!"x.x", u!"=0.0=;"),
    (u!"0", u!"=%spellout-numbering=;")]),
  (u!"%spellout-numbering", [(u!"0", u!"=%spellout-cardinal-masculine=;")]),
  (u!"%spellout-cardinal-masculine", [(u!"-x", u!"menos >>;"),
    (u!"x.x", u!"<< vírgula >>;"),
    (u!"0", u!"zero;"),
    (u!"1", u!"um;"),
    (u!"2", u!"dois;"),
    (u!"3", u!"três;"),
    (u!"4", u!"quatro;"),
    (u!"5", u!"cinco;"),
    (u!"6", u!"seis;"),
    (u!"7", u!"sete;"),
    (u!"8", u!"oito;"),
    (u!"9", u!"nove;"),
    (u!"10", u!"dez;"),
    (u!"11", u!"onze;"),
    (u!"12", u!"doze;"),
    (u!"13", u!"treze;"),
    (u!"14", u!"catorze;"),
    (u!"15", u!"quinze;"),
    (u!"16", u!"dezasseis;"),
    (u!"17", u!"dezassete;"),
    (u!"18", u!"dezoito;"),
    (u!"19", u!"dezanove;"),
    (u!"20", u!"vinte[ e >>];"),
    (u!"30", u!"trinta[ e >>];"),
    (u!"40", u!"quarenta[ e >>];"),
    (u!"50", u!"cinquenta[ e >>];"),
    (u!"60", u!"sessenta[ e >>];"),
    (u!"70", u!"setenta[ e >>];"),
    (u!"80", u!"oitenta[ e >>];"),
    (u!"90", u!"noventa[ e >>];"),
    (u!"100", u!"cem;"),
    (u!"101", u!"cento e >>;"),
    (u!"200", u!"duzentos[ e >>];"),
    (u!"300", u!"trezentos[ e >>];"),
    (u!"400", u!"quatrocentos[ e >>];"),
    (u!"500", u!"quinhentos[ e >>];"),
    (u!"600", u!"seiscentos[ e >>];"),
    (u!"700", u!"setecentos[ e >>];"),
    (u!"800", u!"oitocentos[ e >>];"),
    (u!"900", u!"novecentos[ e >>];"),
    (u!"1000", u!"mil[ e >>];"),
    (u!"2000", u!"<< mil[ e >>];"),
    (u!"1000000", u!"um milhão[ e >>];"),
    (u!"2000000", u!"<< milhões[ e >>];"),
    (u!"1000000000", u!"um bilião[ e >>];"),
    (u!"2000000000", u!"<< biliões[ e >>];"),
    (u!"1000000000000", u!"um trilião[ e >>];"),
    (u!"2000000000000", u!"<< triliões[ e >>];"),
    (u!"1000000000000000", u!"um quatrilião[ e >>];"),
    (u!"2000000000000000", u!"<< quatriliões[ e >>];"),
    (u!"1000000000000000000", u!"=#,##0=;")]),
  (u!"%spellout-cardinal-feminine", [(u!"-x", u!"menos >>;"),
    (u!"x.x", u!"<< vírgula >>;"),
    (u!"0", u!"zero;"),
    (u!"1", u!"uma;"),
    (u!"2", u!"duas;"),
    (u!"3", u!"=%spellout-cardinal-masculine=;"),
    (u!"20", u!"vinte[ e >>];"),
    (u!"30", u!"trinta[ e >>];"),
    (u!"40", u!"quarenta[ e >>];"),
    (u!"50", u!"cinquenta[ e >>];"),
    (u!"60", u!"sessenta[ e >>];"),
    (u!"70", u!"setenta[ e >>];"),
    (u!"80", u!"oitenta[ e >>];"),
    (u!"90", u!"noventa[ e >>];"),
    (u!"100", u!"cem;"),
    (u!"101", u!"cento e >>;"),
    (u!"200", u!"duzentas[ e >>];"),
    (u!"300", u!"trezentas[ e >>];"),
    (u!"400", u!"quatrocentas[ e >>];"),
    (u!"500", u!"quinhentas[ e >>];"),
    (u!"600", u!"seiscentas[ e >>];"),
    (u!"700", u!"setecentas[ e >>];"),
    (u!"800", u!"oitocentas[ e >>];"),
    (u!"900", u!"novecentas[ e >>];"),
    (u!"1000", u!"mil[ e >>];"),
    (u!"2000", u!"<< mil[ e >>];"),
    (u!"1000000", u!"um milhão[ e >>];"),
    (u!"2000000", u!"<%spellout-cardinal-masculine< milhões[ e >>];"),
    (u!"1000000000", u!"um bilião[ e >>];"),
    (u!"2000000000", u!"<%spellout-cardinal-masculine< biliões[ e >>];"),
    (u!"1000000000000", u!"um trilião[ e >>];"),
    (u!"2000000000000", u!"<%spellout-cardinal-masculine< triliões[ e >>];"),
    (u!"1000000000000000", u!"um quatrilião[ e >>];"),
    (u!"2000000000000000", u!"<%spellout-cardinal-masculine< quatriliões[ e >>];"),
    (u!"1000000000000000000", u!"=#,##0=;")]),
  (u!"%spellout-ordinal-masculine", [(u!"-x", u!"menos >>;"),
    (u!"x.x", u!"=#,##0.#=;"),
    (u!"0", u!"zero;"),
    (u!"1", u!"primeiro;"),
    (u!"2", u!"segundo;"),
    (u!"3", u!"terceiro;"),
    (u!"4", u!"quarto;"),
    (u!"5", u!"quinto;"),
    (u!"6", u!"sexto;"),
    (u!"7", u!"sétimo;"),
    (u!"8", u!"oitavo;"),
    (u!"9", u!"nono;"),
    (u!"10", u!"décimo[ >>];"),
    (u!"20", u!"vigésimo[ >>];"),
    (u!"30", u!"trigésimo[ >>];"),
    (u!"40", u!"quadragésimo[ >>];"),
    (u!"50", u!"quinquagésimo[ >>];"),
    (u!"60", u!"sexagésimo[ >>];"),
    (u!"70", u!"septuagésimo[ >>];"),
    (u!"80", u!"octogésimo[ >>];"),
    (u!"90", u!"nonagésimo[ >>];"),
    (u!"100", u!"centésimo[ >>];"),
    (u!"200", u!"ducentésimo[ >>];"),
    (u!"300", u!"tricentésimo[ >>];"),
    (u!"400", u!"quadringentésimo[ >>];"),
    (u!"500", u!"quingentésimo[ >>];"),
    (u!"600", u!"sexcentésimo[ >>];"),
    (u!"700", u!"septingentésimo[ >>];"),
    (u!"800", u!"octingentésimo[ >>];"),
    (u!"900", u!"noningentésimo[ >>];"),
    (u!"1000", u!"milésimo[ >>];"),
    (u!"2000", u!"<%spellout-cardinal-masculine< \u00admilésimo[ >>];"),
    (u!"1000000", u!"um milionésimo[ >>];"),
    (u!"2000000", u!"<%spellout-cardinal-masculine< milionésimo[ >>];"),
    (u!"1000000000", u!"um bilionésimo[ >>];"),
    (u!"2000000000", u!"<%spellout-cardinal-masculine< bilionésimo[ >>];"),
    (u!"1000000000000", u!"um trilionésimo[ >>];"),
    (u!"2000000000000", u!"<%spellout-cardinal-masculine< trilionésima[ >>];"),
    (u!"1000000000000000", u!"um quadrilionésimo[ >>];"),
    (u!"2000000000000000", u!"<%spellout-cardinal-masculine< quadrilionésimo[ >>];"),
    (u!"1000000000000000000", u!"=#,##0=º;")]),
  (u!"%spellout-ordinal-feminine", [(u!"-x", u!"menos >>;"),
    (u!"x.x", u!"=#,##0.#=;"),
    (u!"0", u!"zero;"),
    (u!"1", u!"primeira;"),
    (u!"2", u!"segunda;"),
    (u!"3", u!"terceira;"),
    (u!"4", u!"quarta;"),
    (u!"5", u!"quinta;"),
    (u!"6", u!"sexta;"),
    (u!"7", u!"sétima;"),
    (u!"8", u!"oitava;"),
    (u!"9", u!"nona;"),
    (u!"10", u!"décima[ >>];"),
    (u!"20", u!"vigésima[ >>];"),
    (u!"30", u!"trigésima[ >>];"),
    (u!"40", u!"quadragésima[ >>];"),
    (u!"50", u!"quinquagésima[ >>];"),
    (u!"60", u!"sexagésima[ >>];"),
    (u!"70", u!"septuagésima[ >>];"),
    (u!"80", u!"octogésima[ >>];"),
    (u!"90", u!"nonagésima[ >>];"),
    (u!"100", u!"centésima[ >>];"),
    (u!"200", u!"ducentésima[ >>];"),
    (u!"300", u!"tricentésima[ >>];"),
    (u!"400", u!"quadringentésima[ >>];"),
    (u!"500", u!"quingentésima[ >>];"),
    (u!"600", u!"sexcentésima[ >>];"),
    (u!"700", u!"septingentésima[ >>];"),
    (u!"800", u!"octingentésima[ >>];"),
    (u!"900", u!"noningentésima[ >>];"),
    (u!"1000", u!"milésima[ >>];"),
    (u!"2000", u!"<%spellout-cardinal-feminine< \u00admilésima[ >>];"),
    (u!"1000000", u!"uma milionésima[ >>];"),
    (u!"2000000", u!"<%spellout-cardinal-feminine< milionésima[ >>];"),
    (u!"1000000000", u!"uma bilionésima[ >>];"),
    (u!"2000000000", u!"<%spellout-cardinal-feminine< bilionésima[ >>];"),
    (u!"1000000000000", u!"uma trilionésima[ >>];"),
    (u!"2000000000000", u!"<%spellout-cardinal-feminine< trilionésima[ >>];"),
    (u!"1000000000000000", u!"uma quadrilionésima[ >>];"),
    (u!"2000000000000000", u!"<%spellout-cardinal-feminine< quadrilionésima[ >>];"),
    (u!"1000000000000000000", u!"=#,##0=ª;")])]

/-- `number_parser_data/supplementary_translation_data/pt-PT.json` -/
def pt_PTSupplementary : Supplementary where
  tables := {
    unit := []
    direct := []
    tens := []
    hundreds := []
    big := [] }
  skipTokens := []
  useLongScale := some true

/-- `number_parser/data/pt-PT.py`, lines 1-65 -/
def pt_PTModule : Output where
  tables := {
    unit := [(u!"zero", 0), (u!"um", 1), (u!"uma", 1), (u!"dois", 2), (u!"duas", 2), (u!"três", 3), (u!"quatro", 4), (u!"cinco", 5), (u!"seis", 6), (u!"sete", 7), (u!"oito", 8), (u!"nove", 9)]
    direct := [(u!"dez", 10), (u!"onze", 11), (u!"doze", 12), (u!"treze", 13), (u!"catorze", 14), (u!"quinze", 15), (u!"dezasseis", 16), (u!"dezassete", 17), (u!"dezoito", 18), (u!"dezanove", 19)]
    tens := [(u!"vinte", 20), (u!"trinta", 30), (u!"quarenta", 40), (u!"cinquenta", 50), (u!"sessenta", 60), (u!"setenta", 70), (u!"oitenta", 80), (u!"noventa", 90)]
    hundreds := [(u!"duzentas", 200), (u!"duzentos", 200), (u!"trezentas", 300), (u!"trezentos", 300), (u!"quatrocentas", 400), (u!"quatrocentos", 400), (u!"quinhentas", 500), (u!"quinhentos", 500), (u!"seiscentas", 600), (u!"seiscentos", 600), (u!"setecentas", 700), (u!"setecentos", 700), (u!"oitocentas", 800), (u!"oitocentos", 800), (u!"novecentas", 900), (u!"novecentos", 900)]
    big := [(u!"mil", 1000), (u!"milhões", 1000000), (u!"biliões", 1000000000), (u!"triliões", 1000000000000), (u!"quatriliões", 1000000000000000)] }
  skipTokens := []
  useLongScale := some true

/-- `number_parser_data/raw_cldr_translation_data/qu.json`, `SpelloutRules` -/
def quRules : RuleSets := [
  (u!"%spellout-numbering-year", [(u!"x.x", u!"=0.0=;"),
    (u!"0", u!"=%spellout-numbering=;")]),
  (u!"%spellout-numbering", [(u!"0", u!"=%spellout-cardinal=;")]),
  (u!"%%spellout-cardinal-with", [(u!"0", u!"=%spellout-cardinal=-ni-yuq;"),
    (u!"3", u!"=%spellout-cardinal=-yuq;"),
    (u!"7", u!"=%spellout-cardinal=-ni-yuq;")]),
  (u!"%spellout-cardinal", [(u!"NaN", u!"mana yupay;"),
    (u!"Inf", u!"mana usay;"),
    (u!"-x", u!"minusu >>;"),
    (u!"x.x", u!"<< comma >>;"),
    (u!"0", u!"chusaq;"),
    (u!"1", u!"huk;"),
    (u!"2", u!"iskay;"),
    (u!"3", u!"kinsa;"),
    (u!"4", u!"tawa;"),
    (u!"5", u!"phisqa;"),
    (u!"6", u!"suqta;"),
    (u!"7", u!"qanchis;"),
    (u!"8", u!"pusaq;"),
    (u!"9", u!"isqun;"),
    (u!"10", u!"chunka[ >%%spellout-cardinal-with>];"),
    (u!"20", u!"<< chunka[ >%%spellout-cardinal-with>];"),
    (u!"100", u!"<< pachak[ >>];"),
    (u!"1000", u!"<< waranqa[ >>];"),
    (u!"1000000", u!"<< hunu[ >>];"),
    (u!"1000000000", u!"<< lluna[ >>];"),
    (u!"1000000000000", u!"<< trilionu[ >>];"),
    (u!"1000000000000000", u!"<< kvadrilionu[ >>];"),
    (u!"1000000000000000000", u!"=#,##0.#=;")]),
  (u!"%spellout-ordinal", [(u!"-x", u!"minusu >>;"),
    (u!"x.x", u!"=0.0=;"),
    (u!"0", u!"=%spellout-cardinal=-ñiqin;")])]

/-- `number_parser_data/supplementary_translation_data/qu.json` -/
def quSupplementary : Supplementary where
  tables := {
    unit := []
    direct := []
    tens := []
    hundreds := []
    big := [] }
  skipTokens := []
  useLongScale := some false

/-- `number_parser/data/qu.py`, lines 1-27 -/
def quModule : Output where
  tables := {
    unit := [(u!"chusaq", 0), (u!"huk", 1), (u!"iskay", 2), (u!"kinsa", 3), (u!"tawa", 4), (u!"phisqa", 5), (u!"suqta", 6), (u!"qanchis", 7), (u!"pusaq", 8), (u!"isqun", 9)]
    direct := []
    tens := []
    hundreds := []
    big := [(u!"pachak", 100), (u!"waranqa", 1000), (u!"hunu", 1000000), (u!"lluna", 1000000000), (u!"trilionu", 1000000000000), (u!"kvadrilionu", 1000000000000000)] }
  skipTokens := []
  useLongScale := some false

/-- `number_parser_data/raw_cldr_translation_data/ro.json`, `SpelloutRules` -/
def roRules : RuleSets := [
  (u!"%spellout-numbering-year", [(u!"x.x", u!"=0.0=;"),
    (u!"0", u!"=%spellout-numbering=;")]),
  (u!"%spellout-numbering", [(u!"0", u!"=%spellout-cardinal-masculine=;")]),
  (u!"%spellout-cardinal-masculine", [(u!"-x", u!"minus >>;"),
    (u!"x.x", u!"<< virgulă >>;"),
    (u!"0", u!"zero;"),
    (u!"1", u!"unu;"),
    (u!"2", u!"doi;"),
    (u!"3", u!"trei;"),
    (u!"4", u!"patru;"),
    (u!"5", u!"cinci;"),
    (u!"6", u!"şase;"),
    (u!"7", u!"şapte;"),
    (u!"8", u!"opt;"),
    (u!"9", u!"nouă;"),
    (u!"10", u!"zece;"),
    (u!"11", u!"unsprezece;"),
    (u!"12", u!">>sprezece;"),
    (u!"20", u!"<%spellout-cardinal-feminine<zeci[ şi >>];"),
    (u!"100", u!"una sută[ >>];"),
    (u!"200", u!"<%spellout-cardinal-feminine< sute[ >>];"),
    (u!"1000", u!"una mie[ >>];"),
    (u!"2000", u!"<%spellout-cardinal-feminine< mii[ >>];"),
    (u!"1000000", u!"<%spellout-cardinal-neuter< milion[ >>];"),
    (u!"2000000", u!"<%spellout-cardinal-neuter< milioane[ >>];"),
    (u!"1000000000", u!"<%spellout-cardinal-neuter< miliard[ >>];"),
    (u!"2000000000", u!"<%spellout-cardinal-neuter< miliarde[ >>];"),
    (u!"1000000000000", u!"<%spellout-cardinal-neuter< bilion[ >>];"),
    (u!"2000000000000", u!"<%spellout-cardinal-neuter< bilioane[ >>];"),
    (u!"1000000000000000", u!"<%spellout-cardinal-neuter< biliard[ >>];"),
    (u!"2000000000000000", u!"<%spellout-cardinal-neuter< biliarde[ >>];"),
    (u!"1000000000000000000", u!"=#,##0=;")]),
  (u!"%spellout-cardinal-feminine", [(u!"-x", u!"minus >>;"),
    (u!"x.x", u!"<< virgulă >>;"),
    (u!"0", u!"zero;"),
    (u!"1", u!"una;"),
    (u!"2", u!"două;"),
    (u!"3", u!"=%spellout-cardinal-masculine=;"),
    (u!"12", u!">>sprezece;"),
    (u!"20", u!"<%spellout-cardinal-feminine<zeci[ şi >>];"),
    (u!"100", u!"una sută[ >>];"),
    (u!"200", u!"<%spellout-cardinal-feminine< sute[ >>];"),
    (u!"1000", u!"una mie[ >>];"),
    (u!"2000", u!"<%spellout-cardinal-feminine< mii[ >>];"),
    (u!"1000000", u!"<%spellout-cardinal-neuter< milion[ >>];"),
    (u!"2000000", u!"<%spellout-cardinal-neuter< milioane[ >>];"),
    (u!"1000000000", u!"<%spellout-cardinal-neuter< miliard[ >>];"),
    (u!"2000000000", u!"<%spellout-cardinal-neuter< miliarde[ >>];"),
    (u!"1000000000000", u!"<%spellout-cardinal-neuter< bilion[ >>];"),
    (u!"2000000000000", u!"<%spellout-cardinal-neuter< bilioane[ >>];"),
    (u!"1000000000000000", u!"<%spellout-cardinal-neuter< biliard[ >>];"),
    (u!"2000000000000000", u!"<%spellout-cardinal-neuter< biliarde[ >>];"),
    (u!"1000000000000000000", u!"=#,##0=;")]),
  (u!"%spellout-cardinal-neuter", [(u!"-x", u!"minus >>;"),
    (u!"x.x", u!"<< virgulă >>;"),
    (u!"0", u!"zero;"),
    (u!"1", u!"unu;"),
    (u!"2", u!"=%spellout-cardinal-feminine=;"),
    (u!"20", u!"<%spellout-cardinal-feminine<zeci[ şi >>];"),
    (u!"100", u!"una sută[ >>];"),
    (u!"200", u!"<%spellout-cardinal-feminine< sute[ >>];"),
    (u!"1000", u!"una mie[ >>];"),
    (u!"2000", u!"<%spellout-cardinal-feminine< mii[ >>];"),
    (u!"1000000", u!"<%spellout-cardinal-neuter< milion[ >>];"),
    (u!"2000000", u!"<%spellout-cardinal-neuter< milioane[ >>];"),
    (u!"1000000000", u!"<%spellout-cardinal-neuter< miliard[ >>];"),
    (u!"2000000000", u!"<%spellout-cardinal-neuter< miliarde[ >>];"),
    (u!"1000000000000", u!"<%spellout-cardinal-neuter< bilion[ >>];"),
    (u!"2000000000000", u!"<%spellout-cardinal-neuter< bilioane[ >>];"),
    (u!"1000000000000000", u!"<%spellout-cardinal-neuter< biliard[ >>];"),
    (u!"2000000000000000", u!"<%spellout-cardinal-neuter< biliarde[ >>];"),
    (u!"1000000000000000000", u!"=#,##0=;")])]

/-- `number_parser_data/supplementary_translation_data/ro.json` -/
def roSupplementary : Supplementary where
  tables := {
    unit := []
    direct := []
    tens := []
    hundreds := []
    big := [] }
  skipTokens := []
  useLongScale := some false

/-- `number_parser/data/ro.py`, lines 1-36 -/
def roModule : Output where
  tables := {
    unit := [(u!"zero", 0), (u!"una", 1), (u!"unu", 1), (u!"doi", 2), (u!"două", 2), (u!"trei", 3), (u!"patru", 4), (u!"cinci", 5), (u!"şase", 6), (u!"şapte", 7), (u!"opt", 8), (u!"nouă", 9)]
    direct := [(u!"zece", 10), (u!"unsprezece", 11)]
    tens := []
    hundreds := []
    big := [(u!"sute", 100), (u!"mii", 1000), (u!"milioane", 1000000), (u!"milion", 1000000), (u!"miliard", 1000000000), (u!"miliarde", 1000000000), (u!"bilioane", 1000000000000), (u!"bilion", 1000000000000), (u!"biliard", 1000000000000000), (u!"biliarde", 1000000000000000)] }
  skipTokens := []
  useLongScale := some false

/-- `number_parser_data/raw_cldr_translation_data/se.json`, `SpelloutRules` -/
def seRules : RuleSets := [
  (u!"%spellout-numbering-year", [(u!"-x", u!"eret >>;"),
    (u!"x.x", u!"=0.0=;"),
    (u!"0", u!"=%spellout-numbering=;"),
    (u!"1100/100", u!"<<\u00adčuođi[\u00ad>>];"),
    (u!"10000", u!"=%spellout-numbering=;")]),
  (u!"%spellout-numbering", [(u!"0", u!"=%spellout-cardinal=;")]),
  (u!"%spellout-cardinal", [(u!"-x", u!"eret >>;"),
    (u!"x.x", u!"<< pilkku >>;"),
    (u!"0", u!"nolla;"),
    (u!"1", u!"okta;"),
    (u!"2", u!"guokte;"),
    (u!"3", u!"golbma;"),
    (u!"4", u!"njeallje;"),
    (u!"5", u!"vihtta;"),
    (u!"6", u!"guhtta;"),
    (u!"7", u!"čieža;"),
    (u!"8", u!"gávcci;"),
    (u!"9", u!"ovcci;"),
    (u!"10", u!"logi;"),
    (u!"11", u!">>\u00adnuppe\u00adlohkái;"),
    (u!"20", u!"<<\u00adlogi[\u00ad>>];"),
    (u!"100", u!"<<\u00adčuođi[\u00ad>>];"),
    (u!"1000", u!"<<\u00adduhát[ >>];"),
    (u!"1000000", u!"<< miljon[ >>];"),
    (u!"1000000000", u!"<< miljard[ >>];"),
    (u!"1000000000000", u!"<< biljon[ >>];"),
    (u!"1000000000000000", u!"<< biljard[ >>];"),
    (u!"1000000000000000000", u!"=#,##0=;")])]

/-- `number_parser_data/supplementary_translation_data/se.json` -/
def seSupplementary : Supplementary where
  tables := {
    unit := []
    direct := []
    tens := []
    hundreds := []
    big := [] }
  skipTokens := []
  useLongScale := some false

/-- `number_parser/data/se.py`, lines 1-27 -/
def seModule : Output where
  tables := {
    unit := [(u!"nolla", 0), (u!"okta", 1), (u!"guokte", 2), (u!"golbma", 3), (u!"njeallje", 4), (u!"vihtta", 5), (u!"guhtta", 6), (u!"čieža", 7), (u!"gávcci", 8), (u!"ovcci", 9)]
    direct := [(u!"logi", 10)]
    tens := []
    hundreds := []
    big := [(u!"miljon", 1000000), (u!"miljard", 1000000000), (u!"biljon", 1000000000000), (u!"biljard", 1000000000000000)] }
  skipTokens := []
  useLongScale := some false

/-- `number_parser_data/raw_cldr_translation_data/sk.json`, `SpelloutRules` -/
def skRules : RuleSets := [
  (u!"%spellout-numbering-year", [(u!"x.x", u!"=0.0=;"),
    (u!"0", u!"=%spellout-numbering=;")]),
  (u!"%spellout-numbering", [(u!"0", u!"=%spellout-cardinal-masculine=;")]),
  (u!"%spellout-cardinal-masculine", [(u!"-x", u!"mínus >>;"),
    (u!"x.x", u!"<< čiarka >>;"),
    (u!"0", u!"nula;"),
    (u!"1", u!"jeden;"),
    (u!"2", u!"dva;"),
    (u!"3", u!"tri;"),
    (u!"4", u!"štyri;"),
    (u!"5", u!"päť;"),
    (u!"6", u!"šesť;"),
    (u!"7", u!"sedem;"),
    (u!"8", u!"osem;"),
    (u!"9", u!"deväť;"),
    (u!"10", u!"desať;"),
    (u!"11", u!"jedenásť;"),
    (u!"12", u!"dvanásť;"),
    (u!"13", u!"trinásť;"),
    (u!"14", u!"štrnásť;"),
    (u!"15", u!"pätnásť;"),
    (u!"16", u!"šestnásť;"),
    (u!"17", u!"sedemnásť;"),
    (u!"18", u!"osemnásť;"),
    (u!"19", u!"devätnásť;"),
    (u!"20", u!"dvadsať[\u00ad>>];"),
    (u!"30", u!"tridsať[\u00ad>>];"),
    (u!"40", u!"štyridsať[\u00ad>>];"),
    (u!"50", u!"<<desiat[\u00ad>>];"),
    (u!"100", u!"<%spellout-cardinal-feminine<\u00adsto[ >>];"),
    (u!"1000", u!"<%spellout-cardinal-feminine< tisíc[ >>];"),
    (u!"1000000", u!"<%spellout-cardinal-masculine< $(cardinal,one{milión}few{milióny}other{miliónov})$[ >>];"),
    (u!"1000000000", u!"<%spellout-cardinal-masculine< $(cardinal,one{miliarda}few{miliardy}other{miliardov})$[ >>];"),
    (u!"1000000000000", u!"<%spellout-cardinal-masculine< $(cardinal,one{bilión}few{bilióny}other{biliónov})$[ >>];"),
    (u!"1000000000000000", u!"<%spellout-cardinal-masculine< $(cardinal,one{biliarda}few{biliardy}other{biliardov})$[ >>];"),
    (u!"1000000000000000000", u!"=#,##0=;")]),
  (u!"%spellout-cardinal-neuter", [(u!"-x", u!"mínus >>;"),
    (u!"x.x", u!"<< čiarka >>;"),
    (u!"0", u!"nula;"),
    (u!"1", u!"jedno;"),
    (u!"2", u!"dve;"),
    (u!"3", u!"=%spellout-cardinal-masculine=;"),
    (u!"20", u!"dvadsať[\u00ad>>];"),
    (u!"30", u!"tridsať[\u00ad>>];"),
    (u!"40", u!"štyridsať[\u00ad>>];"),
    (u!"50", u!"<<desiat[\u00ad>>];"),
    (u!"100", u!"<%spellout-cardinal-feminine<\u00adsto[ >>];"),
    (u!"1000", u!"<%spellout-cardinal-feminine< tisíc[ >>];"),
    (u!"1000000", u!"<%spellout-cardinal-masculine< $(cardinal,one{milión}few{milióny}other{miliónov})$[ >>];"),
    (u!"1000000000", u!"<%spellout-cardinal-masculine< $(cardinal,one{miliarda}few{miliardy}other{miliardov})$[ >>];"),
    (u!"1000000000000", u!"<%spellout-cardinal-masculine< $(cardinal,one{bilión}few{bilióny}other{biliónov})$[ >>];"),
    (u!"1000000000000000", u!"<%spellout-cardinal-masculine< $(cardinal,one{biliarda}few{biliardy}other{biliardov})$[ >>];"),
    (u!"1000000000000000000", u!"=#,##0=;")]),
  (u!"%spellout-cardinal-feminine", [(u!"-x", u!"mínus >>;"),
    (u!"x.x", u!"<< čiarka >>;"),
    (u!"0", u!"nula;"),
    (u!"1", u!"jedna;"),
    (u!"2", u!"dve;"),
    (u!"3", u!"=%spellout-cardinal-masculine=;"),
    (u!"20", u!"dvadsať[\u00ad>>];"),
    (u!"30", u!"tridsať[\u00ad>>];"),
    (u!"40", u!"štyridsať[\u00ad>>];"),
    (u!"50", u!"<<desiat[\u00ad>>];"),
    (u!"100", u!"<%spellout-cardinal-feminine<\u00adsto[ >>];"),
    (u!"1000", u!"<%spellout-cardinal-feminine< tisíc[ >>];"),
    (u!"1000000", u!"<%spellout-cardinal-masculine< $(cardinal,one{milión}few{milióny}other{miliónov})$[ >>];"),
    (u!"1000000000", u!"<%spellout-cardinal-masculine< $(cardinal,one{miliarda}few{miliardy}other{miliardov})$[ >>];"),
    (u!"1000000000000", u!"<%spellout-cardinal-masculine< $(cardinal,one{bilión}few{bilióny}other{biliónov})$[ >>];"),
    (u!"1000000000000000", u!"<%spellout-cardinal-masculine< $(cardinal,one{biliarda}few{biliardy}other{biliardov})$[ >>];"),
    (u!"1000000000000000000", u!"=#,##0=;")])]

/-- `number_parser_data/supplementary_translation_data/sk.json` -/
def skSupplementary : Supplementary where
  tables := {
    unit := []
    direct := []
    tens := []
    hundreds := []
    big := [] }
  skipTokens := []
  useLongScale := some false

/-- `number_parser/data/sk.py`, lines 1-52 -/
def skModule : Output where
  tables := {
    unit := [(u!"nula", 0), (u!"jeden", 1), (u!"jedna", 1), (u!"jedno", 1), (u!"dva", 2), (u!"dve", 2), (u!"tri", 3), (u!"štyri", 4), (u!"päť", 5), (u!"šesť", 6), (u!"sedem", 7), (u!"osem", 8), (u!"deväť", 9)]
    direct := [(u!"desať", 10), (u!"jedenásť", 11), (u!"dvanásť", 12), (u!"trinásť", 13), (u!"štrnásť", 14), (u!"pätnásť", 15), (u!"šestnásť", 16), (u!"sedemnásť", 17), (u!"osemnásť", 18), (u!"devätnásť", 19)]
    tens := [(u!"dvadsať", 20), (u!"tridsať", 30), (u!"štyridsať", 40)]
    hundreds := []
    big := [(u!"tisíc", 1000), (u!"milión", 1000000), (u!"miliónov", 1000000), (u!"milióny", 1000000), (u!"miliarda", 1000000000), (u!"miliardov", 1000000000), (u!"miliardy", 1000000000), (u!"bilión", 1000000000000), (u!"biliónov", 1000000000000), (u!"bilióny", 1000000000000), (u!"biliarda", 1000000000000000), (u!"biliardov", 1000000000000000), (u!"biliardy", 1000000000000000)] }
  skipTokens := []
  useLongScale := some false

/-- `number_parser_data/raw_cldr_translation_data/sl.json`, `SpelloutRules` -/
def slRules : RuleSets := [
  (u!"%spellout-numbering-year", [(u!"x.x", u!"=0.0=;"),
    (u!"0", u!"=%spellout-numbering=;")]),
  (u!"%spellout-numbering", [(u!"0", u!"=%spellout-cardinal-masculine=;")]),
  (u!"%spellout-cardinal-masculine", [(u!"-x", u!"minus >>;"),
    (u!"x.x", u!"<< vejica >>;"),
    (u!"0", u!"nič;"),
    (u!"1", u!"ena;"),
    (u!"2", u!"dva;"),
    (u!"3", u!"tri;"),
    (u!"4", u!"štiri;"),
    (u!"5", u!"pet;"),
    (u!"6", u!"šest;"),
    (u!"7", u!"sedem;"),
    (u!"8", u!"osem;"),
    (u!"9", u!"devet;"),
    (u!"10", u!"deset;"),
    (u!"11", u!"enajst;"),
    (u!"12", u!"dvanajst;"),
    (u!"13", u!"trinajst;"),
    (u!"14", u!"štrinajst;"),
    (u!"15", u!"petnajst;"),
    (u!"16", u!"šestnajst;"),
    (u!"17", u!"sedemnajst;"),
    (u!"18", u!"asemnajst;"),
    (u!"19", u!"devetnajst;"),
    (u!"20", u!"dvaset[ >>];"),
    (u!"30", u!"<<deset[ >>];"),
    (u!"100", u!"sto[ >>];"),
    (u!"200", u!"dvjesto[ >>];"),
    (u!"300", u!"tristo[ >>];"),
    (u!"400", u!"štiristo[ >>];"),
    (u!"500", u!"petsto[ >>];"),
    (u!"600", u!"šesto[ >>];"),
    (u!"700", u!"sedemsto[ >>];"),
    (u!"800", u!"osemsto[ >>];"),
    (u!"900", u!"devetsto[ >>];"),
    (u!"1000", u!"tisuću[ >>];"),
    (u!"2000", u!"<%spellout-cardinal-feminine< tisuće[ >>];"),
    (u!"5000", u!"<%spellout-cardinal-feminine< tisuću[ >>];"),
    (u!"1000000", u!"<%spellout-cardinal-masculine< milijun[ >>];"),
    (u!"2000000", u!"<%spellout-cardinal-masculine< milijuny[ >>];"),
    (u!"5000000", u!"<%spellout-cardinal-masculine< milijun[ >>];"),
    (u!"1000000000", u!"<%spellout-cardinal-masculine< miliarda[ >>];"),
    (u!"2000000000", u!"<%spellout-cardinal-masculine< miliardy[ >>];"),
    (u!"5000000000", u!"<%spellout-cardinal-masculine< miliarda[ >>];"),
    (u!"1000000000000", u!"<%spellout-cardinal-masculine< bilijun[ >>];"),
    (u!"2000000000000", u!"<%spellout-cardinal-masculine< bilijuny[ >>];"),
    (u!"5000000000000", u!"<%spellout-cardinal-masculine< bilijun[ >>];"),
    (u!"1000000000000000", u!"<%spellout-cardinal-masculine< biliarda[ >>];"),
    (u!"2000000000000000", u!"<%spellout-cardinal-masculine< biliardy[ >>];"),
    (u!"5000000000000000", u!"<%spellout-cardinal-masculine< biliarda[ >>];"),
    (u!"1000000000000000000", u!"=#,##0=;")]),
  (u!"%spellout-cardinal-neuter", [(u!"-x", u!"minus >>;"),
    (u!"x.x", u!"<< vejica >>;"),
    (u!"0", u!"nič;"),
    (u!"1", u!"ena;"),
    (u!"2", u!"dve;"),
    (u!"3", u!"=%spellout-cardinal-masculine=;"),
    (u!"20", u!"dvaset[ >>];"),
    (u!"30", u!"<<deset[ >>];"),
    (u!"100", u!"sto[ >>];"),
    (u!"200", u!"dvjesto[ >>];"),
    (u!"300", u!"tristo[ >>];"),
    (u!"400", u!"štiristo[ >>];"),
    (u!"500", u!"petsto[ >>];"),
    (u!"600", u!"šesto[ >>];"),
    (u!"700", u!"sedemsto[ >>];"),
    (u!"800", u!"osemsto[ >>];"),
    (u!"900", u!"devetsto[ >>];"),
    (u!"1000", u!"tisuću[ >>];"),
    (u!"2000", u!"<%spellout-cardinal-feminine< tisuće[ >>];"),
    (u!"5000", u!"<%spellout-cardinal-feminine< tisuću[ >>];"),
    (u!"1000000", u!"<%spellout-cardinal-masculine< milijun[ >>];"),
    (u!"2000000", u!"<%spellout-cardinal-masculine< milijuny[ >>];"),
    (u!"5000000", u!"<%spellout-cardinal-masculine< milijun[ >>];"),
    (u!"1000000000", u!"<%spellout-cardinal-masculine< miliarda[ >>];"),
    (u!"2000000000", u!"<%spellout-cardinal-masculine< miliardy[ >>];"),
    (u!"5000000000", u!"<%spellout-cardinal-masculine< miliarda[ >>];"),
    (u!"1000000000000", u!"<%spellout-cardinal-masculine< bilijun[ >>];"),
    (u!"2000000000000", u!"<%spellout-cardinal-masculine< bilijuny[ >>];"),
    (u!"5000000000000", u!"<%spellout-cardinal-masculine< bilijun[ >>];"),
    (u!"1000000000000000", u!"<%spellout-cardinal-masculine< biliarda[ >>];"),
    (u!"2000000000000000", u!"<%spellout-cardinal-masculine< biliardy[ >>];"),
    (u!"5000000000000000", u!"<%spellout-cardinal-masculine< biliarda[ >>];"),
    (u!"1000000000000000000", u!"=#,##0=;")]),
  (u!"%spellout-cardinal-feminine", [(u!"-x", u!"minus >>;"),
    (u!"x.x", u!"<< vejica >>;"),
    (u!"0", u!"nič;"),
    (u!"1", u!"ena;"),
    (u!"2", u!"dvije;"),
    (u!"3", u!"=%spellout-cardinal-masculine=;"),
    (u!"20", u!"dvaset[ >>];"),
    (u!"30", u!"<<deset[ >>];"),
    (u!"100", u!"sto[ >>];"),
    (u!"200", u!"dvjesto[ >>];"),
    (u!"300", u!"tristo[ >>];"),
    (u!"400", u!"štiristo[ >>];"),
    (u!"500", u!"petsto[ >>];"),
    (u!"600", u!"šesto[ >>];"),
    (u!"700", u!"sedemsto[ >>];"),
    (u!"800", u!"osemsto[ >>];"),
    (u!"900", u!"devetsto[ >>];"),
    (u!"1000", u!"tisuću[ >>];"),
    (u!"2000", u!"<%spellout-cardinal-feminine< tisuće[ >>];"),
    (u!"5000", u!"<%spellout-cardinal-feminine< tisuću[ >>];"),
    (u!"1000000", u!"<%spellout-cardinal-masculine< milijun[ >>];"),
    (u!"2000000", u!"<%spellout-cardinal-masculine< milijuny[ >>];"),
    (u!"5000000", u!"<%spellout-cardinal-masculine< milijun[ >>];"),
    (u!"1000000000", u!"<%spellout-cardinal-masculine< miliarda[ >>];"),
    (u!"2000000000", u!"<%spellout-cardinal-masculine< miliardy[ >>];"),
    (u!"5000000000", u!"<%spellout-cardinal-masculine< miliarda[ >>];"),
    (u!"1000000000000", u!"<%spellout-cardinal-masculine< bilijun[ >>];"),
    (u!"2000000000000", u!"<%spellout-cardinal-masculine< bilijuny[ >>];"),
    (u!"5000000000000", u!"<%spellout-cardinal-masculine< bilijun[ >>];"),
    (u!"1000000000000000", u!"<%spellout-cardinal-masculine< biliarda[ >>];"),
    (u!"2000000000000000", u!"<%spellout-cardinal-masculine< biliardy[ >>];"),
    (u!"5000000000000000", u!"<%spellout-cardinal-masculine< biliarda[ >>];"),
    (u!"1000000000000000000", u!"=#,##0=;")])]

/-- `number_parser_data/supplementary_translation_data/sl.json` -/
def slSupplementary : Supplementary where
  tables := {
    unit := []
    direct := []
    tens := []
    hundreds := []
    big := [] }
  skipTokens := []
  useLongScale := some true

/-- `number_parser/data/sl.py`, lines 1-55 -/
def slModule : Output where
  tables := {
    unit := [(u!"nič", 0), (u!"ena", 1), (u!"dva", 2), (u!"dve", 2), (u!"dvije", 2), (u!"tri", 3), (u!"štiri", 4), (u!"pet", 5), (u!"šest", 6), (u!"sedem", 7), (u!"osem", 8), (u!"devet", 9)]
    direct := [(u!"deset", 10), (u!"enajst", 11), (u!"dvanajst", 12), (u!"trinajst", 13), (u!"štrinajst", 14), (u!"petnajst", 15), (u!"šestnajst", 16), (u!"sedemnajst", 17), (u!"asemnajst", 18), (u!"devetnajst", 19)]
    tens := [(u!"dvaset", 20)]
    hundreds := [(u!"dvjesto", 200), (u!"tristo", 300), (u!"štiristo", 400), (u!"petsto", 500), (u!"šesto", 600), (u!"sedemsto", 700), (u!"osemsto", 800), (u!"devetsto", 900)]
    big := [(u!"tisuće", 1000), (u!"tisuću", 1000), (u!"milijun", 1000000), (u!"milijuny", 1000000), (u!"miliarda", 1000000000), (u!"miliardy", 1000000000), (u!"bilijun", 1000000000000), (u!"bilijuny", 1000000000000), (u!"biliarda", 1000000000000000), (u!"biliardy", 1000000000000000)] }
  skipTokens := []
  useLongScale := some true

/-- `number_parser_data/raw_cldr_translation_data/sq.json`, `SpelloutRules` -/
def sqRules : RuleSets := [
  (u!"%spellout-numbering-year", [(u!"x.x", u!"=0.0=;"),
    (u!"0", u!"=%spellout-numbering=;")]),
  (u!"%spellout-numbering", [(u!"0", u!"=%spellout-cardinal-masculine=;")]),
  (u!"%spellout-cardinal-masculine", [(u!"-x", u!"minus >>;"),
    (u!"x.x", u!"<< presje >>;"),
    (u!"0", u!"zero;"),
    (u!"1", u!"një;"),
    (u!"2", u!"dy;"),
    (u!"3", u!"tre;"),
    (u!"4", u!"katër;"),
    (u!"5", u!"pesë;"),
    (u!"6", u!"gjashtë;"),
    (u!"7", u!"shtatë;"),
    (u!"8", u!"tetë;"),
    (u!"9", u!"nëntë;"),
    (u!"10", u!"dhjetë;"),
    (u!"11", u!">%spellout-cardinal-masculine>mbëdhjetë;"),
    (u!"20", u!"njëzet[ e >>];"),
    (u!"30", u!"tridhjetë[ e >>];"),
    (u!"40", u!"dyzet[ e >>];"),
    (u!"50", u!"<%spellout-cardinal-feminine<dhjetë[ e >>];"),
    (u!"100", u!"<%spellout-cardinal-masculine<qind[ e >>];"),
    (u!"1000", u!"<%spellout-cardinal-masculine< mijë[ e >>];"),
    (u!"1000000", u!"një milion[ e >>];"),
    (u!"2000000", u!"<%spellout-cardinal-feminine< milionë[ e >>];"),
    (u!"1000000000", u!"një miliar[ e >>];"),
    (u!"2000000000", u!"<%spellout-cardinal-feminine< miliarë[ e >>];"),
    (u!"1000000000000", u!"një bilion[ e >>];"),
    (u!"2000000000000", u!"<%spellout-cardinal-feminine< bilionë[ e >>];"),
    (u!"1000000000000000", u!"një biliar[ e >>];"),
    (u!"2000000000000000", u!"<%spellout-cardinal-feminine< biliarë[ e >>];"),
    (u!"1000000000000000000", u!"=#,##0=;")]),
  (u!"%spellout-cardinal-feminine", [(u!"-x", u!"minus >>;"),
    (u!"x.x", u!"<< presje >>;"),
    (u!"0", u!"zero;"),
    (u!"1", u!"një;"),
    (u!"2", u!"dy;"),
    (u!"3", u!"tri;"),
    (u!"4", u!"=%spellout-cardinal-masculine=;"),
    (u!"20", u!"njëzet[ e >>];"),
    (u!"30", u!"tridhjetë[ e >>];"),
    (u!"40", u!"dyzet[ e >>];"),
    (u!"50", u!"<%spellout-cardinal-feminine<dhjetë[ e >>];"),
    (u!"100", u!"<%spellout-cardinal-masculine<qind[ e >>];"),
    (u!"1000", u!"<%spellout-cardinal-masculine< mijë[ e >>];"),
    (u!"1000000", u!"një milion[ e >>];"),
    (u!"2000000", u!"<%spellout-cardinal-feminine< milionë[ e >>];"),
    (u!"1000000000", u!"një miliar[ e >>];"),
    (u!"2000000000", u!"<%spellout-cardinal-feminine< miliarë[ e >>];"),
    (u!"1000000000000", u!"një bilion[ e >>];"),
    (u!"2000000000000", u!"<%spellout-cardinal-feminine< bilionë[ e >>];"),
    (u!"1000000000000000", u!"një biliar[ e >>];"),
    (u!"2000000000000000", u!"<%spellout-cardinal-feminine< biliarë[ e >>];"),
    (u!"1000000000000000000", u!"=#,##0=;")])]

/-- `number_parser_data/supplementary_translation_data/sq.json` -/
def sqSupplementary : Supplementary where
  tables := {
    unit := []
    direct := []
    tens := []
    hundreds := []
    big := [] }
  skipTokens := []
  useLongScale := some false

/-- `number_parser/data/sq.py`, lines 1-33 -/
def sqModule : Output where
  tables := {
    unit := [(u!"zero", 0), (u!"një", 1), (u!"dy", 2), (u!"tre", 3), (u!"tri", 3), (u!"katër", 4), (u!"pesë", 5), (u!"gjashtë", 6), (u!"shtatë", 7), (u!"tetë", 8), (u!"nëntë", 9)]
    direct := [(u!"dhjetë", 10)]
    tens := [(u!"njëzet", 20), (u!"tridhjetë", 30), (u!"dyzet", 40)]
    hundreds := []
    big := [(u!"mijë", 1000), (u!"milionë", 1000000), (u!"miliarë", 1000000000), (u!"bilionë", 1000000000000), (u!"biliarë", 1000000000000000)] }
  skipTokens := []
  useLongScale := some false

/-- `number_parser_data/raw_cldr_translation_data/sr.json`, `SpelloutRules` -/
def srRules : RuleSets := [
  (u!"%spellout-numbering-year", [(u!"x.x", u!"=0.0=;"),
    (u!"0", u!"=%spellout-numbering=;")]),
  (u!"%spellout-numbering", [(u!"0", u!"=%spellout-cardinal-masculine=;")]),
  (u!"%spellout-cardinal-masculine", [(u!"-x", u!"минус >>;"),
    (u!"x.x", u!"<< кома >>;"),
    (u!"0", u!"нула;"),
    (u!"1", u!"један;"),
    (u!"2", u!"два;"),
    (u!"3", u!"три;"),
    (u!"4", u!"четири;"),
    (u!"5", u!"пет;"),
    (u!"6", u!"шест;"),
    (u!"7", u!"седам;"),
    (u!"8", u!"осам;"),
    (u!"9", u!"девет;"),
    (u!"10", u!"десет;"),
    (u!"11", u!"једанаест;"),
    (u!"12", u!"дванаест;"),
    (u!"13", u!"тринаест;"),
    (u!"14", u!"четрнаест;"),
    (u!"15", u!"петнаест;"),
    (u!"16", u!"шеснаест;"),
    (u!"17", u!"седамнаест;"),
    (u!"18", u!"осамнаест;"),
    (u!"19", u!"деветнаест;"),
    (u!"20", u!"двадесет[ и >>];"),
    (u!"30", u!"тридесет[ и >>];"),
    (u!"40", u!"четрдесет[ и >>];"),
    (u!"50", u!"педесет[ и >>];"),
    (u!"60", u!"шездесет[ и >>];"),
    (u!"70", u!"седамдесет[ и >>];"),
    (u!"80", u!"осамдесет[ и >>];"),
    (u!"90", u!"деведесет[ и >>];"),
    (u!"100", u!"сто[ >>];"),
    (u!"200", u!"двеста[ >>];"),
    (u!"300", u!"триста[ >>];"),
    (u!"400", u!"<%spellout-cardinal-feminine<сто[ >>];"),
    (u!"1000", u!"<%spellout-cardinal-feminine< хиљаду[ >>];"),
    (u!"2000", u!"<%spellout-cardinal-feminine< хиљада[ >>];"),
    (u!"1000000", u!"<%spellout-cardinal-masculine< милион[ >>];"),
    (u!"1000000000", u!"<%spellout-cardinal-masculine< милијарда[ >>];"),
    (u!"1000000000000", u!"<%spellout-cardinal-masculine< билион[ >>];"),
    (u!"1000000000000000", u!"<%spellout-cardinal-masculine< билијарда[ >>];"),
    (u!"1000000000000000000", u!"=#,##0=;")]),
  (u!"%spellout-cardinal-neuter", [(u!"-x", u!"минус >>;"),
    (u!"x.x", u!"<< кома >>;"),
    (u!"0", u!"нула;"),
    (u!"1", u!"једно;"),
    (u!"2", u!"два;"),
    (u!"3", u!"=%spellout-cardinal-masculine=;"),
    (u!"20", u!"двадесет[ и >>];"),
    (u!"30", u!"тридесет[ и >>];"),
    (u!"40", u!"четрдесет[ и >>];"),
    (u!"50", u!"педесет[ и >>];"),
    (u!"60", u!"шездесет[ и >>];"),
    (u!"70", u!"седамдесет[ и >>];"),
    (u!"80", u!"осамдесет[ и >>];"),
    (u!"90", u!"деведесет[ и >>];"),
    (u!"100", u!"сто[ >>];"),
    (u!"200", u!"двеста[ >>];"),
    (u!"300", u!"триста[ >>];"),
    (u!"400", u!"<%spellout-cardinal-feminine<сто[ >>];"),
    (u!"1000", u!"<%spellout-cardinal-feminine< хиљаду[ >>];"),
    (u!"2000", u!"<%spellout-cardinal-feminine< хиљада[ >>];"),
    (u!"1000000", u!"<%spellout-cardinal-masculine< милион[ >>];"),
    (u!"1000000000", u!"<%spellout-cardinal-masculine< милијарда[ >>];"),
    (u!"1000000000000", u!"<%spellout-cardinal-masculine< билион[ >>];"),
    (u!"1000000000000000", u!"<%spellout-cardinal-masculine< билијарда[ >>];"),
    (u!"1000000000000000000", u!"=#,##0=;")]),
  (u!"%spellout-cardinal-feminine", [(u!"-x", u!"минус >>;"),
    (u!"x.x", u!"<< кома >>;"),
    (u!"0", u!"нула;"),
    (u!"1", u!"једна;"),
    (u!"2", u!"две;"),
    (u!"3", u!"=%spellout-cardinal-masculine=;"),
    (u!"20", u!"двадесет[ и >>];"),
    (u!"30", u!"тридесет[ и >>];"),
    (u!"40", u!"четрдесет[ и >>];"),
    (u!"50", u!"педесет[ и >>];"),
    (u!"60", u!"шездесет[ и >>];"),
    (u!"70", u!"седамдесет[ и >>];"),
    (u!"80", u!"осамдесет[ и >>];"),
    (u!"90", u!"деведесет[ и >>];"),
    (u!"100", u!"сто[ >>];"),
    (u!"200", u!"двеста[ >>];"),
    (u!"300", u!"триста[ >>];"),
    (u!"400", u!"<%spellout-cardinal-feminine<сто[ >>];"),
    (u!"1000", u!"<%spellout-cardinal-feminine< хиљаду[ >>];"),
    (u!"2000", u!"<%spellout-cardinal-feminine< хиљада[ >>];"),
    (u!"1000000", u!"<%spellout-cardinal-masculine< милион[ >>];"),
    (u!"1000000000", u!"<%spellout-cardinal-masculine< милијарда[ >>];"),
    (u!"1000000000000", u!"<%spellout-cardinal-masculine< билион[ >>];"),
    (u!"1000000000000000", u!"<%spellout-cardinal-masculine< билијарда[ >>];"),
    (u!"1000000000000000000", u!"=#,##0=;")]),
  (u!"%%ordi", [(u!"0", u!"и;"),
    (u!"1", u!"' и =%spellout-ordinal=;")]),
  (u!"%%ordti", [(u!"0", u!"ти;"),
    (u!"1", u!"' =%spellout-ordinal=;")]),
  (u!"%spellout-ordinal", [(u!"-x", u!"минус >>;"),
    (u!"x.x", u!"=#,##0.#=;"),
    (u!"0", u!"нулти;"),
    (u!"1", u!"први;"),
    (u!"2", u!"други;"),
    (u!"3", u!"трећи;"),
    (u!"4", u!"четврти;"),
    (u!"5", u!"пети;"),
    (u!"6", u!"шести;"),
    (u!"7", u!"седми;"),
    (u!"8", u!"осми;"),
    (u!"9", u!"девети;"),
    (u!"10", u!"десети;"),
    (u!"11", u!"једанаести;"),
    (u!"12", u!"дванаести;"),
    (u!"13", u!"тринаести;"),
    (u!"14", u!"четрнаести;"),
    (u!"15", u!"петнаести;"),
    (u!"16", u!"шеснаести;"),
    (u!"17", u!"седамнаести;"),
    (u!"18", u!"осамнаести;"),
    (u!"19", u!"деветнаести;"),
    (u!"20", u!"двадесет>%%ordi>;"),
    (u!"30", u!"тридесет>%%ordi>;"),
    (u!"40", u!"четрдесет>%%ordi>;"),
    (u!"50", u!"педесет>%%ordi>;"),
    (u!"60", u!"шездесет>%%ordi>;"),
    (u!"70", u!"седамдесет>%%ordi>;"),
    (u!"80", u!"осамдесет>%%ordi>;"),
    (u!"90", u!"деведесет>%%ordi>;"),
    (u!"100", u!"сто>%%ordti>;"),
    (u!"200", u!"двеста>%%ordti>;"),
    (u!"300", u!"триста>%%ordti>;"),
    (u!"400", u!"<%spellout-cardinal-feminine<сто>%%ordti>;")])]

/-- `number_parser_data/supplementary_translation_data/sr.json` -/
def srSupplementary : Supplementary where
  tables := {
    unit := []
    direct := []
    tens := []
    hundreds := []
    big := [] }
  skipTokens := []
  useLongScale := some true

/-- `number_parser/data/sr.py`, lines 1-53 -/
def srModule : Output where
  tables := {
    unit := [(u!"нула", 0), (u!"један", 1), (u!"једна", 1), (u!"једно", 1), (u!"два", 2), (u!"две", 2), (u!"три", 3), (u!"четири", 4), (u!"пет", 5), (u!"шест", 6), (u!"седам", 7), (u!"осам", 8), (u!"девет", 9)]
    direct := [(u!"десет", 10), (u!"једанаест", 11), (u!"дванаест", 12), (u!"тринаест", 13), (u!"четрнаест", 14), (u!"петнаест", 15), (u!"шеснаест", 16), (u!"седамнаест", 17), (u!"осамнаест", 18), (u!"деветнаест", 19)]
    tens := [(u!"двадесет", 20), (u!"тридесет", 30), (u!"четрдесет", 40), (u!"педесет", 50), (u!"шездесет", 60), (u!"седамдесет", 70), (u!"осамдесет", 80), (u!"деведесет", 90)]
    hundreds := [(u!"двеста", 200), (u!"триста", 300)]
    big := [(u!"хиљада", 1000), (u!"хиљаду", 1000), (u!"милион", 1000000), (u!"милијарда", 1000000000), (u!"билион", 1000000000000), (u!"билијарда", 1000000000000000)] }
  skipTokens := []
  useLongScale := some true

/-- `number_parser_data/raw_cldr_translation_data/sr-Latn.json`, `SpelloutRules` -/
def sr_LatnRules : RuleSets := [
  (u!"%spellout-numbering-year", [(u!"x.x", u!"=0.0=;"),
    (u!"0", u!"=%spellout-numbering=;")]),
  (u!"%spellout-numbering", [(u!"0", u!"=%spellout-cardinal-masculine=;")]),
  (u!"%spellout-cardinal-masculine", [(u!"-x", u!"minus >>;"),
    (u!"x.x", u!"<< koma >>;"),
    (u!"0", u!"nula;"),
    (u!"1", u!"jedan;"),
    (u!"2", u!"dva;"),
    (u!"3", u!"tri;"),
    (u!"4", u!"četiri;"),
    (u!"5", u!"pet;"),
    (u!"6", u!"šest;"),
    (u!"7", u!"sedam;"),
    (u!"8", u!"osam;"),
    (u!"9", u!"devet;"),
    (u!"10", u!"deset;"),
    (u!"11", u!"jedanaest;"),
    (u!"12", u!"dvanaest;"),
    (u!"13", u!"trinaest;"),
    (u!"14", u!"četrnaest;"),
    (u!"15", u!"petnaest;"),
    (u!"16", u!"šesnaest;"),
    (u!"17", u!"sedamnaest;"),
    (u!"18", u!"osamnaest;"),
    (u!"19", u!"devetnaest;"),
    (u!"20", u!"dvadeset[ i >>];"),
    (u!"30", u!"trideset[ i >>];"),
    (u!"40", u!"četrdeset[ i >>];"),
    (u!"50", u!"pedeset[ i >>];"),
    (u!"60", u!"šezdeset[ i >>];"),
    (u!"70", u!"sedamdeset[ i >>];"),
    (u!"80", u!"osamdeset[ i >>];"),
    (u!"90", u!"devedeset[ i >>];"),
    (u!"100", u!"sto[ >>];"),
    (u!"200", u!"dvesta[ >>];"),
    (u!"300", u!"trista[ >>];"),
    (u!"400", u!"<%spellout-cardinal-feminine<sto[ >>];"),
    (u!"1000", u!"<%spellout-cardinal-feminine< hiljadu[ >>];"),
    (u!"2000", u!"<%spellout-cardinal-feminine< hiljada[ >>];"),
    (u!"1000000", u!"<%spellout-cardinal-masculine< milion[ >>];"),
    (u!"1000000000", u!"<%spellout-cardinal-masculine< milijarda[ >>];"),
    (u!"1000000000000", u!"<%spellout-cardinal-masculine< bilion[ >>];"),
    (u!"1000000000000000", u!"<%spellout-cardinal-masculine< bilijarda[ >>];"),
    (u!"1000000000000000000", u!"=#,##0=;")]),
  (u!"%spellout-cardinal-neuter", [(u!"-x", u!"minus >>;"),
    (u!"x.x", u!"<< koma >>;"),
    (u!"0", u!"nula;"),
    (u!"1", u!"jedno;"),
    (u!"2", u!"dva;"),
    (u!"3", u!"=%spellout-cardinal-masculine=;"),
    (u!"20", u!"dvadeset[ i >>];"),
    (u!"30", u!"trideset[ i >>];"),
    (u!"40", u!"četrdeset[ i >>];"),
    (u!"50", u!"pedeset[ i >>];"),
    (u!"60", u!"šezdeset[ i >>];"),
    (u!"70", u!"sedamdeset[ i >>];"),
    (u!"80", u!"osamdeset[ i >>];"),
    (u!"90", u!"devedeset[ i >>];"),
    (u!"100", u!"sto[ >>];"),
    (u!"200", u!"dvesta[ >>];"),
    (u!"300", u!"trista[ >>];"),
    (u!"400", u!"<%spellout-cardinal-feminine<sto[ >>];"),
    (u!"1000", u!"<%spellout-cardinal-feminine< hiljadu[ >>];"),
    (u!"2000", u!"<%spellout-cardinal-feminine< hiljada[ >>];"),
    (u!"1000000", u!"<%spellout-cardinal-masculine< milion[ >>];"),
    (u!"1000000000", u!"<%spellout-cardinal-masculine< milijarda[ >>];"),
    (u!"1000000000000", u!"<%spellout-cardinal-masculine< bilion[ >>];"),
    (u!"1000000000000000", u!"<%spellout-cardinal-masculine< bilijarda[ >>];"),
    (u!"1000000000000000000", u!"=#,##0=;")]),
  (u!"%spellout-cardinal-feminine", [(u!"-x", u!"minus >>;"),
    (u!"x.x", u!"<< koma >>;"),
    (u!"0", u!"nula;"),
    (u!"1", u!"jedna;"),
    (u!"2", u!"dve;"),
    (u!"3", u!"=%spellout-cardinal-masculine=;"),
    (u!"20", u!"dvadeset[ i >>];"),
    (u!"30", u!"trideset[ i >>];"),
    (u!"40", u!"četrdeset[ i >>];"),
    (u!"50", u!"pedeset[ i >>];"),
    (u!"60", u!"šezdeset[ i >>];"),
    (u!"70", u!"sedamdeset[ i >>];"),
    (u!"80", u!"osamdeset[ i >>];"),
    (u!"90", u!"devedeset[ i >>];"),
    (u!"100", u!"sto[ >>];"),
    (u!"200", u!"dvesta[ >>];"),
    (u!"300", u!"trista[ >>];"),
    (u!"400", u!"<%spellout-cardinal-feminine<sto[ >>];"),
    (u!"1000", u!"<%spellout-cardinal-feminine< hiljadu[ >>];"),
    (u!"2000", u!"<%spellout-cardinal-feminine< hiljada[ >>];"),
    (u!"1000000", u!"<%spellout-cardinal-masculine< milion[ >>];"),
    (u!"1000000000", u!"<%spellout-cardinal-masculine< milijarda[ >>];"),
    (u!"1000000000000", u!"<%spellout-cardinal-masculine< bilion[ >>];"),
    (u!"1000000000000000", u!"<%spellout-cardinal-masculine< bilijarda[ >>];"),
    (u!"1000000000000000000", u!"=#,##0=;")]),
  (u!"%%ordi", [(u!"0", u!"i;"),
    (u!"1", u!"' i =%spellout-ordinal=;")]),
  (u!"%%ordti", [(u!"0", u!"ti;"),
    (u!"1", u!"' =%spellout-ordinal=;")]),
  (u!"%spellout-ordinal", [(u!"-x", u!"minus >>;"),
    (u!"x.x", u!"=#,##0.#=;"),
    (u!"0", u!"nulti;"),
    (u!"1", u!"prvi;"),
    (u!"2", u!"drugi;"),
    (u!"3", u!"treći;"),
    (u!"4", u!"četvrti;"),
    (u!"5", u!"peti;"),
    (u!"6", u!"šesti;"),
    (u!"7", u!"sedmi;"),
    (u!"8", u!"osmi;"),
    (u!"9", u!"deveti;"),
    (u!"10", u!"deseti;"),
    (u!"11", u!"jedanaesti;"),
    (u!"12", u!"dvanaesti;"),
    (u!"13", u!"trinaesti;"),
    (u!"14", u!"četrnaesti;"),
    (u!"15", u!"petnaesti;"),
    (u!"16", u!"šesnaesti;"),
    (u!"17", u!"sedamnaesti;"),
    (u!"18", u!"osamnaesti;"),
    (u!"19", u!"devetnaesti;"),
    (u!"20", u!"dvadeset>%%ordi>;"),
    (u!"30", u!"trideset>%%ordi>;"),
    (u!"40", u!"četrdeset>%%ordi>;"),
    (u!"50", u!"pedeset>%%ordi>;"),
    (u!"60", u!"šezdeset>%%ordi>;"),
    (u!"70", u!"sedamdeset>%%ordi>;"),
    (u!"80", u!"osamdeset>%%ordi>;"),
    (u!"90", u!"devedeset>%%ordi>;"),
    (u!"100", u!"sto>%%ordti>;"),
    (u!"200", u!"dvesta>%%ordti>;"),
    (u!"300", u!"trista>%%ordti>;"),
    (u!"400", u!"<%spellout-cardinal-feminine<sto>%%ordti>;")])]

/-- `number_parser_data/supplementary_translation_data/sr-Latn.json` -/
def sr_LatnSupplementary : Supplementary where
  tables := {
    unit := []
    direct := []
    tens := []
    hundreds := []
    big := [] }
  skipTokens := []
  useLongScale := some true

/-- `number_parser/data/sr-Latn.py`, lines 1-53 -/
def sr_LatnModule : Output where
  tables := {
    unit := [(u!"nula", 0), (u!"jedan", 1), (u!"jedna", 1), (u!"jedno", 1), (u!"dva", 2), (u!"dve", 2), (u!"tri", 3), (u!"četiri", 4), (u!"pet", 5), (u!"šest", 6), (u!"sedam", 7), (u!"osam", 8), (u!"devet", 9)]
    direct := [(u!"deset", 10), (u!"jedanaest", 11), (u!"dvanaest", 12), (u!"trinaest", 13), (u!"četrnaest", 14), (u!"petnaest", 15), (u!"šesnaest", 16), (u!"sedamnaest", 17), (u!"osamnaest", 18), (u!"devetnaest", 19)]
    tens := [(u!"dvadeset", 20), (u!"trideset", 30), (u!"četrdeset", 40), (u!"pedeset", 50), (u!"šezdeset", 60), (u!"sedamdeset", 70), (u!"osamdeset", 80), (u!"devedeset", 90)]
    hundreds := [(u!"dvesta", 200), (u!"trista", 300)]
    big := [(u!"hiljada", 1000), (u!"hiljadu", 1000), (u!"milion", 1000000), (u!"milijarda", 1000000000), (u!"bilion", 1000000000000), (u!"bilijarda", 1000000000000000)] }
  skipTokens := []
  useLongScale := some true

/-- `number_parser_data/raw_cldr_translation_data/su.json`, `SpelloutRules` -/
def suRules : RuleSets := [
  (u!"%spellout-numbering-year", [(u!"x.x", u!"=0.0=;"),
    (u!"0", u!"=%spellout-numbering=;")]),
  (u!"%spellout-numbering", [(u!"0", u!"=%spellout-cardinal=;")]),
  (u!"%spellout-cardinal", [(u!"-x", u!"mineus >>;"),
    (u!"x.x", u!"<< titik >>;"),
    (u!"0", u!"nol;"),
    (u!"1", u!"hiji;"),
    (u!"2", u!"dua;"),
    (u!"3", u!"tilu;"),
    (u!"4", u!"opat;"),
    (u!"5", u!"lima;"),
    (u!"6", u!"genep;"),
    (u!"7", u!"tujuh;"),
    (u!"8", u!"dalapan;"),
    (u!"9", u!"salapan;"),
    (u!"10", u!"sapuluh;"),
    (u!"11", u!"sabelas;"),
    (u!"12", u!">> belas;"),
    (u!"20", u!"<< puluh[ >>];"),
    (u!"100", u!"<%%spellout-cardinal-large<ratus[ >>];"),
    (u!"1000", u!"<%%spellout-cardinal-large<rebu[ >>];"),
    (u!"1000000", u!"<%%spellout-cardinal-large<juta[ >>];"),
    (u!"1000000000", u!"<%%spellout-cardinal-large<miliar[ >>];"),
    (u!"1000000000000", u!"=#,##0=;")]),
  (u!"%%spellout-cardinal-large", [(u!"1", u!"sa;"),
    (u!"0", u!"=%spellout-cardinal= ;")]),
  (u!"%spellout-ordinal", [(u!"-x", u!"mineus >>;"),
    (u!"x.x", u!"=#,##0.0=;"),
    (u!"0", u!"ka=%spellout-cardinal=;")])]

/-- `number_parser_data/supplementary_translation_data/su.json` -/
def suSupplementary : Supplementary where
  tables := {
    unit := []
    direct := []
    tens := []
    hundreds := []
    big := [] }
  skipTokens := []
  useLongScale := some false

/-- `number_parser/data/su.py`, lines 1-24 -/
def suModule : Output where
  tables := {
    unit := [(u!"nol", 0), (u!"hiji", 1), (u!"sa", 1), (u!"dua", 2), (u!"tilu", 3), (u!"opat", 4), (u!"lima", 5), (u!"genep", 6), (u!"tujuh", 7), (u!"dalapan", 8), (u!"salapan", 9)]
    direct := [(u!"sapuluh", 10), (u!"sabelas", 11)]
    tens := []
    hundreds := []
    big := [] }
  skipTokens := []
  useLongScale := some false

/-- `number_parser_data/raw_cldr_translation_data/sv.json`, `SpelloutRules` -/
def svRules : RuleSets := [
  (u!"%%lenient-parse", [(u!"0", u!"&[last primary ignorable ] << ' ' << ',' << '-' << '\u00ad';")]),
  (u!"%spellout-numbering-year", [(u!"-x", u!"minus >>;"),
    (u!"x.x", u!"=0.0=;"),
    (u!"0", u!"=%spellout-numbering=;"),
    (u!"1100/100", u!"<<\u00adhundra[\u00ad>>];"),
    (u!"10000", u!"=%spellout-numbering=;")]),
  (u!"%spellout-numbering", [(u!"-x", u!"minus >>;"),
    (u!"x.x", u!"<< komma >>;"),
    (u!"0", u!"noll;"),
    (u!"1", u!"ett;"),
    (u!"2", u!"två;"),
    (u!"3", u!"tre;"),
    (u!"4", u!"fyra;"),
    (u!"5", u!"fem;"),
    (u!"6", u!"sex;"),
    (u!"7", u!"sju;"),
    (u!"8", u!"åtta;"),
    (u!"9", u!"nio;"),
    (u!"10", u!"tio;"),
    (u!"11", u!"elva;"),
    (u!"12", u!"tolv;"),
    (u!"13", u!"tretton;"),
    (u!"14", u!"fjorton;"),
    (u!"15", u!"femton;"),
    (u!"16", u!"sexton;"),
    (u!"17", u!"sjutton;"),
    (u!"18", u!"arton;"),
    (u!"19", u!"nitton;"),
    (u!"20", u!"tjugo[\u00ad>>];"),
    (u!"30", u!"trettio[\u00ad>>];"),
    (u!"40", u!"fyrtio[\u00ad>>];"),
    (u!"50", u!"femtio[\u00ad>>];"),
    (u!"60", u!"sextio[\u00ad>>];"),
    (u!"70", u!"sjuttio[\u00ad>>];"),
    (u!"80", u!"åttio[\u00ad>>];"),
    (u!"90", u!"nittio[\u00ad>>];"),
    (u!"100", u!"<%spellout-numbering<\u00adhundra[\u00ad>>];"),
    (u!"1000", u!"<%%spellout-numbering-t<\u00adtusen[ >>];"),
    (u!"1000000", u!"en miljon[ >>];"),
    (u!"2000000", u!"<%spellout-cardinal-reale< miljoner[ >>];"),
    (u!"1000000000", u!"en miljard[ >>];"),
    (u!"2000000000", u!"<%spellout-cardinal-reale< miljarder[ >>];"),
    (u!"1000000000000", u!"en biljon[ >>];"),
    (u!"2000000000000", u!"<%spellout-cardinal-reale< biljoner[ >>];"),
    (u!"1000000000000000", u!"en biljard[ >>];"),
    (u!"2000000000000000", u!"<%spellout-cardinal-reale< biljarder[ >>];"),
    (u!"1000000000000000000", u!"=#,##0=;")]),
  (u!"%%spellout-numbering-t", [(u!"1", u!"et;"),
    (u!"2", u!"två;"),
    (u!"3", u!"tre;"),
    (u!"4", u!"fyra;"),
    (u!"5", u!"fem;"),
    (u!"6", u!"sex;"),
    (u!"7", u!"sju;"),
    (u!"8", u!"åtta;"),
    (u!"9", u!"nio;"),
    (u!"10", u!"tio;"),
    (u!"11", u!"elva;"),
    (u!"12", u!"tolv;"),
    (u!"13", u!"tretton;"),
    (u!"14", u!"fjorton;"),
    (u!"15", u!"femton;"),
    (u!"16", u!"sexton;"),
    (u!"17", u!"sjutton;"),
    (u!"18", u!"arton;"),
    (u!"19", u!"nitton;"),
    (u!"20", u!"tjugo[\u00ad>>];"),
    (u!"30", u!"trettio[\u00ad>>];"),
    (u!"40", u!"fyrtio[\u00ad>>];"),
    (u!"50", u!"femtio[\u00ad>>];"),
    (u!"60", u!"sextio[\u00ad>>];"),
    (u!"70", u!"sjuttio[\u00ad>>];"),
    (u!"80", u!"åttio[\u00ad>>];"),
    (u!"90", u!"nittio[\u00ad>>];"),
    (u!"100", u!"<%spellout-numbering<\u00adhundra[\u00ad>>];"),
    (u!"1000", u!"ERROR;")]),
  (u!"%spellout-cardinal-neuter", [(u!"0", u!"=%spellout-numbering=;")]),
  (u!"%spellout-cardinal-masculine", [(u!"0", u!"=%spellout-cardinal-reale=;")]),
  (u!"%spellout-cardinal-feminine", [(u!"0", u!"=%spellout-cardinal-reale=;")]),
  (u!"%spellout-cardinal-reale", [(u!"-x", u!"minus >>;"),
    (u!"x.x", u!"<< komma >>;"),
    (u!"0", u!"noll;"),
    (u!"1", u!"en;"),
    (u!"2", u!"=%spellout-numbering=;"),
    (u!"20", u!"tjugo[\u00ad>>];"),
    (u!"30", u!"trettio[\u00ad>>];"),
    (u!"40", u!"fyrtio[\u00ad>>];"),
    (u!"50", u!"femtio[\u00ad>>];"),
    (u!"60", u!"sextio[\u00ad>>];"),
    (u!"70", u!"sjuttio[\u00ad>>];"),
    (u!"80", u!"åttio[\u00ad>>];"),
    (u!"90", u!"nittio[\u00ad>>];"),
    (u!"100", u!"<%spellout-cardinal-neuter<\u00adhundra[\u00ad>>];"),
    (u!"1000", u!"ettusen[ >>];"),
    (u!"2000", u!"<%spellout-cardinal-reale<\u00adtusen[ >>];"),
    (u!"1000000", u!"en miljon[ >>];"),
    (u!"2000000", u!"<%spellout-cardinal-reale< miljoner[ >>];"),
    (u!"1000000000", u!"en miljard[ >>];"),
    (u!"2000000000", u!"<%spellout-cardinal-reale< miljarder[ >>];"),
    (u!"1000000000000", u!"en biljon[ >>];"),
    (u!"2000000000000", u!"<%spellout-cardinal-reale< biljoner[ >>];"),
    (u!"1000000000000000", u!"en biljard[ >>];"),
    (u!"2000000000000000", u!"<%spellout-cardinal-reale< biljarder[ >>];"),
    (u!"1000000000000000000", u!"=#,##0=;")]),
  (u!"%spellout-ordinal-neuter", [(u!"-x", u!"minus >>;"),
    (u!"x.x", u!"=#,##0.#=;"),
    (u!"0", u!"nollte;"),
    (u!"1", u!"första;"),
    (u!"2", u!"andra;"),
    (u!"3", u!"=%spellout-ordinal-masculine=;"),
    (u!"20", u!"tjugo>%%ord-fem-nde>;"),
    (u!"30", u!"trettio>%%ord-fem-nde>;"),
    (u!"40", u!"fyrtio>%%ord-fem-nde>;"),
    (u!"50", u!"femtio>%%ord-fem-nde>;"),
    (u!"60", u!"sextio>%%ord-fem-nde>;"),
    (u!"70", u!"sjuttio>%%ord-fem-nde>;"),
    (u!"80", u!"åttio>%%ord-fem-nde>;"),
    (u!"90", u!"nittio>%%ord-fem-nde>;"),
    (u!"100", u!"<%spellout-numbering<\u00adhundra>%%ord-fem-de>;"),
    (u!"1000", u!"<%%spellout-numbering-t<\u00adtusen>%%ord-fem-de>;"),
    (u!"1000000", u!"en miljon>%%ord-fem-te>;"),
    (u!"2000000", u!"<%spellout-cardinal-reale< miljon>%%ord-fem-teer>;"),
    (u!"1000000000", u!"en miljard>%%ord-fem-te>;"),
    (u!"2000000000", u!"<%spellout-cardinal-reale< miljard>%%ord-fem-teer>;"),
    (u!"1000000000000", u!"en biljon>%%ord-fem-te>;"),
    (u!"2000000000000", u!"<%spellout-cardinal-reale< biljon>%%ord-fem-teer>;"),
    (u!"1000000000000000", u!"en biljard>%%ord-fem-te>;"),
    (u!"2000000000000000", u!"<%spellout-cardinal-reale< biljard>%%ord-fem-teer>;"),
    (u!"1000000000000000000", u!"=#,##0=':e;")]),
  (u!"%%ord-fem-nde", [(u!"0", u!"nde;"),
    (u!"1", u!"\u00ad=%spellout-ordinal-feminine=;")]),
  (u!"%%ord-fem-de", [(u!"0", u!"de;"),
    (u!"1", u!"' =%spellout-ordinal-feminine=;")]),
  (u!"%%ord-fem-te", [(u!"0", u!"te;"),
    (u!"1", u!"' =%spellout-ordinal-feminine=;")]),
  (u!"%%ord-fem-teer", [(u!"0", u!"te;"),
    (u!"1", u!"er =%spellout-ordinal-feminine=;")]),
  (u!"%spellout-ordinal-masculine", [(u!"-x", u!"minus >>;"),
    (u!"x.x", u!"=#,##0.#=;"),
    (u!"0", u!"nollte;"),
    (u!"1", u!"förste;"),
    (u!"2", u!"andre;"),
    (u!"3", u!"tredje;"),
    (u!"4", u!"fjärde;"),
    (u!"5", u!"femte;"),
    (u!"6", u!"sjätte;"),
    (u!"7", u!"sjunde;"),
    (u!"8", u!"åttonde;"),
    (u!"9", u!"nionde;"),
    (u!"10", u!"tionde;"),
    (u!"11", u!"elfte;"),
    (u!"12", u!"tolfte;"),
    (u!"13", u!"=%spellout-cardinal-neuter=de;"),
    (u!"20", u!"tjugo>%%ord-masc-nde>;"),
    (u!"30", u!"trettio>%%ord-masc-nde>;"),
    (u!"40", u!"fyrtio>%%ord-masc-nde>;"),
    (u!"50", u!"femtio>%%ord-masc-nde>;"),
    (u!"60", u!"sextio>%%ord-masc-nde>;"),
    (u!"70", u!"sjuttio>%%ord-masc-nde>;"),
    (u!"80", u!"åttio>%%ord-masc-nde>;"),
    (u!"90", u!"nittio>%%ord-masc-nde>;"),
    (u!"100", u!"<%spellout-numbering<\u00adhundra>%%ord-masc-de>;"),
    (u!"1000", u!"<%%spellout-numbering-t<\u00adtusen>%%ord-masc-de>;"),
    (u!"1000000", u!"en miljon>%%ord-masc-te>;"),
    (u!"2000000", u!"<%spellout-cardinal-reale< miljon>%%ord-masc-teer>;"),
    (u!"1000000000", u!"en miljard>%%ord-masc-te>;"),
    (u!"2000000000", u!"<%spellout-cardinal-reale< miljard>%%ord-masc-teer>;"),
    (u!"1000000000000", u!"en biljon>%%ord-masc-te>;"),
    (u!"2000000000000", u!"<%spellout-cardinal-reale< biljon>%%ord-masc-teer>;"),
    (u!"1000000000000000", u!"en biljard>%%ord-masc-te>;"),
    (u!"2000000000000000", u!"<%spellout-cardinal-reale< biljard>%%ord-masc-teer>;"),
    (u!"1000000000000000000", u!"=#,##0=':e;")]),
  (u!"%%ord-masc-nde", [(u!"0", u!"nde;"),
    (u!"1", u!"\u00ad=%spellout-ordinal-masculine=;")]),
  (u!"%%ord-masc-de", [(u!"0", u!"de;"),
    (u!"1", u!"' =%spellout-ordinal-masculine=;")]),
  (u!"%%ord-masc-te", [(u!"0", u!"te;"),
    (u!"1", u!"' =%spellout-ordinal-masculine=;")]),
  (u!"%%ord-masc-teer", [(u!"0", u!"te;"),
    (u!"1", u!"er =%spellout-ordinal-masculine=;")]),
  (u!"%spellout-ordinal-feminine", [(u!"0", u!"=%spellout-ordinal-neuter=;")]),
  (u!"%spellout-ordinal-reale", [(u!"0", u!"=%spellout-ordinal-neuter=;")])]

/-- `number_parser_data/supplementary_translation_data/sv.json` -/
def svSupplementary : Supplementary where
  tables := {
    unit := []
    direct := []
    tens := []
    hundreds := []
    big := [] }
  skipTokens := []
  useLongScale := some true

/-- `number_parser/data/sv.py`, lines 1-47 -/
def svModule : Output where
  tables := {
    unit := [(u!"noll", 0), (u!"en", 1), (u!"et", 1), (u!"ett", 1), (u!"två", 2), (u!"tre", 3), (u!"fyra", 4), (u!"fem", 5), (u!"sex", 6), (u!"sju", 7), (u!"åtta", 8), (u!"nio", 9)]
    direct := [(u!"tio", 10), (u!"elva", 11), (u!"tolv", 12), (u!"tretton", 13), (u!"fjorton", 14), (u!"femton", 15), (u!"sexton", 16), (u!"sjutton", 17), (u!"arton", 18), (u!"nitton", 19)]
    tens := [(u!"tjugo", 20), (u!"trettio", 30), (u!"fyrtio", 40), (u!"femtio", 50), (u!"sextio", 60), (u!"sjuttio", 70), (u!"åttio", 80), (u!"nittio", 90)]
    hundreds := []
    big := [(u!"miljoner", 1000000), (u!"miljarder", 1000000000), (u!"biljoner", 1000000000000), (u!"biljarder", 1000000000000000)] }
  skipTokens := []
  useLongScale := some true

/-- The languages nn, pl, pt, pt-PT, qu, ro, se, sk, sl, sq, sr, sr-Latn, su, sv: rules, supplementary data, data module -/
def partE : List (PyStr × RuleSets × Supplementary × Output) := [
  (u!"nn", nnRules, nnSupplementary, nnModule),
  (u!"pl", plRules, plSupplementary, plModule),
  (u!"pt", ptRules, ptSupplementary, ptModule),
  (u!"pt-PT", pt_PTRules, pt_PTSupplementary, pt_PTModule),
  (u!"qu", quRules, quSupplementary, quModule),
  (u!"ro", roRules, roSupplementary, roModule),
  (u!"se", seRules, seSupplementary, seModule),
  (u!"sk", skRules, skSupplementary, skModule),
  (u!"sl", slRules, slSupplementary, slModule),
  (u!"sq", sqRules, sqSupplementary, sqModule),
  (u!"sr", srRules, srSupplementary, srModule),
  (u!"sr-Latn", sr_LatnRules, sr_LatnSupplementary, sr_LatnModule),
  (u!"su", suRules, suSupplementary, suModule),
  (u!"sv", svRules, svSupplementary, svModule)]

end NumberParser.Gen.Sources
