/- GENERATED by tools/gen_sources.py from /repo/number_parser_data/{raw_cldr,supplementary}_translation_data/*.json and
/repo/number_parser/data/*.py. Do not edit. -/
import Verif.Model.Generator

set_option maxRecDepth 100000

namespace NumberParser.Gen.Sources
open NumberParser Gen

/-- `number_parser_data/raw_cldr_translation_data/fil.json`, `SpelloutRules` -/
def filRules : RuleSets := [
  (u!"%spellout-numbering-year", [(u!"x.x", u!"=0.0=;"),
    (u!"0", u!"=%spellout-numbering=;")]),
  (u!"%spellout-numbering", [(u!"0", u!"=%spellout-cardinal=;")]),
  (u!"%%number-times", [(u!"1", u!"isáng;"),
    (u!"2", u!"dalawáng;"),
    (u!"3", u!"tatlóng;"),
    (u!"4", u!"ápat na;"),
    (u!"5", u!"limáng;"),
    (u!"6", u!"anim na;"),
    (u!"7", u!"pitóng;"),
    (u!"8", u!"walóng;"),
    (u!"9", u!"siyám na;"),
    (u!"10", u!"sampûng;"),
    (u!"11", u!"labíng->>;"),
    (u!"20", u!"<%%number-times< pû[’t >>];"),
    (u!"100", u!"<%%number-times< daán[ at >>];"),
    (u!"1000", u!"<%%number-times< libó[’t >>];")]),
  (u!"%spellout-cardinal", [(u!"-x", u!"minus >>;"),
    (u!"x.x", u!"<< tuldok >>;"),
    (u!"0", u!"walâ;"),
    (u!"1", u!"isá;"),
    (u!"2", u!"dalawá;"),
    (u!"3", u!"tatló;"),
    (u!"4", u!"ápat;"),
    (u!"5", u!"limá;"),
    (u!"6", u!"anim;"),
    (u!"7", u!"pitó;"),
    (u!"8", u!"waló;"),
    (u!"9", u!"siyám;"),
    (u!"10", u!"sampû;"),
    (u!"11", u!"labíng->>;"),
    (u!"20", u!"<%%number-times< pû[’t >>];"),
    (u!"100", u!"<%%number-times< daán[ at >>];"),
    (u!"1000", u!"<%%number-times< libó[’t >>];"),
    (u!"1000000", u!"<%%number-times< milyón[ at >>];"),
    (u!"1000000000", u!"<%%number-times< bilyón[ at >>];"),
    (u!"1000000000000", u!"<%%number-times< trilyón[ at >>];"),
    (u!"1000000000000000", u!"<%%number-times< katrilyón[ at >>];"),
    (u!"1000000000000000000", u!"=#,##0=;")]),
  (u!"%spellout-ordinal", [(u!"x.x", u!"=#,##0.#=;"),
    (u!"0", u!"ika =%spellout-cardinal=;")])]

/-- `number_parser_data/supplementary_translation_data/fil.json` -/
def filSupplementary : Supplementary where
  tables := {
    unit := []
    direct := []
    tens := []
    hundreds := []
    big := [] }
  skipTokens := []
  useLongScale := some false

/-- `number_parser/data/fil.py`, lines 1-29 -/
def filModule : Output where
  tables := {
    unit := [(u!"walâ", 0), (u!"isá", 1), (u!"dalawá", 2), (u!"tatló", 3), (u!"ápat", 4), (u!"limá", 5), (u!"anim", 6), (u!"pitó", 7), (u!"waló", 8), (u!"siyám", 9)]
    direct := [(u!"sampû", 10)]
    tens := []
    hundreds := []
    big := [(u!"daán", 100), (u!"libó", 1000), (u!"milyón", 1000000), (u!"bilyón", 1000000000), (u!"trilyón", 1000000000000), (u!"katrilyón", 1000000000000000)] }
  skipTokens := []
  useLongScale := some false

/-- `number_parser_data/raw_cldr_translation_data/fo.json`, `SpelloutRules` -/
def foRules : RuleSets := [
  (u!"%spellout-numbering-year", [(u!"-x", u!"mínus >>;"),
    (u!"x.x", u!"=0.0=;"),
    (u!"0", u!"=%spellout-numbering=;"),
    (u!"1100/100", u!"<<\u00adhundrað[\u00adog\u00ad>>];"),
    (u!"10000", u!"=%spellout-numbering=;")]),
  (u!"%spellout-numbering", [(u!"0", u!"=%spellout-cardinal-masculine=;")]),
  (u!"%spellout-cardinal-masculine", [(u!"-x", u!"minus >>;"),
    (u!"x.x", u!"<< komma >>;"),
    (u!"0", u!"null;"),
    (u!"1", u!"ein;"),
    (u!"2", u!"tveir;"),
    (u!"3", u!"tríggir;"),
    (u!"4", u!"fýre;"),
    (u!"5", u!"fimm;"),
    (u!"6", u!"seks;"),
    (u!"7", u!"sjey;"),
    (u!"8", u!"átta;"),
    (u!"9", u!"níggju;"),
    (u!"10", u!"tíggju;"),
    (u!"11", u!"ellivu;"),
    (u!"12", u!"tólv;"),
    (u!"13", u!"trettan;"),
    (u!"14", u!"fjúrtan;"),
    (u!"15", u!"fímtan;"),
    (u!"16", u!"sekstan;"),
    (u!"17", u!"seytan;"),
    (u!"18", u!"átjan;"),
    (u!"19", u!"nítjan;"),
    (u!"20", u!"tjúgo[\u00ad>>];"),
    (u!"30", u!"tríati[\u00ad>>];"),
    (u!"40", u!"fýrati[\u00ad>>];"),
    (u!"50", u!"fimmti[\u00ad>>];"),
    (u!"60", u!"seksti[\u00ad>>];"),
    (u!"70", u!"sjeyti[\u00ad>>];"),
    (u!"80", u!"áttati[\u00ad>>];"),
    (u!"90", u!"níti[\u00ad>>];"),
    (u!"100", u!"<%spellout-cardinal-neuter<\u00adhundrað[\u00adog\u00ad>>];"),
    (u!"1000", u!"<%spellout-cardinal-neuter< tusin[ og >>];"),
    (u!"1000000", u!"ein millión[ og >>];"),
    (u!"2000000", u!"<%spellout-cardinal-feminine< millióner[ og >>];"),
    (u!"1000000000", u!"ein milliard[ og >>];"),
    (u!"2000000000", u!"<%spellout-cardinal-feminine< milliarder[ og >>];"),
    (u!"1000000000000", u!"ein billión[ og >>];"),
    (u!"2000000000000", u!"<%spellout-cardinal-feminine< billióner[ og >>];"),
    (u!"1000000000000000", u!"ein billiard[ og >>];"),
    (u!"2000000000000000", u!"<%spellout-cardinal-feminine< billiarder[ og >>];"),
    (u!"1000000000000000000", u!"=#,##0=;")]),
  (u!"%spellout-cardinal-neuter", [(u!"-x", u!"minus >>;"),
    (u!"x.x", u!"<< komma >>;"),
    (u!"0", u!"null;"),
    (u!"1", u!"eitt;"),
    (u!"2", u!"tvey;"),
    (u!"3", u!"trý;"),
    (u!"4", u!"fýre;"),
    (u!"5", u!"=%spellout-cardinal-masculine=;"),
    (u!"20", u!"tjúgo[\u00ad>>];"),
    (u!"30", u!"tríati[\u00ad>>];"),
    (u!"40", u!"fýrati[\u00ad>>];"),
    (u!"50", u!"fimmti[\u00ad>>];"),
    (u!"60", u!"seksti[\u00ad>>];"),
    (u!"70", u!"sjeyti[\u00ad>>];"),
    (u!"80", u!"áttati[\u00ad>>];"),
    (u!"90", u!"níti[\u00ad>>];"),
    (u!"100", u!"<%spellout-cardinal-neuter<\u00adhundrað[\u00adog\u00ad>>];"),
    (u!"1000", u!"<%spellout-cardinal-neuter< tusin[ og >>];"),
    (u!"1000000", u!"ein millión[ og >>];"),
    (u!"2000000", u!"<%spellout-cardinal-feminine< millióner[ og >>];"),
    (u!"1000000000", u!"ein milliard[ og >>];"),
    (u!"2000000000", u!"<%spellout-cardinal-feminine< milliarder[ og >>];"),
    (u!"1000000000000", u!"ein billión[ og >>];"),
    (u!"2000000000000", u!"<%spellout-cardinal-feminine< billióner[ og >>];"),
    (u!"1000000000000000", u!"ein billiard[ og >>];"),
    (u!"2000000000000000", u!"<%spellout-cardinal-feminine< billiarder[ og >>];"),
    (u!"1000000000000000000", u!"=#,##0=;")]),
  (u!"%spellout-cardinal-feminine", [(u!"-x", u!"minus >>;"),
    (u!"x.x", u!"<< komma >>;"),
    (u!"0", u!"null;"),
    (u!"1", u!"ein;"),
    (u!"2", u!"tvær;"),
    (u!"3", u!"tríggjar;"),
    (u!"4", u!"fýre;"),
    (u!"5", u!"=%spellout-cardinal-masculine=;"),
    (u!"20", u!"tjúgo[\u00ad>>];"),
    (u!"30", u!"tríati[\u00ad>>];"),
    (u!"40", u!"fýrati[\u00ad>>];"),
    (u!"50", u!"fimmti[\u00ad>>];"),
    (u!"60", u!"seksti[\u00ad>>];"),
    (u!"70", u!"sjeyti[\u00ad>>];"),
    (u!"80", u!"áttati[\u00ad>>];"),
    (u!"90", u!"níti[\u00ad>>];"),
    (u!"100", u!"<%spellout-cardinal-neuter<\u00adhundrað[\u00adog\u00ad>>];"),
    (u!"1000", u!"<%spellout-cardinal-neuter< tusin[ og >>];"),
    (u!"1000000", u!"ein millión[ og >>];"),
    (u!"2000000", u!"<%spellout-cardinal-feminine< millióner[ og >>];"),
    (u!"1000000000", u!"ein milliard[ og >>];"),
    (u!"2000000000", u!"<%spellout-cardinal-feminine< milliarder[ og >>];"),
    (u!"1000000000000", u!"ein billión[ og >>];"),
    (u!"2000000000000", u!"<%spellout-cardinal-feminine< billióner[ og >>];"),
    (u!"1000000000000000", u!"ein billiard[ og >>];"),
    (u!"2000000000000000", u!"<%spellout-cardinal-feminine< billiarder[ og >>];"),
    (u!"1000000000000000000", u!"=#,##0=;")])]

/-- `number_parser_data/supplementary_translation_data/fo.json` -/
def foSupplementary : Supplementary where
  tables := {
    unit := []
    direct := []
    tens := []
    hundreds := []
    big := [] }
  skipTokens := []
  useLongScale := some true

/-- `number_parser/data/fo.py`, lines 1-51 -/
def foModule : Output where
  tables := {
    unit := [(u!"null", 0), (u!"ein", 1), (u!"eitt", 1), (u!"tveir", 2), (u!"tvey", 2), (u!"tvær", 2), (u!"tríggir", 3), (u!"tríggjar", 3), (u!"trý", 3), (u!"fýre", 4), (u!"fimm", 5), (u!"seks", 6), (u!"sjey", 7), (u!"átta", 8), (u!"níggju", 9)]
    direct := [(u!"tíggju", 10), (u!"ellivu", 11), (u!"tólv", 12), (u!"trettan", 13), (u!"fjúrtan", 14), (u!"fímtan", 15), (u!"sekstan", 16), (u!"seytan", 17), (u!"átjan", 18), (u!"nítjan", 19)]
    tens := [(u!"tjúgo", 20), (u!"tríati", 30), (u!"fýrati", 40), (u!"fimmti", 50), (u!"seksti", 60), (u!"sjeyti", 70), (u!"áttati", 80), (u!"níti", 90)]
    hundreds := []
    big := [(u!"tusin", 1000), (u!"millióner", 1000000), (u!"milliarder", 1000000000), (u!"billióner", 1000000000000), (u!"billiarder", 1000000000000000)] }
  skipTokens := []
  useLongScale := some true

/-- `number_parser_data/raw_cldr_translation_data/fr.json`, `SpelloutRules` -/
def frRules : RuleSets := [
  (u!"%%lenient-parse", [(u!"0", u!"&[last primary ignorable ] << ' ' << ',' << '-' << '\u00ad';")]),
  (u!"%spellout-numbering-year", [(u!"-x", u!"moins >>;"),
    (u!"x.x", u!"=0.0=;"),
    (u!"0", u!"=%spellout-numbering=;"),
    (u!"1100/100", u!"<%spellout-cardinal-masculine<-cent>%%cents-m>;"),
    (u!"10000", u!"=%spellout-numbering=;")]),
  (u!"%spellout-numbering", [(u!"0", u!"=%spellout-cardinal-masculine=;")]),
  (u!"%%et-un", [(u!"1", u!"et-un;"),
    (u!"2", u!"=%spellout-cardinal-masculine=;"),
    (u!"11", u!"et-onze;"),
    (u!"12", u!"=%spellout-cardinal-masculine=;")]),
  (u!"%%cents-m", [(u!"0", u!"s;"),
    (u!"1", u!"' =%spellout-cardinal-masculine=;")]),
  (u!"%%subcents-m", [(u!"0", u!"s;"),
    (u!"1", u!"-=%spellout-cardinal-masculine=;")]),
  (u!"%%spellout-leading", [(u!"0", u!"=%spellout-cardinal-masculine=;"),
    (u!"80/20", u!"quatre-vingt[->>];"),
    (u!"100", u!"cent[ >>];"),
    (u!"200", u!"<< cent[ >>];"),
    (u!"1000", u!"=%spellout-cardinal-masculine=;")]),
  (u!"%spellout-cardinal-masculine", [(u!"-x", u!"moins >>;"),
    (u!"x.x", u!"<< virgule >>;"),
    (u!"0", u!"zéro;"),
    (u!"1", u!"un;"),
    (u!"2", u!"deux;"),
    (u!"3", u!"trois;"),
    (u!"4", u!"quatre;"),
    (u!"5", u!"cinq;"),
    (u!"6", u!"six;"),
    (u!"7", u!"sept;"),
    (u!"8", u!"huit;"),
    (u!"9", u!"neuf;"),
    (u!"10", u!"dix;"),
    (u!"11", u!"onze;"),
    (u!"12", u!"douze;"),
    (u!"13", u!"treize;"),
    (u!"14", u!"quatorze;"),
    (u!"15", u!"quinze;"),
    (u!"16", u!"seize;"),
    (u!"17", u!"dix->>;"),
    (u!"20", u!"vingt[->%%et-un>];"),
    (u!"30", u!"trente[->%%et-un>];"),
    (u!"40", u!"quarante[->%%et-un>];"),
    (u!"50", u!"cinquante[->%%et-un>];"),
    (u!"60/20", u!"soixante[->%%et-un>];"),
    (u!"80/20", u!"quatre-vingt>%%subcents-m>;"),
    (u!"100", u!"cent[ >>];"),
    (u!"200", u!"<< cent>%%cents-m>;"),
    (u!"1000", u!"mille[ >>];"),
    (u!"2000", u!"<%%spellout-leading< mille[ >>];"),
    (u!"1000000", u!"un million[ >>];"),
    (u!"2000000", u!"<%%spellout-leading< millions[ >>];"),
    (u!"1000000000", u!"un milliard[ >>];"),
    (u!"2000000000", u!"<%%spellout-leading< milliards[ >>];"),
    (u!"1000000000000", u!"un billion[ >>];"),
    (u!"2000000000000", u!"<%%spellout-leading< billions[ >>];"),
    (u!"1000000000000000", u!"un billiard[ >>];"),
    (u!"2000000000000000", u!"<%%spellout-leading< billiards[ >>];"),
    (u!"1000000000000000000", u!"=#,##0=;")]),
  (u!"%%et-une", [(u!"1", u!"et-une;"),
    (u!"2", u!"=%spellout-cardinal-feminine=;"),
    (u!"11", u!"et-onze;"),
    (u!"12", u!"=%spellout-cardinal-feminine=;")]),
  (u!"%%cents-f", [(u!"0", u!"s;"),
    (u!"1", u!"' =%spellout-cardinal-feminine=;")]),
  (u!"%%subcents-f", [(u!"0", u!"s;"),
    (u!"1", u!"-=%spellout-cardinal-feminine=;")]),
  (u!"%spellout-cardinal-feminine", [(u!"-x", u!"moins >>;"),
    (u!"x.x", u!"<< virgule >>;"),
    (u!"0", u!"zéro;"),
    (u!"1", u!"une;"),
    (u!"2", u!"=%spellout-cardinal-masculine=;"),
    (u!"20", u!"vingt[->%%et-une>];"),
    (u!"30", u!"trente[->%%et-une>];"),
    (u!"40", u!"quarante[->%%et-une>];"),
    (u!"50", u!"cinquante[->%%et-une>];"),
    (u!"60/20", u!"soixante[->%%et-une>];"),
    (u!"80/20", u!"quatre-vingt>%%subcents-f>;"),
    (u!"100", u!"cent[ >>];"),
    (u!"200", u!"<%spellout-cardinal-masculine< cent>%%cents-f>;"),
    (u!"1000", u!"mille[ >>];"),
    (u!"2000", u!"<%%spellout-leading< mille[ >>];"),
    (u!"1000000", u!"un million[ >>];"),
    (u!"2000000", u!"<%%spellout-leading< millions[ >>];"),
    (u!"1000000000", u!"un milliard[ >>];"),
    (u!"2000000000", u!"<%%spellout-leading< milliards[ >>];"),
    (u!"1000000000000", u!"un billion[ >>];"),
    (u!"2000000000000", u!"<%%spellout-leading< billions[ >>];"),
    (u!"1000000000000000", u!"un billiard[ >>];"),
    (u!"2000000000000000", u!"<%%spellout-leading< billiards[ >>];"),
    (u!"1000000000000000000", u!"=#,##0=;")]),
  (u!"%%et-unieme", [(u!"1", u!"et-unième;"),
    (u!"2", u!"=%%spellout-ordinal=;"),
    (u!"11", u!"et-onzième;"),
    (u!"12", u!"=%%spellout-ordinal=;")]),
  (u!"%%cents-o", [(u!"0", u!"ième;"),
    (u!"1", u!"-=%%et-unieme=;"),
    (u!"2", u!"' =%%spellout-ordinal=;"),
    (u!"11", u!"-et-onzième;"),
    (u!"12", u!"' =%%spellout-ordinal=;")]),
  (u!"%%subcents-o", [(u!"0", u!"ième;"),
    (u!"1", u!"-=%%et-unieme=;"),
    (u!"2", u!"-=%%spellout-ordinal=;"),
    (u!"11", u!"-et-onzième;"),
    (u!"12", u!"-=%%spellout-ordinal=;")]),
  (u!"%%mille-o", [(u!"0", u!"ième;"),
    (u!"1", u!"e-=%%et-unieme=;"),
    (u!"2", u!"e =%%spellout-ordinal=;"),
    (u!"11", u!"e-et-onzième;"),
    (u!"12", u!"e =%%spellout-ordinal=;")]),
  (u!"%%spellout-ordinal", [(u!"1", u!"unième;"),
    (u!"2", u!"deuxième;"),
    (u!"3", u!"troisième;"),
    (u!"4", u!"quatrième;"),
    (u!"5", u!"cinquième;"),
    (u!"6", u!"sixième;"),
    (u!"7", u!"septième;"),
    (u!"8", u!"huitième;"),
    (u!"9", u!"neuvième;"),
    (u!"10", u!"dixième;"),
    (u!"11", u!"onzième;"),
    (u!"12", u!"douzième;"),
    (u!"13", u!"treizième;"),
    (u!"14", u!"quatorzième;"),
    (u!"15", u!"quinzième;"),
    (u!"16", u!"seizième;"),
    (u!"17", u!"dix->>;"),
    (u!"20", u!"vingtième;"),
    (u!"21", u!"vingt->%%et-unieme>;"),
    (u!"30", u!"trentième;"),
    (u!"31", u!"trente->%%et-unieme>;"),
    (u!"40", u!"quarantième;"),
    (u!"41", u!"quarante->%%et-unieme>;"),
    (u!"50", u!"cinquantième;"),
    (u!"51", u!"cinquante->%%et-unieme>;"),
    (u!"60", u!"soixantième;"),
    (u!"61/20", u!"soixante->%%et-unieme>;"),
    (u!"80/20", u!"quatre-vingt>%%subcents-o>;"),
    (u!"100", u!"cent>%%cents-o>;"),
    (u!"200", u!"<%spellout-cardinal-masculine< cent>%%cents-o>;"),
    (u!"1000", u!"mill>%%mille-o>;"),
    (u!"2000", u!"<%%spellout-leading< mill>%%mille-o>;"),
    (u!"1000000", u!"<%%spellout-leading< million>%%cents-o>;"),
    (u!"1000000000", u!"<%%spellout-leading< milliard>%%cents-o>;"),
    (u!"1000000000000", u!"<%%spellout-leading< billion>%%cents-o>;"),
    (u!"1000000000000000", u!"<%%spellout-leading< billiard>%%cents-o>;"),
    (u!"1000000000000000000", u!"=#,##0=;")]),
  (u!"%spellout-ordinal-masculine-plural", [(u!"0", u!"=%spellout-ordinal-masculine=s;")]),
  (u!"%spellout-ordinal-masculine", [(u!"-x", u!"moins >>;"),
    (u!"x.x", u!"=#,##0.#=;"),
    (u!"0", u!"zéroième;"),
    (u!"1", u!"premier;"),
    (u!"2", u!"=%%spellout-ordinal=;")]),
  (u!"%spellout-ordinal-feminine-plural", [(u!"0", u!"=%spellout-ordinal-feminine=s;")]),
  (u!"%spellout-ordinal-feminine", [(u!"-x", u!"moins >>;"),
    (u!"x.x", u!"=#,##0.#=;"),
    (u!"0", u!"zéroième;"),
    (u!"1", u!"première;"),
    (u!"2", u!"=%%spellout-ordinal=;")])]

/-- `number_parser_data/supplementary_translation_data/fr.json` -/
def frSupplementary : Supplementary where
  tables := {
    unit := []
    direct := []
    tens := []
    hundreds := []
    big := [] }
  skipTokens := []
  useLongScale := some true

/-- `number_parser/data/fr.py`, lines 1-41 -/
def frModule : Output where
  tables := {
    unit := [(u!"zéro", 0), (u!"un", 1), (u!"une", 1), (u!"deux", 2), (u!"trois", 3), (u!"quatre", 4), (u!"cinq", 5), (u!"six", 6), (u!"sept", 7), (u!"huit", 8), (u!"neuf", 9)]
    direct := [(u!"dix", 10), (u!"onze", 11), (u!"douze", 12), (u!"treize", 13), (u!"quatorze", 14), (u!"quinze", 15), (u!"seize", 16)]
    tens := [(u!"vingt", 20), (u!"trente", 30), (u!"quarante", 40), (u!"cinquante", 50)]
    hundreds := []
    big := [(u!"cent", 100), (u!"mille", 1000), (u!"millions", 1000000), (u!"milliards", 1000000000), (u!"billions", 1000000000000), (u!"billiards", 1000000000000000)] }
  skipTokens := []
  useLongScale := some true

/-- `number_parser_data/raw_cldr_translation_data/fr-BE.json`, `SpelloutRules` -/
def fr_BERules : RuleSets := [
  (u!"%%lenient-parse", [(u!"0", u!"&[last primary ignorable ] << ' ' << ',' << '-' << '\u00ad';")]),
  (u!"%spellout-numbering-year", [(u!"-x", u!"moins >>;"),
    (u!"x.x", u!"=0.0=;"),
    (u!"0", u!"=%spellout-numbering=;"),
    (u!"1100/100", u!"<%spellout-cardinal-masculine<-cent>%%cents-m>;"),
    (u!"10000", u!"=%spellout-numbering=;")]),
  (u!"%spellout-numbering", [(u!"0", u!"=%spellout-cardinal-masculine=;")]),
  (u!"%%et-un", [(u!"1", u!"et-un;"),
    (u!"2", u!"=%spellout-cardinal-masculine=;"),
    (u!"11", u!"et-onze;"),
    (u!"12", u!"=%spellout-cardinal-masculine=;")]),
  (u!"%%cents-m", [(u!"0", u!"s;"),
    (u!"1", u!"' =%spellout-cardinal-masculine=;")]),
  (u!"%%spellout-leading", [(u!"0", u!"=%spellout-cardinal-masculine=;"),
    (u!"100", u!"cent[ >>];"),
    (u!"200", u!"<< cent[ >>];"),
    (u!"1000", u!"=%spellout-cardinal-masculine=;")]),
  (u!"%spellout-cardinal-masculine", [(u!"-x", u!"moins >>;"),
    (u!"x.x", u!"<< virgule >>;"),
    (u!"0", u!"zéro;"),
    (u!"1", u!"un;"),
    (u!"2", u!"deux;"),
    (u!"3", u!"trois;"),
    (u!"4", u!"quatre;"),
    (u!"5", u!"cinq;"),
    (u!"6", u!"six;"),
    (u!"7", u!"sept;"),
    (u!"8", u!"huit;"),
    (u!"9", u!"neuf;"),
    (u!"10", u!"dix;"),
    (u!"11", u!"onze;"),
    (u!"12", u!"douze;"),
    (u!"13", u!"treize;"),
    (u!"14", u!"quatorze;"),
    (u!"15", u!"quinze;"),
    (u!"16", u!"seize;"),
    (u!"17", u!"dix->>;"),
    (u!"20", u!"vingt[->%%et-un>];"),
    (u!"30", u!"trente[->%%et-un>];"),
    (u!"40", u!"quarante[->%%et-un>];"),
    (u!"50", u!"cinquante[->%%et-un>];"),
    (u!"60", u!"soixante[->%%et-un>];"),
    (u!"70", u!"septante[->%%et-un>];"),
    (u!"80", u!"quatre-vingt>%%cents-m>;"),
    (u!"90", u!"nonante[->%%et-un>];"),
    (u!"100", u!"cent[ >>];"),
    (u!"200", u!"<< cent>%%cents-m>;"),
    (u!"1000", u!"mille[ >>];"),
    (u!"2000", u!"<%%spellout-leading< mille[ >>];"),
    (u!"1000000", u!"un million[ >>];"),
    (u!"2000000", u!"<%%spellout-leading< millions[ >>];"),
    (u!"1000000000", u!"un milliard[ >>];"),
    (u!"2000000000", u!"<%%spellout-leading< milliards[ >>];"),
    (u!"1000000000000", u!"un billion[ >>];"),
    (u!"2000000000000", u!"<%%spellout-leading< billions[ >>];"),
    (u!"1000000000000000", u!"un billiard[ >>];"),
    (u!"2000000000000000", u!"<%%spellout-leading< billiards[ >>];"),
    (u!"1000000000000000000", u!"=#,##0=;")]),
  (u!"%%et-une", [(u!"1", u!"et-une;"),
    (u!"2", u!"=%spellout-cardinal-feminine=;"),
    (u!"11", u!"et-onze;"),
    (u!"12", u!"=%spellout-cardinal-feminine=;")]),
  (u!"%%cents-f", [(u!"0", u!"s;"),
    (u!"1", u!"' =%spellout-cardinal-feminine=;")]),
  (u!"%spellout-cardinal-feminine", [(u!"-x", u!"moins >>;"),
    (u!"x.x", u!"<< virgule >>;"),
    (u!"0", u!"zéro;"),
    (u!"1", u!"une;"),
    (u!"2", u!"=%spellout-cardinal-masculine=;"),
    (u!"20", u!"vingt[->%%et-une>];"),
    (u!"30", u!"trente[->%%et-une>];"),
    (u!"40", u!"quarante[->%%et-une>];"),
    (u!"50", u!"cinquante[->%%et-une>];"),
    (u!"60", u!"soixante[->%%et-une>];"),
    (u!"70", u!"septante[->%%et-une>];"),
    (u!"80", u!"quatre-vingt>%%cents-f>;"),
    (u!"90", u!"nonante[->%%et-une>];"),
    (u!"100", u!"cent[ >>];"),
    (u!"200", u!"<%spellout-cardinal-masculine< cent>%%cents-f>;"),
    (u!"1000", u!"mille[ >>];"),
    (u!"2000", u!"<%%spellout-leading< mille[ >>];"),
    (u!"1000000", u!"un million[ >>];"),
    (u!"2000000", u!"<%%spellout-leading< millions[ >>];"),
    (u!"1000000000", u!"un milliard[ >>];"),
    (u!"2000000000", u!"<%%spellout-leading< milliards[ >>];"),
    (u!"1000000000000", u!"un billion[ >>];"),
    (u!"2000000000000", u!"<%%spellout-leading< billions[ >>];"),
    (u!"1000000000000000", u!"un billiard[ >>];"),
    (u!"2000000000000000", u!"<%%spellout-leading< billiards[ >>];"),
    (u!"1000000000000000000", u!"=#,##0=;")]),
  (u!"%%et-unieme", [(u!"1", u!"et-unième;"),
    (u!"2", u!"=%%spellout-ordinal=;"),
    (u!"11", u!"et-onzième;"),
    (u!"12", u!"=%%spellout-ordinal=;")]),
  (u!"%%cents-o", [(u!"0", u!"ième;"),
    (u!"1", u!"-=%%et-unieme=;"),
    (u!"2", u!"' =%%spellout-ordinal=;"),
    (u!"11", u!"-et-onzième;"),
    (u!"12", u!"' =%%spellout-ordinal=;")]),
  (u!"%%mille-o", [(u!"0", u!"ième;"),
    (u!"1", u!"e-=%%et-unieme=;"),
    (u!"2", u!"e =%%spellout-ordinal=;"),
    (u!"11", u!"e-et-onzième;"),
    (u!"12", u!"e =%%spellout-ordinal=;")]),
  (u!"%%spellout-ordinal", [(u!"1", u!"unième;"),
    (u!"2", u!"deuxième;"),
    (u!"3", u!"troisième;"),
    (u!"4", u!"quatrième;"),
    (u!"5", u!"cinquième;"),
    (u!"6", u!"sixième;"),
    (u!"7", u!"septième;"),
    (u!"8", u!"huitième;"),
    (u!"9", u!"neuvième;"),
    (u!"10", u!"dixième;"),
    (u!"11", u!"onzième;"),
    (u!"12", u!"douzième;"),
    (u!"13", u!"treizième;"),
    (u!"14", u!"quatorzième;"),
    (u!"15", u!"quinzième;"),
    (u!"16", u!"seizième;"),
    (u!"17", u!"dix->>;"),
    (u!"20", u!"vingtième;"),
    (u!"21", u!"vingt->%%et-unieme>;"),
    (u!"30", u!"trentième;"),
    (u!"31", u!"trente->%%et-unieme>;"),
    (u!"40", u!"quarantième;"),
    (u!"41", u!"quarante->%%et-unieme>;"),
    (u!"50", u!"cinquantième;"),
    (u!"51", u!"cinquante->%%et-unieme>;"),
    (u!"60", u!"soixantième;"),
    (u!"61", u!"soixante->%%et-unieme>;"),
    (u!"70", u!"septantième;"),
    (u!"71", u!"septante->%%et-unieme>;"),
    (u!"80", u!"quatre-vingt>%%cents-o>;"),
    (u!"90", u!"nonantième;"),
    (u!"91", u!"nonante->%%et-unieme>;"),
    (u!"100", u!"cent>%%cents-o>;"),
    (u!"200", u!"<%spellout-cardinal-masculine< cent>%%cents-o>;"),
    (u!"1000", u!"mill>%%mille-o>;"),
    (u!"2000", u!"<%%spellout-leading< mill>%%mille-o>;"),
    (u!"1000000", u!"<%%spellout-leading< million>%%cents-o>;"),
    (u!"1000000000", u!"<%%spellout-leading< milliard>%%cents-o>;"),
    (u!"1000000000000", u!"<%%spellout-leading< billion>%%cents-o>;"),
    (u!"1000000000000000", u!"<%%spellout-leading< billiard>%%cents-o>;"),
    (u!"1000000000000000000", u!"=#,##0=;")]),
  (u!"%spellout-ordinal-masculine-plural", [(u!"0", u!"=%spellout-ordinal-masculine=s;")]),
  (u!"%spellout-ordinal-masculine", [(u!"-x", u!"moins >>;"),
    (u!"x.x", u!"=#,##0.#=;"),
    (u!"0", u!"zéroième;"),
    (u!"1", u!"premier;"),
    (u!"2", u!"=%%spellout-ordinal=;")]),
  (u!"%spellout-ordinal-feminine-plural", [(u!"0", u!"=%spellout-ordinal-feminine=s;")]),
  (u!"%spellout-ordinal-feminine", [(u!"-x", u!"moins >>;"),
    (u!"x.x", u!"=#,##0.#=;"),
    (u!"0", u!"zéroième;"),
    (u!"1", u!"première;"),
    (u!"2", u!"=%%spellout-ordinal=;")])]

/-- `number_parser_data/supplementary_translation_data/fr-BE.json` -/
def fr_BESupplementary : Supplementary where
  tables := {
    unit := []
    direct := []
    tens := []
    hundreds := []
    big := [] }
  skipTokens := []
  useLongScale := some true

/-- `number_parser/data/fr-BE.py`, lines 1-45 -/
def fr_BEModule : Output where
  tables := {
    unit := [(u!"zéro", 0), (u!"un", 1), (u!"une", 1), (u!"deux", 2), (u!"trois", 3), (u!"quatre", 4), (u!"cinq", 5), (u!"six", 6), (u!"sept", 7), (u!"huit", 8), (u!"neuf", 9)]
    direct := [(u!"dix", 10), (u!"onze", 11), (u!"douze", 12), (u!"treize", 13), (u!"quatorze", 14), (u!"quinze", 15), (u!"seize", 16)]
    tens := [(u!"vingt", 20), (u!"trente", 30), (u!"quarante", 40), (u!"cinquante", 50), (u!"soixante", 60), (u!"septante", 70), (u!"quatre-vingt", 80), (u!"nonante", 90)]
    hundreds := []
    big := [(u!"cent", 100), (u!"mille", 1000), (u!"millions", 1000000), (u!"milliards", 1000000000), (u!"billions", 1000000000000), (u!"billiards", 1000000000000000)] }
  skipTokens := []
  useLongScale := some true

/-- `number_parser_data/raw_cldr_translation_data/fr-CH.json`, `SpelloutRules` -/
def fr_CHRules : RuleSets := [
  (u!"%%lenient-parse", [(u!"0", u!"&[last primary ignorable ] << ' ' << ',' << '-' << '\u00ad';")]),
  (u!"%spellout-numbering-year", [(u!"-x", u!"moins >>;"),
    (u!"x.x", u!"=0.0=;"),
    (u!"0", u!"=%spellout-numbering=;"),
    (u!"1100/100", u!"<%spellout-cardinal-masculine<-cent>%%cents-m>;"),
    (u!"10000", u!"=%spellout-numbering=;")]),
  (u!"%spellout-numbering", [(u!"0", u!"=%spellout-cardinal-masculine=;")]),
  (u!"%%et-un", [(u!"1", u!"et-un;"),
    (u!"2", u!"=%spellout-cardinal-masculine=;"),
    (u!"11", u!"et-onze;"),
    (u!"12", u!"=%spellout-cardinal-masculine=;")]),
  (u!"%%cents-m", [(u!"0", u!"s;"),
    (u!"1", u!"' =%spellout-cardinal-masculine=;")]),
  (u!"%%spellout-leading", [(u!"0", u!"=%spellout-cardinal-masculine=;"),
    (u!"100", u!"cent[ >>];"),
    (u!"200", u!"<< cent[ >>];"),
    (u!"1000", u!"=%spellout-cardinal-masculine=;")]),
  (u!"%spellout-cardinal-masculine", [(u!"-x", u!"moins >>;"),
    (u!"x.x", u!"<< virgule >>;"),
    (u!"0", u!"zéro;"),
    (u!"1", u!"un;"),
    (u!"2", u!"deux;"),
    (u!"3", u!"trois;"),
    (u!"4", u!"quatre;"),
    (u!"5", u!"cinq;"),
    (u!"6", u!"six;"),
    (u!"7", u!"sept;"),
    (u!"8", u!"huit;"),
    (u!"9", u!"neuf;"),
    (u!"10", u!"dix;"),
    (u!"11", u!"onze;"),
    (u!"12", u!"douze;"),
    (u!"13", u!"treize;"),
    (u!"14", u!"quatorze;"),
    (u!"15", u!"quinze;"),
    (u!"16", u!"seize;"),
    (u!"17", u!"dix->>;"),
    (u!"20", u!"vingt[->%%et-un>];"),
    (u!"30", u!"trente[->%%et-un>];"),
    (u!"40", u!"quarante[->%%et-un>];"),
    (u!"50", u!"cinquante[->%%et-un>];"),
    (u!"60", u!"soixante[->%%et-un>];"),
    (u!"70", u!"septante[->%%et-un>];"),
    (u!"80", u!"huitante[->%%et-un>];"),
    (u!"90", u!"nonante[->%%et-un>];"),
    (u!"100", u!"cent[ >>];"),
    (u!"200", u!"<< cent>%%cents-m>;"),
    (u!"1000", u!"mille[ >>];"),
    (u!"2000", u!"<%%spellout-leading< mille[ >>];"),
    (u!"1000000", u!"un million[ >>];"),
    (u!"2000000", u!"<%%spellout-leading< millions[ >>];"),
    (u!"1000000000", u!"un milliard[ >>];"),
    (u!"2000000000", u!"<%%spellout-leading< milliards[ >>];"),
    (u!"1000000000000", u!"un billion[ >>];"),
    (u!"2000000000000", u!"<%%spellout-leading< billions[ >>];"),
    (u!"1000000000000000", u!"un billiard[ >>];"),
    (u!"2000000000000000", u!"<%%spellout-leading< billiards[ >>];"),
    (u!"1000000000000000000", u!"=#,##0=;")]),
  (u!"%%et-une", [(u!"1", u!"et-une;"),
    (u!"2", u!"=%spellout-cardinal-feminine=;"),
    (u!"11", u!"et-onze;"),
    (u!"12", u!"=%spellout-cardinal-feminine=;")]),
  (u!"%%cents-f", [(u!"0", u!"s;"),
    (u!"1", u!"' =%spellout-cardinal-feminine=;")]),
  (u!"%spellout-cardinal-feminine", [(u!"-x", u!"moins >>;"),
    (u!"x.x", u!"<< virgule >>;"),
    (u!"0", u!"zéro;"),
    (u!"1", u!"une;"),
    (u!"2", u!"=%spellout-cardinal-masculine=;"),
    (u!"20", u!"vingt[->%%et-une>];"),
    (u!"30", u!"trente[->%%et-une>];"),
    (u!"40", u!"quarante[->%%et-une>];"),
    (u!"50", u!"cinquante[->%%et-une>];"),
    (u!"60", u!"soixante[->%%et-une>];"),
    (u!"70", u!"septante[->%%et-une>];"),
    (u!"80", u!"huitante[->%%et-une>];"),
    (u!"90", u!"nonante[->%%et-une>];"),
    (u!"100", u!"cent[ >>];"),
    (u!"200", u!"<%spellout-cardinal-masculine< cent>%%cents-f>;"),
    (u!"1000", u!"mille[ >>];"),
    (u!"2000", u!"<%%spellout-leading< mille[ >>];"),
    (u!"1000000", u!"un million[ >>];"),
    (u!"2000000", u!"<%%spellout-leading< millions[ >>];"),
    (u!"1000000000", u!"un milliard[ >>];"),
    (u!"2000000000", u!"<%%spellout-leading< milliards[ >>];"),
    (u!"1000000000000", u!"un billion[ >>];"),
    (u!"2000000000000", u!"<%%spellout-leading< billions[ >>];"),
    (u!"1000000000000000", u!"un billiard[ >>];"),
    (u!"2000000000000000", u!"<%%spellout-leading< billiards[ >>];"),
    (u!"1000000000000000000", u!"=#,##0=;")]),
  (u!"%%et-unieme", [(u!"1", u!"et-unième;"),
    (u!"2", u!"=%%spellout-ordinal=;"),
    (u!"11", u!"et-onzième;"),
    (u!"12", u!"=%%spellout-ordinal=;")]),
  (u!"%%cents-o", [(u!"0", u!"ième;"),
    (u!"1", u!"-=%%et-unieme=;"),
    (u!"2", u!"' =%%spellout-ordinal=;"),
    (u!"11", u!"-et-onzième;"),
    (u!"12", u!"' =%%spellout-ordinal=;")]),
  (u!"%%mille-o", [(u!"0", u!"ième;"),
    (u!"1", u!"e-=%%et-unieme=;"),
    (u!"2", u!"e =%%spellout-ordinal=;"),
    (u!"11", u!"e-et-onzième;"),
    (u!"12", u!"e =%%spellout-ordinal=;")]),
  (u!"%%spellout-ordinal", [(u!"1", u!"unième;"),
    (u!"2", u!"deuxième;"),
    (u!"3", u!"troisième;"),
    (u!"4", u!"quatrième;"),
    (u!"5", u!"cinquième;"),
    (u!"6", u!"sixième;"),
    (u!"7", u!"septième;"),
    (u!"8", u!"huitième;"),
    (u!"9", u!"neuvième;"),
    (u!"10", u!"dixième;"),
    (u!"11", u!"onzième;"),
    (u!"12", u!"douzième;"),
    (u!"13", u!"treizième;"),
    (u!"14", u!"quatorzième;"),
    (u!"15", u!"quinzième;"),
    (u!"16", u!"seizième;"),
    (u!"17", u!"dix->>;"),
    (u!"20", u!"vingtième;"),
    (u!"21", u!"vingt->%%et-unieme>;"),
    (u!"30", u!"trentième;"),
    (u!"31", u!"trente->%%et-unieme>;"),
    (u!"40", u!"quarantième;"),
    (u!"41", u!"quarante->%%et-unieme>;"),
    (u!"50", u!"cinquantième;"),
    (u!"51", u!"cinquante->%%et-unieme>;"),
    (u!"60", u!"soixantième;"),
    (u!"61", u!"soixante->%%et-unieme>;"),
    (u!"70", u!"septantième;"),
    (u!"71", u!"septante->%%et-unieme>;"),
    (u!"80", u!"huitantième;"),
    (u!"81", u!"huitante->%%et-unieme>;"),
    (u!"90", u!"nonantième;"),
    (u!"91", u!"nonante->%%et-unieme>;"),
    (u!"100", u!"cent>%%cents-o>;"),
    (u!"200", u!"<%spellout-cardinal-masculine< cent>%%cents-o>;"),
    (u!"1000", u!"mill>%%mille-o>;"),
    (u!"2000", u!"<%%spellout-leading< mill>%%mille-o>;"),
    (u!"1000000", u!"<%%spellout-leading< million>%%cents-o>;"),
    (u!"1000000000", u!"<%%spellout-leading< milliard>%%cents-o>;"),
    (u!"1000000000000", u!"<%%spellout-leading< billion>%%cents-o>;"),
    (u!"1000000000000000", u!"<%%spellout-leading< billiard>%%cents-o>;"),
    (u!"1000000000000000000", u!"=#,##0=;")]),
  (u!"%spellout-ordinal-masculine-plural", [(u!"0", u!"=%spellout-ordinal-masculine=s;")]),
  (u!"%spellout-ordinal-masculine", [(u!"-x", u!"moins >>;"),
    (u!"x.x", u!"=#,##0.#=;"),
    (u!"0", u!"zéroième;"),
    (u!"1", u!"premier;"),
    (u!"2", u!"=%%spellout-ordinal=;")]),
  (u!"%spellout-ordinal-feminine-plural", [(u!"0", u!"=%spellout-ordinal-feminine=s;")]),
  (u!"%spellout-ordinal-feminine", [(u!"-x", u!"moins >>;"),
    (u!"x.x", u!"=#,##0.#=;"),
    (u!"0", u!"zéroième;"),
    (u!"1", u!"première;"),
    (u!"2", u!"=%%spellout-ordinal=;")])]

/-- `number_parser_data/supplementary_translation_data/fr-CH.json` -/
def fr_CHSupplementary : Supplementary where
  tables := {
    unit := []
    direct := []
    tens := []
    hundreds := []
    big := [] }
  skipTokens := []
  useLongScale := some true

/-- `number_parser/data/fr-CH.py`, lines 1-45 -/
def fr_CHModule : Output where
  tables := {
    unit := [(u!"zéro", 0), (u!"un", 1), (u!"une", 1), (u!"deux", 2), (u!"trois", 3), (u!"quatre", 4), (u!"cinq", 5), (u!"six", 6), (u!"sept", 7), (u!"huit", 8), (u!"neuf", 9)]
    direct := [(u!"dix", 10), (u!"onze", 11), (u!"douze", 12), (u!"treize", 13), (u!"quatorze", 14), (u!"quinze", 15), (u!"seize", 16)]
    tens := [(u!"vingt", 20), (u!"trente", 30), (u!"quarante", 40), (u!"cinquante", 50), (u!"soixante", 60), (u!"septante", 70), (u!"huitante", 80), (u!"nonante", 90)]
    hundreds := []
    big := [(u!"cent", 100), (u!"mille", 1000), (u!"millions", 1000000), (u!"milliards", 1000000000), (u!"billions", 1000000000000), (u!"billiards", 1000000000000000)] }
  skipTokens := []
  useLongScale := some true

/-- `number_parser_data/raw_cldr_translation_data/ga.json`, `SpelloutRules` -/
def gaRules : RuleSets := [
  (u!"%%lenient-parse", [(u!"0", u!"& ' ' , ',' ;")]),
  (u!"%%2d-year", [(u!"0", u!"agus =%spellout-numbering=;"),
    (u!"10", u!"=%%spellout-numbering-no-a=;")]),
  (u!"%spellout-numbering-year", [(u!"-x", u!"míneas >>;"),
    (u!"x.x", u!"=0.0=;"),
    (u!"0", u!"=%spellout-numbering=;"),
    (u!"1000/100", u!"<%%spellout-numbering-no-a< >%%2d-year>;"),
    (u!"10000", u!"=%spellout-numbering=;")]),
  (u!"%%spellout-numbering-no-a", [(u!"0", u!"náid;"),
    (u!"1", u!"aon;"),
    (u!"2", u!"dó;"),
    (u!"3", u!"trí;"),
    (u!"4", u!"ceathair;"),
    (u!"5", u!"cúig;"),
    (u!"6", u!"sé;"),
    (u!"7", u!"seacht;"),
    (u!"8", u!"ocht;"),
    (u!"9", u!"naoi;"),
    (u!"10", u!"deich;"),
    (u!"11", u!">> déag;"),
    (u!"12", u!">> dhéag;"),
    (u!"13", u!">> déag;"),
    (u!"20", u!"=%spellout-numbering=;")]),
  (u!"%spellout-numbering", [(u!"-x", u!"míneas >>;"),
    (u!"x.x", u!"<< pointe >>;"),
    (u!"0", u!"a náid;"),
    (u!"1", u!"a haon;"),
    (u!"2", u!"a dó;"),
    (u!"3", u!"a trí;"),
    (u!"4", u!"a ceathair;"),
    (u!"5", u!"a cúig;"),
    (u!"6", u!"a sé;"),
    (u!"7", u!"a seacht;"),
    (u!"8", u!"a hocht;"),
    (u!"9", u!"a naoi;"),
    (u!"10", u!"a deich;"),
    (u!"11", u!">> déag;"),
    (u!"12", u!">> dhéag;"),
    (u!"13", u!">> déag;"),
    (u!"20", u!"fiche[ >>];"),
    (u!"30", u!"tríocha[ >>];"),
    (u!"40", u!"daichead[ >>];"),
    (u!"50", u!"caoga[ >>];"),
    (u!"60", u!"seasca[ >>];"),
    (u!"70", u!"seachtó[ >>];"),
    (u!"80", u!"ochtó[ >>];"),
    (u!"90", u!"nócha[ >>];"),
    (u!"100", u!"<%%hundreds<[>%%is-number>];"),
    (u!"1000", u!"<%%thousands<[, >%spellout-numbering>];"),
    (u!"1000000", u!"<%%millions<[, >%spellout-numbering>];"),
    (u!"1000000000", u!"<%%billions<[, >%spellout-numbering>];"),
    (u!"1000000000000", u!"<%%trillions<[, >%spellout-numbering>];"),
    (u!"1000000000000000", u!"<%%quadrillions<[, >%spellout-numbering>];"),
    (u!"1000000000000000000", u!"=#,##0=;")]),
  (u!"%%is-number", [(u!"0", u!"' is =%spellout-numbering=;"),
    (u!"1", u!"' =%spellout-numbering=;")]),
  (u!"%%is-numberp", [(u!"0", u!"' is =%%numberp=;"),
    (u!"1", u!"' =%%numberp=;")]),
  (u!"%%numberp", [(u!"0", u!"=%%spellout-cardinal-prefixpart=;"),
    (u!"12", u!"dó dhéag;"),
    (u!"13", u!"=%%spellout-cardinal-prefixpart= déag;"),
    (u!"20", u!"=%%spellout-cardinal-prefixpart=;")]),
  (u!"%spellout-cardinal", [(u!"0", u!"=%spellout-numbering=;")]),
  (u!"%%spellout-cardinal-prefixpart", [(u!"0", u!"náid;"),
    (u!"1", u!"aon;"),
    (u!"2", u!"dhá;"),
    (u!"3", u!"trí;"),
    (u!"4", u!"ceithre;"),
    (u!"5", u!"cúig;"),
    (u!"6", u!"sé;"),
    (u!"7", u!"seacht;"),
    (u!"8", u!"ocht;"),
    (u!"9", u!"naoi;"),
    (u!"10", u!"deich;"),
    (u!"11", u!">>;"),
    (u!"20", u!"fiche[ is >>];"),
    (u!"30", u!"tríocha[ is >>];"),
    (u!"40", u!"daichead[ is >>];"),
    (u!"50", u!"caoga[ is >>];"),
    (u!"60", u!"seasca[ is >>];"),
    (u!"70", u!"seachtó[ is >>];"),
    (u!"80", u!"ochtó[ is >>];"),
    (u!"90", u!"nócha[ is >>];"),
    (u!"100", u!"<%%hundreds<[>%%is-numberp>];"),
    (u!"1000", u!"<%%thousands<[, >%%numberp>];"),
    (u!"1000000", u!"<%%millions<[, >%%numberp>];"),
    (u!"1000000000", u!"<%%billions<[, >%%numberp>];"),
    (u!"1000000000000", u!"<%%trillions<[, >%%numberp>];"),
    (u!"1000000000000000", u!"<%%quadrillions<[, >%%numberp>];"),
    (u!"1000000000000000000", u!"=#,##0=;")]),
  (u!"%%is", [(u!"0", u!"' is;"),
    (u!"1", u!";"),
    (u!"10", u!">>;")]),
  (u!"%%hundreds", [(u!"1", u!"céad;"),
    (u!"2", u!"dhá chéad;"),
    (u!"3", u!"trí chéad;"),
    (u!"4", u!"ceithre chéad;"),
    (u!"5", u!"cúig chéad;"),
    (u!"6", u!"sé chéad;"),
    (u!"7", u!"seacht gcéad;"),
    (u!"8", u!"ocht gcéad;"),
    (u!"9", u!"naoi gcéad;")]),
  (u!"%%thousands", [(u!"1", u!"míle;"),
    (u!"2", u!"=%%spellout-cardinal-prefixpart= =%%thousandp=;"),
    (u!"100", u!"<%%hundreds<>%%is-thousands>;")]),
  (u!"%%thousandp", [(u!"2", u!"=%%thousand=;"),
    (u!"11", u!"=%%thousand= dhéag;"),
    (u!"20", u!"=%%thousand=;")]),
  (u!"%%thousand", [(u!"0", u!"míle;"),
    (u!"1", u!"mhíle;"),
    (u!"7", u!"míle;"),
    (u!"11", u!">>;")]),
  (u!"%%is-thousands", [(u!"0", u!"' =%%thousand=;"),
    (u!"1", u!"' is =%%spellout-cardinal-prefixpart= =%%thousand=;"),
    (u!"11", u!"' is =%%thousands=;"),
    (u!"20", u!"=%%is= =%%thousands=;")]),
  (u!"%%millions", [(u!"1", u!"milliún;"),
    (u!"2", u!"=%%spellout-cardinal-prefixpart= =%%millionsp=;"),
    (u!"100", u!"<%%hundreds<>%%is-millions>;")]),
  (u!"%%millionsp", [(u!"2", u!"=%%million=;"),
    (u!"11", u!"=%%million= déag;"),
    (u!"20", u!"=%%million=;")]),
  (u!"%%million", [(u!"0", u!"milliún;"),
    (u!"1", u!"mhilliún;"),
    (u!"7", u!"milliún;"),
    (u!"11", u!">>;")]),
  (u!"%%is-millions", [(u!"0", u!"' =%%million=;"),
    (u!"1", u!"' is =%%spellout-cardinal-prefixpart= =%%million=;"),
    (u!"11", u!"' is =%%millions=;"),
    (u!"20", u!"=%%is= =%%millions=;")]),
  (u!"%%billions", [(u!"1", u!"billiún;"),
    (u!"2", u!"=%%spellout-cardinal-prefixpart= billiún;"),
    (u!"11", u!"=%%spellout-cardinal-prefixpart= billiún déag;"),
    (u!"20", u!"=%%spellout-cardinal-prefixpart= billiún;"),
    (u!"100", u!"<%%hundreds<>%%is-billions>;")]),
  (u!"%%is-billions", [(u!"0", u!"' billiún;"),
    (u!"1", u!"' is =%%spellout-cardinal-prefixpart= billiún;"),
    (u!"11", u!"' is =%%billions=;"),
    (u!"20", u!"=%%is= =%%billions=;")]),
  (u!"%%trillions", [(u!"1", u!"thrilliún;"),
    (u!"2", u!"=%%spellout-cardinal-prefixpart= =%%trillionsp=;"),
    (u!"100", u!"<%%hundreds<>%%is-trillions>;")]),
  (u!"%%trillionsp", [(u!"2", u!"=%%trillion=;"),
    (u!"11", u!"=%%trillion= déag;"),
    (u!"20", u!"=%%trillion=;")]),
  (u!"%%trillion", [(u!"0", u!"dtrilliún;"),
    (u!"1", u!"thrilliún;"),
    (u!"7", u!"dtrilliún;"),
    (u!"11", u!">>;")]),
  (u!"%%is-trillions", [(u!"0", u!"' =%%trillion=;"),
    (u!"1", u!"' is =%%spellout-cardinal-prefixpart= =%%trillion=;"),
    (u!"11", u!"' is =%%trillions=;"),
    (u!"20", u!"=%%is= =%%trillions=;")]),
  (u!"%%quadrillions", [(u!"1", u!"quadrilliún;"),
    (u!"2", u!"=%%spellout-cardinal-prefixpart= quadrilliún;"),
    (u!"11", u!"=%%spellout-cardinal-prefixpart= quadrilliún déag;"),
    (u!"20", u!"=%%spellout-cardinal-prefixpart= quadrilliún;"),
    (u!"100", u!"<%%hundreds<>%%is-quadrillions>;")]),
  (u!"%%is-quadrillions", [(u!"0", u!"' quadrilliún;"),
    (u!"1", u!"' is =%%spellout-cardinal-prefixpart= quadrilliún;"),
    (u!"11", u!"' is =%%quadrillions=;"),
    (u!"20", u!"=%%is= =%%quadrillions=;")])]

/-- `number_parser_data/supplementary_translation_data/ga.json` -/
def gaSupplementary : Supplementary where
  tables := {
    unit := []
    direct := []
    tens := []
    hundreds := []
    big := [] }
  skipTokens := []
  useLongScale := some false

/-- `number_parser/data/ga.py`, lines 1-44 -/
def gaModule : Output where
  tables := {
    unit := [(u!"a náid", 0), (u!"náid", 0), (u!"a haon", 1), (u!"aon", 1), (u!"a dó", 2), (u!"dhá", 2), (u!"dó", 2), (u!"a trí", 3), (u!"trí", 3), (u!"a ceathair", 4), (u!"ceathair", 4), (u!"ceithre", 4), (u!"a cúig", 5), (u!"cúig", 5), (u!"a sé", 6), (u!"sé", 6), (u!"a seacht", 7), (u!"seacht", 7), (u!"a hocht", 8), (u!"ocht", 8), (u!"a naoi", 9), (u!"naoi", 9)]
    direct := [(u!"a deich", 10), (u!"deich", 10)]
    tens := [(u!"fiche", 20), (u!"tríocha", 30), (u!"daichead", 40), (u!"caoga", 50), (u!"seasca", 60), (u!"seachtó", 70), (u!"ochtó", 80), (u!"nócha", 90)]
    hundreds := []
    big := [] }
  skipTokens := []
  useLongScale := some false

/-- `number_parser_data/raw_cldr_translation_data/he.json`, `SpelloutRules` -/
def heRules : RuleSets := [
  (u!"%spellout-numbering-year", [(u!"x.x", u!"=0.0=;"),
    (u!"0", u!"=%spellout-numbering=;")]),
  (u!"%spellout-numbering", [(u!"-x", u!"מינוס >>;"),
    (u!"x.x", u!"<< נקודה >>;"),
    (u!"0", u!"אפס;"),
    (u!"1", u!"אחת;"),
    (u!"2", u!"שתיים;"),
    (u!"3", u!"שלוש;"),
    (u!"4", u!"ארבע;"),
    (u!"5", u!"חמש;"),
    (u!"6", u!"שש;"),
    (u!"7", u!"שבע;"),
    (u!"8", u!"שמונה;"),
    (u!"9", u!"תשע;"),
    (u!"10", u!"עשר;"),
    (u!"11", u!"אחת עשרה;"),
    (u!"12", u!"שתים עשרה;"),
    (u!"13", u!">> עשרה;"),
    (u!"20", u!"עשרים[ >%%and-feminine>];"),
    (u!"30", u!"שלושים[ >%%and-feminine>];"),
    (u!"40", u!"ארבעים[ >%%and-feminine>];"),
    (u!"50", u!"חמישים[ >%%and-feminine>];"),
    (u!"60", u!"שישים[ >%%and-feminine>];"),
    (u!"70", u!"שבעים[ >%%and-feminine>];"),
    (u!"80", u!"שמונים[ >%%and-feminine>];"),
    (u!"90", u!"תשעים[ >%%and-feminine>];"),
    (u!"100", u!"מאה[ >%%and-feminine>];"),
    (u!"200", u!"מאתיים[ >%%and-feminine>];"),
    (u!"300", u!"<%spellout-numbering< מאות[ >%%and-feminine>];"),
    (u!"1000", u!"אלף[ >%%and-feminine>];"),
    (u!"2000", u!"אלפיים[ >%%and-feminine>];"),
    (u!"3000", u!"<%%thousands< אלפים[ >%%and-feminine>];"),
    (u!"11000/1000", u!"<%%spellout-numbering-m< אלף[ >%%and-feminine>];"),
    (u!"1000000", u!"מיליון[ >%%and-feminine>];"),
    (u!"2000000", u!"שני מיליון[ >%%and-feminine>];"),
    (u!"3000000", u!"<%%spellout-numbering-m< מיליון[ >%%and-feminine>];"),
    (u!"1000000000", u!"מיליארד[ >%%and-feminine>];"),
    (u!"2000000000", u!"שני מיליארד[ >%%and-feminine>];"),
    (u!"3000000000", u!"<%%spellout-numbering-m< מיליארד[ >%%and-feminine>];"),
    (u!"1000000000000", u!"ביליון[ >%%and-feminine>];"),
    (u!"2000000000000", u!"שני ביליון[ >%%and-feminine>];"),
    (u!"3000000000000", u!"<%%spellout-numbering-m< ביליון[ >%%and-feminine>];"),
    (u!"1000000000000000", u!"טריליון[ >%%and-feminine>];"),
    (u!"2000000000000000", u!"שני טריליון[ >%%and-feminine>];"),
    (u!"3000000000000000", u!"<%%spellout-numbering-m< טריליון[ >%%and-feminine>];"),
    (u!"1000000000000000000", u!"=#,##0=;")]),
  (u!"%%thousands", [(u!"1", u!"ERROR-=0=;"),
    (u!"3", u!"=%spellout-numbering=ת;"),
    (u!"8", u!"שמונת;"),
    (u!"9", u!"=%spellout-numbering=ת;"),
    (u!"11", u!"ERROR-=0=;")]),
  (u!"%%and-masculine", [(u!"1", u!"ו=%%spellout-numbering-m=;"),
    (u!"20", u!"עשרים;"),
    (u!"21", u!"עשרים >>;"),
    (u!"30", u!"שלושים;"),
    (u!"31", u!"שלושים >>;"),
    (u!"40", u!"ארבעים;"),
    (u!"41", u!"ארבעים >>;"),
    (u!"50", u!"חמישים;"),
    (u!"51", u!"חמישים >>;"),
    (u!"60", u!"שישים;"),
    (u!"61", u!"שישים >>;"),
    (u!"70", u!"שבעים;"),
    (u!"71", u!"שבעים >>;"),
    (u!"80", u!"שמונים;"),
    (u!"81", u!"שמונים >>;"),
    (u!"90", u!"תשעים;"),
    (u!"91", u!"תשעים >>;"),
    (u!"100", u!"מאה;"),
    (u!"101", u!"מאה >>;"),
    (u!"200", u!"מאתיים;"),
    (u!"201", u!"מאתיים >>;"),
    (u!"300", u!"שלוש מאות;"),
    (u!"301", u!"שלוש מאות >>;"),
    (u!"400", u!"ארבע מאות;"),
    (u!"401", u!"ארבע מאות >>;"),
    (u!"500", u!"חמש מאות;"),
    (u!"501", u!"חמש מאות >>;"),
    (u!"600", u!"שש מאות;"),
    (u!"601", u!"שש מאות >>;"),
    (u!"700", u!"שבע מאות;"),
    (u!"701", u!"שבע מאות >>;"),
    (u!"800", u!"שמונה מאות;"),
    (u!"801", u!"שמונה מאות >>;"),
    (u!"900", u!"תשע מאות;"),
    (u!"901", u!"תשע מאות >>;"),
    (u!"1000", u!"אלף[ >>];"),
    (u!"2000", u!"אלפיים[ >>];"),
    (u!"3000", u!"ו<%%thousands< אלפים[ >>];"),
    (u!"11000/1000", u!"<%%and-masculine< אלף[ >>];"),
    (u!"1000000", u!"מיליון[ >>];"),
    (u!"2000000", u!"שני מיליון[ >>];"),
    (u!"3000000", u!"<%%and-masculine< מיליון[ >>];"),
    (u!"1000000000", u!"מיליארד[ >>];"),
    (u!"2000000000", u!"שני מיליארד[ >>];"),
    (u!"3000000000", u!"<%%and-masculine< מיליארד[ >>];"),
    (u!"1000000000000", u!"ביליון[ >>];"),
    (u!"2000000000000", u!"שני ביליון[ >>];"),
    (u!"3000000000000", u!"<%%and-masculine< ביליון[ >>];"),
    (u!"1000000000000000000", u!"=#,##0=;")]),
  (u!"%%spellout-numbering-m", [(u!"0", u!"אפס;"),
    (u!"1", u!"אחד;"),
    (u!"2", u!"שניים;"),
    (u!"3", u!"שלושה;"),
    (u!"4", u!"ארבעה;"),
    (u!"5", u!"חמישה;"),
    (u!"6", u!"שישה;"),
    (u!"7", u!"שבעה;"),
    (u!"8", u!"שמונה;"),
    (u!"9", u!"תשעה;"),
    (u!"10", u!"עשרה;"),
    (u!"11", u!"אחד עשר;"),
    (u!"12", u!"שניים עשר;"),
    (u!"13", u!">> עשר;"),
    (u!"20", u!"עשרים[ >%%and-masculine>];"),
    (u!"30", u!"שלושים[ >%%and-masculine>];"),
    (u!"40", u!"ארבעים[ >%%and-masculine>];"),
    (u!"50", u!"חמישים[ >%%and-masculine>];"),
    (u!"60", u!"שישים[ >%%and-masculine>];"),
    (u!"70", u!"שבעים[ >%%and-masculine>];"),
    (u!"80", u!"שמונים[ >%%and-masculine>];"),
    (u!"90", u!"תשעים[ >%%and-masculine>];"),
    (u!"100", u!"מאה[ >%%and-masculine>];"),
    (u!"200", u!"מאתיים[ >%%and-masculine>];"),
    (u!"300", u!"<%spellout-numbering< מאות[ >%%and-masculine>];"),
    (u!"1000", u!"אלף[ >%%and-masculine>];"),
    (u!"2000", u!"אלפיים[ >%%and-masculine>];"),
    (u!"3000", u!"<%%thousands< אלפים[ >%%and-masculine>];"),
    (u!"11000/1000", u!"<%%spellout-numbering-m< אלף[ >%%and-masculine>];"),
    (u!"1000000", u!"מיליון[ >%%and-masculine>];"),
    (u!"2000000", u!"שני מיליון[ >%%and-masculine>];"),
    (u!"3000000", u!"<%%spellout-numbering-m< מיליון[ >%%and-masculine>];"),
    (u!"1000000000", u!"מיליארד[ >%%and-masculine>];"),
    (u!"2000000000", u!"שני מיליארד[ >%%and-masculine>];"),
    (u!"3000000000", u!"<%%spellout-numbering-m< מיליארד[ >%%and-masculine>];"),
    (u!"1000000000000", u!"ביליון[ >%%and-masculine>];"),
    (u!"2000000000000", u!"שני ביליון[ >%%and-masculine>];"),
    (u!"3000000000000", u!"<%%spellout-numbering-m< ביליון[ >%%and-masculine>];"),
    (u!"1000000000000000", u!"טריליון[ >%%and-masculine>];"),
    (u!"2000000000000000", u!"שני טריליון[ >%%and-masculine>];"),
    (u!"3000000000000000", u!"<%%spellout-numbering-m< טריליון[ >%%and-masculine>];"),
    (u!"1000000000000000000", u!"=#,##0=;")]),
  (u!"%%and-feminine", [(u!"1", u!"ו=%spellout-numbering=;"),
    (u!"2", u!"ושתיים;"),
    (u!"3", u!"ו=%spellout-numbering=;"),
    (u!"20", u!"עשרים;"),
    (u!"21", u!"עשרים >>;"),
    (u!"30", u!"שלושים;"),
    (u!"31", u!"שלושים >>;"),
    (u!"40", u!"ארבעים;"),
    (u!"41", u!"ארבעים >>;"),
    (u!"50", u!"חמישים;"),
    (u!"51", u!"חמישים >>;"),
    (u!"60", u!"שישים;"),
    (u!"61", u!"שישים >>;"),
    (u!"70", u!"שבעים;"),
    (u!"71", u!"שבעים >>;"),
    (u!"80", u!"שמונים;"),
    (u!"81", u!"שמונים >>;"),
    (u!"90", u!"תשעים;"),
    (u!"91", u!"תשעים >>;"),
    (u!"100", u!"מאה;"),
    (u!"101", u!"מאה >>;"),
    (u!"200", u!"מאתיים;"),
    (u!"201", u!"מאתיים >>;"),
    (u!"300", u!"שלוש מאות;"),
    (u!"301", u!"שלוש מאות >>;"),
    (u!"400", u!"ארבע מאות;"),
    (u!"401", u!"ארבע מאות >>;"),
    (u!"500", u!"חמש מאות;"),
    (u!"501", u!"חמש מאות >>;"),
    (u!"600", u!"שש מאות;"),
    (u!"601", u!"שש מאות >>;"),
    (u!"700", u!"שבע מאות;"),
    (u!"701", u!"שבע מאות >>;"),
    (u!"800", u!"שמונה מאות;"),
    (u!"801", u!"שמונה מאות >>;"),
    (u!"900", u!"תשע מאות;"),
    (u!"901", u!"תשע מאות >>;"),
    (u!"1000", u!"אלף[ >>];"),
    (u!"2000", u!"אלפיים[ >>];"),
    (u!"3000", u!"ו<%%thousands< אלפים[ >>];"),
    (u!"11000/1000", u!"<%%and-masculine< אלף[ >>];"),
    (u!"1000000", u!"מיליון[ >>];"),
    (u!"2000000", u!"שני מיליון[ >>];"),
    (u!"3000000", u!"<%%and-masculine< מיליון[ >>];"),
    (u!"1000000000", u!"מיליארד[ >>];"),
    (u!"2000000000", u!"שני מיליארד[ >>];"),
    (u!"3000000000", u!"<%%and-masculine< מיליארד[ >>];"),
    (u!"1000000000000", u!"ביליון[ >>];"),
    (u!"2000000000000", u!"שני ביליון[ >>];"),
    (u!"3000000000000", u!"<%%and-masculine< ביליון[ >>];"),
    (u!"1000000000000000000", u!"=#,##0=;")]),
  (u!"%spellout-cardinal-masculine", [(u!"-x", u!"מינוס >>;"),
    (u!"x.x", u!"<%%spellout-numbering-m< נקודה >> ;"),
    (u!"0", u!"אפס;"),
    (u!"1", u!"אחד;"),
    (u!"2", u!"שני;"),
    (u!"3", u!"שלושה;"),
    (u!"4", u!"ארבעה;"),
    (u!"5", u!"חמישה;"),
    (u!"6", u!"שישה;"),
    (u!"7", u!"שבעה;"),
    (u!"8", u!"שמונה;"),
    (u!"9", u!"תשעה;"),
    (u!"10", u!"עשרה;"),
    (u!"11", u!"אחד עשר;"),
    (u!"12", u!"שניים עשר;"),
    (u!"13", u!">> עשר;"),
    (u!"20", u!"עשרים[ >%%and-masculine>];"),
    (u!"30", u!"שלושים[ >%%and-masculine>];"),
    (u!"40", u!"ארבעים[ >%%and-masculine>];"),
    (u!"50", u!"חמישים[ >%%and-masculine>];"),
    (u!"60", u!"שישים[ >%%and-masculine>];"),
    (u!"70", u!"שבעים[ >%%and-masculine>];"),
    (u!"80", u!"שמונים[ >%%and-masculine>];"),
    (u!"90", u!"תשעים[ >%%and-masculine>];"),
    (u!"100", u!"מאה[ >%%and-masculine>];"),
    (u!"200", u!"מאתיים[ >%%and-masculine>];"),
    (u!"300", u!"<%spellout-numbering< מאות[ >%%and-masculine>];"),
    (u!"1000", u!"אלף[ >%%and-masculine>];"),
    (u!"2000", u!"אלפיים[ >%%and-masculine>];"),
    (u!"3000", u!"<%%thousands< אלפים[ >%%and-masculine>];"),
    (u!"11000/1000", u!"<%%spellout-numbering-m< אלף[ >%%and-masculine>];"),
    (u!"1000000", u!"מיליון[ >%%and-masculine>];"),
    (u!"2000000", u!"שני מיליון[ >%%and-masculine>];"),
    (u!"3000000", u!"<%%spellout-numbering-m< מיליון[ >%%and-masculine>];"),
    (u!"1000000000", u!"מיליארד[ >%%and-masculine>];"),
    (u!"2000000000", u!"שני מיליארד[ >%%and-masculine>];"),
    (u!"3000000000", u!"<%%spellout-numbering-m< מיליארד[ >%%and-masculine>];"),
    (u!"1000000000000", u!"ביליון[ >%%and-masculine>];"),
    (u!"2000000000000", u!"שני ביליון[ >%%and-masculine>];"),
    (u!"3000000000000", u!"<%%spellout-numbering-m< ביליון[ >%%and-masculine>];"),
    (u!"1000000000000000", u!"טריליון[ >%%and-masculine>];"),
    (u!"2000000000000000", u!"שני טריליון[ >%%and-masculine>];"),
    (u!"3000000000000000", u!"<%%spellout-numbering-m< טריליון[ >%%and-masculine>];"),
    (u!"1000000000000000000", u!"=#,##0=;")]),
  (u!"%spellout-cardinal-feminine", [(u!"-x", u!"מינוס >>;"),
    (u!"x.x", u!"<< נקודה >>;"),
    (u!"0", u!"=%spellout-numbering=;"),
    (u!"2", u!"שתי;"),
    (u!"3", u!"=%spellout-numbering=;")]),
  (u!"%spellout-cardinal-masculine-standalone", [(u!"-x", u!"מינוס >>;"),
    (u!"x.x", u!"<%%spellout-numbering-m< נקודה >> ;"),
    (u!"0", u!"=%spellout-cardinal-masculine=;"),
    (u!"2", u!"שניים;"),
    (u!"3", u!"=%spellout-cardinal-masculine=;")]),
  (u!"%spellout-cardinal-feminine-standalone", [(u!"0", u!"=%spellout-numbering=;")]),
  (u!"%spellout-construct-masculine", [(u!"-x", u!"מינוס >>;"),
    (u!"0", u!"=%spellout-cardinal-masculine=;"),
    (u!"1", u!"אחד;"),
    (u!"2", u!"שני;"),
    (u!"3", u!"שלושת;"),
    (u!"4", u!"ארבעת;"),
    (u!"5", u!"חמשת;"),
    (u!"6", u!"ששת;"),
    (u!"7", u!"שבעת;"),
    (u!"8", u!"שמונת;"),
    (u!"9", u!"תשעת;"),
    (u!"10", u!"עשרת;"),
    (u!"11", u!"=%spellout-cardinal-masculine=;")]),
  (u!"%spellout-construct-feminine", [(u!"-x", u!"מינוס >>;"),
    (u!"0", u!"=%spellout-cardinal-feminine=;"),
    (u!"2", u!"שתי;"),
    (u!"3", u!"=%spellout-cardinal-feminine=;")]),
  (u!"%spellout-ordinal-masculine", [(u!"-x", u!"מינוס >>;"),
    (u!"x.x", u!"=#,##0.#=;"),
    (u!"0", u!"מספר אפס;"),
    (u!"1", u!"ראשון;"),
    (u!"2", u!"שני;"),
    (u!"3", u!"שלישי;"),
    (u!"4", u!"רביעי;"),
    (u!"5", u!"חמישי;"),
    (u!"6", u!"שישי;"),
    (u!"7", u!"שביעי;"),
    (u!"8", u!"שמיני;"),
    (u!"9", u!"תשיעי;"),
    (u!"10", u!"עשירי;"),
    (u!"11", u!"=%%spellout-numbering-m=;")]),
  (u!"%spellout-ordinal-feminine", [(u!"-x", u!"מינוס >>;"),
    (u!"x.x", u!"=#,##0.#=;"),
    (u!"0", u!"מספר אפס;"),
    (u!"1", u!"ראשונה;"),
    (u!"2", u!"שניה;"),
    (u!"3", u!"שלישית;"),
    (u!"4", u!"רביעית;"),
    (u!"5", u!"חמישית;"),
    (u!"6", u!"שישית;"),
    (u!"7", u!"שביעית;"),
    (u!"8", u!"שמינית;"),
    (u!"9", u!"תשיעית;"),
    (u!"10", u!"עשירית;"),
    (u!"11", u!"=%spellout-numbering=;")])]

/-- `number_parser_data/supplementary_translation_data/he.json` -/
def heSupplementary : Supplementary where
  tables := {
    unit := []
    direct := []
    tens := []
    hundreds := []
    big := [] }
  skipTokens := []
  useLongScale := some false

/-- `number_parser/data/he.py`, lines 1-55 -/
def heModule : Output where
  tables := {
    unit := [(u!"אפס", 0), (u!"אחד", 1), (u!"אחת", 1), (u!"שני", 2), (u!"שניים", 2), (u!"שתי", 2), (u!"שתיים", 2), (u!"שלוש", 3), (u!"שלושה", 3), (u!"ארבע", 4), (u!"ארבעה", 4), (u!"חמישה", 5), (u!"חמש", 5), (u!"שישה", 6), (u!"שש", 6), (u!"שבע", 7), (u!"שבעה", 7), (u!"שמונה", 8), (u!"תשע", 9), (u!"תשעה", 9)]
    direct := [(u!"עשר", 10), (u!"עשרה", 10), (u!"אחד עשר", 11), (u!"אחת עשרה", 11), (u!"שניים עשר", 12), (u!"שתים עשרה", 12)]
    tens := [(u!"עשרים", 20), (u!"שלושים", 30), (u!"ארבעים", 40), (u!"חמישים", 50), (u!"שישים", 60), (u!"שבעים", 70), (u!"שמונים", 80), (u!"תשעים", 90)]
    hundreds := [(u!"מאתיים", 200)]
    big := [(u!"מאות", 100), (u!"אלפים", 1000), (u!"מיליון", 1000000), (u!"מיליארד", 1000000000), (u!"ביליון", 1000000000000), (u!"טריליון", 1000000000000000)] }
  skipTokens := []
  useLongScale := some false

/-- `number_parser_data/raw_cldr_translation_data/hr.json`, `SpelloutRules` -/
def hrRules : RuleSets := [
  (u!"%spellout-numbering-year", [(u!"x.x", u!"=0.0=;"),
    (u!"0", u!"=%spellout-numbering=;")]),
  (u!"%spellout-numbering", [(u!"0", u!"=%spellout-cardinal-masculine=;")]),
  (u!"%spellout-cardinal-masculine", [(u!"-x", u!"minus >>;"),
    (u!"x.x", u!"<< zarez >>;"),
    (u!"0", u!"nula;"),
    (u!"1", u!"jedan;"),
    (u!"2", u!"dva;"),
    (u!"3", u!"tri;"),
    (u!"4", u!"četiri;"),
    (u!"5", u!"pet;"),
    (u!"6", u!"šest;"),
    (u!"7", u!"sedam;"),
    (u!"8", u!"osam;"),
    (u!"9", u!"devet;"),
    (u!"10", u!"deset;"),
    (u!"11", u!"jedanaest;"),
    (u!"12", u!"dvanaest;"),
    (u!"13", u!"trinaest;"),
    (u!"14", u!"četrnaest;"),
    (u!"15", u!"petnaest;"),
    (u!"16", u!"šesnaest;"),
    (u!"17", u!"sedamnaest;"),
    (u!"18", u!"osamnaest;"),
    (u!"19", u!"devetnaest;"),
    (u!"20", u!"dvadeset[ i >>];"),
    (u!"30", u!"trideset[ i >>];"),
    (u!"40", u!"četrdeset[ i >>];"),
    (u!"50", u!"pedeset[ i >>];"),
    (u!"60", u!"šezdeset[ i >>];"),
    (u!"70", u!"sedamdeset[ i >>];"),
    (u!"80", u!"osamdeset[ i >>];"),
    (u!"90", u!"devedeset[ i >>];"),
    (u!"100", u!"sto[ >>];"),
    (u!"200", u!"dvjesto[ >>];"),
    (u!"300", u!"tristo[ >>];"),
    (u!"400", u!"četiristo[ >>];"),
    (u!"500", u!"petsto[ >>];"),
    (u!"600", u!"šeststo[ >>];"),
    (u!"700", u!"sedamsto[ >>];"),
    (u!"800", u!"osamsto[ >>];"),
    (u!"900", u!"devetsto[ >>];"),
    (u!"1000", u!"tisuću[ >>];"),
    (u!"2000", u!"<%spellout-cardinal-feminine< tisuće[ >>];"),
    (u!"5000", u!"<%spellout-cardinal-feminine< tisuća[ >>];"),
    (u!"1000000", u!"<%spellout-cardinal-masculine< milijun[ >>];"),
    (u!"2000000", u!"<%spellout-cardinal-masculine< milijuna[ >>];"),
    (u!"5000000", u!"<%spellout-cardinal-masculine< milijuna[ >>];"),
    (u!"1000000000", u!"<%spellout-cardinal-feminine< milijarda[ >>];"),
    (u!"2000000000", u!"<%spellout-cardinal-feminine< milijarde[ >>];"),
    (u!"5000000000", u!"<%spellout-cardinal-feminine< milijardi[ >>];"),
    (u!"1000000000000", u!"<%spellout-cardinal-masculine< bilijun[ >>];"),
    (u!"2000000000000", u!"<%spellout-cardinal-masculine< bilijuna[ >>];"),
    (u!"5000000000000", u!"<%spellout-cardinal-masculine< bilijuna[ >>];"),
    (u!"1000000000000000", u!"<%spellout-cardinal-feminine< bilijarda[ >>];"),
    (u!"2000000000000000", u!"<%spellout-cardinal-feminine< bilijarde[ >>];"),
    (u!"5000000000000000", u!"<%spellout-cardinal-feminine< bilijardi[ >>];"),
    (u!"1000000000000000000", u!"=#,##0=;")]),
  (u!"%spellout-cardinal-neuter", [(u!"-x", u!"minus >>;"),
    (u!"x.x", u!"<< zarez >>;"),
    (u!"0", u!"nula;"),
    (u!"1", u!"jedno;"),
    (u!"2", u!"dva;"),
    (u!"3", u!"=%spellout-cardinal-masculine=;"),
    (u!"20", u!"dvadeset[ i >>];"),
    (u!"30", u!"trideset[ i >>];"),
    (u!"40", u!"četrdeset[ i >>];"),
    (u!"50", u!"pedeset[ i >>];"),
    (u!"60", u!"šezdeset[ i >>];"),
    (u!"70", u!"sedamdeset[ i >>];"),
    (u!"80", u!"osamdeset[ i >>];"),
    (u!"90", u!"devedeset[ i >>];"),
    (u!"100", u!"sto[ >>];"),
    (u!"200", u!"dvjesto[ >>];"),
    (u!"300", u!"tristo[ >>];"),
    (u!"400", u!"četiristo[ >>];"),
    (u!"500", u!"petsto[ >>];"),
    (u!"600", u!"šeststo[ >>];"),
    (u!"700", u!"sedamsto[ >>];"),
    (u!"800", u!"osamsto[ >>];"),
    (u!"900", u!"devetsto[ >>];"),
    (u!"1000", u!"tisuću[ >>];"),
    (u!"2000", u!"<%spellout-cardinal-feminine< tisuće[ >>];"),
    (u!"5000", u!"<%spellout-cardinal-feminine< tisuća[ >>];"),
    (u!"1000000", u!"<%spellout-cardinal-masculine< milijun[ >>];"),
    (u!"2000000", u!"<%spellout-cardinal-masculine< milijuna[ >>];"),
    (u!"5000000", u!"<%spellout-cardinal-masculine< milijuna[ >>];"),
    (u!"1000000000", u!"<%spellout-cardinal-feminine< milijarda[ >>];"),
    (u!"2000000000", u!"<%spellout-cardinal-feminine< milijarde[ >>];"),
    (u!"5000000000", u!"<%spellout-cardinal-feminine< milijardi[ >>];"),
    (u!"1000000000000", u!"<%spellout-cardinal-masculine< bilijun[ >>];"),
    (u!"2000000000000", u!"<%spellout-cardinal-masculine< bilijuna[ >>];"),
    (u!"5000000000000", u!"<%spellout-cardinal-masculine< bilijuna[ >>];"),
    (u!"1000000000000000", u!"<%spellout-cardinal-feminine< bilijarda[ >>];"),
    (u!"2000000000000000", u!"<%spellout-cardinal-feminine< bilijarde[ >>];"),
    (u!"5000000000000000", u!"<%spellout-cardinal-feminine< bilijardi[ >>];"),
    (u!"1000000000000000000", u!"=#,##0=;")]),
  (u!"%spellout-cardinal-feminine", [(u!"-x", u!"minus >>;"),
    (u!"x.x", u!"<< zarez >>;"),
    (u!"0", u!"nula;"),
    (u!"1", u!"jedna;"),
    (u!"2", u!"dvije;"),
    (u!"3", u!"=%spellout-cardinal-masculine=;"),
    (u!"20", u!"dvadeset[ i >>];"),
    (u!"30", u!"trideset[ i >>];"),
    (u!"40", u!"četrdeset[ i >>];"),
    (u!"50", u!"pedeset[ i >>];"),
    (u!"60", u!"šezdeset[ i >>];"),
    (u!"70", u!"sedamdeset[ i >>];"),
    (u!"80", u!"osamdeset[ i >>];"),
    (u!"90", u!"devedeset[ i >>];"),
    (u!"100", u!"sto[ >>];"),
    (u!"200", u!"dvjesto[ >>];"),
    (u!"300", u!"tristo[ >>];"),
    (u!"400", u!"četiristo[ >>];"),
    (u!"500", u!"petsto[ >>];"),
    (u!"600", u!"šeststo[ >>];"),
    (u!"700", u!"sedamsto[ >>];"),
    (u!"800", u!"osamsto[ >>];"),
    (u!"900", u!"devetsto[ >>];"),
    (u!"1000", u!"tisuću[ >>];"),
    (u!"2000", u!"<%spellout-cardinal-feminine< tisuće[ >>];"),
    (u!"5000", u!"<%spellout-cardinal-feminine< tisuća[ >>];"),
    (u!"1000000", u!"<%spellout-cardinal-masculine< milijun[ >>];"),
    (u!"2000000", u!"<%spellout-cardinal-masculine< milijuna[ >>];"),
    (u!"5000000", u!"<%spellout-cardinal-masculine< milijuna[ >>];"),
    (u!"1000000000", u!"<%spellout-cardinal-feminine< milijarda[ >>];"),
    (u!"2000000000", u!"<%spellout-cardinal-feminine< milijarde[ >>];"),
    (u!"5000000000", u!"<%spellout-cardinal-feminine< milijardi[ >>];"),
    (u!"1000000000000", u!"<%spellout-cardinal-masculine< bilijun[ >>];"),
    (u!"2000000000000", u!"<%spellout-cardinal-masculine< bilijuna[ >>];"),
    (u!"5000000000000", u!"<%spellout-cardinal-masculine< bilijuna[ >>];"),
    (u!"1000000000000000", u!"<%spellout-cardinal-feminine< bilijarda[ >>];"),
    (u!"2000000000000000", u!"<%spellout-cardinal-feminine< bilijarde[ >>];"),
    (u!"5000000000000000", u!"<%spellout-cardinal-feminine< bilijardi[ >>];"),
    (u!"1000000000000000000", u!"=#,##0=;")]),
  (u!"%%spellout-ordinal-base", [(u!"-x", u!"minus >>;"),
    (u!"x.x", u!"=#,##0.#=;"),
    (u!"0", u!"nula;"),
    (u!"1", u!"prv;"),
    (u!"2", u!"drug;"),
    (u!"3", u!"treć;"),
    (u!"4", u!"četvrt;"),
    (u!"5", u!"pet;"),
    (u!"6", u!"šest;"),
    (u!"7", u!"sedm;"),
    (u!"8", u!"osm;"),
    (u!"9", u!"devet;"),
    (u!"10", u!"deset;"),
    (u!"11", u!"=%spellout-numbering=;"),
    (u!"20", u!"dvadeset[ >>];"),
    (u!"30", u!"trideset[ >>];"),
    (u!"40", u!"četrdeset[ >>];"),
    (u!"50", u!"pedeset[ >>];"),
    (u!"60", u!"šezdeset[ >>];"),
    (u!"70", u!"sedamdeset[ >>];"),
    (u!"80", u!"osamdeset[ >>];"),
    (u!"90", u!"devedeset[ >>];"),
    (u!"100", u!"st[ >>];"),
    (u!"200", u!"dvest[ >>];"),
    (u!"300", u!"trist[ >>];"),
    (u!"400", u!"četrist[ >>];"),
    (u!"500", u!"petst[ >>];"),
    (u!"600", u!"šest[ >>];"),
    (u!"700", u!"sedamst[ >>];"),
    (u!"800", u!"osamst[ >>];"),
    (u!"900", u!"devetst[ >>];"),
    (u!"1000", u!"tisuću[ >>];"),
    (u!"2000", u!"<%spellout-cardinal-feminine< tisuće[ >>];"),
    (u!"5000", u!"<%spellout-cardinal-feminine< tisuću[ >>];"),
    (u!"1000000", u!"<%spellout-cardinal-masculine< milijun[ >>];"),
    (u!"2000000", u!"<%spellout-cardinal-masculine< milijuny[ >>];"),
    (u!"5000000", u!"<%spellout-cardinal-masculine< milijun[ >>];"),
    (u!"1000000000", u!"<%spellout-cardinal-masculine< miliarda[ >>];"),
    (u!"2000000000", u!"<%spellout-cardinal-masculine< miliardy[ >>];"),
    (u!"5000000000", u!"<%spellout-cardinal-masculine< miliarda[ >>];"),
    (u!"1000000000000", u!"<%spellout-cardinal-masculine< bilijun[ >>];"),
    (u!"2000000000000", u!"<%spellout-cardinal-masculine< bilijuny[ >>];"),
    (u!"5000000000000", u!"<%spellout-cardinal-masculine< bilijun[ >>];"),
    (u!"1000000000000000", u!"<%spellout-cardinal-masculine< biliarda[ >>];"),
    (u!"2000000000000000", u!"<%spellout-cardinal-masculine< biliardy[ >>];"),
    (u!"5000000000000000", u!"<%spellout-cardinal-masculine< biliarda[ >>];"),
    (u!"1000000000000000000", u!"=#,##0=;")]),
  (u!"%spellout-ordinal-masculine", [(u!"0", u!"=%%spellout-ordinal-base=i;")]),
  (u!"%spellout-ordinal-neuter", [(u!"0", u!"=%%spellout-ordinal-base=o;"),
    (u!"3", u!"=%%spellout-ordinal-base=e;"),
    (u!"4", u!"=%%spellout-ordinal-base=o;")]),
  (u!"%spellout-ordinal-feminine", [(u!"0", u!"=%%spellout-ordinal-base=a;")])]

/-- `number_parser_data/supplementary_translation_data/hr.json` -/
def hrSupplementary : Supplementary where
  tables := {
    unit := []
    direct := []
    tens := []
    hundreds := []
    big := [] }
  skipTokens := []
  useLongScale := some true

/-- `number_parser/data/hr.py`, lines 1-65 -/
def hrModule : Output where
  tables := {
    unit := [(u!"nula", 0), (u!"jedan", 1), (u!"jedna", 1), (u!"jedno", 1), (u!"dva", 2), (u!"dvije", 2), (u!"tri", 3), (u!"četiri", 4), (u!"pet", 5), (u!"šest", 6), (u!"sedam", 7), (u!"osam", 8), (u!"devet", 9)]
    direct := [(u!"deset", 10), (u!"jedanaest", 11), (u!"dvanaest", 12), (u!"trinaest", 13), (u!"četrnaest", 14), (u!"petnaest", 15), (u!"šesnaest", 16), (u!"sedamnaest", 17), (u!"osamnaest", 18), (u!"devetnaest", 19)]
    tens := [(u!"dvadeset", 20), (u!"trideset", 30), (u!"četrdeset", 40), (u!"pedeset", 50), (u!"šezdeset", 60), (u!"sedamdeset", 70), (u!"osamdeset", 80), (u!"devedeset", 90)]
    hundreds := [(u!"dvjesto", 200), (u!"tristo", 300), (u!"četiristo", 400), (u!"petsto", 500), (u!"šeststo", 600), (u!"sedamsto", 700), (u!"osamsto", 800), (u!"devetsto", 900)]
    big := [(u!"tisuća", 1000), (u!"tisuće", 1000), (u!"milijun", 1000000), (u!"milijuna", 1000000), (u!"milijarda", 1000000000), (u!"milijarde", 1000000000), (u!"milijardi", 1000000000), (u!"bilijun", 1000000000000), (u!"bilijuna", 1000000000000), (u!"bilijarda", 1000000000000000), (u!"bilijarde", 1000000000000000), (u!"bilijardi", 1000000000000000)] }
  skipTokens := []
  useLongScale := some true

/-- `number_parser_data/raw_cldr_translation_data/hu.json`, `SpelloutRules` -/
def huRules : RuleSets := [
  (u!"%spellout-numbering-year", [(u!"-x", u!"mínusz >>;"),
    (u!"x.x", u!"=0.0=;"),
    (u!"0", u!"=%spellout-numbering=;")]),
  (u!"%spellout-numbering", [(u!"0", u!"=%spellout-cardinal=;")]),
  (u!"%spellout-cardinal", [(u!"-x", u!"mínusz >>;"),
    (u!"x.x", u!"<< egész >>;"),
    (u!"0", u!"nulla;"),
    (u!"1", u!"egy;"),
    (u!"2", u!"kettő;"),
    (u!"3", u!"három;"),
    (u!"4", u!"négy;"),
    (u!"5", u!"öt;"),
    (u!"6", u!"hat;"),
    (u!"7", u!"hét;"),
    (u!"8", u!"nyolc;"),
    (u!"9", u!"kilenc;"),
    (u!"10", u!"tíz;"),
    (u!"11", u!"tizen\u00ad>>;"),
    (u!"20", u!"húsz;"),
    (u!"21", u!"huszon\u00ad>>;"),
    (u!"30", u!"harminc[\u00ad>>];"),
    (u!"40", u!"negyven[\u00ad>>];"),
    (u!"50", u!"ötven[\u00ad>>];"),
    (u!"60", u!"hatvan[\u00ad>>];"),
    (u!"70", u!"hetven[\u00ad>>];"),
    (u!"80", u!"nyolcvan[\u00ad>>];"),
    (u!"90", u!"kilencven[\u00ad>>];"),
    (u!"100", u!"száz[\u00ad>>];"),
    (u!"200", u!"<%%spellout-cardinal-initial<\u00adszáz[\u00ad>>];"),
    (u!"1000", u!"ezer[\u00ad>>];"),
    (u!"2000", u!"<%%spellout-cardinal-initial<\u00adezer[\u00ad>>];"),
    (u!"1000000", u!"<%%spellout-cardinal-initial<\u00admillió[\u00ad>>];"),
    (u!"1000000000", u!"<%%spellout-cardinal-initial<\u00admilliárd[\u00ad>>];"),
    (u!"1000000000000", u!"<%%spellout-cardinal-initial<\u00adbillió[\u00ad>>];"),
    (u!"1000000000000000", u!"<%%spellout-cardinal-initial<\u00adbilliárd[\u00ad>>];"),
    (u!"1000000000000000000", u!"=#,##0=;")]),
  (u!"%spellout-cardinal-verbose", [(u!"-x", u!"mínusz >>;"),
    (u!"x.x", u!"<< egész >>;"),
    (u!"0", u!"=%spellout-cardinal=;"),
    (u!"100", u!"<<\u00adszáz[\u00ad>>];"),
    (u!"1000", u!"<<\u00adezer[\u00ad>>];"),
    (u!"1000000", u!"<<\u00admillió[\u00ad>>];"),
    (u!"1000000000", u!"<<\u00admilliárd[\u00ad>>];"),
    (u!"1000000000000", u!"<<\u00adbillió[\u00ad>>];"),
    (u!"1000000000000000", u!"<<\u00adbilliárd[\u00ad>>];"),
    (u!"1000000000000000000", u!"=#,##0=;")]),
  (u!"%%spellout-cardinal-initial", [(u!"1", u!"egy;"),
    (u!"2", u!"két;"),
    (u!"3", u!"=%spellout-cardinal=;")]),
  (u!"%spellout-ordinal", [(u!"-x", u!"mínusz >>;"),
    (u!"x.x", u!"=#,##0.#=;"),
    (u!"0", u!"nulla;"),
    (u!"1", u!"első;"),
    (u!"2", u!"második;"),
    (u!"3", u!"=%%spellout-ordinal-larger=;")]),
  (u!"%%spellout-ordinal-adik", [(u!"0", u!"adik;"),
    (u!"1", u!"=%%spellout-ordinal-larger=;")]),
  (u!"%%spellout-ordinal-odik", [(u!"0", u!"odik;"),
    (u!"1", u!"=%%spellout-ordinal-larger=;")]),
  (u!"%%spellout-ordinal-larger", [(u!"0", u!"edik;"),
    (u!"1", u!"egyedik;"),
    (u!"2", u!"kettedik;"),
    (u!"3", u!"harmadik;"),
    (u!"4", u!"negyedik;"),
    (u!"5", u!"ötödik;"),
    (u!"6", u!"hatodik;"),
    (u!"7", u!"hetedik;"),
    (u!"8", u!"nyolcadik;"),
    (u!"9", u!"kilencedik;"),
    (u!"10", u!"tizedik;"),
    (u!"11", u!"tizen>>;"),
    (u!"20", u!"huszadik;"),
    (u!"21", u!"huszon>>;"),
    (u!"30", u!"harminc>%%spellout-ordinal-adik>;"),
    (u!"40", u!"negyven>>;"),
    (u!"50", u!"ötven>>;"),
    (u!"60", u!"hatvan>%%spellout-ordinal-adik>;"),
    (u!"70", u!"hetven>>;"),
    (u!"80", u!"nyolcvan>%%spellout-ordinal-adik>;"),
    (u!"90", u!"kilencven>>;"),
    (u!"100", u!"száz>%%spellout-ordinal-adik>;"),
    (u!"200", u!"<%%spellout-cardinal-initial<száz>%%spellout-ordinal-adik>;"),
    (u!"1000", u!"ezr>>;"),
    (u!"1001", u!"ezer\u00ad>>;"),
    (u!"2000", u!"<%%spellout-cardinal-initial<\u00adezr>>;"),
    (u!"2001", u!"<%%spellout-cardinal-initial<\u00adezer\u00ad>>;"),
    (u!"1000000", u!"<%%spellout-cardinal-initial<\u00admilliom\u00ad>%%spellout-ordinal-odik>;"),
    (u!"1000000000", u!"=#,##0=.;")]),
  (u!"%spellout-ordinal-verbose", [(u!"-x", u!"mínusz >>;"),
    (u!"x.x", u!"=#,##0.#=;"),
    (u!"0", u!"nulladik;"),
    (u!"1", u!"első;"),
    (u!"2", u!"második;"),
    (u!"3", u!"=%%spellout-ordinal-verbose-larger=;")]),
  (u!"%%spellout-ordinal-verbose-adik", [(u!"0", u!"adik;"),
    (u!"1", u!"=%%spellout-ordinal-verbose-larger=;")]),
  (u!"%%spellout-ordinal-verbose-odik", [(u!"0", u!"odik;"),
    (u!"1", u!"=%%spellout-ordinal-verbose-larger=;")]),
  (u!"%%spellout-ordinal-verbose-larger", [(u!"0", u!"=%%spellout-ordinal-larger=;"),
    (u!"100", u!"<%spellout-cardinal-verbose<száz>%%spellout-ordinal-verbose-adik>;"),
    (u!"1000", u!"<%spellout-cardinal-verbose<\u00adezr>>;"),
    (u!"1001", u!"<%spellout-cardinal-verbose<\u00adezer\u00ad>>;"),
    (u!"1000000", u!"<%spellout-cardinal-verbose<\u00admilliom\u00ad>%%spellout-ordinal-verbose-odik>;"),
    (u!"1000000000", u!"=#,##0=.;")])]

/-- `number_parser_data/supplementary_translation_data/hu.json` -/
def huSupplementary : Supplementary where
  tables := {
    unit := []
    direct := []
    tens := []
    hundreds := []
    big := [] }
  skipTokens := []
  useLongScale := some true

/-- `number_parser/data/hu.py`, lines 1-32 -/
def huModule : Output where
  tables := {
    unit := [(u!"nulla", 0), (u!"egy", 1), (u!"kettő", 2), (u!"két", 2), (u!"három", 3), (u!"négy", 4), (u!"öt", 5), (u!"hat", 6), (u!"hét", 7), (u!"nyolc", 8), (u!"kilenc", 9)]
    direct := [(u!"tíz", 10), (u!"húsz", 20)]
    tens := [(u!"harminc", 30), (u!"negyven", 40), (u!"ötven", 50), (u!"hatvan", 60), (u!"hetven", 70), (u!"nyolcvan", 80), (u!"kilencven", 90)]
    hundreds := []
    big := [] }
  skipTokens := []
  useLongScale := some true

/-- `number_parser_data/raw_cldr_translation_data/hy.json`, `SpelloutRules` -/
def hyRules : RuleSets := [
  (u!"%spellout-numbering-year", [(u!"x.x", u!"=0.0=;"),
    (u!"0", u!"=%spellout-numbering=;")]),
  (u!"%spellout-numbering", [(u!"0", u!"=%spellout-cardinal=;")]),
  (u!"%spellout-cardinal", [(u!"-x", u!"հանած >>;"),
    (u!"x.x", u!"<< ստորակել >>;"),
    (u!"0", u!"զրո;"),
    (u!"1", u!"մեկ;"),
    (u!"2", u!"երկու;"),
    (u!"3", u!"երեք;"),
    (u!"4", u!"չորս;"),
    (u!"5", u!"հինգ;"),
    (u!"6", u!"վեց;"),
    (u!"7", u!"յոթ;"),
    (u!"8", u!"ութ;"),
    (u!"9", u!"ինը;"),
    (u!"10", u!"տասն[\u00ad>>];"),
    (u!"20", u!"քսան[\u00ad>>];"),
    (u!"30", u!"երեսուն[\u00ad>>];"),
    (u!"40", u!"քառասուն[\u00ad>>];"),
    (u!"50", u!"հիսուն[\u00ad>>];"),
    (u!"60", u!"վաթսուն[\u00ad>>];"),
    (u!"70", u!"յոթանասուն[\u00ad>>];"),
    (u!"80", u!"ութսուն[\u00ad>>];"),
    (u!"90", u!"իննասուն[\u00ad>>];"),
    (u!"100", u!"<<\u00adհարյուր[ >>];"),
    (u!"1000", u!"<< հազար[ >>];"),
    (u!"1000000", u!"<< միլիօն[ >>];"),
    (u!"1000000000", u!"<< միլիար[ >>];"),
    (u!"1000000000000", u!"<< բիլիօն[ >>];"),
    (u!"1000000000000000", u!"<< բիլիար[ >>];"),
    (u!"1000000000000000000", u!"=#,##0=;")])]

/-- `number_parser_data/supplementary_translation_data/hy.json` -/
def hySupplementary : Supplementary where
  tables := {
    unit := []
    direct := []
    tens := []
    hundreds := []
    big := [] }
  skipTokens := []
  useLongScale := some false

/-- `number_parser/data/hy.py`, lines 1-35 -/
def hyModule : Output where
  tables := {
    unit := [(u!"զրո", 0), (u!"մեկ", 1), (u!"երկու", 2), (u!"երեք", 3), (u!"չորս", 4), (u!"հինգ", 5), (u!"վեց", 6), (u!"յոթ", 7), (u!"ութ", 8), (u!"ինը", 9)]
    direct := []
    tens := [(u!"քսան", 20), (u!"երեսուն", 30), (u!"քառասուն", 40), (u!"հիսուն", 50), (u!"վաթսուն", 60), (u!"յոթանասուն", 70), (u!"ութսուն", 80), (u!"իննասուն", 90)]
    hundreds := []
    big := [(u!"հազար", 1000), (u!"միլիօն", 1000000), (u!"միլիար", 1000000000), (u!"բիլիօն", 1000000000000), (u!"բիլիար", 1000000000000000)] }
  skipTokens := []
  useLongScale := some false

/-- `number_parser_data/raw_cldr_translation_data/id.json`, `SpelloutRules` -/
def idRules : RuleSets := [
  (u!"%spellout-numbering-year", [(u!"x.x", u!"=0.0=;"),
    (u!"0", u!"=%spellout-numbering=;")]),
  (u!"%spellout-numbering", [(u!"0", u!"=%spellout-cardinal=;")]),
  (u!"%spellout-cardinal", [(u!"-x", u!"negatif >>;"),
    (u!"x.x", u!"<< titik >>;"),
    (u!"0", u!"kosong;"),
    (u!"1", u!"satu;"),
    (u!"2", u!"dua;"),
    (u!"3", u!"tiga;"),
    (u!"4", u!"empat;"),
    (u!"5", u!"lima;"),
    (u!"6", u!"enam;"),
    (u!"7", u!"tujuh;"),
    (u!"8", u!"delapan;"),
    (u!"9", u!"sembilan;"),
    (u!"10", u!"sepuluh;"),
    (u!"11", u!"sebelas;"),
    (u!"12", u!">> belas;"),
    (u!"20", u!"<< puluh[ >>];"),
    (u!"100", u!"seratus[ >>];"),
    (u!"200", u!"<< ratus[ >>];"),
    (u!"1000", u!"seribu[ >>];"),
    (u!"2000", u!"<< ribu[ >>];"),
    (u!"1000000", u!"<< juta[ >>];"),
    (u!"1000000000", u!"<< miliar[ >>];"),
    (u!"1000000000000", u!"<< triliun[ >>];"),
    (u!"1000000000000000", u!"<< kuadriliun[ >>];"),
    (u!"1000000000000000000", u!"=#,##0.#=;")]),
  (u!"%spellout-ordinal", [(u!"-x", u!"negatif >>;"),
    (u!"x.x", u!"=#,##0.#=;"),
    (u!"0", u!"ke=%spellout-cardinal=;")])]

/-- `number_parser_data/supplementary_translation_data/id.json` -/
def idSupplementary : Supplementary where
  tables := {
    unit := []
    direct := []
    tens := []
    hundreds := []
    big := [] }
  skipTokens := []
  useLongScale := some false

/-- `number_parser/data/id.py`, lines 1-30 -/
def idModule : Output where
  tables := {
    unit := [(u!"kosong", 0), (u!"satu", 1), (u!"dua", 2), (u!"tiga", 3), (u!"empat", 4), (u!"lima", 5), (u!"enam", 6), (u!"tujuh", 7), (u!"delapan", 8), (u!"sembilan", 9)]
    direct := [(u!"sepuluh", 10), (u!"sebelas", 11)]
    tens := []
    hundreds := []
    big := [(u!"ratus", 100), (u!"ribu", 1000), (u!"juta", 1000000), (u!"miliar", 1000000000), (u!"triliun", 1000000000000), (u!"kuadriliun", 1000000000000000)] }
  skipTokens := []
  useLongScale := some false

/-- `number_parser_data/raw_cldr_translation_data/is.json`, `SpelloutRules` -/
def isRules : RuleSets := [
  (u!"%spellout-numbering-year", [(u!"-x", u!"mínus >>;"),
    (u!"x.x", u!"=0.0=;"),
    (u!"0", u!"=%spellout-numbering=;"),
    (u!"1100/100", u!"<< hundrað[ og >>];"),
    (u!"10000", u!"=%spellout-numbering=;")]),
  (u!"%spellout-numbering", [(u!"0", u!"=%spellout-cardinal-masculine=;")]),
  (u!"%spellout-cardinal-masculine", [(u!"-x", u!"mínus >>;"),
    (u!"x.x", u!"<< komma >>;"),
    (u!"0", u!"núll;"),
    (u!"1", u!"einn;"),
    (u!"2", u!"tveir;"),
    (u!"3", u!"þrír;"),
    (u!"4", u!"fjórir;"),
    (u!"5", u!"fimm;"),
    (u!"6", u!"sex;"),
    (u!"7", u!"sjó;"),
    (u!"8", u!"átta;"),
    (u!"9", u!"níu;"),
    (u!"10", u!"tíu;"),
    (u!"11", u!"ellefu;"),
    (u!"12", u!"tólf;"),
    (u!"13", u!"þrettán;"),
    (u!"14", u!"fjórtán;"),
    (u!"15", u!"fimmtán;"),
    (u!"16", u!"sextán;"),
    (u!"17", u!"sautján;"),
    (u!"18", u!"átján;"),
    (u!"19", u!"nítján;"),
    (u!"20", u!"tuttugu[ og >>];"),
    (u!"30", u!"þrjátíu[ og >>];"),
    (u!"40", u!"fjörutíu[ og >>];"),
    (u!"50", u!"fimmtíu[ og >>];"),
    (u!"60", u!"sextíu[ og >>];"),
    (u!"70", u!"sjötíu[ og >>];"),
    (u!"80", u!"áttatíu[ og >>];"),
    (u!"90", u!"níutíu[ og >>];"),
    (u!"100", u!"<%spellout-cardinal-neuter<\u00adhundrað[ og >>];"),
    (u!"1000", u!"<%spellout-cardinal-neuter< þúsund[ og >>];"),
    (u!"1000000", u!"ein millión[ og >>];"),
    (u!"2000000", u!"<%spellout-cardinal-feminine< milliónur[ og >>];"),
    (u!"1000000000", u!"ein milliarð[ og >>];"),
    (u!"2000000000", u!"<%spellout-cardinal-feminine< milliarður[ og >>];"),
    (u!"1000000000000", u!"ein billión[ og >>];"),
    (u!"2000000000000", u!"<%spellout-cardinal-feminine< billiónur[ og >>];"),
    (u!"1000000000000000", u!"ein billiarð[ og >>];"),
    (u!"2000000000000000", u!"<%spellout-cardinal-feminine< billiarður[ og >>];"),
    (u!"1000000000000000000", u!"=#,##0=;")]),
  (u!"%spellout-cardinal-neuter", [(u!"-x", u!"mínus >>;"),
    (u!"x.x", u!"<< komma >>;"),
    (u!"0", u!"núll;"),
    (u!"1", u!"eitt;"),
    (u!"2", u!"tvö;"),
    (u!"3", u!"þrjú;"),
    (u!"4", u!"fjögur;"),
    (u!"5", u!"=%spellout-cardinal-masculine=;"),
    (u!"20", u!"tuttugu[ og >>];"),
    (u!"30", u!"þrjátíu[ og >>];"),
    (u!"40", u!"fjörutíu[ og >>];"),
    (u!"50", u!"fimmtíu[ og >>];"),
    (u!"60", u!"sextíu[ og >>];"),
    (u!"70", u!"sjötíu[ og >>];"),
    (u!"80", u!"áttatíu[ og >>];"),
    (u!"90", u!"níutíu[ og >>];"),
    (u!"100", u!"<%spellout-cardinal-neuter<\u00adhundrað[ og >>];"),
    (u!"1000", u!"<%spellout-cardinal-neuter< þúsund[ og >>];"),
    (u!"1000000", u!"ein millión[ og >>];"),
    (u!"2000000", u!"<%spellout-cardinal-feminine< milliónur[ og >>];"),
    (u!"1000000000", u!"ein milliarð[ og >>];"),
    (u!"2000000000", u!"<%spellout-cardinal-feminine< milliarður[ og >>];"),
    (u!"1000000000000", u!"ein billión[ og >>];"),
    (u!"2000000000000", u!"<%spellout-cardinal-feminine< billiónur[ og >>];"),
    (u!"1000000000000000", u!"ein billiarð[ og >>];"),
    (u!"2000000000000000", u!"<%spellout-cardinal-feminine< billiarður[ og >>];"),
    (u!"1000000000000000000", u!"=#,##0=;")]),
  (u!"%spellout-cardinal-feminine", [(u!"-x", u!"mínus >>;"),
    (u!"x.x", u!"<< komma >>;"),
    (u!"0", u!"núll;"),
    (u!"1", u!"ein;"),
    (u!"2", u!"tvær;"),
    (u!"3", u!"þrjár;"),
    (u!"4", u!"fjórar;"),
    (u!"5", u!"=%spellout-cardinal-masculine=;"),
    (u!"20", u!"tuttugu[ og >>];"),
    (u!"30", u!"þrjátíu[ og >>];"),
    (u!"40", u!"fjörutíu[ og >>];"),
    (u!"50", u!"fimmtíu[ og >>];"),
    (u!"60", u!"sextíu[ og >>];"),
    (u!"70", u!"sjötíu[ og >>];"),
    (u!"80", u!"áttatíu[ og >>];"),
    (u!"90", u!"níutíu[ og >>];"),
    (u!"100", u!"<%spellout-cardinal-neuter<\u00adhundrað[ og >>];"),
    (u!"1000", u!"<%spellout-cardinal-neuter< þúsund[ og >>];"),
    (u!"1000000", u!"ein millión[ og >>];"),
    (u!"2000000", u!"<%spellout-cardinal-feminine< milliónur[ og >>];"),
    (u!"1000000000", u!"ein milliarð[ og >>];"),
    (u!"2000000000", u!"<%spellout-cardinal-feminine< milliarður[ og >>];"),
    (u!"1000000000000", u!"ein billión[ og >>];"),
    (u!"2000000000000", u!"<%spellout-cardinal-feminine< billiónur[ og >>];"),
    (u!"1000000000000000", u!"ein billiarð[ og >>];"),
    (u!"2000000000000000", u!"<%spellout-cardinal-feminine< billiarður[ og >>];"),
    (u!"1000000000000000000", u!"=#,##0.#=;")])]

/-- `number_parser_data/supplementary_translation_data/is.json` -/
def isSupplementary : Supplementary where
  tables := {
    unit := []
    direct := []
    tens := []
    hundreds := []
    big := [] }
  skipTokens := []
  useLongScale := some true

/-- `number_parser/data/is.py`, lines 1-54 -/
def isModule : Output where
  tables := {
    unit := [(u!"núll", 0), (u!"ein", 1), (u!"einn", 1), (u!"eitt", 1), (u!"tveir", 2), (u!"tvær", 2), (u!"tvö", 2), (u!"þrjár", 3), (u!"þrjú", 3), (u!"þrír", 3), (u!"fjórar", 4), (u!"fjórir", 4), (u!"fjögur", 4), (u!"fimm", 5), (u!"sex", 6), (u!"sjó", 7), (u!"átta", 8), (u!"níu", 9)]
    direct := [(u!"tíu", 10), (u!"ellefu", 11), (u!"tólf", 12), (u!"þrettán", 13), (u!"fjórtán", 14), (u!"fimmtán", 15), (u!"sextán", 16), (u!"sautján", 17), (u!"átján", 18), (u!"nítján", 19)]
    tens := [(u!"tuttugu", 20), (u!"þrjátíu", 30), (u!"fjörutíu", 40), (u!"fimmtíu", 50), (u!"sextíu", 60), (u!"sjötíu", 70), (u!"áttatíu", 80), (u!"níutíu", 90)]
    hundreds := []
    big := [(u!"þúsund", 1000), (u!"milliónur", 1000000), (u!"milliarður", 1000000000), (u!"billiónur", 1000000000000), (u!"billiarður", 1000000000000000)] }
  skipTokens := []
  useLongScale := some true

/-- `number_parser_data/raw_cldr_translation_data/it.json`, `SpelloutRules` -/
def itRules : RuleSets := [
  (u!"%%lenient-parse", [(u!"0", u!"&[last primary ignorable ] << ' ' << ',' << '-' << '\u00ad';")]),
  (u!"%spellout-numbering-year", [(u!"x.x", u!"=0.0=;"),
    (u!"0", u!"=%spellout-numbering=;")]),
  (u!"%spellout-numbering", [(u!"-x", u!"meno >>;"),
    (u!"x.x", u!"<< virgola >>;"),
    (u!"0", u!"zero;"),
    (u!"1", u!"uno;"),
    (u!"2", u!"due;"),
    (u!"3", u!"tre;"),
    (u!"4", u!"quattro;"),
    (u!"5", u!"cinque;"),
    (u!"6", u!"sei;"),
    (u!"7", u!"sette;"),
    (u!"8", u!"otto;"),
    (u!"9", u!"nove;"),
    (u!"10", u!"dieci;"),
    (u!"11", u!"undici;"),
    (u!"12", u!"dodici;"),
    (u!"13", u!"tredici;"),
    (u!"14", u!"quattordici;"),
    (u!"15", u!"quindici;"),
    (u!"16", u!"sedici;"),
    (u!"17", u!"diciassette;"),
    (u!"18", u!"diciotto;"),
    (u!"19", u!"diciannove;"),
    (u!"20", u!"vent>%%msco-with-i>;"),
    (u!"30", u!"trent>%%msco-with-a>;"),
    (u!"40", u!"quarant>%%msco-with-a>;"),
    (u!"50", u!"cinquant>%%msco-with-a>;"),
    (u!"60", u!"sessant>%%msco-with-a>;"),
    (u!"70", u!"settant>%%msco-with-a>;"),
    (u!"80", u!"ottant>%%msco-with-a>;"),
    (u!"90", u!"novant>%%msco-with-a>;"),
    (u!"100", u!"cent>%%msco-with-o>;"),
    (u!"200", u!"<<\u00adcent>%%msco-with-o>;"),
    (u!"1000", u!"mille[\u00ad>>];"),
    (u!"2000", u!"<%%msc-no-final<\u00admila[\u00ad>>];"),
    (u!"1000000", u!"un milione[ >>];"),
    (u!"2000000", u!"<%spellout-cardinal-masculine< milioni[ >>];"),
    (u!"1000000000", u!"un miliardo[ >>];"),
    (u!"2000000000", u!"<%spellout-cardinal-masculine< miliardi[ >>];"),
    (u!"1000000000000", u!"un bilione[ >>];"),
    (u!"2000000000000", u!"<%spellout-cardinal-masculine< bilioni[ >>];"),
    (u!"1000000000000000", u!"un biliardo[ >>];"),
    (u!"2000000000000000", u!"<%spellout-cardinal-masculine< biliardi[ >>];"),
    (u!"1000000000000000000", u!"=#,##0=;")]),
  (u!"%%msco-with-i", [(u!"0", u!"i;"),
    (u!"1", u!"\u00aduno;"),
    (u!"2", u!"i\u00addue;"),
    (u!"3", u!"i\u00adtré;"),
    (u!"4", u!"i\u00ad=%spellout-numbering=;"),
    (u!"8", u!"\u00adotto;"),
    (u!"9", u!"i\u00adnove;")]),
  (u!"%%msco-with-a", [(u!"0", u!"a;"),
    (u!"1", u!"\u00aduno;"),
    (u!"2", u!"a\u00addue;"),
    (u!"3", u!"a\u00adtré;"),
    (u!"4", u!"a\u00ad=%spellout-numbering=;"),
    (u!"8", u!"\u00adotto;"),
    (u!"9", u!"a\u00adnove;")]),
  (u!"%%msco-with-o", [(u!"0", u!"o;"),
    (u!"1", u!"o\u00aduno;"),
    (u!"2", u!"o\u00addue;"),
    (u!"3", u!"o\u00adtré;"),
    (u!"4", u!"o\u00ad=%spellout-numbering=;"),
    (u!"8", u!"\u00adotto;"),
    (u!"9", u!"o\u00ad=%spellout-numbering=;"),
    (u!"80", u!"\u00ad=%spellout-numbering=;"),
    (u!"90", u!"o\u00ad=%spellout-numbering=;")]),
  (u!"%spellout-cardinal-masculine", [(u!"-x", u!"meno >>;"),
    (u!"x.x", u!"<< virgola >>;"),
    (u!"0", u!"zero;"),
    (u!"1", u!"un;"),
    (u!"2", u!"=%spellout-numbering=;"),
    (u!"20", u!"vent>%%msc-with-i>;"),
    (u!"30", u!"trent>%%msc-with-a>;"),
    (u!"40", u!"quarant>%%msc-with-a>;"),
    (u!"50", u!"cinquant>%%msc-with-a>;"),
    (u!"60", u!"sessant>%%msc-with-a>;"),
    (u!"70", u!"settant>%%msc-with-a>;"),
    (u!"80", u!"ottant>%%msc-with-a>;"),
    (u!"90", u!"novant>%%msc-with-a>;"),
    (u!"100", u!"cent>%%msc-with-o>;"),
    (u!"200", u!"<<\u00adcent>%%msc-with-o>;"),
    (u!"1000", u!"mille[\u00ad>>];"),
    (u!"2000", u!"<%%msc-no-final<\u00admila[\u00ad>>];"),
    (u!"1000000", u!"un milione[ >>];"),
    (u!"2000000", u!"<%spellout-cardinal-masculine< milioni[ >>];"),
    (u!"1000000000", u!"un miliardo[ >>];"),
    (u!"2000000000", u!"<%spellout-cardinal-masculine< miliardi[ >>];"),
    (u!"1000000000000", u!"un bilione[ >>];"),
    (u!"2000000000000", u!"<%spellout-cardinal-masculine< bilioni[ >>];"),
    (u!"1000000000000000", u!"un biliardo[ >>];"),
    (u!"2000000000000000", u!"<%spellout-cardinal-masculine< biliardi[ >>];"),
    (u!"1000000000000000000", u!"=#,##0=;")]),
  (u!"%%msc-with-i", [(u!"0", u!"i;"),
    (u!"1", u!"\u00adun;"),
    (u!"2", u!"=%%msco-with-i=;")]),
  (u!"%%msc-with-a", [(u!"0", u!"a;"),
    (u!"1", u!"\u00adun;"),
    (u!"2", u!"=%%msco-with-a=;")]),
  (u!"%%msc-with-o", [(u!"0", u!"o;"),
    (u!"1", u!"o\u00aduno;"),
    (u!"2", u!"o\u00addue;"),
    (u!"3", u!"o\u00adtré;"),
    (u!"4", u!"o\u00ad=%spellout-numbering=;"),
    (u!"8", u!"\u00adotto;"),
    (u!"9", u!"o\u00ad=%spellout-numbering=;"),
    (u!"80", u!"\u00ad=%spellout-numbering=;"),
    (u!"90", u!"o\u00ad=%spellout-numbering=;")]),
  (u!"%%msc-no-final", [(u!"0", u!"=%spellout-cardinal-masculine=;"),
    (u!"20", u!"vent>%%msc-with-i-nofinal>;"),
    (u!"30", u!"trent>%%msc-with-a-nofinal>;"),
    (u!"40", u!"quarant>%%msc-with-a-nofinal>;"),
    (u!"50", u!"cinquant>%%msc-with-a-nofinal>;"),
    (u!"60", u!"sessant>%%msc-with-a-nofinal>;"),
    (u!"70", u!"settant>%%msc-with-a-nofinal>;"),
    (u!"80", u!"ottant>%%msc-with-a-nofinal>;"),
    (u!"90", u!"novant>%%msc-with-a-nofinal>;"),
    (u!"100", u!"cent>%%msc-with-o-nofinal>;"),
    (u!"200", u!"<<\u00adcent>%%msc-with-o-nofinal>;")]),
  (u!"%%msc-with-i-nofinal", [(u!"0", u!"=%%msc-with-i=;"),
    (u!"3", u!"a\u00adtre;"),
    (u!"4", u!"=%%msc-with-i=;")]),
  (u!"%%msc-with-a-nofinal", [(u!"0", u!"=%%msc-with-a=;"),
    (u!"3", u!"a\u00adtre;"),
    (u!"4", u!"=%%msc-with-a=;")]),
  (u!"%%msc-with-o-nofinal", [(u!"0", u!"=%%msc-with-o=;"),
    (u!"3", u!"o\u00adtre;"),
    (u!"4", u!"=%%msc-with-o=;")]),
  (u!"%spellout-cardinal-feminine", [(u!"-x", u!"meno >>;"),
    (u!"x.x", u!"<< virgola >>;"),
    (u!"0", u!"zero;"),
    (u!"1", u!"una;"),
    (u!"2", u!"=%spellout-numbering=;"),
    (u!"20", u!"vent>%%fem-with-i>;"),
    (u!"30", u!"trent>%%fem-with-a>;"),
    (u!"40", u!"quarant>%%fem-with-a>;"),
    (u!"50", u!"cinquant>%%fem-with-a>;"),
    (u!"60", u!"sessant>%%fem-with-a>;"),
    (u!"70", u!"settant>%%fem-with-a>;"),
    (u!"80", u!"ottant>%%fem-with-a>;"),
    (u!"90", u!"novant>%%fem-with-a>;"),
    (u!"100", u!"cent>%%fem-with-o>;"),
    (u!"200", u!"<<\u00adcent>%%fem-with-o>;"),
    (u!"1000", u!"mille[\u00ad>>];"),
    (u!"2000", u!"<%%msc-no-final<\u00admila[\u00ad>>];"),
    (u!"1000000", u!"un milione[ >>];"),
    (u!"2000000", u!"<%spellout-cardinal-masculine< milioni[ >>];"),
    (u!"1000000000", u!"un miliardo[ >>];"),
    (u!"2000000000", u!"<%spellout-cardinal-masculine< miliardi[ >>];"),
    (u!"1000000000000", u!"un bilione[ >>];"),
    (u!"2000000000000", u!"<%spellout-cardinal-masculine< bilioni[ >>];"),
    (u!"1000000000000000", u!"un biliardo[ >>];"),
    (u!"2000000000000000", u!"<%spellout-cardinal-masculine< biliardi[ >>];"),
    (u!"1000000000000000000", u!"=#,##0=;")]),
  (u!"%%fem-with-i", [(u!"0", u!"i;"),
    (u!"1", u!"\u00aduna;"),
    (u!"2", u!"=%%msco-with-i=;")]),
  (u!"%%fem-with-a", [(u!"0", u!"a;"),
    (u!"1", u!"\u00aduna;"),
    (u!"2", u!"=%%msco-with-a=;")]),
  (u!"%%fem-with-o", [(u!"0", u!"o;"),
    (u!"1", u!"o\u00aduna;"),
    (u!"2", u!"=%%msco-with-o=;")]),
  (u!"%spellout-ordinal-masculine", [(u!"-x", u!"meno >>;"),
    (u!"x.x", u!"=#,##0.#=;"),
    (u!"0", u!"zeresimo;"),
    (u!"1", u!"primo;"),
    (u!"2", u!"secondo;"),
    (u!"3", u!"terzo;"),
    (u!"4", u!"quarto;"),
    (u!"5", u!"quinto;"),
    (u!"6", u!"sesto;"),
    (u!"7", u!"settimo;"),
    (u!"8", u!"ottavo;"),
    (u!"9", u!"nono;"),
    (u!"10", u!"decimo;"),
    (u!"11", u!"undicesimo;"),
    (u!"12", u!"dodicesimo;"),
    (u!"13", u!"tredicesimo;"),
    (u!"14", u!"quattordicesimo;"),
    (u!"15", u!"quindicesimo;"),
    (u!"16", u!"sedicesimo;"),
    (u!"17", u!"diciassettesimo;"),
    (u!"18", u!"diciottesimo;"),
    (u!"19", u!"diciannovesimo;"),
    (u!"20", u!"vent>%%ordinal-esimo-with-i>;"),
    (u!"30", u!"trent>%%ordinal-esimo-with-a>;"),
    (u!"40", u!"quarant>%%ordinal-esimo-with-a>;"),
    (u!"50", u!"cinquant>%%ordinal-esimo-with-a>;"),
    (u!"60", u!"sessant>%%ordinal-esimo-with-a>;"),
    (u!"70", u!"settant>%%ordinal-esimo-with-a>;"),
    (u!"80", u!"ottant>%%ordinal-esimo-with-a>;"),
    (u!"90", u!"novant>%%ordinal-esimo-with-a>;"),
    (u!"100", u!"cent>%%ordinal-esimo-with-o>;"),
    (u!"200", u!"<%spellout-cardinal-masculine<\u00adcent>%%ordinal-esimo-with-o>;"),
    (u!"1000", u!"mille\u00ad>%%ordinal-esimo>;"),
    (u!"2000", u!"<%spellout-cardinal-masculine<\u00admille\u00ad>%%ordinal-esimo>;"),
    (u!"2001", u!"<%spellout-cardinal-masculine<\u00admila\u00ad>%%ordinal-esimo>;"),
    (u!"1000000", u!"milione\u00ad>%%ordinal-esimo>;"),
    (u!"2000000", u!"<%spellout-cardinal-masculine<milione\u00ad>%%ordinal-esimo>;"),
    (u!"1000000000", u!"miliard\u00ad>%%ordinal-esimo-with-o>;"),
    (u!"2000000000", u!"<%spellout-cardinal-masculine<miliard\u00ad>%%ordinal-esimo-with-o>;"),
    (u!"1000000000000", u!"bilione\u00ad>%%ordinal-esimo>;"),
    (u!"2000000000000", u!"<%spellout-cardinal-masculine<bilion\u00ad>%%ordinal-esimo>;"),
    (u!"1000000000000000", u!"biliard\u00ad>%%ordinal-esimo-with-o>;"),
    (u!"2000000000000000", u!"<%spellout-cardinal-masculine<biliard\u00ad>%%ordinal-esimo-with-o>;"),
    (u!"1000000000000000000", u!"=#,##0=;")]),
  (u!"%%ordinal-esimo", [(u!"0", u!"simo;"),
    (u!"1", u!"\u00adunesimo;"),
    (u!"2", u!"\u00adduesimo;"),
    (u!"3", u!"\u00adtreesimo;"),
    (u!"4", u!"\u00adquattresimo;"),
    (u!"5", u!"\u00adcinquesimo;"),
    (u!"6", u!"\u00adseiesimo;"),
    (u!"7", u!"\u00adsettesimo;"),
    (u!"8", u!"\u00adottesimo;"),
    (u!"9", u!"\u00adnovesimo;"),
    (u!"10", u!"=%spellout-ordinal-masculine=;")]),
  (u!"%%ordinal-esimo-with-i", [(u!"0", u!"esimo;"),
    (u!"1", u!"\u00adunesimo;"),
    (u!"2", u!"i\u00adduesimo;"),
    (u!"3", u!"i\u00adtreesimo;"),
    (u!"4", u!"i\u00adquattresimo;"),
    (u!"5", u!"i\u00adcinquesimo;"),
    (u!"6", u!"i\u00adseiesimo;"),
    (u!"7", u!"i\u00adsettesimo;"),
    (u!"8", u!"\u00adottesimo;"),
    (u!"9", u!"i\u00adnovesimo;"),
    (u!"10", u!"=%spellout-ordinal-masculine=;")]),
  (u!"%%ordinal-esimo-with-a", [(u!"0", u!"esimo;"),
    (u!"1", u!"\u00adunesimo;"),
    (u!"2", u!"a\u00adduesimo;"),
    (u!"3", u!"a\u00adtreesimo;"),
    (u!"4", u!"a\u00adquattresimo;"),
    (u!"5", u!"a\u00adcinquesimo;"),
    (u!"6", u!"a\u00adseiesimo;"),
    (u!"7", u!"a\u00adsettesimo;"),
    (u!"8", u!"\u00adottesimo;"),
    (u!"9", u!"a\u00adnovesimo;"),
    (u!"10", u!"=%spellout-ordinal-masculine=;")]),
  (u!"%%ordinal-esimo-with-o", [(u!"0", u!"esimo;"),
    (u!"1", u!"\u00adunesimo;"),
    (u!"2", u!"o\u00adduesimo;"),
    (u!"3", u!"o\u00adtreesimo;"),
    (u!"4", u!"o\u00adquattresimo;"),
    (u!"5", u!"o\u00adcinquesimo;"),
    (u!"6", u!"o\u00adseiesimo;"),
    (u!"7", u!"o\u00adsettesimo;"),
    (u!"8", u!"\u00adottesimo;"),
    (u!"9", u!"o\u00adnovesimo;"),
    (u!"10", u!"o\u00ad=%spellout-ordinal-masculine=;")]),
  (u!"%spellout-ordinal-feminine", [(u!"-x", u!"meno >>;"),
    (u!"x.x", u!"=#,##0.#=;"),
    (u!"0", u!"zeresima;"),
    (u!"1", u!"prima;"),
    (u!"2", u!"seconda;"),
    (u!"3", u!"terza;"),
    (u!"4", u!"quarta;"),
    (u!"5", u!"quinta;"),
    (u!"6", u!"sesta;"),
    (u!"7", u!"settima;"),
    (u!"8", u!"ottava;"),
    (u!"9", u!"nona;"),
    (u!"10", u!"decima;"),
    (u!"11", u!"undicesima;"),
    (u!"12", u!"dodicesima;"),
    (u!"13", u!"tredicesima;"),
    (u!"14", u!"quattordicesima;"),
    (u!"15", u!"quindicesima;"),
    (u!"16", u!"sedicesima;"),
    (u!"17", u!"diciassettesima;"),
    (u!"18", u!"diciottesima;"),
    (u!"19", u!"diciannovesima;"),
    (u!"20", u!"vent>%%ordinal-esima-with-i>;"),
    (u!"30", u!"trent>%%ordinal-esima-with-a>;"),
    (u!"40", u!"quarant>%%ordinal-esima-with-a>;"),
    (u!"50", u!"cinquant>%%ordinal-esima-with-a>;"),
    (u!"60", u!"sessant>%%ordinal-esima-with-a>;"),
    (u!"70", u!"settant>%%ordinal-esima-with-a>;"),
    (u!"80", u!"ottant>%%ordinal-esima-with-a>;"),
    (u!"90", u!"novant>%%ordinal-esima-with-a>;"),
    (u!"100", u!"cent>%%ordinal-esima-with-o>;"),
    (u!"200", u!"<%spellout-cardinal-feminine<\u00adcent>%%ordinal-esima-with-o>;"),
    (u!"1000", u!"mille\u00ad>%%ordinal-esima>;"),
    (u!"2000", u!"<%spellout-cardinal-feminine<\u00admille\u00ad>%%ordinal-esima>;"),
    (u!"2001", u!"<%spellout-cardinal-feminine<\u00admila\u00ad>%%ordinal-esima>;"),
    (u!"1000000", u!"milione\u00ad>%%ordinal-esima>;"),
    (u!"2000000", u!"<%spellout-cardinal-feminine<milione\u00ad>%%ordinal-esima>;"),
    (u!"1000000000", u!"miliard\u00ad>%%ordinal-esima-with-o>;"),
    (u!"2000000000", u!"<%spellout-cardinal-feminine<miliard\u00ad>%%ordinal-esima-with-o>;"),
    (u!"1000000000000", u!"bilione\u00ad>%%ordinal-esima>;"),
    (u!"2000000000000", u!"<%spellout-cardinal-feminine<bilion\u00ad>%%ordinal-esima>;"),
    (u!"1000000000000000", u!"biliard\u00ad>%%ordinal-esima-with-o>;"),
    (u!"2000000000000000", u!"<%spellout-cardinal-feminine<biliard\u00ad>%%ordinal-esima-with-o>;"),
    (u!"1000000000000000000", u!"=#,##0=;")]),
  (u!"%%ordinal-esima", [(u!"0", u!"sima;"),
    (u!"1", u!"\u00adunesima;"),
    (u!"2", u!"\u00adduesima;"),
    (u!"3", u!"\u00adtreesima;"),
    (u!"4", u!"\u00adquattresima;"),
    (u!"5", u!"\u00adcinquesima;"),
    (u!"6", u!"\u00adseiesima;"),
    (u!"7", u!"\u00adsettesima;"),
    (u!"8", u!"\u00adottesima;"),
    (u!"9", u!"\u00adnovesima;"),
    (u!"10", u!"=%spellout-ordinal-feminine=;")]),
  (u!"%%ordinal-esima-with-i", [(u!"0", u!"esima;"),
    (u!"1", u!"\u00adunesima;"),
    (u!"2", u!"i\u00adduesima;"),
    (u!"3", u!"i\u00adtreesima;"),
    (u!"4", u!"i\u00adquattresima;"),
    (u!"5", u!"i\u00adcinquesima;"),
    (u!"6", u!"i\u00adseiesima;"),
    (u!"7", u!"i\u00adsettesima;"),
    (u!"8", u!"\u00adottesima;"),
    (u!"9", u!"i\u00adnovesima;"),
    (u!"10", u!"=%spellout-ordinal-feminine=;")]),
  (u!"%%ordinal-esima-with-a", [(u!"0", u!"esima;"),
    (u!"1", u!"\u00adunesima;"),
    (u!"2", u!"a\u00adduesima;"),
    (u!"3", u!"a\u00adtreesima;"),
    (u!"4", u!"a\u00adquattresima;"),
    (u!"5", u!"a\u00adcinquesima;"),
    (u!"6", u!"a\u00adseiesima;"),
    (u!"7", u!"a\u00adsettesima;"),
    (u!"8", u!"\u00adottesima;"),
    (u!"9", u!"a\u00adnovesima;"),
    (u!"10", u!"=%spellout-ordinal-feminine=;")]),
  (u!"%%ordinal-esima-with-o", [(u!"0", u!"esima;"),
    (u!"1", u!"\u00adunesima;"),
    (u!"2", u!"o\u00adduesima;"),
    (u!"3", u!"o\u00adtreesima;"),
    (u!"4", u!"o\u00adquattresima;"),
    (u!"5", u!"o\u00adcinquesima;"),
    (u!"6", u!"o\u00adseiesima;"),
    (u!"7", u!"o\u00adsettesima;"),
    (u!"8", u!"\u00adottesima;"),
    (u!"9", u!"o\u00adnovesima;"),
    (u!"10", u!"o\u00ad=%spellout-ordinal-feminine=;")])]

/-- `number_parser_data/supplementary_translation_data/it.json` -/
def itSupplementary : Supplementary where
  tables := {
    unit := []
    direct := []
    tens := []
    hundreds := []
    big := [] }
  skipTokens := []
  useLongScale := some true

/-- `number_parser/data/it.py`, lines 1-47 -/
def itModule : Output where
  tables := {
    unit := [(u!"zero", 0), (u!"un", 1), (u!"una", 1), (u!"uno", 1), (u!"due", 2), (u!"tre", 3), (u!"quattro", 4), (u!"cinque", 5), (u!"sei", 6), (u!"sette", 7), (u!"otto", 8), (u!"nove", 9)]
    direct := [(u!"dieci", 10), (u!"undici", 11), (u!"dodici", 12), (u!"tredici", 13), (u!"quattordici", 14), (u!"quindici", 15), (u!"sedici", 16), (u!"diciassette", 17), (u!"diciotto", 18), (u!"diciannove", 19)]
    tens := [(u!"vent", 20), (u!"trent", 30), (u!"quarant", 40), (u!"cinquant", 50), (u!"sessant", 60), (u!"settant", 70), (u!"ottant", 80), (u!"novant", 90)]
    hundreds := []
    big := [(u!"milioni", 1000000), (u!"miliardi", 1000000000), (u!"bilioni", 1000000000000), (u!"biliardi", 1000000000000000)] }
  skipTokens := []
  useLongScale := some true

/-- The languages fil, fo, fr, fr-BE, fr-CH, ga, he, hr, hu, hy, id, is, it: rules, supplementary data, data module -/
def partC : List (PyStr × RuleSets × Supplementary × Output) := [
  (u!"fil", filRules, filSupplementary, filModule),
  (u!"fo", foRules, foSupplementary, foModule),
  (u!"fr", frRules, frSupplementary, frModule),
  (u!"fr-BE", fr_BERules, fr_BESupplementary, fr_BEModule),
  (u!"fr-CH", fr_CHRules, fr_CHSupplementary, fr_CHModule),
  (u!"ga", gaRules, gaSupplementary, gaModule),
  (u!"he", heRules, heSupplementary, heModule),
  (u!"hr", hrRules, hrSupplementary, hrModule),
  (u!"hu", huRules, huSupplementary, huModule),
  (u!"hy", hyRules, hySupplementary, hyModule),
  (u!"id", idRules, idSupplementary, idModule),
  (u!"is", isRules, isSupplementary, isModule),
  (u!"it", itRules, itSupplementary, itModule)]

end NumberParser.Gen.Sources
