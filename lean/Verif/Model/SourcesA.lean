/- GENERATED by tools/gen_sources.py from /repo/number_parser_data/{raw_cldr,supplementary}_translation_data/*.json and
/repo/number_parser/data/*.py. Do not edit. -/
import Verif.Model.Generator

set_option maxRecDepth 100000

namespace NumberParser.Gen.Sources
open NumberParser Gen

/-- `number_parser_data/raw_cldr_translation_data/af.json`, `SpelloutRules` -/
def afRules : RuleSets := [
  (u!"%%2d-year", [(u!"0", u!"honderd[ >%spellout-numbering>];"),
    (u!"1", u!"nul =%spellout-numbering=;"),
    (u!"10", u!"=%spellout-numbering=;")]),
  (u!"%spellout-numbering-year", [(u!"-x", u!"min >>;"),
    (u!"x.x", u!"=0.0=;"),
    (u!"0", u!"=%spellout-numbering=;"),
    (u!"1100/100", u!"<< >%%2d-year>;"),
    (u!"10000", u!"=%spellout-numbering=;")]),
  (u!"%spellout-numbering", [(u!"0", u!"=%spellout-cardinal=;")]),
  (u!"%spellout-cardinal", [(u!"-x", u!"min >>;"),
    (u!"x.x", u!"<< komma >>;"),
    (u!"0", u!"nul;"),
    (u!"1", u!"een;"),
    (u!"2", u!"twee;"),
    (u!"3", u!"drie;"),
    (u!"4", u!"vier;"),
    (u!"5", u!"vyf;"),
    (u!"6", u!"ses;"),
    (u!"7", u!"sewe;"),
    (u!"8", u!"agt;"),
    (u!"9", u!"nege;"),
    (u!"10", u!"tien;"),
    (u!"11", u!"elf;"),
    (u!"12", u!"twaalf;"),
    (u!"13", u!"dertien;"),
    (u!"14", u!"veertien;"),
    (u!"15", u!"vyftien;"),
    (u!"16", u!"sestien;"),
    (u!"17", u!"sewentien;"),
    (u!"18", u!"agttien;"),
    (u!"19", u!"negentien;"),
    (u!"20", u!"[>>-en-]twintig;"),
    (u!"30", u!"[>>-en-]dertig;"),
    (u!"40", u!"[>>-en-]veertig;"),
    (u!"50", u!"[>>-en-]vyftig;"),
    (u!"60", u!"[>>-en-]sestig;"),
    (u!"70", u!"[>>-en-]sewentig;"),
    (u!"80", u!"[>>-en-]tagtig;"),
    (u!"90", u!"[>>-en-]negentig;"),
    (u!"100", u!"honderd[ >>];"),
    (u!"200", u!"<<honderd[ >>];"),
    (u!"1000", u!"duisend[ >>];"),
    (u!"2000", u!"<<\u00adduisend[ >>];"),
    (u!"21000/1000", u!"<< duisend[ >>];"),
    (u!"1000000", u!"<< miljoen[ >>];"),
    (u!"1000000000", u!"<< miljard[ >>];"),
    (u!"1000000000000", u!"<< biljoen[ >>];"),
    (u!"1000000000000000", u!"<< biljard[ >>];"),
    (u!"1000000000000000000", u!"=#,##0=;")]),
  (u!"%%ord-ste", [(u!"0", u!"ste;"),
    (u!"1", u!"' en =%spellout-ordinal=;"),
    (u!"2", u!"' =%spellout-ordinal=;")]),
  (u!"%spellout-ordinal", [(u!"-x", u!"min >>;"),
    (u!"x.x", u!"=#,##0.#=;"),
    (u!"0", u!"nulste;"),
    (u!"1", u!"eerste;"),
    (u!"2", u!"tweede;"),
    (u!"3", u!"derde;"),
    (u!"4", u!"=%spellout-numbering=de;"),
    (u!"20", u!"=%spellout-numbering=ste;"),
    (u!"102", u!"<%spellout-numbering< honderd>%%ord-ste>;"),
    (u!"1000", u!"<%spellout-numbering< duisend>%%ord-ste>;"),
    (u!"1000000", u!"<%spellout-numbering< miljoen>%%ord-ste>;"),
    (u!"1000000000", u!"<%spellout-numbering< miljard>%%ord-ste>;"),
    (u!"1000000000000", u!"<%spellout-numbering< biljoen>%%ord-ste>;"),
    (u!"1000000000000000", u!"<%spellout-numbering< biljard>%%ord-ste>;"),
    (u!"1000000000000000000", u!"=#,##0=.;")])]

/-- `number_parser_data/supplementary_translation_data/af.json` -/
def afSupplementary : Supplementary where
  tables := {
    unit := []
    direct := []
    tens := []
    hundreds := []
    big := [] }
  skipTokens := []
  useLongScale := some true

/-- `number_parser/data/af.py`, lines 1-36 -/
def afModule : Output where
  tables := {
    unit := [(u!"nul", 0), (u!"een", 1), (u!"twee", 2), (u!"drie", 3), (u!"vier", 4), (u!"vyf", 5), (u!"ses", 6), (u!"sewe", 7), (u!"agt", 8), (u!"nege", 9)]
    direct := [(u!"tien", 10), (u!"elf", 11), (u!"twaalf", 12), (u!"dertien", 13), (u!"veertien", 14), (u!"vyftien", 15), (u!"sestien", 16), (u!"sewentien", 17), (u!"agttien", 18), (u!"negentien", 19)]
    tens := []
    hundreds := []
    big := [(u!"miljoen", 1000000), (u!"miljard", 1000000000), (u!"biljoen", 1000000000000), (u!"biljard", 1000000000000000)] }
  skipTokens := []
  useLongScale := some true

/-- `number_parser_data/raw_cldr_translation_data/ak.json`, `SpelloutRules` -/
def akRules : RuleSets := [
  (u!"%spellout-numbering-year", [(u!"-x", u!"kaw >>;"),
    (u!"x.x", u!"=0.0=;"),
    (u!"0", u!"=%spellout-numbering=;"),
    (u!"10", u!"<< >>>;"),
    (u!"100", u!"<< >>>;"),
    (u!"1000", u!"<< >>>;"),
    (u!"10000", u!"=%spellout-numbering=;")]),
  (u!"%spellout-numbering", [(u!"0", u!"=%spellout-cardinal=;")]),
  (u!"%spellout-cardinal", [(u!"-x", u!"kaw >>;"),
    (u!"x.x", u!"<< pɔw >>;"),
    (u!"0", u!"hwee;"),
    (u!"1", u!"koro;"),
    (u!"2", u!"abien;"),
    (u!"3", u!"abiasa;"),
    (u!"4", u!"anan;"),
    (u!"5", u!"anum;"),
    (u!"6", u!"asia;"),
    (u!"7", u!"asuon;"),
    (u!"8", u!"awɔtwe;"),
    (u!"9", u!"akron;"),
    (u!"10", u!"du[->%%spellout-cardinal-tens>];"),
    (u!"20", u!"aduonu[->%%spellout-cardinal-tens>];"),
    (u!"30", u!"aduasa[->%%spellout-cardinal-tens>];"),
    (u!"40", u!"adu<<[->%%spellout-cardinal-tens>];"),
    (u!"100", u!"\u00adɔha[-na-\u00ad>>];"),
    (u!"200", u!"aha-<<[-na->>];"),
    (u!"1000", u!"apem[-na->>];"),
    (u!"2000", u!"mpem-<<[-na->>];"),
    (u!"100000", u!"mpem-ɔha[-na->>];"),
    (u!"200000", u!"mpem-aha-<<[-na->>];"),
    (u!"1000000", u!"ɔpepepem-<<[-na->>];"),
    (u!"2000000", u!"mpepepem-<<[-na->>];"),
    (u!"1000000000", u!"ɔpepepepem-<<[-na->>];"),
    (u!"2000000000", u!"mpepepepem-<<[-na->>];"),
    (u!"1000000000000", u!"ɔpepepepepem-<<[-na->>];"),
    (u!"2000000000000", u!"mpepepepepem-<<[-na->>];"),
    (u!"1000000000000000", u!"ɔpepepepepepem-<<[-na->>];"),
    (u!"2000000000000000", u!"mpepepepepepem-<<[-na->>];"),
    (u!"1000000000000000000", u!"=#,##0=;")]),
  (u!"%%spellout-cardinal-tens", [(u!"0", u!";"),
    (u!"1", u!"biako;"),
    (u!"2", u!"=%spellout-cardinal=;")]),
  (u!"%spellout-ordinal", [(u!"-x", u!"kaw >>;"),
    (u!"x.x", u!"=0.0=;"),
    (u!"0", u!"a-ɛ-tɔ-so-hwee;"),
    (u!"1", u!"a-ɛ-di-kane;"),
    (u!"2", u!"a-ɛ-tɔ-so-=%spellout-cardinal=;")])]

/-- `number_parser_data/supplementary_translation_data/ak.json` -/
def akSupplementary : Supplementary where
  tables := {
    unit := []
    direct := []
    tens := []
    hundreds := []
    big := [] }
  skipTokens := []
  useLongScale := some false

/-- `number_parser/data/ak.py`, lines 1-24 -/
def akModule : Output where
  tables := {
    unit := [(u!"hwee", 0), (u!"biako", 1), (u!"koro", 1), (u!"abien", 2), (u!"abiasa", 3), (u!"anan", 4), (u!"anum", 5), (u!"asia", 6), (u!"asuon", 7), (u!"awɔtwe", 8), (u!"akron", 9)]
    direct := []
    tens := [(u!"aduonu", 20), (u!"aduasa", 30)]
    hundreds := []
    big := [] }
  skipTokens := []
  useLongScale := some false

/-- `number_parser_data/raw_cldr_translation_data/am.json`, `SpelloutRules` -/
def amRules : RuleSets := [
  (u!"%spellout-numbering-year", [(u!"-x", u!"ቅንስናሽ >>;"),
    (u!"x.x", u!"=0.0=;"),
    (u!"0", u!"=%spellout-numbering=;"),
    (u!"1100/100", u!"<< መቶ[ >>];"),
    (u!"10000", u!"=%spellout-numbering=;")]),
  (u!"%spellout-numbering", [(u!"0", u!"=%spellout-cardinal=;")]),
  (u!"%spellout-cardinal", [(u!"-x", u!"ቅንስናሽ >>;"),
    (u!"x.x", u!"<< ነጥብ >>;"),
    (u!"0", u!"ባዶ;"),
    (u!"1", u!"አንድ;"),
    (u!"2", u!"ሁለት;"),
    (u!"3", u!"ሦስት;"),
    (u!"4", u!"አራት;"),
    (u!"5", u!"አምስት;"),
    (u!"6", u!"ስድስት;"),
    (u!"7", u!"ሰባት;"),
    (u!"8", u!"ስምንት;"),
    (u!"9", u!"ዘጠኝ;"),
    (u!"10", u!"አስር[ >>];"),
    (u!"20", u!"<< አስር[ >>];"),
    (u!"100", u!"መቶ[ >>];"),
    (u!"200", u!"<< መቶ[ >>];"),
    (u!"1000", u!"ሺ[ >>];"),
    (u!"2000", u!"<< ሺ[ >>];"),
    (u!"1000000", u!"ሚሊዮን[ >>];"),
    (u!"2000000", u!"<< ሚሊዮን[ >>];"),
    (u!"1000000000", u!"<< ቢሊዮን[ >>];"),
    (u!"1000000000000", u!"<< ቲሪሊዮን[ >>];"),
    (u!"1000000000000000", u!"<< ቈዲሪሊዮን[ >>];"),
    (u!"1000000000000000000", u!"=#,##0=;")]),
  (u!"%spellout-ordinal", [(u!"-x", u!"ቅንስናሽ >>;"),
    (u!"x.x", u!"=#,##0.#=;"),
    (u!"0", u!"=%spellout-numbering=ኛ;")])]

/-- `number_parser_data/supplementary_translation_data/am.json` -/
def amSupplementary : Supplementary where
  tables := {
    unit := []
    direct := []
    tens := []
    hundreds := []
    big := [] }
  skipTokens := []
  useLongScale := some false

/-- `number_parser/data/am.py`, lines 1-27 -/
def amModule : Output where
  tables := {
    unit := [(u!"ባዶ", 0), (u!"አንድ", 1), (u!"ሁለት", 2), (u!"ሦስት", 3), (u!"አራት", 4), (u!"አምስት", 5), (u!"ስድስት", 6), (u!"ሰባት", 7), (u!"ስምንት", 8), (u!"ዘጠኝ", 9)]
    direct := []
    tens := []
    hundreds := []
    big := [(u!"መቶ", 100), (u!"ሺ", 1000), (u!"ሚሊዮን", 1000000), (u!"ቢሊዮን", 1000000000), (u!"ቲሪሊዮን", 1000000000000), (u!"ቈዲሪሊዮን", 1000000000000000)] }
  skipTokens := []
  useLongScale := some false

/-- `number_parser_data/raw_cldr_translation_data/ar.json`, `SpelloutRules` -/
def arRules : RuleSets := [
  (u!"%spellout-numbering-year", [(u!"x.x", u!"=0.0=;"),
    (u!"0", u!"=%spellout-numbering=;")]),
  (u!"%spellout-numbering", [(u!"-x", u!"ناقص >>;"),
    (u!"x.x", u!"<< فاصل >>;"),
    (u!"0", u!"صفر;"),
    (u!"1", u!"واحد;"),
    (u!"2", u!"إثنان;"),
    (u!"3", u!"ثلاثة;"),
    (u!"4", u!"أربعة;"),
    (u!"5", u!"خمسة;"),
    (u!"6", u!"ستة;"),
    (u!"7", u!"سبعة;"),
    (u!"8", u!"ثمانية;"),
    (u!"9", u!"تسعة;"),
    (u!"10", u!"عشرة;"),
    (u!"11", u!"إحدى عشر;"),
    (u!"12", u!"إثنا عشر;"),
    (u!"13", u!">%spellout-numbering> عشر;"),
    (u!"20", u!"[>%spellout-numbering> و ]عشرون;"),
    (u!"30", u!"[>%spellout-numbering> و ]ثلاثون;"),
    (u!"40", u!"[>%spellout-numbering> و ]أربعون;"),
    (u!"50", u!"[>%spellout-numbering> و ]خمسون;"),
    (u!"60", u!"[>%spellout-numbering> و ]ستون;"),
    (u!"70", u!"[>%spellout-numbering> و ]سبعون;"),
    (u!"80", u!"[>%spellout-numbering> و ]ثمانون;"),
    (u!"90", u!"[>%spellout-numbering> و ]تسعون;"),
    (u!"100", u!"مائة[ و >%spellout-numbering>];"),
    (u!"200", u!"مائتان[ و >%spellout-numbering>];"),
    (u!"300", u!"<%spellout-numbering< مائة[ و >%spellout-numbering>];"),
    (u!"1000", u!"ألف[ و >%spellout-numbering>];"),
    (u!"2000", u!"ألفين[ و >%spellout-numbering>];"),
    (u!"3000", u!"<%spellout-numbering< آلاف[ و >%spellout-numbering>];"),
    (u!"11000/1000", u!"<%%spellout-numbering-m< ألف[ و >%spellout-numbering>];"),
    (u!"1000000", u!"مليون[ و >%spellout-numbering>];"),
    (u!"2000000", u!"<%%spellout-numbering-m< مليون[ و >%spellout-numbering>];"),
    (u!"1000000000", u!"مليار[ و >%spellout-numbering>];"),
    (u!"2000000000", u!"<%%spellout-numbering-m< مليار[ و >%spellout-numbering>];"),
    (u!"1000000000000", u!"ترليون[ و >%spellout-numbering>];"),
    (u!"2000000000000", u!"<%%spellout-numbering-m< ترليون[ و >%spellout-numbering>];"),
    (u!"1000000000000000", u!"كوادرليون[ و >%spellout-numbering>];"),
    (u!"2000000000000000", u!"<%%spellout-numbering-m< كوادرليون[ و >%spellout-numbering>];"),
    (u!"1000000000000000000", u!"=#,##0=;")]),
  (u!"%spellout-cardinal-feminine", [(u!"-x", u!"ناقص >>;"),
    (u!"x.x", u!"<< فاصل >>;"),
    (u!"0", u!"صفر;"),
    (u!"1", u!"واحدة;"),
    (u!"2", u!"إثنتان;"),
    (u!"3", u!"ثلاثة;"),
    (u!"4", u!"أربعة;"),
    (u!"5", u!"خمسة;"),
    (u!"6", u!"ستة;"),
    (u!"7", u!"سبعة;"),
    (u!"8", u!"ثمانية;"),
    (u!"9", u!"تسعة;"),
    (u!"10", u!"عشرة;"),
    (u!"11", u!"إحدى عشر;"),
    (u!"12", u!"إثنتا عشرة;"),
    (u!"13", u!">%spellout-numbering> عشر;"),
    (u!"20", u!"[>%spellout-numbering> و ]عشرون;"),
    (u!"30", u!"[>%spellout-numbering> و ]ثلاثون;"),
    (u!"40", u!"[>%spellout-numbering> و ]أربعون;"),
    (u!"50", u!"[>%spellout-numbering> و ]خمسون;"),
    (u!"60", u!"[>%spellout-numbering> و ]ستون;"),
    (u!"70", u!"[>%spellout-numbering> و ]سبعون;"),
    (u!"80", u!"[>%spellout-numbering> و ]ثمانون;"),
    (u!"90", u!"[>%spellout-numbering> و ]تسعون;"),
    (u!"100", u!"مائة[ و >%spellout-numbering>];"),
    (u!"200", u!"مائتان[ و >%spellout-numbering>];"),
    (u!"300", u!"<%spellout-numbering< مائة[ و >%spellout-numbering>];"),
    (u!"1000", u!"ألف[ و >%spellout-numbering>];"),
    (u!"2000", u!"ألفي[ و >%spellout-numbering>];"),
    (u!"3000", u!"<%spellout-numbering< آلاف[ و >%spellout-numbering>];"),
    (u!"11000/1000", u!"<%%spellout-numbering-m< ألف[ و >%spellout-numbering>];"),
    (u!"1000000", u!"مليون[ و >%spellout-numbering>];"),
    (u!"2000000", u!"<%%spellout-numbering-m< مليون[ و >%spellout-numbering>];"),
    (u!"1000000000", u!"مليار[ و >%spellout-numbering>];"),
    (u!"2000000000", u!"<%%spellout-numbering-m< مليار[ و >%spellout-numbering>];"),
    (u!"1000000000000", u!"ترليون[ و >%spellout-numbering>];"),
    (u!"2000000000000", u!"<%%spellout-numbering-m< ترليون[ و >%spellout-numbering>];"),
    (u!"1000000000000000", u!"كوادرليون[ و >%spellout-numbering>];"),
    (u!"2000000000000000", u!"<%%spellout-numbering-m< كوادرليون[ و >%spellout-numbering>];"),
    (u!"1000000000000000000", u!"=#,##0=;")]),
  (u!"%%spellout-numbering-m", [(u!"0", u!"صفر;"),
    (u!"1", u!"واحد;"),
    (u!"2", u!"إثنان;"),
    (u!"3", u!"ثلاثة;"),
    (u!"4", u!"أربعة;"),
    (u!"5", u!"خمسة;"),
    (u!"6", u!"ستة;"),
    (u!"7", u!"سبعة;"),
    (u!"8", u!"ثمانية;"),
    (u!"9", u!"تسعة;"),
    (u!"10", u!"عشرة;"),
    (u!"11", u!"إحدى عشر;"),
    (u!"12", u!"إثنا عشر;"),
    (u!"13", u!">> عشر;"),
    (u!"20", u!"[>%%spellout-numbering-m> و ]عشرون;"),
    (u!"30", u!"[>%%spellout-numbering-m> و ]ثلاثون;"),
    (u!"40", u!"[>%%spellout-numbering-m> و ]أربعون;"),
    (u!"50", u!"[>%%spellout-numbering-m> و ]خمسون;"),
    (u!"60", u!"[>%%spellout-numbering-m> و ]ستون;"),
    (u!"70", u!"[>%%spellout-numbering-m> و ]سبعون;"),
    (u!"80", u!"[>%%spellout-numbering-m> و ]ثمانون;"),
    (u!"90", u!"[>%%spellout-numbering-m> و ]تسعون;"),
    (u!"100", u!"مائة[ و >%%spellout-numbering-m>];"),
    (u!"200", u!"مائتان[ و >%%spellout-numbering-m>];"),
    (u!"300", u!"<%spellout-numbering< مائة[ و >%%spellout-numbering-m>];"),
    (u!"1000", u!"ألف[ و >%%spellout-numbering-m>];"),
    (u!"2000", u!"ألفي[ و >%%spellout-numbering-m>];"),
    (u!"3000", u!"<%spellout-numbering< آلاف[ و >%%spellout-numbering-m>];"),
    (u!"11000/1000", u!"<%%spellout-numbering-m< ألف[ و >%%spellout-numbering-m>];"),
    (u!"1000000", u!"مليون[ و >%%spellout-numbering-m>];"),
    (u!"2000000", u!"<%%spellout-numbering-m< مليون[ و >%%spellout-numbering-m>];"),
    (u!"1000000000", u!"مليار[ و >%%spellout-numbering-m>];"),
    (u!"2000000000", u!"<%%spellout-numbering-m< مليار[ و >%%spellout-numbering-m>];"),
    (u!"1000000000000", u!"ترليون[ و >%%spellout-numbering-m>];"),
    (u!"2000000000000", u!"<%%spellout-numbering-m< ترليون[ و >%%spellout-numbering-m>];"),
    (u!"1000000000000000", u!"كوادرليون[ و >%%spellout-numbering-m>];"),
    (u!"2000000000000000", u!"<%%spellout-numbering-m< كوادرليون[ و >%%spellout-numbering-m>];"),
    (u!"1000000000000000000", u!"=#,##0=;")]),
  (u!"%spellout-cardinal-masculine", [(u!"-x", u!"ناقص >>;"),
    (u!"x.x", u!"<%%spellout-numbering-m< فاصل >> ;"),
    (u!"0", u!"صفر;"),
    (u!"1", u!"واحد;"),
    (u!"2", u!"إثنان;"),
    (u!"3", u!"ثلاثة;"),
    (u!"4", u!"أربعة;"),
    (u!"5", u!"خمسة;"),
    (u!"6", u!"ستة;"),
    (u!"7", u!"سبعة;"),
    (u!"8", u!"ثمانية;"),
    (u!"9", u!"تسعة;"),
    (u!"10", u!"عشرة;"),
    (u!"11", u!"إحدى عشر;"),
    (u!"12", u!"إثنا عشر;"),
    (u!"13", u!">> عشر;"),
    (u!"20", u!"[>%%spellout-numbering-m> و ]عشرون;"),
    (u!"30", u!"[>%%spellout-numbering-m> و ]ثلاثون;"),
    (u!"40", u!"[>%%spellout-numbering-m> و ]أربعون;"),
    (u!"50", u!"[>%%spellout-numbering-m> و ]خمسون;"),
    (u!"60", u!"[>%%spellout-numbering-m> و ]ستون;"),
    (u!"70", u!"[>%%spellout-numbering-m> و ]سبعون;"),
    (u!"80", u!"[>%%spellout-numbering-m> و ]ثمانون;"),
    (u!"90", u!"[>%%spellout-numbering-m> و ]تسعون;"),
    (u!"100", u!"مائة[ و >%%spellout-numbering-m>];"),
    (u!"200", u!"مائتان[ و >%%spellout-numbering-m>];"),
    (u!"300", u!"<%spellout-numbering< مائة[ و >%%spellout-numbering-m>];"),
    (u!"1000", u!"ألف[ و >%%spellout-numbering-m>];"),
    (u!"2000", u!"ألفي[ و >%%spellout-numbering-m>];"),
    (u!"3000", u!"<%spellout-numbering< آلاف[ و >%%spellout-numbering-m>];"),
    (u!"11000/1000", u!"<%%spellout-numbering-m< ألف[ و >%%spellout-numbering-m>];"),
    (u!"1000000", u!"مليون[ و >%%spellout-numbering-m>];"),
    (u!"2000000", u!"<%%spellout-numbering-m< مليون[ و >%%spellout-numbering-m>];"),
    (u!"1000000000", u!"مليار[ و >%%spellout-numbering-m>];"),
    (u!"2000000000", u!"<%%spellout-numbering-m< مليار[ و >%%spellout-numbering-m>];"),
    (u!"1000000000000", u!"ترليون[ و >%%spellout-numbering-m>];"),
    (u!"2000000000000", u!"<%%spellout-numbering-m< ترليون[ و >%%spellout-numbering-m>];"),
    (u!"1000000000000000", u!"كوادرليون[ و >%%spellout-numbering-m>];"),
    (u!"2000000000000000", u!"<%%spellout-numbering-m< كوادرليون[ و >%%spellout-numbering-m>];"),
    (u!"1000000000000000000", u!"=#,##0=;")]),
  (u!"%%ordinal-ones-feminine", [(u!"1", u!"الحادية ;"),
    (u!"2", u!"=%spellout-ordinal-feminine=;"),
    (u!"11", u!"الحادية عشرة;"),
    (u!"12", u!"=%spellout-ordinal-feminine=;")]),
  (u!"%spellout-ordinal-feminine", [(u!"-x", u!"ناقص >>;"),
    (u!"x.x", u!"<< فاصل >>;"),
    (u!"0", u!"صفر;"),
    (u!"1", u!"الأولى;"),
    (u!"2", u!"الثانية;"),
    (u!"3", u!"الثالثة;"),
    (u!"4", u!"الرابعة;"),
    (u!"5", u!"الخامسة;"),
    (u!"6", u!"السادسة;"),
    (u!"7", u!"السابعة;"),
    (u!"8", u!"الثامنة;"),
    (u!"9", u!"التاسعة;"),
    (u!"10", u!"العاشرة;"),
    (u!"11", u!"الحادية عشرة;"),
    (u!"12", u!">> عشرة;"),
    (u!"20", u!"العشرون;"),
    (u!"21", u!">%%ordinal-ones-feminine> و العشرون;"),
    (u!"30", u!"الثلاثون;"),
    (u!"31", u!">%%ordinal-ones-feminine> و الثلاثون;"),
    (u!"40", u!"الأربعون;"),
    (u!"41", u!">%%ordinal-ones-feminine> و الأربعون;"),
    (u!"50", u!"الخمسون;"),
    (u!"51", u!">%%ordinal-ones-feminine> و الخمسون;"),
    (u!"60", u!"الستون;"),
    (u!"61", u!">%%ordinal-ones-feminine> و الستون;"),
    (u!"70", u!"السبعون;"),
    (u!"71", u!">%%ordinal-ones-feminine> و السبعون;"),
    (u!"80", u!"الثمانون;"),
    (u!"81", u!">%%ordinal-ones-feminine> و الثمانون;"),
    (u!"90", u!"التسعون;"),
    (u!"91", u!">%%ordinal-ones-feminine> و التسعون;"),
    (u!"100", u!"المائة[ و >%spellout-cardinal-feminine>];"),
    (u!"200", u!"المائتان[ و >%spellout-cardinal-feminine>];"),
    (u!"300", u!"<%spellout-numbering< مائة[ و >%spellout-cardinal-feminine>];"),
    (u!"1000", u!"الألف[ و >%spellout-cardinal-feminine>];"),
    (u!"2000", u!"الألفي[ و >%spellout-cardinal-feminine>];"),
    (u!"3000", u!"<%spellout-cardinal-feminine< آلاف[ و >%spellout-cardinal-feminine>];"),
    (u!"11000/1000", u!"<%spellout-cardinal-feminine< ألف[ و >%spellout-cardinal-feminine>];"),
    (u!"1000000", u!"المليون[ و >%spellout-cardinal-feminine>];"),
    (u!"2000000", u!"<%spellout-cardinal-feminine< الألف[ و >%spellout-cardinal-feminine>];"),
    (u!"1000000000", u!"المليار[ و >%spellout-cardinal-feminine>];"),
    (u!"2000000000", u!"<%spellout-cardinal-feminine< مليار[ و >%spellout-cardinal-feminine>];"),
    (u!"1000000000000", u!"ترليون[ و >%spellout-cardinal-feminine>];"),
    (u!"2000000000000", u!"<%spellout-cardinal-feminine< ترليون[ و >%spellout-cardinal-feminine>];"),
    (u!"1000000000000000", u!"كوادرليون[ و >%spellout-cardinal-feminine>];"),
    (u!"2000000000000000", u!"<%spellout-cardinal-feminine< كوادرليون[ و >%spellout-cardinal-feminine>];"),
    (u!"1000000000000000000", u!"=#,##0=;")]),
  (u!"%%ordinal-ones-masculine", [(u!"1", u!"الحادي ;"),
    (u!"2", u!"=%spellout-ordinal-masculine=;"),
    (u!"11", u!"الحادي عشر;"),
    (u!"12", u!"=%spellout-ordinal-masculine=;")]),
  (u!"%spellout-ordinal-masculine", [(u!"-x", u!"ناقص >>;"),
    (u!"x.x", u!"<< فاصل >>;"),
    (u!"0", u!"صفر;"),
    (u!"1", u!"الأول;"),
    (u!"2", u!"الثاني;"),
    (u!"3", u!"الثالث;"),
    (u!"4", u!"الرابع;"),
    (u!"5", u!"الخامس;"),
    (u!"6", u!"السادس;"),
    (u!"7", u!"السابع;"),
    (u!"8", u!"الثامن;"),
    (u!"9", u!"التاسع;"),
    (u!"10", u!"العاشر;"),
    (u!"11", u!"الحادي عشر;"),
    (u!"12", u!">> عشر;"),
    (u!"20", u!"العشرون;"),
    (u!"21", u!">%%ordinal-ones-masculine> و العشرون;"),
    (u!"30", u!"الثلاثون;"),
    (u!"31", u!">%%ordinal-ones-masculine> و الثلاثون;"),
    (u!"40", u!"الأربعون;"),
    (u!"41", u!">%%ordinal-ones-masculine> و الأربعون;"),
    (u!"50", u!"الخمسون;"),
    (u!"51", u!">%%ordinal-ones-masculine> و الخمسون;"),
    (u!"60", u!"الستون;"),
    (u!"61", u!">%%ordinal-ones-masculine> و الستون;"),
    (u!"70", u!"السبعون;"),
    (u!"71", u!">%%ordinal-ones-masculine> و السبعون;"),
    (u!"80", u!"الثمانون;"),
    (u!"81", u!">%%ordinal-ones-masculine> و الثمانون;"),
    (u!"90", u!"التسعون;"),
    (u!"91", u!">%%ordinal-ones-masculine> و التسعون;"),
    (u!"100", u!"المائة[ و >%%spellout-numbering-m>];"),
    (u!"200", u!"المائتان[ و >%%spellout-numbering-m>];"),
    (u!"300", u!"<%spellout-numbering< مائة[ و >%%spellout-numbering-m>];"),
    (u!"1000", u!"الألف[ و >%%spellout-numbering-m>];"),
    (u!"2000", u!"الألفي[ و >%%spellout-numbering-m>];"),
    (u!"3000", u!"<%spellout-numbering< آلاف[ و >%%spellout-numbering-m>];"),
    (u!"11000/1000", u!"<%%spellout-numbering-m< ألف[ و >%%spellout-numbering-m>];"),
    (u!"1000000", u!"المليون[ و >%%spellout-numbering-m>];"),
    (u!"2000000", u!"<%%spellout-numbering-m< الألف[ و >%%spellout-numbering-m>];"),
    (u!"1000000000", u!"المليار[ و >%%spellout-numbering-m>];"),
    (u!"2000000000", u!"<%%spellout-numbering-m< مليار[ و >%%spellout-numbering-m>];"),
    (u!"1000000000000", u!"ترليون[ و >%%spellout-numbering-m>];"),
    (u!"2000000000000", u!"<%%spellout-numbering-m< ترليون[ و >%%spellout-numbering-m>];"),
    (u!"1000000000000000", u!"كوادرليون[ و >%%spellout-numbering-m>];"),
    (u!"2000000000000000", u!"<%%spellout-numbering-m< كوادرليون[ و >%%spellout-numbering-m>];"),
    (u!"1000000000000000000", u!"=#,##0=;")])]

/-- `number_parser_data/supplementary_translation_data/ar.json` -/
def arSupplementary : Supplementary where
  tables := {
    unit := []
    direct := []
    tens := []
    hundreds := []
    big := [] }
  skipTokens := []
  useLongScale := some false

/-- `number_parser/data/ar.py`, lines 1-36 -/
def arModule : Output where
  tables := {
    unit := [(u!"صفر", 0), (u!"واحد", 1), (u!"واحدة", 1), (u!"إثنان", 2), (u!"إثنتان", 2), (u!"ثلاثة", 3), (u!"أربعة", 4), (u!"خمسة", 5), (u!"ستة", 6), (u!"سبعة", 7), (u!"ثمانية", 8), (u!"تسعة", 9)]
    direct := [(u!"عشرة", 10), (u!"إحدى عشر", 11), (u!"إثنا عشر", 12), (u!"إثنتا عشرة", 12)]
    tens := []
    hundreds := [(u!"مائتان", 200)]
    big := [(u!"مائة", 100), (u!"آلاف", 1000), (u!"مليون", 1000000), (u!"مليار", 1000000000), (u!"ترليون", 1000000000000), (u!"كوادرليون", 1000000000000000)] }
  skipTokens := []
  useLongScale := some false

/-- `number_parser_data/raw_cldr_translation_data/az.json`, `SpelloutRules` -/
def azRules : RuleSets := [
  (u!"%spellout-numbering-year", [(u!"x.x", u!"=0.0=;"),
    (u!"0", u!"=%spellout-numbering=;")]),
  (u!"%spellout-numbering", [(u!"0", u!"=%spellout-cardinal=;")]),
  (u!"%spellout-cardinal", [(u!"-x", u!"əksi >>;"),
    (u!"x.x", u!"<< tam >>;"),
    (u!"0", u!"sıfır;"),
    (u!"1", u!"bir;"),
    (u!"2", u!"iki;"),
    (u!"3", u!"üç;"),
    (u!"4", u!"dörd;"),
    (u!"5", u!"beş;"),
    (u!"6", u!"altı;"),
    (u!"7", u!"yeddi;"),
    (u!"8", u!"səkkiz;"),
    (u!"9", u!"doqquz;"),
    (u!"10", u!"on[ >>];"),
    (u!"20", u!"iyirmi[ >>];"),
    (u!"30", u!"otuz[ >>];"),
    (u!"40", u!"qırx[ >>];"),
    (u!"50", u!"əlli[ >>];"),
    (u!"60", u!"atmış[ >>];"),
    (u!"70", u!"yetmiş[ >>];"),
    (u!"80", u!"səqsən[ >>];"),
    (u!"90", u!"doxsan[ >>];"),
    (u!"100", u!"<< yüz[ >>];"),
    (u!"1000", u!"<< min[ >>];"),
    (u!"1000000", u!"<< milyon[ >>];"),
    (u!"1000000000", u!"<< milyard[ >>];"),
    (u!"1000000000000", u!"<< trilyon[ >>];"),
    (u!"1000000000000000", u!"<< katrilyon[ >>];"),
    (u!"1000000000000000000", u!"=#,##0=;")]),
  (u!"%%inci", [(u!"0", u!"inci;"),
    (u!"1", u!"' =%spellout-ordinal=;")]),
  (u!"%%nci", [(u!"0", u!"nci;"),
    (u!"1", u!"' =%spellout-ordinal=;")]),
  (u!"%%inci2", [(u!"0", u!"ıncı;"),
    (u!"1", u!"' =%spellout-ordinal=;")]),
  (u!"%%uncu2", [(u!"0", u!"üncü;"),
    (u!"1", u!"' =%spellout-ordinal=;")]),
  (u!"%%uncu", [(u!"0", u!"uncu;"),
    (u!"1", u!"' =%spellout-ordinal=;")]),
  (u!"%spellout-ordinal", [(u!"-x", u!"əksi >>;"),
    (u!"x.x", u!"=#,##0.#=;"),
    (u!"0", u!"sıfırıncı;"),
    (u!"1", u!"birinci;"),
    (u!"2", u!"ikinci;"),
    (u!"3", u!"üçüncü;"),
    (u!"4", u!"dördüncü;"),
    (u!"5", u!"beşinci;"),
    (u!"6", u!"altıncı;"),
    (u!"7", u!"yeddinci;"),
    (u!"8", u!"səkkizinci;"),
    (u!"9", u!"doqquzuncu;"),
    (u!"10", u!"on>%%uncu>;"),
    (u!"20", u!"iyirmi>%%nci>;"),
    (u!"30", u!"otuz>%%uncu>;"),
    (u!"40", u!"qırx>%%inci2>;"),
    (u!"50", u!"əlli>%%nci>;"),
    (u!"60", u!"altmış>%%inci2>;"),
    (u!"70", u!"yetmiş>%%inci2>;"),
    (u!"80", u!"səqsən>%%inci2>;"),
    (u!"90", u!"doxsan>%%inci2>;"),
    (u!"100", u!"<%spellout-numbering< yüz>%%uncu2>;"),
    (u!"1000", u!"<%spellout-numbering< bin>%%inci>;"),
    (u!"1000000", u!"<%spellout-numbering< milyon>%%uncu>;"),
    (u!"1000000000", u!"<%spellout-numbering< milyar>%%inci2>;"),
    (u!"1000000000000", u!"<%spellout-numbering< trilyon>%%uncu>;"),
    (u!"1000000000000000", u!"<%spellout-numbering< katrilyon>%%uncu>;"),
    (u!"1000000000000000000", u!"=#,##0='inci;")])]

/-- `number_parser_data/supplementary_translation_data/az.json` -/
def azSupplementary : Supplementary where
  tables := {
    unit := []
    direct := []
    tens := []
    hundreds := []
    big := [] }
  skipTokens := []
  useLongScale := some false

/-- `number_parser/data/az.py`, lines 1-36 -/
def azModule : Output where
  tables := {
    unit := [(u!"sıfır", 0), (u!"bir", 1), (u!"iki", 2), (u!"üç", 3), (u!"dörd", 4), (u!"beş", 5), (u!"altı", 6), (u!"yeddi", 7), (u!"səkkiz", 8), (u!"doqquz", 9)]
    direct := []
    tens := [(u!"iyirmi", 20), (u!"otuz", 30), (u!"qırx", 40), (u!"əlli", 50), (u!"atmış", 60), (u!"yetmiş", 70), (u!"səqsən", 80), (u!"doxsan", 90)]
    hundreds := []
    big := [(u!"yüz", 100), (u!"min", 1000), (u!"milyon", 1000000), (u!"milyard", 1000000000), (u!"trilyon", 1000000000000), (u!"katrilyon", 1000000000000000)] }
  skipTokens := []
  useLongScale := some false

/-- `number_parser_data/raw_cldr_translation_data/be.json`, `SpelloutRules` -/
def beRules : RuleSets := [
  (u!"%spellout-numbering-year", [(u!"x.x", u!"=0.0=;"),
    (u!"0", u!"=%spellout-numbering=;")]),
  (u!"%spellout-numbering", [(u!"0", u!"=%spellout-cardinal-masculine=;")]),
  (u!"%spellout-cardinal-masculine", [(u!"-x", u!"мінус >>;"),
    (u!"x.x", u!"<< коска >>;"),
    (u!"0", u!"нуль;"),
    (u!"1", u!"адзiн;"),
    (u!"2", u!"два;"),
    (u!"3", u!"тры;"),
    (u!"4", u!"чатыры;"),
    (u!"5", u!"пяць;"),
    (u!"6", u!"шэсць;"),
    (u!"7", u!"сем;"),
    (u!"8", u!"восем;"),
    (u!"9", u!"дзевяць;"),
    (u!"10", u!"дзесяць;"),
    (u!"11", u!"адзінаццаць;"),
    (u!"12", u!"дванаццаць;"),
    (u!"13", u!"трынаццаць;"),
    (u!"14", u!"чатырнаццаць;"),
    (u!"15", u!"пятнаццаць;"),
    (u!"16", u!"шаснаццаць;"),
    (u!"17", u!"сямнаццаць;"),
    (u!"18", u!"васямнаццаць;"),
    (u!"19", u!"дзевятнаццаць;"),
    (u!"20", u!"дваццаць[ >>];"),
    (u!"30", u!"трыццаць[ >>];"),
    (u!"40", u!"сорак[ >>];"),
    (u!"50", u!"пяцьдзесят[ >>];"),
    (u!"60", u!"шэсцьдзесят[ >>];"),
    (u!"70", u!"семдзесят[ >>];"),
    (u!"80", u!"восемдзесят[ >>];"),
    (u!"90", u!"дзевяноста[ >>];"),
    (u!"100", u!"сто[ >>];"),
    (u!"200", u!"дзвесце[ >>];"),
    (u!"300", u!"трыста[ >>];"),
    (u!"400", u!"чатырыста[ >>];"),
    (u!"500", u!"пяцьсот[ >>];"),
    (u!"600", u!"шэсцьсот[ >>];"),
    (u!"700", u!"семсот[ >>];"),
    (u!"800", u!"восемсот[ >>];"),
    (u!"900", u!"дзевяцьсот[ >>];"),
    (u!"1000", u!"<%spellout-cardinal-feminine< $(cardinal,one{тысяча}few{тысячы}other{тысяч})$[ >>];"),
    (u!"1000000", u!"<%spellout-cardinal-masculine< $(cardinal,one{мільён}few{мільёны}other{мільёнаў})$[ >>];"),
    (u!"1000000000", u!"<%spellout-cardinal-masculine< $(cardinal,one{мільярд}few{мільярды}other{мільярдаў})$[ >>];"),
    (u!"1000000000000", u!"<%spellout-cardinal-masculine< $(cardinal,one{трыльён}few{трыльёны}other{трылёнаў})$[ >>];"),
    (u!"1000000000000000", u!"<%spellout-cardinal-masculine< $(cardinal,one{квадрыльён}few{квадрыльёны}other{квадрыльёнаў})$[ >>];"),
    (u!"1000000000000000000", u!"=#,##0=;")]),
  (u!"%spellout-cardinal-neuter", [(u!"-x", u!"мінус >>;"),
    (u!"x.x", u!"<< коска >>;"),
    (u!"0", u!"нуль;"),
    (u!"1", u!"адно;"),
    (u!"2", u!"два;"),
    (u!"3", u!"=%spellout-cardinal-masculine=;"),
    (u!"20", u!"дваццаць[ >>];"),
    (u!"30", u!"трыццаць[ >>];"),
    (u!"40", u!"сорак[ >>];"),
    (u!"50", u!"пяцьдзесят[ >>];"),
    (u!"60", u!"шэсцьдзесят[ >>];"),
    (u!"70", u!"семдзесят[ >>];"),
    (u!"80", u!"восемдзесят[ >>];"),
    (u!"90", u!"дзевяноста[ >>];"),
    (u!"100", u!"сто[ >>];"),
    (u!"200", u!"дзвесце[ >>];"),
    (u!"300", u!"трыста[ >>];"),
    (u!"400", u!"чатырыста[ >>];"),
    (u!"500", u!"пяцьсот[ >>];"),
    (u!"600", u!"шэсцьсот[ >>];"),
    (u!"700", u!"сямсот[ >>];"),
    (u!"800", u!"васямсот[ >>];"),
    (u!"900", u!"дзевяцьсот[ >>];"),
    (u!"1000", u!"<%spellout-cardinal-feminine< $(cardinal,one{тысяча}few{тысячы}other{тысяч})$[ >>];"),
    (u!"1000000", u!"<%spellout-cardinal-masculine< $(cardinal,one{мільён}few{мільёны}other{мільёнаў})$[ >>];"),
    (u!"1000000000", u!"<%spellout-cardinal-masculine< $(cardinal,one{мільярд}few{мільярды}other{мільярдаў})$[ >>];"),
    (u!"1000000000000", u!"<%spellout-cardinal-masculine< $(cardinal,one{трыльён}few{трыльёны}other{трылёнаў})$[ >>];"),
    (u!"1000000000000000", u!"<%spellout-cardinal-masculine< $(cardinal,one{квадрыльён}few{квадрыльёны}other{квадрыльёнаў})$[ >>];"),
    (u!"1000000000000000000", u!"=#,##0=;")]),
  (u!"%spellout-cardinal-feminine", [(u!"-x", u!"мінус >>;"),
    (u!"x.x", u!"<< коска >>;"),
    (u!"0", u!"нуль;"),
    (u!"1", u!"адна;"),
    (u!"2", u!"дзве;"),
    (u!"3", u!"=%spellout-cardinal-masculine=;"),
    (u!"20", u!"дваццаць[ >>];"),
    (u!"30", u!"трыццаць[ >>];"),
    (u!"40", u!"сорак[ >>];"),
    (u!"50", u!"пяцьдзясят[ >>];"),
    (u!"60", u!"шэсцьдзесят[ >>];"),
    (u!"70", u!"семдзесят[ >>];"),
    (u!"80", u!"восемдзесят[ >>];"),
    (u!"90", u!"дзевяноста[ >>];"),
    (u!"100", u!"сто[ >>];"),
    (u!"200", u!"дзвесце[ >>];"),
    (u!"300", u!"трыста[ >>];"),
    (u!"400", u!"чатырыста[ >>];"),
    (u!"500", u!"пяцьсот[ >>];"),
    (u!"600", u!"шэсцьсот[ >>];"),
    (u!"700", u!"семсот[ >>];"),
    (u!"800", u!"васямсот[ >>];"),
    (u!"900", u!"дзевяцьсот[ >>];"),
    (u!"1000", u!"<%spellout-cardinal-feminine< $(cardinal,one{тысяча}few{тысячы}other{тысяч})$[ >>];"),
    (u!"1000000", u!"<%spellout-cardinal-masculine< $(cardinal,one{мільён}few{мільёны}other{мільёнаў})$[ >>];"),
    (u!"1000000000", u!"<%spellout-cardinal-masculine< $(cardinal,one{мільярд}few{мільярды}other{мільярдаў})$[ >>];"),
    (u!"1000000000000", u!"<%spellout-cardinal-masculine< $(cardinal,one{трыльён}few{трыльёны}other{трылёнаў})$[ >>];"),
    (u!"1000000000000000", u!"<%spellout-cardinal-masculine< $(cardinal,one{квадрыльён}few{квадрыльёны}other{квадрыльёнаў})$[ >>];"),
    (u!"1000000000000000000", u!"=#,##0=;")]),
  (u!"%spellout-ordinal-masculine", [(u!"-x", u!"мінус >>;"),
    (u!"x.x", u!"=#,##0.#=;"),
    (u!"0", u!"нулявы;"),
    (u!"1", u!"першы;"),
    (u!"2", u!"другі;"),
    (u!"3", u!"трэйці;"),
    (u!"4", u!"чацьверты;"),
    (u!"5", u!"пяты;"),
    (u!"6", u!"шосты;"),
    (u!"7", u!"сёмы;"),
    (u!"8", u!"восьмы;"),
    (u!"9", u!"дзявяты;"),
    (u!"10", u!"дзясяты;"),
    (u!"11", u!"адзінаццаты;"),
    (u!"12", u!"дванаццаты;"),
    (u!"13", u!"трынаццаты;"),
    (u!"14", u!"чатырнаццаты;"),
    (u!"15", u!"пятнаццаты;"),
    (u!"16", u!"шаснаццаты;"),
    (u!"17", u!"сямнаццаты;"),
    (u!"18", u!"васямнаццаты;"),
    (u!"19", u!"дзевятнаццаты;"),
    (u!"20", u!"дваццаты;"),
    (u!"21", u!"дваццаць[ >>];"),
    (u!"30", u!"трыццаты;"),
    (u!"31", u!"трыццаць[ >>];"),
    (u!"40", u!"саракавы;"),
    (u!"41", u!"сорак[ >>];"),
    (u!"50", u!"пяцідзясяты;"),
    (u!"51", u!"пяцідзясят[ >>];"),
    (u!"60", u!"шэсцьдзесяты;"),
    (u!"61", u!"шэсцьдзесят[ >>];"),
    (u!"70", u!"семдзесяты;"),
    (u!"71", u!"семдзесят[ >>];"),
    (u!"80", u!"васьмідзясяты;"),
    (u!"81", u!"восемдзесят[ >>];"),
    (u!"90", u!"дзевяносты;"),
    (u!"91", u!"дзевяноста[ >>];"),
    (u!"100", u!"соты;"),
    (u!"101", u!"сто[ >>];"),
    (u!"200", u!"дзвухсоты;"),
    (u!"201", u!"дзвесце[ >>];"),
    (u!"300", u!"трохсоты;"),
    (u!"301", u!"трыста[ >>];"),
    (u!"400", u!"чатырохсоты;"),
    (u!"401", u!"чатырыста[ >>];"),
    (u!"500", u!"пяцісоты;"),
    (u!"501", u!"пяцьсот[ >>];"),
    (u!"600", u!"шасьцісоты;"),
    (u!"601", u!"шэсцьсот[ >>];"),
    (u!"700", u!"сямісоты;"),
    (u!"701", u!"семсот[ >>];"),
    (u!"800", u!"васьмісоты;"),
    (u!"801", u!"васямсот[ >>];"),
    (u!"900", u!"дзевяцісоты;"),
    (u!"901", u!"дзевяцьсот[ >>];"),
    (u!"1000", u!"<%spellout-cardinal-feminine< тысячны;"),
    (u!"1001", u!"<%spellout-cardinal-feminine< тысяча[ >>];"),
    (u!"2000", u!"дзвух тысячны;"),
    (u!"2001", u!"<%spellout-cardinal-feminine< тысячы[ >>];"),
    (u!"5000", u!"<%spellout-cardinal-feminine< тысячны;"),
    (u!"5001", u!"<%spellout-cardinal-feminine< тысяч[ >>];"),
    (u!"10000", u!"дзесяці тысячны;"),
    (u!"10001/1000", u!"дзесяць тысяч[ >>];"),
    (u!"11000/1000", u!"<%spellout-cardinal-masculine< тысяч[ >>];"),
    (u!"20000", u!"дваццаці тысячны;"),
    (u!"20001/1000", u!"<%spellout-cardinal-masculine< тысяч[ >>];"),
    (u!"21000/1000", u!"<%spellout-cardinal-feminine< тысяча[ >>];"),
    (u!"100000", u!"сто тысячны;"),
    (u!"100001/1000", u!"<%spellout-cardinal-masculine< тысяч[ >>];"),
    (u!"110000/1000", u!"<%spellout-cardinal-masculine< тысячны[ >>];"),
    (u!"200000", u!"дзвухсот тысячны;"),
    (u!"200001/1000", u!"<%spellout-cardinal-masculine< тысячны[ >>];"),
    (u!"300000", u!"трохсот тысячны;"),
    (u!"300001/1000", u!"<%spellout-cardinal-masculine< тысячны[ >>];"),
    (u!"400000", u!"чатырохсот тысячны;"),
    (u!"400001/1000", u!"<%spellout-cardinal-masculine< тысячны[ >>];"),
    (u!"500000/1000", u!"<%spellout-cardinal-masculine< тысячнае[ >>];"),
    (u!"1000000", u!"<%spellout-cardinal-masculine< мільён[ >>];"),
    (u!"2000000", u!"<%spellout-cardinal-masculine< мільёны[ >>];"),
    (u!"5000000", u!"<%spellout-cardinal-masculine< мільёнаў[ >>];"),
    (u!"1000000000", u!"<%spellout-cardinal-masculine< мільярд[ >>];"),
    (u!"2000000000", u!"<%spellout-cardinal-masculine< мільярды[ >>];"),
    (u!"5000000000", u!"<%spellout-cardinal-masculine< мільярдаў[ >>];"),
    (u!"1000000000000", u!"<%spellout-cardinal-masculine< трыльён[ >>];"),
    (u!"2000000000000", u!"<%spellout-cardinal-masculine< трыльёны[ >>];"),
    (u!"5000000000000", u!"<%spellout-cardinal-masculine< трылёнаў[ >>];"),
    (u!"1000000000000000", u!"<%spellout-cardinal-masculine< квадрыльён[ >>];"),
    (u!"2000000000000000", u!"<%spellout-cardinal-masculine< квадрыльёны[ >>];"),
    (u!"5000000000000000", u!"<%spellout-cardinal-masculine< квадрыльёнаў[ >>];"),
    (u!"1000000000000000000", u!"=#,##0=;")]),
  (u!"%spellout-ordinal-feminine", [(u!"-x", u!"мінус >>;"),
    (u!"x.x", u!"=#,##0.#=;"),
    (u!"0", u!"нулявая;"),
    (u!"1", u!"першая;"),
    (u!"2", u!"другая;"),
    (u!"3", u!"трэццяя;"),
    (u!"4", u!"чацьвертая;"),
    (u!"5", u!"пятая;"),
    (u!"6", u!"шостая;"),
    (u!"7", u!"сёмая;"),
    (u!"8", u!"восьмая;"),
    (u!"9", u!"дзявятая;"),
    (u!"10", u!"дзясятая;"),
    (u!"11", u!"адзінаццатая;"),
    (u!"12", u!"дванаццатая;"),
    (u!"13", u!"трынаццатая;"),
    (u!"14", u!"чатырнаццатая;"),
    (u!"15", u!"пятнаццатая;"),
    (u!"16", u!"шаснаццатая;"),
    (u!"17", u!"сямнаццатая;"),
    (u!"18", u!"васямнаццатая;"),
    (u!"19", u!"дзевятнаццатая;"),
    (u!"20", u!"дваццатая;"),
    (u!"21", u!"дваццаць[ >>];"),
    (u!"30", u!"трыццатая;"),
    (u!"31", u!"трыццаць[ >>];"),
    (u!"40", u!"саракавая;"),
    (u!"41", u!"сорак[ >>];"),
    (u!"50", u!"пяцідзесятая;"),
    (u!"51", u!"пяцідзясят[ >>];"),
    (u!"60", u!"шэсцідзесятая;"),
    (u!"61", u!"шэсцьдзесят[ >>];"),
    (u!"70", u!"семдзесятая;"),
    (u!"71", u!"семдзесят[ >>];"),
    (u!"80", u!"васьмідзясятая;"),
    (u!"81", u!"восемдзесят[ >>];"),
    (u!"90", u!"дзевяностая;"),
    (u!"91", u!"дзевяноста[ >>];"),
    (u!"100", u!"сотая;"),
    (u!"101", u!"сто[ >>];"),
    (u!"200", u!"дзвухсотая;"),
    (u!"201", u!"дзвесце[ >>];"),
    (u!"300", u!"трохсотая;"),
    (u!"301", u!"трыста[ >>];"),
    (u!"400", u!"чатырохсотая;"),
    (u!"401", u!"чатырыста[ >>];"),
    (u!"500", u!"пяцісотая;"),
    (u!"501", u!"пяцьсот[ >>];"),
    (u!"600", u!"шасьцісотая;"),
    (u!"601", u!"шэсцьсот[ >>];"),
    (u!"700", u!"сямісотая;"),
    (u!"701", u!"семсот[ >>];"),
    (u!"800", u!"васьмісотая;"),
    (u!"801", u!"васямсот[ >>];"),
    (u!"900", u!"дзевяцісотая;"),
    (u!"901", u!"дзевяцьсот[ >>];"),
    (u!"1000", u!"<%spellout-cardinal-feminine< тысячны;"),
    (u!"1001", u!"<%spellout-cardinal-feminine< тысяча[ >>];"),
    (u!"2000", u!"дзвух тысячная;"),
    (u!"2001", u!"<%spellout-cardinal-feminine< тысячы[ >>];"),
    (u!"5000", u!"<%spellout-cardinal-feminine< тысячная;"),
    (u!"5001", u!"<%spellout-cardinal-feminine< тысяч[ >>];"),
    (u!"10000", u!"дзесяці тысячная;"),
    (u!"10001/1000", u!"дзесяць тысяч[ >>];"),
    (u!"11000/1000", u!"<%spellout-cardinal-masculine< тысяч[ >>];"),
    (u!"20000", u!"дваццаці тысячная;"),
    (u!"20001/1000", u!"<%spellout-cardinal-masculine< тысяч[ >>];"),
    (u!"21000/1000", u!"<%spellout-cardinal-feminine< тысяча[ >>];"),
    (u!"100000", u!"сто тысячная;"),
    (u!"100001/1000", u!"<%spellout-cardinal-masculine< тысяч[ >>];"),
    (u!"110000/1000", u!"<%spellout-cardinal-feminine< тысячная[ >>];"),
    (u!"200000", u!"дзвухсот тысячная;"),
    (u!"200001/1000", u!"<%spellout-cardinal-feminine< тысячная[ >>];"),
    (u!"300000", u!"трохсот тысячная;"),
    (u!"300001/1000", u!"<%spellout-cardinal-feminine< тысячная[ >>];"),
    (u!"400000", u!"чатырохсот тысячная;"),
    (u!"400001/1000", u!"<%spellout-cardinal-feminine< тысячная[ >>];"),
    (u!"500000/1000", u!"<%spellout-cardinal-feminine< тысячнае[ >>];"),
    (u!"1000000", u!"<%spellout-cardinal-masculine< мільён[ >>];"),
    (u!"2000000", u!"<%spellout-cardinal-masculine< мільёны[ >>];"),
    (u!"5000000", u!"<%spellout-cardinal-masculine< мільёнаў[ >>];"),
    (u!"1000000000", u!"<%spellout-cardinal-masculine< мільярд[ >>];"),
    (u!"2000000000", u!"<%spellout-cardinal-masculine< мільярды[ >>];"),
    (u!"5000000000", u!"<%spellout-cardinal-masculine< мільярдаў[ >>];"),
    (u!"1000000000000", u!"<%spellout-cardinal-masculine< трыльён[ >>];"),
    (u!"2000000000000", u!"<%spellout-cardinal-masculine< трыльёны[ >>];"),
    (u!"5000000000000", u!"<%spellout-cardinal-masculine< трылёнаў[ >>];"),
    (u!"1000000000000000", u!"<%spellout-cardinal-masculine< квадрыльён[ >>];"),
    (u!"2000000000000000", u!"<%spellout-cardinal-masculine< квадрыльёны[ >>];"),
    (u!"5000000000000000", u!"<%spellout-cardinal-masculine< квадрыльёнаў[ >>];"),
    (u!"1000000000000000000", u!"=#,##0=;")]),
  (u!"%spellout-ordinal-neuter", [(u!"-x", u!"мінус >>;"),
    (u!"x.x", u!"=#,##0.#=;"),
    (u!"0", u!"нулявое;"),
    (u!"1", u!"першае;"),
    (u!"2", u!"другое;"),
    (u!"3", u!"трэццяе;"),
    (u!"4", u!"чацьвертае;"),
    (u!"5", u!"пятае;"),
    (u!"6", u!"шостае;"),
    (u!"7", u!"сёмае;"),
    (u!"8", u!"восьмае;"),
    (u!"9", u!"дзявятае;"),
    (u!"10", u!"дзясятае;"),
    (u!"11", u!"адзінаццатае;"),
    (u!"12", u!"дванаццатае;"),
    (u!"13", u!"трынаццатае;"),
    (u!"14", u!"чатырнаццатае;"),
    (u!"15", u!"пятнаццатае;"),
    (u!"16", u!"шаснаццатае;"),
    (u!"17", u!"сямнаццатае;"),
    (u!"18", u!"васямнаццатае;"),
    (u!"19", u!"дзевятнаццатае;"),
    (u!"20", u!"дваццатае;"),
    (u!"21", u!"дваццаць[ >>];"),
    (u!"30", u!"трыццатае;"),
    (u!"31", u!"трыццаць[ >>];"),
    (u!"40", u!"саракавое;"),
    (u!"41", u!"сорак[ >>];"),
    (u!"50", u!"пяцьдзесятае;"),
    (u!"51", u!"пяцідзясят[ >>];"),
    (u!"60", u!"шэсцідзясятае;"),
    (u!"61", u!"шэсцьдзесят[ >>];"),
    (u!"70", u!"сямдзясятае;"),
    (u!"71", u!"семдзесят[ >>];"),
    (u!"80", u!"васьмідзясятае;"),
    (u!"81", u!"восемдзесят[ >>];"),
    (u!"90", u!"дзевяностае;"),
    (u!"91", u!"дзевяноста[ >>];"),
    (u!"100", u!"сотае;"),
    (u!"101", u!"сто[ >>];"),
    (u!"200", u!"дзвухсотае;"),
    (u!"201", u!"дзвесце[ >>];"),
    (u!"300", u!"трохсотае;"),
    (u!"301", u!"трыста[ >>];"),
    (u!"400", u!"чатырохсотае;"),
    (u!"401", u!"чатырыста[ >>];"),
    (u!"500", u!"пяцісотае;"),
    (u!"501", u!"пяцьсот[ >>];"),
    (u!"600", u!"шасьцісотае;"),
    (u!"601", u!"шэсцьсот[ >>];"),
    (u!"700", u!"сямісотае;"),
    (u!"701", u!"семсот[ >>];"),
    (u!"800", u!"васьмісотае;"),
    (u!"801", u!"васямсот[ >>];"),
    (u!"900", u!"дзевяцісотае;"),
    (u!"901", u!"дзевяцьсот[ >>];"),
    (u!"1000", u!"<%spellout-cardinal-feminine< тысячны;"),
    (u!"1001", u!"<%spellout-cardinal-feminine< тысяча[ >>];"),
    (u!"2000", u!"дзвух тысячнае;"),
    (u!"2001", u!"<%spellout-cardinal-feminine< тысячы[ >>];"),
    (u!"5000", u!"<%spellout-cardinal-feminine< тысячнае;"),
    (u!"5001", u!"<%spellout-cardinal-feminine< тысяч[ >>];"),
    (u!"10000", u!"дзесяці тысячнае;"),
    (u!"10001/1000", u!"дзесяць тысяч[ >>];"),
    (u!"11000/1000", u!"<%spellout-cardinal-masculine< тысяч[ >>];"),
    (u!"20000", u!"дваццаці тысячнае;"),
    (u!"20001/1000", u!"<%spellout-cardinal-masculine< тысяч[ >>];"),
    (u!"21000/1000", u!"<%spellout-cardinal-feminine< тысяча[ >>];"),
    (u!"100000", u!"сто тысячнае;"),
    (u!"100001/1000", u!"<%spellout-cardinal-masculine< тысяч[ >>];"),
    (u!"110000/1000", u!"<%spellout-cardinal-feminine< тысячнае[ >>];"),
    (u!"200000", u!"дзвухсот тысячнае;"),
    (u!"200001/1000", u!"<%spellout-cardinal-feminine< тысячнае[ >>];"),
    (u!"300000", u!"трохсот тысячнае;"),
    (u!"300001/1000", u!"<%spellout-cardinal-feminine< тысячнае[ >>];"),
    (u!"400000", u!"чатырохсот тысячнае;"),
    (u!"400001/1000", u!"<%spellout-cardinal-feminine< тысячнае[ >>];"),
    (u!"500000/1000", u!"<%spellout-cardinal-feminine< тысячнае[ >>];"),
    (u!"1000000", u!"<%spellout-cardinal-masculine< мільён[ >>];"),
    (u!"2000000", u!"<%spellout-cardinal-masculine< мільёны[ >>];"),
    (u!"5000000", u!"<%spellout-cardinal-masculine< мільёнаў[ >>];"),
    (u!"1000000000", u!"<%spellout-cardinal-masculine< мільярд[ >>];"),
    (u!"2000000000", u!"<%spellout-cardinal-masculine< мільярды[ >>];"),
    (u!"5000000000", u!"<%spellout-cardinal-masculine< мільярдаў[ >>];"),
    (u!"1000000000000", u!"<%spellout-cardinal-masculine< трыльён[ >>];"),
    (u!"2000000000000", u!"<%spellout-cardinal-masculine< трыльёны[ >>];"),
    (u!"5000000000000", u!"<%spellout-cardinal-masculine< трылёнаў[ >>];"),
    (u!"1000000000000000", u!"<%spellout-cardinal-masculine< квадрыльён[ >>];"),
    (u!"2000000000000000", u!"<%spellout-cardinal-masculine< квадрыльёны[ >>];"),
    (u!"5000000000000000", u!"<%spellout-cardinal-masculine< квадрыльёнаў[ >>];"),
    (u!"1000000000000000000", u!"=#,##0=;")])]

/-- `number_parser_data/supplementary_translation_data/be.json` -/
def beSupplementary : Supplementary where
  tables := {
    unit := []
    direct := []
    tens := []
    hundreds := []
    big := [] }
  skipTokens := []
  useLongScale := some false

/-- `number_parser/data/be.py`, lines 1-71 -/
def beModule : Output where
  tables := {
    unit := [(u!"нуль", 0), (u!"адзiн", 1), (u!"адна", 1), (u!"адно", 1), (u!"два", 2), (u!"дзве", 2), (u!"тры", 3), (u!"чатыры", 4), (u!"пяць", 5), (u!"шэсць", 6), (u!"сем", 7), (u!"восем", 8), (u!"дзевяць", 9)]
    direct := [(u!"дзесяць", 10), (u!"адзінаццаць", 11), (u!"дванаццаць", 12), (u!"трынаццаць", 13), (u!"чатырнаццаць", 14), (u!"пятнаццаць", 15), (u!"шаснаццаць", 16), (u!"сямнаццаць", 17), (u!"васямнаццаць", 18), (u!"дзевятнаццаць", 19)]
    tens := [(u!"дваццаць", 20), (u!"трыццаць", 30), (u!"сорак", 40), (u!"пяцьдзесят", 50), (u!"пяцьдзясят", 50), (u!"шэсцьдзесят", 60), (u!"семдзесят", 70), (u!"восемдзесят", 80), (u!"дзевяноста", 90)]
    hundreds := [(u!"дзвесце", 200), (u!"трыста", 300), (u!"чатырыста", 400), (u!"пяцьсот", 500), (u!"шэсцьсот", 600), (u!"семсот", 700), (u!"сямсот", 700), (u!"васямсот", 800), (u!"восемсот", 800), (u!"дзевяцьсот", 900)]
    big := [(u!"тысяч", 1000), (u!"тысяча", 1000), (u!"тысячы", 1000), (u!"мільён", 1000000), (u!"мільёнаў", 1000000), (u!"мільёны", 1000000), (u!"мільярд", 1000000000), (u!"мільярдаў", 1000000000), (u!"мільярды", 1000000000), (u!"трыльён", 1000000000000), (u!"трыльёны", 1000000000000), (u!"трылёнаў", 1000000000000), (u!"квадрыльён", 1000000000000000), (u!"квадрыльёнаў", 1000000000000000), (u!"квадрыльёны", 1000000000000000)] }
  skipTokens := []
  useLongScale := some false

/-- `number_parser_data/raw_cldr_translation_data/bg.json`, `SpelloutRules` -/
def bgRules : RuleSets := [
  (u!"%spellout-numbering-year", [(u!"x.x", u!"=0.0=;"),
    (u!"0", u!"=%spellout-numbering=;")]),
  (u!"%spellout-numbering", [(u!"0", u!"=%spellout-cardinal-feminine=;")]),
  (u!"%spellout-cardinal-masculine", [(u!"-x", u!"минус >>;"),
    (u!"x.x", u!"<< кома >>;"),
    (u!"0", u!"нула;"),
    (u!"1", u!"един;"),
    (u!"2", u!"два;"),
    (u!"3", u!"три;"),
    (u!"4", u!"четири;"),
    (u!"5", u!"пет;"),
    (u!"6", u!"шест;"),
    (u!"7", u!"седем;"),
    (u!"8", u!"осем;"),
    (u!"9", u!"девет;"),
    (u!"10", u!"десет;"),
    (u!"11", u!"единадесет;"),
    (u!"12", u!"дванадесет;"),
    (u!"13", u!"тринадесет;"),
    (u!"14", u!"четиринадесет;"),
    (u!"15", u!"петнадесет;"),
    (u!"16", u!"шестнадесет;"),
    (u!"17", u!"седемнадесет;"),
    (u!"18", u!"осемнадесет;"),
    (u!"19", u!"деветнадесет;"),
    (u!"20", u!"двадесет[ и >>];"),
    (u!"30", u!"тридесет[ и >>];"),
    (u!"40", u!"четиридесет[ и >>];"),
    (u!"50", u!"петдесет[ и >>];"),
    (u!"60", u!"шестдесет[ и >>];"),
    (u!"70", u!"седемдесет[ и >>];"),
    (u!"80", u!"осемдесет[ и >>];"),
    (u!"90", u!"деветдесет[ и >>];"),
    (u!"100", u!"сто[ >>];"),
    (u!"200", u!"двеста[ >>];"),
    (u!"300", u!"триста[ >>];"),
    (u!"400", u!"четиристотин[ >>];"),
    (u!"500", u!"петстотин[ >>];"),
    (u!"600", u!"шестстотин[ >>];"),
    (u!"700", u!"седемстотин[ >>];"),
    (u!"800", u!"осемстотин[ >>];"),
    (u!"900", u!"деветстотин[ >>];"),
    (u!"1000", u!"хиляда[ >>];"),
    (u!"2000", u!"<%spellout-cardinal-feminine< хиляди[ >>];"),
    (u!"1000000", u!"<%spellout-cardinal-masculine< милион[ >>];"),
    (u!"2000000", u!"<%spellout-cardinal-masculine< милиона[ >>];"),
    (u!"1000000000", u!"<%spellout-cardinal-masculine< милиард[ >>];"),
    (u!"2000000000", u!"<%spellout-cardinal-masculine< милиарда[ >>];"),
    (u!"1000000000000", u!"<%spellout-cardinal-masculine< трилион[ >>];"),
    (u!"2000000000000", u!"<%spellout-cardinal-masculine< трилиона[ >>];"),
    (u!"1000000000000000", u!"<%spellout-cardinal-masculine< квадрилион[ >>];"),
    (u!"2000000000000000", u!"<%spellout-cardinal-masculine< квадрилиона[ >>];"),
    (u!"1000000000000000000", u!"=#,##0=;")]),
  (u!"%spellout-cardinal-feminine", [(u!"-x", u!"минус >>;"),
    (u!"x.x", u!"<< кома >>;"),
    (u!"0", u!"нула;"),
    (u!"1", u!"едно;"),
    (u!"2", u!"две;"),
    (u!"3", u!"=%spellout-cardinal-masculine=;"),
    (u!"20", u!"двадесет[ и >>];"),
    (u!"30", u!"тридесет[ и >>];"),
    (u!"40", u!"четиридесет[ и >>];"),
    (u!"50", u!"петдесет[ и >>];"),
    (u!"60", u!"шестдесет[ и >>];"),
    (u!"70", u!"седемдесет[ и >>];"),
    (u!"80", u!"осемдесет[ и >>];"),
    (u!"90", u!"деветдесет[ и >>];"),
    (u!"100", u!"сто[ >>];"),
    (u!"200", u!"двеста[ >>];"),
    (u!"300", u!"триста[ >>];"),
    (u!"400", u!"четиристотин[ >>];"),
    (u!"500", u!"петстотин[ >>];"),
    (u!"600", u!"шестстотин[ >>];"),
    (u!"700", u!"седемстотин[ >>];"),
    (u!"800", u!"осемстотин[ >>];"),
    (u!"900", u!"деветстотин[ >>];"),
    (u!"1000", u!"хиляда[ >>];"),
    (u!"2000", u!"<%spellout-cardinal-feminine< хиляди[ >>];"),
    (u!"1000000", u!"<%spellout-cardinal-masculine< милион[ >>];"),
    (u!"2000000", u!"<%spellout-cardinal-masculine< милиона[ >>];"),
    (u!"1000000000", u!"<%spellout-cardinal-masculine< милиард[ >>];"),
    (u!"2000000000", u!"<%spellout-cardinal-masculine< милиарда[ >>];"),
    (u!"1000000000000", u!"<%spellout-cardinal-masculine< трилион[ >>];"),
    (u!"2000000000000", u!"<%spellout-cardinal-masculine< трилиона[ >>];"),
    (u!"1000000000000000", u!"<%spellout-cardinal-masculine< квадрилион[ >>];"),
    (u!"2000000000000000", u!"<%spellout-cardinal-masculine< квадрилиона[ >>];"),
    (u!"1000000000000000000", u!"=#,##0=;")])]

/-- `number_parser_data/supplementary_translation_data/bg.json` -/
def bgSupplementary : Supplementary where
  tables := {
    unit := []
    direct := []
    tens := []
    hundreds := []
    big := [] }
  skipTokens := []
  useLongScale := some false

/-- `number_parser/data/bg.py`, lines 1-61 -/
def bgModule : Output where
  tables := {
    unit := [(u!"нула", 0), (u!"един", 1), (u!"едно", 1), (u!"два", 2), (u!"две", 2), (u!"три", 3), (u!"четири", 4), (u!"пет", 5), (u!"шест", 6), (u!"седем", 7), (u!"осем", 8), (u!"девет", 9)]
    direct := [(u!"десет", 10), (u!"единадесет", 11), (u!"дванадесет", 12), (u!"тринадесет", 13), (u!"четиринадесет", 14), (u!"петнадесет", 15), (u!"шестнадесет", 16), (u!"седемнадесет", 17), (u!"осемнадесет", 18), (u!"деветнадесет", 19)]
    tens := [(u!"двадесет", 20), (u!"тридесет", 30), (u!"четиридесет", 40), (u!"петдесет", 50), (u!"шестдесет", 60), (u!"седемдесет", 70), (u!"осемдесет", 80), (u!"деветдесет", 90)]
    hundreds := [(u!"двеста", 200), (u!"триста", 300), (u!"четиристотин", 400), (u!"петстотин", 500), (u!"шестстотин", 600), (u!"седемстотин", 700), (u!"осемстотин", 800), (u!"деветстотин", 900)]
    big := [(u!"хиляди", 1000), (u!"милион", 1000000), (u!"милиона", 1000000), (u!"милиард", 1000000000), (u!"милиарда", 1000000000), (u!"трилион", 1000000000000), (u!"трилиона", 1000000000000), (u!"квадрилион", 1000000000000000), (u!"квадрилиона", 1000000000000000)] }
  skipTokens := []
  useLongScale := some false

/-- `number_parser_data/raw_cldr_translation_data/bs.json`, `SpelloutRules` -/
def bsRules : RuleSets := [
  (u!"%spellout-numbering-year", [(u!"x.x", u!"=0.0=;"),
    (u!"0", u!"=%spellout-numbering=;")]),
  (u!"%spellout-numbering", [(u!"0", u!"=%spellout-cardinal-masculine=;")]),
  (u!"%spellout-cardinal-masculine", [(u!"-x", u!"minus >>;"),
    (u!"x.x", u!"<< zarez >>;"),
    (u!"0", u!"nula;"),
    (u!"1", u!"jedan;"),
    (u!"2", u!"dva;"),
    (u!"3", u!"tri;"),
    (u!"4", u!"četiri;"),
    (u!"5", u!"pet;"),
    (u!"6", u!"šest;"),
    (u!"7", u!"sedam;"),
    (u!"8", u!"osam;"),
    (u!"9", u!"devet;"),
    (u!"10", u!"deset;"),
    (u!"11", u!"jedenaest;"),
    (u!"12", u!"dvanaest;"),
    (u!"13", u!"trinaest;"),
    (u!"14", u!"četrnaest;"),
    (u!"15", u!"petnaest;"),
    (u!"16", u!"šestnaest;"),
    (u!"17", u!"sedamnaest;"),
    (u!"18", u!"osamnaest;"),
    (u!"19", u!"devetnaest;"),
    (u!"20", u!"dvadeset[ >>];"),
    (u!"30", u!"trideset[ >>];"),
    (u!"40", u!"četrdeset[ >>];"),
    (u!"50", u!"pedeset[ >>];"),
    (u!"60", u!"šezdeset[ >>];"),
    (u!"70", u!"sedamdeset[ >>];"),
    (u!"80", u!"osamdeset[ >>];"),
    (u!"90", u!"devedeset[ >>];"),
    (u!"100", u!"sto[ >>];"),
    (u!"200", u!"dvesta[ >>];"),
    (u!"300", u!"trista[ >>];"),
    (u!"400", u!"četristo[ >>];"),
    (u!"500", u!"petsto[ >>];"),
    (u!"600", u!"šesto[ >>];"),
    (u!"700", u!"sedamsto[ >>];"),
    (u!"800", u!"osamsto[ >>];"),
    (u!"900", u!"devetsto[ >>];"),
    (u!"1000", u!"<%spellout-cardinal-feminine< hiljada[ >>];"),
    (u!"1000000", u!"<%spellout-cardinal-masculine< milion[ >>];"),
    (u!"1000000000", u!"<%spellout-cardinal-masculine< miliard[ >>];"),
    (u!"1000000000000", u!"<%spellout-cardinal-masculine< bilion[ >>];"),
    (u!"1000000000000000", u!"<%spellout-cardinal-masculine< biliard[ >>];"),
    (u!"1000000000000000000", u!"=#,##0=;")]),
  (u!"%spellout-cardinal-neuter", [(u!"-x", u!"minus >>;"),
    (u!"x.x", u!"<< zarez >>;"),
    (u!"0", u!"nula;"),
    (u!"1", u!"jedno;"),
    (u!"2", u!"dva;"),
    (u!"3", u!"=%spellout-cardinal-masculine=;"),
    (u!"20", u!"dvadeset[ >>];"),
    (u!"30", u!"trideset[ >>];"),
    (u!"40", u!"četrdeset[ >>];"),
    (u!"50", u!"pedeset[ >>];"),
    (u!"60", u!"šezdeset[ >>];"),
    (u!"70", u!"sedamdeset[ >>];"),
    (u!"80", u!"osamdeset[ >>];"),
    (u!"90", u!"devedeset[ >>];"),
    (u!"100", u!"sto[ >>];"),
    (u!"200", u!"dvesta[ >>];"),
    (u!"300", u!"trista[ >>];"),
    (u!"400", u!"četristo[ >>];"),
    (u!"500", u!"petsto[ >>];"),
    (u!"600", u!"šesto[ >>];"),
    (u!"700", u!"sedamsto[ >>];"),
    (u!"800", u!"osamsto[ >>];"),
    (u!"900", u!"devetsto[ >>];"),
    (u!"1000", u!"<%spellout-cardinal-feminine< hiljada[ >>];"),
    (u!"1000000", u!"<%spellout-cardinal-masculine< milion[ >>];"),
    (u!"1000000000", u!"<%spellout-cardinal-masculine< miliard[ >>];"),
    (u!"1000000000000", u!"<%spellout-cardinal-masculine< bilion[ >>];"),
    (u!"1000000000000000", u!"<%spellout-cardinal-masculine< biliard[ >>];"),
    (u!"1000000000000000000", u!"=#,##0=;")]),
  (u!"%spellout-cardinal-feminine", [(u!"-x", u!"minus >>;"),
    (u!"x.x", u!"<< zarez >>;"),
    (u!"0", u!"nula;"),
    (u!"1", u!"jedinica;"),
    (u!"2", u!"dve;"),
    (u!"3", u!"=%spellout-cardinal-masculine=;"),
    (u!"20", u!"dvadeset[ >>];"),
    (u!"30", u!"trideset[ >>];"),
    (u!"40", u!"četrdeset[ >>];"),
    (u!"50", u!"pedeset[ >>];"),
    (u!"60", u!"šezdeset[ >>];"),
    (u!"70", u!"sedamdeset[ >>];"),
    (u!"80", u!"osamdeset[ >>];"),
    (u!"90", u!"devedeset[ >>];"),
    (u!"100", u!"sto[ >>];"),
    (u!"200", u!"dvesta[ >>];"),
    (u!"300", u!"trista[ >>];"),
    (u!"400", u!"četristo[ >>];"),
    (u!"500", u!"petsto[ >>];"),
    (u!"600", u!"šesto[ >>];"),
    (u!"700", u!"sedamsto[ >>];"),
    (u!"800", u!"osamsto[ >>];"),
    (u!"900", u!"devetsto[ >>];"),
    (u!"1000", u!"<%spellout-cardinal-feminine< hiljada[ >>];"),
    (u!"1000000", u!"<%spellout-cardinal-masculine< milion[ >>];"),
    (u!"1000000000", u!"<%spellout-cardinal-masculine< miliard[ >>];"),
    (u!"1000000000000", u!"<%spellout-cardinal-masculine< bilion[ >>];"),
    (u!"1000000000000000", u!"<%spellout-cardinal-masculine< biliard[ >>];"),
    (u!"1000000000000000000", u!"=#,##0=;")])]

/-- `number_parser_data/supplementary_translation_data/bs.json` -/
def bsSupplementary : Supplementary where
  tables := {
    unit := []
    direct := []
    tens := []
    hundreds := []
    big := [] }
  skipTokens := []
  useLongScale := some true

/-- `number_parser/data/bs.py`, lines 1-58 -/
def bsModule : Output where
  tables := {
    unit := [(u!"nula", 0), (u!"jedan", 1), (u!"jedinica", 1), (u!"jedno", 1), (u!"dva", 2), (u!"dve", 2), (u!"tri", 3), (u!"četiri", 4), (u!"pet", 5), (u!"šest", 6), (u!"sedam", 7), (u!"osam", 8), (u!"devet", 9)]
    direct := [(u!"deset", 10), (u!"jedenaest", 11), (u!"dvanaest", 12), (u!"trinaest", 13), (u!"četrnaest", 14), (u!"petnaest", 15), (u!"šestnaest", 16), (u!"sedamnaest", 17), (u!"osamnaest", 18), (u!"devetnaest", 19)]
    tens := [(u!"dvadeset", 20), (u!"trideset", 30), (u!"četrdeset", 40), (u!"pedeset", 50), (u!"šezdeset", 60), (u!"sedamdeset", 70), (u!"osamdeset", 80), (u!"devedeset", 90)]
    hundreds := [(u!"dvesta", 200), (u!"trista", 300), (u!"četristo", 400), (u!"petsto", 500), (u!"šesto", 600), (u!"sedamsto", 700), (u!"osamsto", 800), (u!"devetsto", 900)]
    big := [(u!"hiljada", 1000), (u!"milion", 1000000), (u!"miliard", 1000000000), (u!"bilion", 1000000000000), (u!"biliard", 1000000000000000)] }
  skipTokens := []
  useLongScale := some true

/-- `number_parser_data/raw_cldr_translation_data/ca.json`, `SpelloutRules` -/
def caRules : RuleSets := [
  (u!"%spellout-numbering-year", [(u!"x.x", u!"=0.0=;"),
    (u!"0", u!"=%spellout-numbering=;")]),
  (u!"%%spellout-numbering-cents", [(u!"0", u!"s;"),
    (u!"1", u!"' =%spellout-cardinal-masculine=;")]),
  (u!"%spellout-numbering", [(u!"-x", u!"menys >>;"),
    (u!"x.x", u!"<< coma >>;"),
    (u!"0", u!"zero;"),
    (u!"1", u!"u;"),
    (u!"2", u!"=%spellout-cardinal-masculine=;"),
    (u!"20", u!"vint[-i->>];"),
    (u!"30", u!"trenta[->>];"),
    (u!"40", u!"quaranta[->>];"),
    (u!"50", u!"cinquanta[->>];"),
    (u!"60", u!"seixanta[->>];"),
    (u!"70", u!"setanta[->>];"),
    (u!"80", u!"vuitanta[->>];"),
    (u!"90", u!"noranta[->>];"),
    (u!"100", u!"cent[->>];"),
    (u!"200", u!"<%spellout-cardinal-masculine<-cent>%%spellout-numbering-cents>;"),
    (u!"1000", u!"mil[ >>];"),
    (u!"2000", u!"<%spellout-cardinal-masculine< mil[ >>];"),
    (u!"1000000", u!"un milió[ >>];"),
    (u!"2000000", u!"<%spellout-cardinal-masculine< milions[ >>];"),
    (u!"1000000000", u!"un miliard[ >>];"),
    (u!"2000000000", u!"<%spellout-cardinal-masculine< miliards[ >>];"),
    (u!"1000000000000", u!"un bilió[ >>];"),
    (u!"2000000000000", u!"<%spellout-cardinal-masculine< bilions[ >>];"),
    (u!"1000000000000000", u!"un biliard[ >>];"),
    (u!"2000000000000000", u!"<%spellout-cardinal-masculine< biliards[ >>];"),
    (u!"1000000000000000000", u!"=#,##0=;")]),
  (u!"%%spellout-cardinal-masculine-cents", [(u!"0", u!"s;"),
    (u!"1", u!"' =%spellout-cardinal-masculine=;")]),
  (u!"%spellout-cardinal-masculine", [(u!"-x", u!"menys >>;"),
    (u!"x.x", u!"<< coma >>;"),
    (u!"0", u!"zero;"),
    (u!"1", u!"un;"),
    (u!"2", u!"dos;"),
    (u!"3", u!"tres;"),
    (u!"4", u!"quatre;"),
    (u!"5", u!"cinc;"),
    (u!"6", u!"sis;"),
    (u!"7", u!"set;"),
    (u!"8", u!"vuit;"),
    (u!"9", u!"nou;"),
    (u!"10", u!"deu;"),
    (u!"11", u!"onze;"),
    (u!"12", u!"dotze;"),
    (u!"13", u!"tretze;"),
    (u!"14", u!"catorze;"),
    (u!"15", u!"quinze;"),
    (u!"16", u!"setze;"),
    (u!"17", u!"disset;"),
    (u!"18", u!"divuit;"),
    (u!"19", u!"dinou;"),
    (u!"20", u!"vint[-i->>];"),
    (u!"30", u!"trenta[->>];"),
    (u!"40", u!"quaranta[->>];"),
    (u!"50", u!"cinquanta[->>];"),
    (u!"60", u!"seixanta[->>];"),
    (u!"70", u!"setanta[->>];"),
    (u!"80", u!"vuitanta[->>];"),
    (u!"90", u!"noranta[->>];"),
    (u!"100", u!"cent[->>];"),
    (u!"200", u!"<%spellout-cardinal-masculine<-cent>%%spellout-cardinal-masculine-cents>;"),
    (u!"1000", u!"mil[ >>];"),
    (u!"2000", u!"<%spellout-cardinal-masculine< mil[ >>];"),
    (u!"1000000", u!"un milió[ >>];"),
    (u!"2000000", u!"<%spellout-cardinal-masculine< milions[ >>];"),
    (u!"1000000000", u!"un miliard[ >>];"),
    (u!"2000000000", u!"<%spellout-cardinal-masculine< miliards[ >>];"),
    (u!"1000000000000", u!"un bilió[ >>];"),
    (u!"2000000000000", u!"<%spellout-cardinal-masculine< bilions[ >>];"),
    (u!"1000000000000000", u!"un biliard[ >>];"),
    (u!"2000000000000000", u!"<%spellout-cardinal-masculine< biliards[ >>];"),
    (u!"1000000000000000000", u!"=#,##0=;")]),
  (u!"%%spellout-cardinal-feminine-cents", [(u!"0", u!"s;"),
    (u!"1", u!"' =%spellout-cardinal-feminine=;")]),
  (u!"%spellout-cardinal-feminine", [(u!"-x", u!"menys >>;"),
    (u!"x.x", u!"<< coma >>;"),
    (u!"0", u!"zero;"),
    (u!"1", u!"una;"),
    (u!"2", u!"dues;"),
    (u!"3", u!"=%spellout-cardinal-masculine=;"),
    (u!"20", u!"vint[-i->>];"),
    (u!"30", u!"trenta[->>];"),
    (u!"40", u!"quaranta[->>];"),
    (u!"50", u!"cinquanta[->>];"),
    (u!"60", u!"seixanta[->>];"),
    (u!"70", u!"setanta[->>];"),
    (u!"80", u!"vuitanta[->>];"),
    (u!"90", u!"noranta[->>];"),
    (u!"100", u!"cent[->>];"),
    (u!"200", u!"<%spellout-cardinal-masculine<-cent>%%spellout-cardinal-feminine-cents>;"),
    (u!"1000", u!"mil[ >>];"),
    (u!"2000", u!"<%spellout-cardinal-masculine< mil[ >>];"),
    (u!"1000000", u!"un milió[ >>];"),
    (u!"2000000", u!"<%spellout-cardinal-masculine< milions[ >>];"),
    (u!"1000000000", u!"un miliard[ >>];"),
    (u!"2000000000", u!"<%spellout-cardinal-masculine< miliards[ >>];"),
    (u!"1000000000000", u!"un bilió[ >>];"),
    (u!"2000000000000", u!"<%spellout-cardinal-masculine< bilions[ >>];"),
    (u!"1000000000000000", u!"un biliard[ >>];"),
    (u!"2000000000000000", u!"<%spellout-cardinal-masculine< biliards[ >>];"),
    (u!"1000000000000000000", u!"=#,##0=;")]),
  (u!"%%spellout-ordinal-masculine-cont", [(u!"0", u!"è;"),
    (u!"1", u!"' =%spellout-ordinal-masculine=;")]),
  (u!"%%spellout-ordinal-masculine-conts", [(u!"0", u!"è;"),
    (u!"1", u!"s =%spellout-ordinal-masculine=;")]),
  (u!"%spellout-ordinal-masculine", [(u!"-x", u!"menys >>;"),
    (u!"x.x", u!"=#,##0.#=;"),
    (u!"0", u!"zeroè;"),
    (u!"1", u!"primer;"),
    (u!"2", u!"segon;"),
    (u!"3", u!"tercer;"),
    (u!"4", u!"quart;"),
    (u!"5", u!"cinquè;"),
    (u!"6", u!"sisè;"),
    (u!"7", u!"setè;"),
    (u!"8", u!"vuitè;"),
    (u!"9", u!"novè;"),
    (u!"10", u!"desè;"),
    (u!"11", u!"onzè;"),
    (u!"12", u!"dotzè;"),
    (u!"13", u!"tretzè;"),
    (u!"14", u!"catorzè;"),
    (u!"15", u!"quinzè;"),
    (u!"16", u!"setzè;"),
    (u!"17", u!"dissetè;"),
    (u!"18", u!"divuitè;"),
    (u!"19", u!"dinovè;"),
    (u!"20", u!"vintè;"),
    (u!"21", u!"vint-i->>;"),
    (u!"30", u!"trentè;"),
    (u!"31", u!"trenta->>;"),
    (u!"40", u!"quarantè;"),
    (u!"41", u!"quaranta->>;"),
    (u!"50", u!"cinquantè;"),
    (u!"51", u!"cinquanta->>;"),
    (u!"60", u!"seixantè;"),
    (u!"61", u!"seixanta->>;"),
    (u!"70", u!"setantè;"),
    (u!"71", u!"setanta->>;"),
    (u!"80", u!"vuitantè;"),
    (u!"81", u!"vuitanta->>;"),
    (u!"90", u!"norantè;"),
    (u!"91", u!"noranta->>;"),
    (u!"100", u!"centè;"),
    (u!"101", u!"cent->>;"),
    (u!"200", u!"<%spellout-cardinal-masculine<-cent>%%spellout-ordinal-masculine-cont>;"),
    (u!"1000", u!"mil>%%spellout-ordinal-masculine-cont>;"),
    (u!"2000", u!"<%spellout-cardinal-masculine< mil>%%spellout-ordinal-masculine-cont>;"),
    (u!"1000000", u!"un milion>%%spellout-ordinal-masculine-cont>;"),
    (u!"2000000", u!"<%spellout-cardinal-masculine< milion>%%spellout-ordinal-masculine-conts>;"),
    (u!"1000000000", u!"un miliard>%%spellout-ordinal-masculine-cont>;"),
    (u!"2000000000", u!"<%spellout-cardinal-masculine< miliard>%%spellout-ordinal-masculine-conts>;"),
    (u!"1000000000000", u!"un bilion>%%spellout-ordinal-masculine-cont>;"),
    (u!"2000000000000", u!"<%spellout-cardinal-masculine< bilion>%%spellout-ordinal-masculine-conts>;"),
    (u!"1000000000000000", u!"un biliard>%%spellout-ordinal-masculine-cont>;"),
    (u!"2000000000000000", u!"<%spellout-cardinal-masculine< biliard>%%spellout-ordinal-masculine-conts>;"),
    (u!"1000000000000000000", u!"=#,##0=è;")]),
  (u!"%%spellout-ordinal-feminine-cont", [(u!"0", u!"ena;"),
    (u!"1", u!"' =%spellout-ordinal-feminine=;")]),
  (u!"%%spellout-ordinal-feminine-conts", [(u!"0", u!"ena;"),
    (u!"1", u!"s =%spellout-ordinal-feminine=;")]),
  (u!"%spellout-ordinal-feminine", [(u!"-x", u!"menys >>;"),
    (u!"x.x", u!"=#,##0.#=;"),
    (u!"0", u!"zerona;"),
    (u!"1", u!"primera;"),
    (u!"2", u!"segona;"),
    (u!"3", u!"tercera;"),
    (u!"4", u!"quarta;"),
    (u!"5", u!"cinquena;"),
    (u!"6", u!"sisena;"),
    (u!"7", u!"setena;"),
    (u!"8", u!"vuitena;"),
    (u!"9", u!"novena;"),
    (u!"10", u!"desena;"),
    (u!"11", u!"onzena;"),
    (u!"12", u!"dotzena;"),
    (u!"13", u!"tretzena;"),
    (u!"14", u!"catorzena;"),
    (u!"15", u!"quinzena;"),
    (u!"16", u!"setzena;"),
    (u!"17", u!"dissetena;"),
    (u!"18", u!"divuitena;"),
    (u!"19", u!"dinovena;"),
    (u!"20", u!"vintena;"),
    (u!"21", u!"vint-i->>;"),
    (u!"30", u!"trentena;"),
    (u!"31", u!"trenta->>;"),
    (u!"40", u!"quarantena;"),
    (u!"41", u!"quaranta->>;"),
    (u!"50", u!"cinquantena;"),
    (u!"51", u!"cinquanta->>;"),
    (u!"60", u!"seixantena;"),
    (u!"61", u!"seixanta->>;"),
    (u!"70", u!"setantena;"),
    (u!"71", u!"setanta->>;"),
    (u!"80", u!"vuitantena;"),
    (u!"81", u!"vuitanta->>;"),
    (u!"90", u!"norantena;"),
    (u!"91", u!"noranta->>;"),
    (u!"100", u!"centena;"),
    (u!"101", u!"cent->>;"),
    (u!"200", u!"<%spellout-cardinal-masculine<-cent>%%spellout-ordinal-feminine-cont>;"),
    (u!"1000", u!"mil>%%spellout-ordinal-feminine-cont>;"),
    (u!"2000", u!"<%spellout-cardinal-masculine< mil>%%spellout-ordinal-feminine-cont>;"),
    (u!"1000000", u!"un milion>%%spellout-ordinal-feminine-cont>;"),
    (u!"2000000", u!"<%spellout-cardinal-masculine< milion>%%spellout-ordinal-feminine-conts>;"),
    (u!"1000000000", u!"un miliard>%%spellout-ordinal-feminine-cont>;"),
    (u!"2000000000", u!"<%spellout-cardinal-masculine< miliard>%%spellout-ordinal-feminine-conts>;"),
    (u!"1000000000000", u!"un bilion>%%spellout-ordinal-feminine-cont>;"),
    (u!"2000000000000", u!"<%spellout-cardinal-masculine< bilion>%%spellout-ordinal-feminine-conts>;"),
    (u!"1000000000000000", u!"un biliard>%%spellout-ordinal-feminine-cont>;"),
    (u!"2000000000000000", u!"<%spellout-cardinal-masculine< biliard>%%spellout-ordinal-feminine-conts>;"),
    (u!"1000000000000000000", u!"=#,##0=ena;")])]

/-- `number_parser_data/supplementary_translation_data/ca.json` -/
def caSupplementary : Supplementary where
  tables := {
    unit := []
    direct := []
    tens := []
    hundreds := []
    big := [] }
  skipTokens := []
  useLongScale := some true

/-- `number_parser/data/ca.py`, lines 1-49 -/
def caModule : Output where
  tables := {
    unit := [(u!"zero", 0), (u!"u", 1), (u!"un", 1), (u!"una", 1), (u!"dos", 2), (u!"dues", 2), (u!"tres", 3), (u!"quatre", 4), (u!"cinc", 5), (u!"sis", 6), (u!"set", 7), (u!"vuit", 8), (u!"nou", 9)]
    direct := [(u!"deu", 10), (u!"onze", 11), (u!"dotze", 12), (u!"tretze", 13), (u!"catorze", 14), (u!"quinze", 15), (u!"setze", 16), (u!"disset", 17), (u!"divuit", 18), (u!"dinou", 19)]
    tens := [(u!"vint", 20), (u!"trenta", 30), (u!"quaranta", 40), (u!"cinquanta", 50), (u!"seixanta", 60), (u!"setanta", 70), (u!"vuitanta", 80), (u!"noranta", 90)]
    hundreds := []
    big := [(u!"mil", 1000), (u!"milions", 1000000), (u!"miliards", 1000000000), (u!"bilions", 1000000000000), (u!"biliards", 1000000000000000)] }
  skipTokens := []
  useLongScale := some true

/-- `number_parser_data/raw_cldr_translation_data/ccp.json`, `SpelloutRules` -/
def ccpRules : RuleSets := [
  (u!"%spellout-numbering-year", [(u!"0", u!"=%spellout-numbering=;")]),
  (u!"%spellout-numbering", [(u!"0", u!"=%spellout-cardinal=;")]),
  (u!"%spellout-cardinal", [(u!"-x", u!"𑄜𑄢𑄧𑄇𑄴 >>;"),
    (u!"x.x", u!"<< 𑄜𑄪𑄘𑄮 >>;"),
    (u!"Inf", u!"𑄃𑄧𑄜𑄪𑄢𑄧𑄚𑄴𑄘𑄨;"),
    (u!"NaN", u!"𑄚𑄘 𑄚𑄧𑄠𑄴;"),
    (u!"0", u!"𑄥𑄪𑄚𑄳𑄠𑄴𑄧;"),
    (u!"1", u!"𑄆𑄇𑄴;"),
    (u!"2", u!"𑄘𑄨;"),
    (u!"3", u!"𑄖𑄨𑄚𑄴;"),
    (u!"4", u!"𑄌𑄳𑄆𑄬𑄢𑄴;"),
    (u!"5", u!"𑄛𑄌𑄴;"),
    (u!"6", u!"𑄍𑄧;"),
    (u!"7", u!"𑄥𑄖𑄴;"),
    (u!"8", u!"𑄃𑄖𑄳𑄠𑄴𑄧;"),
    (u!"9", u!"𑄚𑄧;"),
    (u!"10", u!"𑄘𑄧𑄌𑄴;"),
    (u!"11", u!"𑄆𑄉𑄢𑄧;"),
    (u!"12", u!"𑄝𑄢𑄳𑄦𑄧;"),
    (u!"13", u!"𑄖𑄬𑄢𑄳𑄦𑄧;"),
    (u!"14", u!"𑄌𑄮𑄖𑄴𑄙𑄮;"),
    (u!"15", u!"𑄛𑄧𑄚𑄴𑄘𑄳𑄢𑄧;"),
    (u!"16", u!"𑄥𑄪𑄣𑄮;"),
    (u!"17", u!"𑄥𑄧𑄖𑄴𑄧𑄢𑄧;"),
    (u!"18", u!"𑄃𑄘𑄧𑄢𑄳𑄦𑄧;"),
    (u!"19", u!"𑄃𑄪𑄚𑄴𑄮𑄌𑄴;"),
    (u!"20", u!"𑄇𑄪𑄢𑄨[ >>];"),
    (u!"30", u!"𑄖𑄳𑄢𑄨𑄌𑄴[ >>];"),
    (u!"40", u!"𑄌𑄣𑄨𑄨𑄌𑄴[ >>];"),
    (u!"50", u!"𑄛𑄧𑄚𑄴𑄎𑄌𑄴[ >>];"),
    (u!"60", u!"𑄦𑄬𑄖𑄴[ >>];"),
    (u!"70", u!"𑄦𑄮𑄖𑄴𑄪𑄢𑄴[ >>];"),
    (u!"80", u!"𑄃𑄎𑄨[ >>];"),
    (u!"90", u!"𑄚𑄧𑄛𑄴𑄝𑄰[ >>];"),
    (u!"100", u!"<<𑄥𑄧[ >>];"),
    (u!"1000", u!"<< 𑄦𑄎𑄢𑄴[ >>];"),
    (u!"100000", u!"<< 𑄣𑄇𑄴[ >>];"),
    (u!"10000000", u!"<< 𑄇𑄪𑄖𑄨[ >>];"),
    (u!"100000000000000000", u!"=#,##,##0=;")]),
  (u!"%spellout-ordinal", [(u!"-x", u!"𑄜𑄢𑄧𑄇𑄴 >>;"),
    (u!"x.x", u!"=#,##,##0.0=;"),
    (u!"0", u!"=%spellout-numbering= 𑄛𑄳𑄆𑄘𑄳𑄠𑄬;")])]

/-- `number_parser_data/supplementary_translation_data/ccp.json` -/
def ccpSupplementary : Supplementary where
  tables := {
    unit := []
    direct := []
    tens := []
    hundreds := []
    big := [] }
  skipTokens := []
  useLongScale := none

/-- `number_parser/data/ccp.py`, lines 1-43 -/
def ccpModule : Output where
  tables := {
    unit := [(u!"𑄥𑄪𑄚𑄳𑄠𑄴𑄧", 0), (u!"𑄆𑄇𑄴", 1), (u!"𑄘𑄨", 2), (u!"𑄖𑄨𑄚𑄴", 3), (u!"𑄌𑄳𑄆𑄬𑄢𑄴", 4), (u!"𑄛𑄌𑄴", 5), (u!"𑄍𑄧", 6), (u!"𑄥𑄖𑄴", 7), (u!"𑄃𑄖𑄳𑄠𑄴𑄧", 8), (u!"𑄚𑄧", 9)]
    direct := [(u!"𑄘𑄧𑄌𑄴", 10), (u!"𑄆𑄉𑄢𑄧", 11), (u!"𑄝𑄢𑄳𑄦𑄧", 12), (u!"𑄖𑄬𑄢𑄳𑄦𑄧", 13), (u!"𑄌𑄮𑄖𑄴𑄙𑄮", 14), (u!"𑄛𑄧𑄚𑄴𑄘𑄳𑄢𑄧", 15), (u!"𑄥𑄪𑄣𑄮", 16), (u!"𑄥𑄧𑄖𑄴𑄧𑄢𑄧", 17), (u!"𑄃𑄘𑄧𑄢𑄳𑄦𑄧", 18), (u!"𑄃𑄪𑄚𑄴𑄮𑄌𑄴", 19)]
    tens := [(u!"𑄇𑄪𑄢𑄨", 20), (u!"𑄖𑄳𑄢𑄨𑄌𑄴", 30), (u!"𑄌𑄣𑄨𑄨𑄌𑄴", 40), (u!"𑄛𑄧𑄚𑄴𑄎𑄌𑄴", 50), (u!"𑄦𑄬𑄖𑄴", 60), (u!"𑄦𑄮𑄖𑄴𑄪𑄢𑄴", 70), (u!"𑄃𑄎𑄨", 80), (u!"𑄚𑄧𑄛𑄴𑄝𑄰", 90)]
    hundreds := []
    big := [(u!"𑄦𑄎𑄢𑄴", 1000), (u!"𑄣𑄇𑄴", 100000), (u!"𑄇𑄪𑄖𑄨", 10000000)] }
  skipTokens := []
  useLongScale := none

/-- `number_parser_data/raw_cldr_translation_data/chr.json`, `SpelloutRules` -/
def chrRules : RuleSets := [
  (u!"%spellout-numbering-year", [(u!"x.x", u!"=0.0=;"),
    (u!"0", u!"=%spellout-numbering=;")]),
  (u!"%spellout-numbering", [(u!"-x", u!"ꭺꮳꮄꮝꮧ >>;"),
    (u!"x.x", u!"<< ꭺꮝꮣᏹ >>;"),
    (u!"Inf", u!"ꭲꭺꭿꮣ ꭸꮢ;"),
    (u!"NaN", u!"ꭷꮒꭹꮣ ꮧꮞꮝꮧ;"),
    (u!"0", u!"ꮭ ꭺꮝꮧ;"),
    (u!"1", u!"ꮠꮼ;"),
    (u!"2", u!"ꮤꮅ;"),
    (u!"3", u!"ꮶꭲ;"),
    (u!"4", u!"ꮕꭹ;"),
    (u!"5", u!"ꭿꮝꭹ;"),
    (u!"6", u!"ꮡꮣꮅ;"),
    (u!"7", u!"ꭶꮅꮙꭹ;"),
    (u!"8", u!"ꮷꮑꮃ;"),
    (u!"9", u!"ꮠꮑꮃ;"),
    (u!"10", u!"ꮝꭺꭿ;"),
    (u!"11", u!"ꮜꮪ;"),
    (u!"12", u!"ꮤꮅꮪ;"),
    (u!"13", u!"ꮶꭶꮪ;"),
    (u!"14", u!"ꮒꭶꮪ;"),
    (u!"15", u!"ꭿꮝꭶꮪ;"),
    (u!"16", u!"ꮣꮃꮪ;"),
    (u!"17", u!"ꭶꮅꮖꮪ;"),
    (u!"18", u!"ꮑꮃꮪ;"),
    (u!"19", u!"ꮠꮑꮃꮪ;"),
    (u!"20", u!"ꮤꮅꮝꭺ>%%spellout-tens>;"),
    (u!"30", u!"ꮶꭲꮝꭺ>%%spellout-tens>;"),
    (u!"40", u!"ꮕꭹꮝꭺ>%%spellout-tens>;"),
    (u!"50", u!"ꭿꮝꭹꮝꭺ>%%spellout-tens>;"),
    (u!"60", u!"ꮡꮣꮅꮝꭺ>%%spellout-tens>;"),
    (u!"70", u!"ꭶꮅꮖꮝꭺ>%%spellout-tens>;"),
    (u!"80", u!"ꮷꮑꮃꮝꭺ>%%spellout-tens>;"),
    (u!"90", u!"ꮠꮑꮃꮝꭺ>%%spellout-tens>;"),
    (u!"100", u!"<< ꮝꭺꭿꮵꮖ[ >>];"),
    (u!"1000", u!"<< ꭲꮿꭶᏼꮅ[ >>];"),
    (u!"1000000", u!"<< ꭲᏻꮖꮧꮕꮣ[ >>];"),
    (u!"1000000000", u!"<< ꭲꮿꮤꮃꮧꮕꮫ[ >>];"),
    (u!"1000000000000", u!"<< ꭲꮿꮶꭰꮧꮕꮫ[ >>];"),
    (u!"1000000000000000", u!"<< ꭲꮿꮕꭶꮧꮕꮫ[ >>];"),
    (u!"1000000000000000000", u!"=#,##0=;")]),
  (u!"%spellout-cardinal", [(u!"0", u!"=%spellout-numbering=;")]),
  (u!"%%spellout-tens", [(u!"0", u!"ꭿ;"),
    (u!"1", u!"' =%spellout-numbering=;")])]

/-- `number_parser_data/supplementary_translation_data/chr.json` -/
def chrSupplementary : Supplementary where
  tables := {
    unit := []
    direct := []
    tens := []
    hundreds := []
    big := [] }
  skipTokens := []
  useLongScale := some false

/-- `number_parser/data/chr.py`, lines 1-47 -/
def chrModule : Output where
  tables := {
    unit := [(u!"ꮭ ꭺꮝꮧ", 0), (u!"ꮠꮼ", 1), (u!"ꮤꮅ", 2), (u!"ꮶꭲ", 3), (u!"ꮕꭹ", 4), (u!"ꭿꮝꭹ", 5), (u!"ꮡꮣꮅ", 6), (u!"ꭶꮅꮙꭹ", 7), (u!"ꮷꮑꮃ", 8), (u!"ꮠꮑꮃ", 9)]
    direct := [(u!"ꮝꭺꭿ", 10), (u!"ꮜꮪ", 11), (u!"ꮤꮅꮪ", 12), (u!"ꮶꭶꮪ", 13), (u!"ꮒꭶꮪ", 14), (u!"ꭿꮝꭶꮪ", 15), (u!"ꮣꮃꮪ", 16), (u!"ꭶꮅꮖꮪ", 17), (u!"ꮑꮃꮪ", 18), (u!"ꮠꮑꮃꮪ", 19)]
    tens := [(u!"ꮤꮅꮝꭺ", 20), (u!"ꮶꭲꮝꭺ", 30), (u!"ꮕꭹꮝꭺ", 40), (u!"ꭿꮝꭹꮝꭺ", 50), (u!"ꮡꮣꮅꮝꭺ", 60), (u!"ꭶꮅꮖꮝꭺ", 70), (u!"ꮷꮑꮃꮝꭺ", 80), (u!"ꮠꮑꮃꮝꭺ", 90)]
    hundreds := []
    big := [(u!"ꮝꭺꭿꮵꮖ", 100), (u!"ꭲꮿꭶᏼꮅ", 1000), (u!"ꭲᏻꮖꮧꮕꮣ", 1000000), (u!"ꭲꮿꮤꮃꮧꮕꮫ", 1000000000), (u!"ꭲꮿꮶꭰꮧꮕꮫ", 1000000000000), (u!"ꭲꮿꮕꭶꮧꮕꮫ", 1000000000000000)] }
  skipTokens := []
  useLongScale := some false

/-- `number_parser_data/raw_cldr_translation_data/cs.json`, `SpelloutRules` -/
def csRules : RuleSets := [
  (u!"%spellout-numbering-year", [(u!"x.x", u!"=0.0=;"),
    (u!"0", u!"=%spellout-numbering=;")]),
  (u!"%spellout-numbering", [(u!"0", u!"=%spellout-cardinal-masculine=;")]),
  (u!"%spellout-cardinal-masculine", [(u!"-x", u!"minus >>;"),
    (u!"x.x", u!"<< čárka >>;"),
    (u!"0", u!"nula;"),
    (u!"1", u!"jeden;"),
    (u!"2", u!"dva;"),
    (u!"3", u!"tři;"),
    (u!"4", u!"čtyři;"),
    (u!"5", u!"pět;"),
    (u!"6", u!"šest;"),
    (u!"7", u!"sedm;"),
    (u!"8", u!"osm;"),
    (u!"9", u!"devět;"),
    (u!"10", u!"deset;"),
    (u!"11", u!"jedenáct;"),
    (u!"12", u!"dvanáct;"),
    (u!"13", u!"třináct;"),
    (u!"14", u!"čtrnáct;"),
    (u!"15", u!"patnáct;"),
    (u!"16", u!"šestnáct;"),
    (u!"17", u!"sedmnáct;"),
    (u!"18", u!"osmnáct;"),
    (u!"19", u!"devatenáct;"),
    (u!"20", u!"<%spellout-cardinal-masculine<cet[ >>];"),
    (u!"50", u!"padesát[ >>];"),
    (u!"60", u!"šedesát[ >>];"),
    (u!"70", u!"sedmdesát[ >>];"),
    (u!"80", u!"osmdesát[ >>];"),
    (u!"90", u!"devadesát[ >>];"),
    (u!"100", u!"sto[ >>];"),
    (u!"200", u!"<%spellout-cardinal-feminine< stě[ >>];"),
    (u!"300", u!"<%spellout-cardinal-feminine< sta[ >>];"),
    (u!"500", u!"<%spellout-cardinal-feminine< set[ >>];"),
    (u!"1000", u!"<%spellout-cardinal-feminine< tisíc[ >>];"),
    (u!"2000", u!"<%spellout-cardinal-feminine< tisíce[ >>];"),
    (u!"5000", u!"<%spellout-cardinal-feminine< tisíc[ >>];"),
    (u!"1000000", u!"<%spellout-cardinal-masculine< milión[ >>];"),
    (u!"2000000", u!"<%spellout-cardinal-masculine< milióny[ >>];"),
    (u!"5000000", u!"<%spellout-cardinal-masculine< miliónů[ >>];"),
    (u!"1000000000", u!"<%spellout-cardinal-masculine< miliarda[ >>];"),
    (u!"2000000000", u!"<%spellout-cardinal-masculine< miliardy[ >>];"),
    (u!"5000000000", u!"<%spellout-cardinal-masculine< miliardů[ >>];"),
    (u!"1000000000000", u!"<%spellout-cardinal-masculine< bilión[ >>];"),
    (u!"2000000000000", u!"<%spellout-cardinal-masculine< bilióny[ >>];"),
    (u!"5000000000000", u!"<%spellout-cardinal-masculine< biliónů[ >>];"),
    (u!"1000000000000000", u!"<%spellout-cardinal-masculine< biliarda[ >>];"),
    (u!"2000000000000000", u!"<%spellout-cardinal-masculine< biliardy[ >>];"),
    (u!"5000000000000000", u!"<%spellout-cardinal-masculine< biliardů[ >>];"),
    (u!"1000000000000000000", u!"=#,##0=;")]),
  (u!"%spellout-cardinal-neuter", [(u!"-x", u!"minus >>;"),
    (u!"x.x", u!"<< čárka >>;"),
    (u!"0", u!"nula;"),
    (u!"1", u!"jedno;"),
    (u!"2", u!"dvě;"),
    (u!"3", u!"=%spellout-cardinal-masculine=;"),
    (u!"20", u!"<%spellout-cardinal-masculine<cet[ >>];"),
    (u!"50", u!"padesát[ >>];"),
    (u!"60", u!"šedesát[ >>];"),
    (u!"70", u!"sedmdesát[ >>];"),
    (u!"80", u!"osmdesát[ >>];"),
    (u!"90", u!"devadesát[ >>];"),
    (u!"100", u!"sto[ >>];"),
    (u!"200", u!"<%spellout-cardinal-feminine< stě[ >>];"),
    (u!"300", u!"<%spellout-cardinal-feminine< sta[ >>];"),
    (u!"500", u!"<%spellout-cardinal-feminine< set[ >>];"),
    (u!"1000", u!"<%spellout-cardinal-feminine< tisíc[ >>];"),
    (u!"2000", u!"<%spellout-cardinal-feminine< tisíce[ >>];"),
    (u!"5000", u!"<%spellout-cardinal-feminine< tisíc[ >>];"),
    (u!"1000000", u!"<%spellout-cardinal-masculine< milión[ >>];"),
    (u!"2000000", u!"<%spellout-cardinal-masculine< milióny[ >>];"),
    (u!"5000000", u!"<%spellout-cardinal-masculine< miliónů[ >>];"),
    (u!"1000000000", u!"<%spellout-cardinal-masculine< miliarda[ >>];"),
    (u!"2000000000", u!"<%spellout-cardinal-masculine< miliardy[ >>];"),
    (u!"5000000000", u!"<%spellout-cardinal-masculine< miliardů[ >>];"),
    (u!"1000000000000", u!"<%spellout-cardinal-masculine< bilión[ >>];"),
    (u!"2000000000000", u!"<%spellout-cardinal-masculine< bilióny[ >>];"),
    (u!"5000000000000", u!"<%spellout-cardinal-masculine< biliónů[ >>];"),
    (u!"1000000000000000", u!"<%spellout-cardinal-masculine< biliarda[ >>];"),
    (u!"2000000000000000", u!"<%spellout-cardinal-masculine< biliardy[ >>];"),
    (u!"5000000000000000", u!"<%spellout-cardinal-masculine< biliardů[ >>];"),
    (u!"1000000000000000000", u!"=#,##0=;")]),
  (u!"%spellout-cardinal-feminine", [(u!"-x", u!"minus >>;"),
    (u!"x.x", u!"<< čárka >>;"),
    (u!"0", u!"nula;"),
    (u!"1", u!"jedna;"),
    (u!"2", u!"dvě;"),
    (u!"3", u!"=%spellout-cardinal-masculine=;"),
    (u!"20", u!"<%spellout-cardinal-masculine<cet[ >>];"),
    (u!"50", u!"padesát[ >>];"),
    (u!"60", u!"šedesát[ >>];"),
    (u!"70", u!"sedmdesát[ >>];"),
    (u!"80", u!"osmdesát[ >>];"),
    (u!"90", u!"devadesát[ >>];"),
    (u!"100", u!"sto[ >>];"),
    (u!"200", u!"<%spellout-cardinal-feminine< stě[ >>];"),
    (u!"300", u!"<%spellout-cardinal-feminine< sta[ >>];"),
    (u!"500", u!"<%spellout-cardinal-feminine< set[ >>];"),
    (u!"1000", u!"<%spellout-cardinal-feminine< tisíc[ >>];"),
    (u!"2000", u!"<%spellout-cardinal-feminine< tisíce[ >>];"),
    (u!"5000", u!"<%spellout-cardinal-feminine< tisíc[ >>];"),
    (u!"1000000", u!"<%spellout-cardinal-masculine< milión[ >>];"),
    (u!"2000000", u!"<%spellout-cardinal-masculine< milióny[ >>];"),
    (u!"5000000", u!"<%spellout-cardinal-masculine< miliónů[ >>];"),
    (u!"1000000000", u!"<%spellout-cardinal-masculine< miliarda[ >>];"),
    (u!"2000000000", u!"<%spellout-cardinal-masculine< miliardy[ >>];"),
    (u!"5000000000", u!"<%spellout-cardinal-masculine< miliardů[ >>];"),
    (u!"1000000000000", u!"<%spellout-cardinal-masculine< bilión[ >>];"),
    (u!"2000000000000", u!"<%spellout-cardinal-masculine< bilióny[ >>];"),
    (u!"5000000000000", u!"<%spellout-cardinal-masculine< biliónů[ >>];"),
    (u!"1000000000000000", u!"<%spellout-cardinal-masculine< biliarda[ >>];"),
    (u!"2000000000000000", u!"<%spellout-cardinal-masculine< biliardy[ >>];"),
    (u!"5000000000000000", u!"<%spellout-cardinal-masculine< biliardů[ >>];"),
    (u!"1000000000000000000", u!"=#,##0=;")])]

/-- `number_parser_data/supplementary_translation_data/cs.json` -/
def csSupplementary : Supplementary where
  tables := {
    unit := []
    direct := []
    tens := []
    hundreds := []
    big := [] }
  skipTokens := []
  useLongScale := some true

/-- `number_parser/data/cs.py`, lines 1-58 -/
def csModule : Output where
  tables := {
    unit := [(u!"nula", 0), (u!"jeden", 1), (u!"jedna", 1), (u!"jedno", 1), (u!"dva", 2), (u!"dvě", 2), (u!"tři", 3), (u!"čtyři", 4), (u!"pět", 5), (u!"šest", 6), (u!"sedm", 7), (u!"osm", 8), (u!"devět", 9)]
    direct := [(u!"deset", 10), (u!"jedenáct", 11), (u!"dvanáct", 12), (u!"třináct", 13), (u!"čtrnáct", 14), (u!"patnáct", 15), (u!"šestnáct", 16), (u!"sedmnáct", 17), (u!"osmnáct", 18), (u!"devatenáct", 19)]
    tens := [(u!"padesát", 50), (u!"šedesát", 60), (u!"sedmdesát", 70), (u!"osmdesát", 80), (u!"devadesát", 90)]
    hundreds := []
    big := [(u!"set", 100), (u!"sta", 100), (u!"stě", 100), (u!"tisíc", 1000), (u!"tisíce", 1000), (u!"milión", 1000000), (u!"milióny", 1000000), (u!"miliónů", 1000000), (u!"miliarda", 1000000000), (u!"miliardy", 1000000000), (u!"miliardů", 1000000000), (u!"bilión", 1000000000000), (u!"bilióny", 1000000000000), (u!"biliónů", 1000000000000), (u!"biliarda", 1000000000000000), (u!"biliardy", 1000000000000000), (u!"biliardů", 1000000000000000)] }
  skipTokens := []
  useLongScale := some true

/-- `number_parser_data/raw_cldr_translation_data/cy.json`, `SpelloutRules` -/
def cyRules : RuleSets := [
  (u!"%spellout-numbering-year", [(u!"x.x", u!"=0.0=;"),
    (u!"0", u!"=%spellout-numbering=;")]),
  (u!"%spellout-numbering", [(u!"0", u!"=%spellout-cardinal-masculine=;")]),
  (u!"%spellout-cardinal-masculine", [(u!"-x", u!"minws >>;"),
    (u!"x.x", u!"<< pwynt >>;"),
    (u!"0", u!"dim;"),
    (u!"1", u!"un;"),
    (u!"2", u!"dau;"),
    (u!"3", u!"tri;"),
    (u!"4", u!"pedwar;"),
    (u!"5", u!"pump;"),
    (u!"6", u!"chwech;"),
    (u!"7", u!"saith;"),
    (u!"8", u!"wyth;"),
    (u!"9", u!"naw;"),
    (u!"10", u!"un deg[ >>];"),
    (u!"20", u!"dau ddeg[ >>];"),
    (u!"30", u!"<%spellout-cardinal-masculine-before-consonant< deg[ >>];"),
    (u!"100", u!"<%spellout-cardinal-masculine-before-consonant< cant[ >>];"),
    (u!"1000", u!"<%spellout-cardinal-masculine-before-consonant< mil[ >>];"),
    (u!"1000000", u!"<%spellout-cardinal-masculine-before-consonant< miliwn[ >>];"),
    (u!"1000000000", u!"<%spellout-cardinal-masculine-before-consonant< biliwn[ >>];"),
    (u!"1000000000000", u!"<%spellout-cardinal-masculine-before-consonant< triliwn[ >>];"),
    (u!"1000000000000000", u!"<%spellout-cardinal-masculine-before-consonant< kwadriliwn[ >>];"),
    (u!"1000000000000000000", u!"=#,##0=;")]),
  (u!"%spellout-cardinal-masculine-before-consonant", [(u!"-x", u!"minws >>;"),
    (u!"x.x", u!"<< pwynt >>;"),
    (u!"0", u!"dim;"),
    (u!"1", u!"un;"),
    (u!"2", u!"dau;"),
    (u!"3", u!"tri;"),
    (u!"4", u!"pedwar;"),
    (u!"5", u!"pum;"),
    (u!"6", u!"chwe;"),
    (u!"7", u!"saith;"),
    (u!"8", u!"wyth;"),
    (u!"9", u!"naw;"),
    (u!"10", u!"un deg[ >>];"),
    (u!"20", u!"dau ddeg[ >>];"),
    (u!"30", u!"<%spellout-cardinal-masculine-before-consonant< deg[ >>];"),
    (u!"100", u!"<%spellout-cardinal-masculine-before-consonant< cant[ >>];"),
    (u!"1000", u!"<%spellout-cardinal-masculine-before-consonant< mil[ >>];"),
    (u!"1000000", u!"<%spellout-cardinal-masculine-before-consonant< miliwn[ >>];"),
    (u!"1000000000", u!"<%spellout-cardinal-masculine-before-consonant< biliwn[ >>];"),
    (u!"1000000000000", u!"<%spellout-cardinal-masculine-before-consonant< triliwn[ >>];"),
    (u!"1000000000000000", u!"<%spellout-cardinal-masculine-before-consonant< kwadriliwn[ >>];"),
    (u!"1000000000000000000", u!"=#,##0=;")]),
  (u!"%spellout-cardinal-feminine", [(u!"-x", u!"minws >>;"),
    (u!"x.x", u!"<< pwynt >>;"),
    (u!"0", u!"dim;"),
    (u!"1", u!"un;"),
    (u!"2", u!"dwy;"),
    (u!"3", u!"tair;"),
    (u!"4", u!"pedair;"),
    (u!"5", u!"pump;"),
    (u!"6", u!"chwech;"),
    (u!"7", u!"saith;"),
    (u!"8", u!"wyth;"),
    (u!"9", u!"naw;"),
    (u!"10", u!"un deg[ >>];"),
    (u!"20", u!"dau ddeg[ >>];"),
    (u!"30", u!"<%spellout-cardinal-masculine-before-consonant< deg[ >>];"),
    (u!"100", u!"<%spellout-cardinal-masculine-before-consonant< cant[ >>];"),
    (u!"1000", u!"<%spellout-cardinal-masculine-before-consonant< mil[ >>];"),
    (u!"1000000", u!"<%spellout-cardinal-masculine-before-consonant< miliwn[ >>];"),
    (u!"1000000000", u!"<%spellout-cardinal-masculine-before-consonant< biliwn[ >>];"),
    (u!"1000000000000", u!"<%spellout-cardinal-masculine-before-consonant< triliwn[ >>];"),
    (u!"1000000000000000", u!"<%spellout-cardinal-masculine-before-consonant< kwadriliwn[ >>];"),
    (u!"1000000000000000000", u!"=#,##0=;")]),
  (u!"%spellout-cardinal-feminine-before-consonant", [(u!"-x", u!"minws >>;"),
    (u!"x.x", u!"<< pwynt >>;"),
    (u!"0", u!"dim;"),
    (u!"1", u!"un;"),
    (u!"2", u!"dwy;"),
    (u!"3", u!"tair;"),
    (u!"4", u!"pedair;"),
    (u!"5", u!"pum;"),
    (u!"6", u!"chwe;"),
    (u!"7", u!"saith;"),
    (u!"8", u!"wyth;"),
    (u!"9", u!"naw;"),
    (u!"10", u!"un deg[ >>];"),
    (u!"20", u!"dau ddeg[ >>];"),
    (u!"30", u!"<%spellout-cardinal-masculine-before-consonant< deg[ >>];"),
    (u!"100", u!"<%spellout-cardinal-masculine-before-consonant< cant[ >>];"),
    (u!"1000", u!"<%spellout-cardinal-masculine-before-consonant< mil[ >>];"),
    (u!"1000000", u!"<%spellout-cardinal-masculine-before-consonant< miliwn[ >>];"),
    (u!"1000000000", u!"<%spellout-cardinal-masculine-before-consonant< biliwn[ >>];"),
    (u!"1000000000000", u!"<%spellout-cardinal-masculine-before-consonant< triliwn[ >>];"),
    (u!"1000000000000000", u!"<%spellout-cardinal-masculine-before-consonant< kwadriliwn[ >>];"),
    (u!"1000000000000000000", u!"=#,##0=;")])]

/-- `number_parser_data/supplementary_translation_data/cy.json` -/
def cySupplementary : Supplementary where
  tables := {
    unit := []
    direct := []
    tens := []
    hundreds := []
    big := [] }
  skipTokens := []
  useLongScale := some false

/-- `number_parser/data/cy.py`, lines 1-34 -/
def cyModule : Output where
  tables := {
    unit := [(u!"dim", 0), (u!"un", 1), (u!"dau", 2), (u!"dwy", 2), (u!"tair", 3), (u!"tri", 3), (u!"pedair", 4), (u!"pedwar", 4), (u!"pum", 5), (u!"pump", 5), (u!"chwe", 6), (u!"chwech", 6), (u!"saith", 7), (u!"wyth", 8), (u!"naw", 9)]
    direct := []
    tens := [(u!"dau ddeg", 20)]
    hundreds := []
    big := [(u!"cant", 100), (u!"mil", 1000), (u!"miliwn", 1000000), (u!"biliwn", 1000000000), (u!"triliwn", 1000000000000), (u!"kwadriliwn", 1000000000000000)] }
  skipTokens := []
  useLongScale := some false

/-- `number_parser_data/raw_cldr_translation_data/da.json`, `SpelloutRules` -/
def daRules : RuleSets := [
  (u!"%spellout-numbering-year", [(u!"-x", u!"minus >>;"),
    (u!"x.x", u!"=0.0=;"),
    (u!"0", u!"=%spellout-numbering=;"),
    (u!"1100/100", u!"<<\u00adhundrede[ og >>];"),
    (u!"10000", u!"=%spellout-numbering=;")]),
  (u!"%spellout-numbering", [(u!"0", u!"=%spellout-cardinal-neuter=;")]),
  (u!"%spellout-cardinal-common", [(u!"-x", u!"minus >>;"),
    (u!"x.x", u!"<< komma >>;"),
    (u!"0", u!"nul;"),
    (u!"1", u!"en;"),
    (u!"2", u!"to;"),
    (u!"3", u!"tre;"),
    (u!"4", u!"fire;"),
    (u!"5", u!"fem;"),
    (u!"6", u!"seks;"),
    (u!"7", u!"syv;"),
    (u!"8", u!"otte;"),
    (u!"9", u!"ni;"),
    (u!"10", u!"ti;"),
    (u!"11", u!"elleve;"),
    (u!"12", u!"tolv;"),
    (u!"13", u!"tretten;"),
    (u!"14", u!"fjorten;"),
    (u!"15", u!"femten;"),
    (u!"16", u!"seksten;"),
    (u!"17", u!"sytten;"),
    (u!"18", u!"atten;"),
    (u!"19", u!"nitten;"),
    (u!"20", u!"[>>\u00adog\u00ad]tyve;"),
    (u!"30", u!"[>>\u00adog\u00ad]tredive;"),
    (u!"40", u!"[>>\u00adog\u00ad]fyrre;"),
    (u!"50", u!"[>>\u00adog\u00ad]halvtreds;"),
    (u!"60", u!"[>>\u00adog\u00ad]tres;"),
    (u!"70", u!"[>>\u00adog\u00ad]halvfjerds;"),
    (u!"80", u!"[>>\u00adog\u00ad]firs;"),
    (u!"90", u!"[>>\u00adog\u00ad]halvfems;"),
    (u!"100", u!"hundrede[ og >>];"),
    (u!"200", u!"<%spellout-cardinal-neuter<\u00adhundrede[ og >>];"),
    (u!"1000", u!"tusinde[ >%%and-small>];"),
    (u!"2000", u!"<%spellout-cardinal-neuter< tusinde[ >%%and-small>];"),
    (u!"1000000", u!"million[ >>];"),
    (u!"2000000", u!"<< millioner[ >>];"),
    (u!"1000000000", u!"milliard[ >>];"),
    (u!"2000000000", u!"<< milliarder[ >>];"),
    (u!"1000000000000", u!"billion[ >>];"),
    (u!"2000000000000", u!"<< billioner[ >>];"),
    (u!"1000000000000000", u!"billiard[ >>];"),
    (u!"2000000000000000", u!"<< billiarder[ >>];"),
    (u!"1000000000000000000", u!"=#,##0=;")]),
  (u!"%%and-small", [(u!"0", u!"og =%spellout-cardinal-common=;"),
    (u!"100", u!"=%spellout-cardinal-common=;")]),
  (u!"%spellout-cardinal-neuter", [(u!"-x", u!"minus >>;"),
    (u!"x.x", u!"<< komma >>;"),
    (u!"0", u!"nul;"),
    (u!"1", u!"et;"),
    (u!"2", u!"=%spellout-cardinal-common=;"),
    (u!"100", u!"hundrede[ og >>];"),
    (u!"200", u!"<%spellout-cardinal-neuter<\u00adhundrede[ og >>];"),
    (u!"1000", u!"tusind[ >%%and-small-n>];"),
    (u!"2000", u!"<%spellout-cardinal-neuter< tusind[ >%%and-small-n>];"),
    (u!"1000000", u!"en million[ >>];"),
    (u!"2000000", u!"<%spellout-cardinal-common< millioner[ >>];"),
    (u!"1000000000", u!"en milliard[ >>];"),
    (u!"2000000000", u!"<%spellout-cardinal-common< milliarder[ >>];"),
    (u!"1000000000000", u!"en billion[ >>];"),
    (u!"2000000000000", u!"<%spellout-cardinal-common< billioner[ >>];"),
    (u!"1000000000000000", u!"en billiard[ >>];"),
    (u!"2000000000000000", u!"<%spellout-cardinal-common< billiarder[ >>];"),
    (u!"1000000000000000000", u!"=#,##0=;")]),
  (u!"%%and-small-n", [(u!"0", u!"og =%spellout-cardinal-neuter=;"),
    (u!"100", u!"=%spellout-cardinal-neuter=;")]),
  (u!"%spellout-ordinal-common", [(u!"-x", u!"minus >>;"),
    (u!"x.x", u!"=#,##0.#=;"),
    (u!"0", u!"nulte;"),
    (u!"1", u!"første;"),
    (u!"2", u!"anden;"),
    (u!"3", u!"tredje;"),
    (u!"4", u!"fjerde;"),
    (u!"5", u!"femte;"),
    (u!"6", u!"sjette;"),
    (u!"7", u!"syvende;"),
    (u!"8", u!"ottende;"),
    (u!"9", u!"niende;"),
    (u!"10", u!"tiende;"),
    (u!"11", u!"ellevte;"),
    (u!"12", u!"tolvte;"),
    (u!"13", u!"=%spellout-numbering=de;"),
    (u!"20", u!"[>%spellout-numbering>\u00adog\u00ad]tyvende;"),
    (u!"30", u!"[>%spellout-numbering>\u00adog\u00ad]tredivte;"),
    (u!"40", u!"[>%spellout-numbering>\u00adog\u00ad]fyrrende;"),
    (u!"50", u!"=%spellout-numbering=indstyvende;"),
    (u!"100", u!"hundrede>%%ord-de-c>;"),
    (u!"200", u!"<%spellout-numbering< hundrede>%%ord-de-c>;"),
    (u!"1000", u!"tusind>%%ord-e-c>;"),
    (u!"2000", u!"<%spellout-numbering< tusind>%%ord-e-c>;"),
    (u!"1000000", u!"million>%%ord-te-c>;"),
    (u!"2000000", u!"<%spellout-numbering< million>%%ord-teer-c>;"),
    (u!"1000000000", u!"milliard>%%ord-te-c>;"),
    (u!"2000000000", u!"<%spellout-numbering< milliard>%%ord-teer-c>;"),
    (u!"1000000000000", u!"billion>%%ord-te-c>;"),
    (u!"2000000000000", u!"<%spellout-numbering< billion>%%ord-teer-c>;"),
    (u!"1000000000000000", u!"billiard>%%ord-te-c>;"),
    (u!"2000000000000000", u!"<%spellout-numbering< billiard>%%ord-teer-c>;"),
    (u!"1000000000000000000", u!"=#,##0=.;")]),
  (u!"%%ord-de-c", [(u!"0", u!"de;"),
    (u!"1", u!"' og =%spellout-ordinal-common=;")]),
  (u!"%%ord-e-c", [(u!"0", u!"e;"),
    (u!"1", u!"' og =%spellout-ordinal-common=;"),
    (u!"100", u!"' =%spellout-ordinal-common=;")]),
  (u!"%%ord-te-c", [(u!"0", u!"te;"),
    (u!"1", u!"' =%spellout-ordinal-common=;")]),
  (u!"%%ord-teer-c", [(u!"0", u!"te;"),
    (u!"1", u!"er =%spellout-ordinal-common=;")]),
  (u!"%spellout-ordinal-neuter", [(u!"-x", u!"minus >>;"),
    (u!"x.x", u!"=#,##0.#=;"),
    (u!"0", u!"nulte;"),
    (u!"1", u!"første;"),
    (u!"2", u!"andet;"),
    (u!"3", u!"=%spellout-ordinal-common=;"),
    (u!"20", u!"[>%spellout-cardinal-neuter>\u00adog\u00ad]tyvende;"),
    (u!"30", u!"[>%spellout-cardinal-neuter>\u00adog\u00ad]tredivte;"),
    (u!"40", u!"[>%spellout-cardinal-neuter>\u00adog\u00ad]fyrrende;"),
    (u!"50", u!"=%spellout-cardinal-neuter=indstyvende;"),
    (u!"100", u!"hundrede>%%ord-de-n>;"),
    (u!"200", u!"<%spellout-cardinal-neuter< hundrede>%%ord-de-n>;"),
    (u!"1000", u!"tusinde>%%ord-e-n>;"),
    (u!"2000", u!"<%spellout-cardinal-neuter< tusind>%%ord-e-n>;"),
    (u!"1000000", u!"million>%%ord-teer-n>;"),
    (u!"2000000", u!"<%spellout-cardinal-neuter< million>%%ord-teer-n>;"),
    (u!"1000000000", u!"milliard>%%ord-te-n>;"),
    (u!"2000000000", u!"<%spellout-cardinal-neuter< milliard>%%ord-teer-n>;"),
    (u!"1000000000000", u!"billion>%%ord-te-n>;"),
    (u!"2000000000000", u!"<%spellout-cardinal-neuter< billion>%%ord-teer-n>;"),
    (u!"1000000000000000", u!"billiard>%%ord-te-n>;"),
    (u!"2000000000000000", u!"<%spellout-cardinal-neuter< billiard>%%ord-teer-n>;"),
    (u!"1000000000000000000", u!"=#,##0=.;")]),
  (u!"%%ord-de-n", [(u!"0", u!"de;"),
    (u!"1", u!"' og =%spellout-ordinal-neuter=;")]),
  (u!"%%ord-e-n", [(u!"0", u!"e;"),
    (u!"1", u!"' og =%spellout-ordinal-neuter=;"),
    (u!"100", u!"' =%spellout-ordinal-neuter=;")]),
  (u!"%%ord-te-n", [(u!"0", u!"te;"),
    (u!"1", u!"' =%spellout-ordinal-neuter=;")]),
  (u!"%%ord-teer-n", [(u!"0", u!"te;"),
    (u!"1", u!"er =%spellout-ordinal-neuter=;")])]

/-- `number_parser_data/supplementary_translation_data/da.json` -/
def daSupplementary : Supplementary where
  tables := {
    unit := []
    direct := []
    tens := []
    hundreds := []
    big := [] }
  skipTokens := []
  useLongScale := some true

/-- `number_parser/data/da.py`, lines 1-39 -/
def daModule : Output where
  tables := {
    unit := [(u!"nul", 0), (u!"en", 1), (u!"et", 1), (u!"to", 2), (u!"tre", 3), (u!"fire", 4), (u!"fem", 5), (u!"seks", 6), (u!"syv", 7), (u!"otte", 8), (u!"ni", 9)]
    direct := [(u!"ti", 10), (u!"elleve", 11), (u!"tolv", 12), (u!"tretten", 13), (u!"fjorten", 14), (u!"femten", 15), (u!"seksten", 16), (u!"sytten", 17), (u!"atten", 18), (u!"nitten", 19)]
    tens := []
    hundreds := []
    big := [(u!"tusind", 1000), (u!"tusinde", 1000), (u!"millioner", 1000000), (u!"milliarder", 1000000000), (u!"billioner", 1000000000000), (u!"billiarder", 1000000000000000)] }
  skipTokens := []
  useLongScale := some true

/-- The languages af, ak, am, ar, az, be, bg, bs, ca, ccp, chr, cs, cy, da: rules, supplementary data, data module -/
def partA : List (PyStr × RuleSets × Supplementary × Output) := [
  (u!"af", afRules, afSupplementary, afModule),
  (u!"ak", akRules, akSupplementary, akModule),
  (u!"am", amRules, amSupplementary, amModule),
  (u!"ar", arRules, arSupplementary, arModule),
  (u!"az", azRules, azSupplementary, azModule),
  (u!"be", beRules, beSupplementary, beModule),
  (u!"bg", bgRules, bgSupplementary, bgModule),
  (u!"bs", bsRules, bsSupplementary, bsModule),
  (u!"ca", caRules, caSupplementary, caModule),
  (u!"ccp", ccpRules, ccpSupplementary, ccpModule),
  (u!"chr", chrRules, chrSupplementary, chrModule),
  (u!"cs", csRules, csSupplementary, csModule),
  (u!"cy", cyRules, cySupplementary, cyModule),
  (u!"da", daRules, daSupplementary, daModule)]

end NumberParser.Gen.Sources
