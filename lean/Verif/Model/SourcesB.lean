/- GENERATED by tools/gen_sources.py from /repo/number_parser_data/{raw_cldr,supplementary}_translation_data/*.json and
/repo/number_parser/data/*.py. Do not edit. -/
import Verif.Model.Generator

set_option maxRecDepth 100000

namespace NumberParser.Gen.Sources
open NumberParser Gen

/-- `number_parser_data/raw_cldr_translation_data/de.json`, `SpelloutRules` -/
def deRules : RuleSets := [
  (u!"%spellout-numbering-year", [(u!"-x", u!"minus >>;"),
    (u!"x.x", u!"=0.0=;"),
    (u!"0", u!"=%spellout-numbering=;"),
    (u!"1100/100", u!"<%spellout-cardinal-masculine<\u00adhundert[\u00ad>>];"),
    (u!"10000", u!"=%spellout-numbering=;")]),
  (u!"%spellout-numbering", [(u!"-x", u!"minus >>;"),
    (u!"x.x", u!"<< Komma >>;"),
    (u!"0", u!"null;"),
    (u!"1", u!"eins;"),
    (u!"2", u!"zwei;"),
    (u!"3", u!"drei;"),
    (u!"4", u!"vier;"),
    (u!"5", u!"fünf;"),
    (u!"6", u!"sechs;"),
    (u!"7", u!"sieben;"),
    (u!"8", u!"acht;"),
    (u!"9", u!"neun;"),
    (u!"10", u!"zehn;"),
    (u!"11", u!"elf;"),
    (u!"12", u!"zwölf;"),
    (u!"13", u!">>zehn;"),
    (u!"16", u!"sechzehn;"),
    (u!"17", u!"siebzehn;"),
    (u!"18", u!">>zehn;"),
    (u!"20", u!"[>%spellout-cardinal-masculine>\u00adund\u00ad]zwanzig;"),
    (u!"30", u!"[>%spellout-cardinal-masculine>\u00adund\u00ad]dreißig;"),
    (u!"40", u!"[>%spellout-cardinal-masculine>\u00adund\u00ad]vierzig;"),
    (u!"50", u!"[>%spellout-cardinal-masculine>\u00adund\u00ad]fünfzig;"),
    (u!"60", u!"[>%spellout-cardinal-masculine>\u00adund\u00ad]sechzig;"),
    (u!"70", u!"[>%spellout-cardinal-masculine>\u00adund\u00ad]siebzig;"),
    (u!"80", u!"[>%spellout-cardinal-masculine>\u00adund\u00ad]achtzig;"),
    (u!"90", u!"[>%spellout-cardinal-masculine>\u00adund\u00ad]neunzig;"),
    (u!"100", u!"<%spellout-cardinal-masculine<\u00adhundert[\u00ad>>];"),
    (u!"1000", u!"<%spellout-cardinal-masculine<\u00adtausend[\u00ad>>];"),
    (u!"1000000", u!"eine Million[ >>];"),
    (u!"2000000", u!"<%spellout-cardinal-feminine< Millionen[ >>];"),
    (u!"1000000000", u!"eine Milliarde[ >>];"),
    (u!"2000000000", u!"<%spellout-cardinal-feminine< Milliarden[ >>];"),
    (u!"1000000000000", u!"eine Billion[ >>];"),
    (u!"2000000000000", u!"<%spellout-cardinal-feminine< Billionen[ >>];"),
    (u!"1000000000000000", u!"eine Billiarde[ >>];"),
    (u!"2000000000000000", u!"<%spellout-cardinal-feminine< Billiarden[ >>];"),
    (u!"1000000000000000000", u!"=#,##0=;")]),
  (u!"%spellout-cardinal-neuter", [(u!"0", u!"=%spellout-cardinal-masculine=;")]),
  (u!"%spellout-cardinal-masculine", [(u!"-x", u!"minus >>;"),
    (u!"x.x", u!"<< Komma >>;"),
    (u!"0", u!"null;"),
    (u!"1", u!"ein;"),
    (u!"2", u!"=%spellout-numbering=;"),
    (u!"100", u!"<%spellout-cardinal-masculine<\u00adhundert[\u00ad>>];"),
    (u!"1000", u!"<%spellout-cardinal-masculine<\u00adtausend[\u00ad>>];"),
    (u!"1000000", u!"eine Million[ >>];"),
    (u!"2000000", u!"<%spellout-cardinal-feminine< Millionen[ >>];"),
    (u!"1000000000", u!"eine Milliarde[ >>];"),
    (u!"2000000000", u!"<%spellout-cardinal-feminine< Milliarden[ >>];"),
    (u!"1000000000000", u!"eine Billion[ >>];"),
    (u!"2000000000000", u!"<%spellout-cardinal-feminine< Billionen[ >>];"),
    (u!"1000000000000000", u!"eine Billiarde[ >>];"),
    (u!"2000000000000000", u!"<%spellout-cardinal-feminine< Billiarden[ >>];"),
    (u!"1000000000000000000", u!"=#,##0=;")]),
  (u!"%spellout-cardinal-feminine", [(u!"-x", u!"minus >>;"),
    (u!"x.x", u!"<< Komma >>;"),
    (u!"0", u!"null;"),
    (u!"1", u!"eine;"),
    (u!"2", u!"=%spellout-numbering=;"),
    (u!"100", u!"<%spellout-cardinal-masculine<\u00adhundert[\u00ad>>];"),
    (u!"1000", u!"<%spellout-cardinal-masculine<\u00adtausend[\u00ad>>];"),
    (u!"1000000", u!"eine Million[ >>];"),
    (u!"2000000", u!"<%spellout-cardinal-feminine< Millionen[ >>];"),
    (u!"1000000000", u!"eine Milliarde[ >>];"),
    (u!"2000000000", u!"<%spellout-cardinal-feminine< Milliarden[ >>];"),
    (u!"1000000000000", u!"eine Billion[ >>];"),
    (u!"2000000000000", u!"<%spellout-cardinal-feminine< Billionen[ >>];"),
    (u!"1000000000000000", u!"eine Billiarde[ >>];"),
    (u!"2000000000000000", u!"<%spellout-cardinal-feminine< Billiarden[ >>];"),
    (u!"1000000000000000000", u!"=#,##0=;")]),
  (u!"%spellout-cardinal-n", [(u!"-x", u!"minus >>;"),
    (u!"x.x", u!"<< Komma >>;"),
    (u!"0", u!"null;"),
    (u!"1", u!"einen;"),
    (u!"2", u!"=%spellout-numbering=;"),
    (u!"100", u!"<%spellout-cardinal-masculine<\u00adhundert[\u00ad>>];"),
    (u!"1000", u!"<%spellout-cardinal-masculine<\u00adtausend[\u00ad>>];"),
    (u!"1000000", u!"eine Million[ >>];"),
    (u!"2000000", u!"<%spellout-cardinal-feminine< Millionen[ >>];"),
    (u!"1000000000", u!"eine Milliarde[ >>];"),
    (u!"2000000000", u!"<%spellout-cardinal-feminine< Milliarden[ >>];"),
    (u!"1000000000000", u!"eine Billion[ >>];"),
    (u!"2000000000000", u!"<%spellout-cardinal-feminine< Billionen[ >>];"),
    (u!"1000000000000000", u!"eine Billiarde[ >>];"),
    (u!"2000000000000000", u!"<%spellout-cardinal-feminine< Billiarden[ >>];"),
    (u!"1000000000000000000", u!"=#,##0=;")]),
  (u!"%spellout-cardinal-r", [(u!"-x", u!"minus >>;"),
    (u!"x.x", u!"<< Komma >>;"),
    (u!"0", u!"null;"),
    (u!"1", u!"einer;"),
    (u!"2", u!"=%spellout-numbering=;"),
    (u!"100", u!"<%spellout-cardinal-masculine<\u00adhundert[\u00ad>>];"),
    (u!"1000", u!"<%spellout-cardinal-masculine<\u00adtausend[\u00ad>>];"),
    (u!"1000000", u!"eine Million[ >>];"),
    (u!"2000000", u!"<%spellout-cardinal-feminine< Millionen[ >>];"),
    (u!"1000000000", u!"eine Milliarde[ >>];"),
    (u!"2000000000", u!"<%spellout-cardinal-feminine< Milliarden[ >>];"),
    (u!"1000000000000", u!"eine Billion[ >>];"),
    (u!"2000000000000", u!"<%spellout-cardinal-feminine< Billionen[ >>];"),
    (u!"1000000000000000", u!"eine Billiarde[ >>];"),
    (u!"2000000000000000", u!"<%spellout-cardinal-feminine< Billiarden[ >>];"),
    (u!"1000000000000000000", u!"=#,##0=;")]),
  (u!"%spellout-cardinal-s", [(u!"-x", u!"minus >>;"),
    (u!"x.x", u!"<< Komma >>;"),
    (u!"0", u!"null;"),
    (u!"1", u!"eines;"),
    (u!"2", u!"=%spellout-numbering=;"),
    (u!"100", u!"<%spellout-cardinal-masculine<\u00adhundert[\u00ad>>];"),
    (u!"1000", u!"<%spellout-cardinal-masculine<\u00adtausend[\u00ad>>];"),
    (u!"1000000", u!"eine Million[ >>];"),
    (u!"2000000", u!"<%spellout-cardinal-feminine< Millionen[ >>];"),
    (u!"1000000000", u!"eine Milliarde[ >>];"),
    (u!"2000000000", u!"<%spellout-cardinal-feminine< Milliarden[ >>];"),
    (u!"1000000000000", u!"eine Billion[ >>];"),
    (u!"2000000000000", u!"<%spellout-cardinal-feminine< Billionen[ >>];"),
    (u!"1000000000000000", u!"eine Billiarde[ >>];"),
    (u!"2000000000000000", u!"<%spellout-cardinal-feminine< Billiarden[ >>];"),
    (u!"1000000000000000000", u!"=#,##0=;")]),
  (u!"%%ste", [(u!"0", u!"ste;"),
    (u!"1", u!"\u00ad=%spellout-ordinal=;")]),
  (u!"%%ste2", [(u!"0", u!"ste;"),
    (u!"1", u!"' =%spellout-ordinal=;")]),
  (u!"%spellout-ordinal", [(u!"-x", u!"minus >>;"),
    (u!"x.x", u!"=#,##0.#=;"),
    (u!"0", u!"nullte;"),
    (u!"1", u!"erste;"),
    (u!"2", u!"zweite;"),
    (u!"3", u!"dritte;"),
    (u!"4", u!"vierte;"),
    (u!"5", u!"fünfte;"),
    (u!"6", u!"sechste;"),
    (u!"7", u!"siebte;"),
    (u!"8", u!"achte;"),
    (u!"9", u!"=%spellout-numbering=te;"),
    (u!"20", u!"=%spellout-numbering=ste;"),
    (u!"100", u!"<%spellout-cardinal-masculine<\u00adhundert>%%ste>;"),
    (u!"1000", u!"<%spellout-cardinal-masculine<\u00adtausend>%%ste>;"),
    (u!"1000000", u!"eine Million>%%ste2>;"),
    (u!"2000000", u!"<%spellout-cardinal-feminine< Millionen>%%ste2>;"),
    (u!"1000000000", u!"eine Milliarde>%%ste2>;"),
    (u!"2000000000", u!"<%spellout-cardinal-feminine< Milliarden>%%ste2>;"),
    (u!"1000000000000", u!"eine Billion>%%ste>;"),
    (u!"2000000000000", u!"<%spellout-cardinal-feminine< Billionen>%%ste2>;"),
    (u!"1000000000000000", u!"eine Billiarde>%%ste2>;"),
    (u!"2000000000000000", u!"<%spellout-cardinal-feminine< Billiarden>%%ste2>;"),
    (u!"1000000000000000000", u!"=#,##0=.;")]),
  (u!"%spellout-ordinal-n", [(u!"-x", u!"minus >>;"),
    (u!"x.x", u!"=#,##0.#=;"),
    (u!"0", u!"=%spellout-ordinal=n;")]),
  (u!"%spellout-ordinal-r", [(u!"-x", u!"minus >>;"),
    (u!"x.x", u!"=#,##0.#=;"),
    (u!"0", u!"=%spellout-ordinal=r;")]),
  (u!"%spellout-ordinal-s", [(u!"-x", u!"minus >>;"),
    (u!"x.x", u!"=#,##0.#=;"),
    (u!"0", u!"=%spellout-ordinal=s;")])]

/-- `number_parser_data/supplementary_translation_data/de.json` -/
def deSupplementary : Supplementary where
  tables := {
    unit := []
    direct := []
    tens := []
    hundreds := []
    big := [] }
  skipTokens := []
  useLongScale := some true

/-- `number_parser/data/de.py`, lines 1-36 -/
def deModule : Output where
  tables := {
    unit := [(u!"null", 0), (u!"ein", 1), (u!"eine", 1), (u!"einen", 1), (u!"einer", 1), (u!"eines", 1), (u!"eins", 1), (u!"zwei", 2), (u!"drei", 3), (u!"vier", 4), (u!"fünf", 5), (u!"sechs", 6), (u!"sieben", 7), (u!"acht", 8), (u!"neun", 9)]
    direct := [(u!"zehn", 10), (u!"elf", 11), (u!"zwölf", 12), (u!"sechzehn", 16), (u!"siebzehn", 17)]
    tens := []
    hundreds := []
    big := [(u!"Millionen", 1000000), (u!"Milliarden", 1000000000), (u!"Billionen", 1000000000000), (u!"Billiarden", 1000000000000000)] }
  skipTokens := []
  useLongScale := some true

/-- `number_parser_data/raw_cldr_translation_data/de-CH.json`, `SpelloutRules` -/
def de_CHRules : RuleSets := [
  (u!"%spellout-numbering-year", [(u!"-x", u!"minus >>;"),
    (u!"x.x", u!"=0.0=;"),
    (u!"0", u!"=%spellout-numbering=;"),
    (u!"1100/100", u!"<%spellout-cardinal-masculine<\u00adhundert[\u00ad>>];"),
    (u!"10000", u!"=%spellout-numbering=;")]),
  (u!"%spellout-numbering", [(u!"-x", u!"minus >>;"),
    (u!"x.x", u!"<< Komma >>;"),
    (u!"0", u!"null;"),
    (u!"1", u!"eins;"),
    (u!"2", u!"zwei;"),
    (u!"3", u!"drei;"),
    (u!"4", u!"vier;"),
    (u!"5", u!"fünf;"),
    (u!"6", u!"sechs;"),
    (u!"7", u!"sieben;"),
    (u!"8", u!"acht;"),
    (u!"9", u!"neun;"),
    (u!"10", u!"zehn;"),
    (u!"11", u!"elf;"),
    (u!"12", u!"zwölf;"),
    (u!"13", u!">>zehn;"),
    (u!"16", u!"sechzehn;"),
    (u!"17", u!"siebzehn;"),
    (u!"18", u!">>zehn;"),
    (u!"20", u!"[>%spellout-cardinal-masculine>\u00adund\u00ad]zwanzig;"),
    (u!"30", u!"[>%spellout-cardinal-masculine>\u00adund\u00ad]dreissig;"),
    (u!"40", u!"[>%spellout-cardinal-masculine>\u00adund\u00ad]vierzig;"),
    (u!"50", u!"[>%spellout-cardinal-masculine>\u00adund\u00ad]fünfzig;"),
    (u!"60", u!"[>%spellout-cardinal-masculine>\u00adund\u00ad]sechzig;"),
    (u!"70", u!"[>%spellout-cardinal-masculine>\u00adund\u00ad]siebzig;"),
    (u!"80", u!"[>%spellout-cardinal-masculine>\u00adund\u00ad]achtzig;"),
    (u!"90", u!"[>%spellout-cardinal-masculine>\u00adund\u00ad]neunzig;"),
    (u!"100", u!"<%spellout-cardinal-masculine<\u00adhundert[\u00ad>>];"),
    (u!"1000", u!"<%spellout-cardinal-masculine<\u00adtausend[\u00ad>>];"),
    (u!"1000000", u!"eine Million[ >>];"),
    (u!"2000000", u!"<%spellout-cardinal-feminine< Millionen[ >>];"),
    (u!"1000000000", u!"eine Milliarde[ >>];"),
    (u!"2000000000", u!"<%spellout-cardinal-feminine< Milliarden[ >>];"),
    (u!"1000000000000", u!"eine Billion[ >>];"),
    (u!"2000000000000", u!"<%spellout-cardinal-feminine< Billionen[ >>];"),
    (u!"1000000000000000", u!"eine Billiarde[ >>];"),
    (u!"2000000000000000", u!"<%spellout-cardinal-feminine< Billiarden[ >>];"),
    (u!"1000000000000000000", u!"=#,##0=;")]),
  (u!"%spellout-cardinal-neuter", [(u!"0", u!"=%spellout-cardinal-masculine=;")]),
  (u!"%spellout-cardinal-masculine", [(u!"-x", u!"minus >>;"),
    (u!"x.x", u!"<< Komma >>;"),
    (u!"0", u!"null;"),
    (u!"1", u!"ein;"),
    (u!"2", u!"=%spellout-numbering=;"),
    (u!"100", u!"<%spellout-cardinal-masculine<\u00adhundert[\u00ad>>];"),
    (u!"1000", u!"<%spellout-cardinal-masculine<\u00adtausend[\u00ad>>];"),
    (u!"1000000", u!"eine Million[ >>];"),
    (u!"2000000", u!"<%spellout-cardinal-feminine< Millionen[ >>];"),
    (u!"1000000000", u!"eine Milliarde[ >>];"),
    (u!"2000000000", u!"<%spellout-cardinal-feminine< Milliarden[ >>];"),
    (u!"1000000000000", u!"eine Billion[ >>];"),
    (u!"2000000000000", u!"<%spellout-cardinal-feminine< Billionen[ >>];"),
    (u!"1000000000000000", u!"eine Billiarde[ >>];"),
    (u!"2000000000000000", u!"<%spellout-cardinal-feminine< Billiarden[ >>];"),
    (u!"1000000000000000000", u!"=#,##0=;")]),
  (u!"%spellout-cardinal-feminine", [(u!"-x", u!"minus >>;"),
    (u!"x.x", u!"<< Komma >>;"),
    (u!"0", u!"null;"),
    (u!"1", u!"eine;"),
    (u!"2", u!"=%spellout-numbering=;"),
    (u!"100", u!"<%spellout-cardinal-masculine<\u00adhundert[\u00ad>>];"),
    (u!"1000", u!"<%spellout-cardinal-masculine<\u00adtausend[\u00ad>>];"),
    (u!"1000000", u!"eine Million[ >>];"),
    (u!"2000000", u!"<%spellout-cardinal-feminine< Millionen[ >>];"),
    (u!"1000000000", u!"eine Milliarde[ >>];"),
    (u!"2000000000", u!"<%spellout-cardinal-feminine< Milliarden[ >>];"),
    (u!"1000000000000", u!"eine Billion[ >>];"),
    (u!"2000000000000", u!"<%spellout-cardinal-feminine< Billionen[ >>];"),
    (u!"1000000000000000", u!"eine Billiarde[ >>];"),
    (u!"2000000000000000", u!"<%spellout-cardinal-feminine< Billiarden[ >>];"),
    (u!"1000000000000000000", u!"=#,##0=;")]),
  (u!"%spellout-cardinal-n", [(u!"-x", u!"minus >>;"),
    (u!"x.x", u!"<< Komma >>;"),
    (u!"0", u!"null;"),
    (u!"1", u!"einen;"),
    (u!"2", u!"=%spellout-numbering=;"),
    (u!"100", u!"<%spellout-cardinal-masculine<\u00adhundert[\u00ad>>];"),
    (u!"1000", u!"<%spellout-cardinal-masculine<\u00adtausend[\u00ad>>];"),
    (u!"1000000", u!"eine Million[ >>];"),
    (u!"2000000", u!"<%spellout-cardinal-feminine< Millionen[ >>];"),
    (u!"1000000000", u!"eine Milliarde[ >>];"),
    (u!"2000000000", u!"<%spellout-cardinal-feminine< Milliarden[ >>];"),
    (u!"1000000000000", u!"eine Billion[ >>];"),
    (u!"2000000000000", u!"<%spellout-cardinal-feminine< Billionen[ >>];"),
    (u!"1000000000000000", u!"eine Billiarde[ >>];"),
    (u!"2000000000000000", u!"<%spellout-cardinal-feminine< Billiarden[ >>];"),
    (u!"1000000000000000000", u!"=#,##0=;")]),
  (u!"%spellout-cardinal-r", [(u!"-x", u!"minus >>;"),
    (u!"x.x", u!"<< Komma >>;"),
    (u!"0", u!"null;"),
    (u!"1", u!"einer;"),
    (u!"2", u!"=%spellout-numbering=;"),
    (u!"100", u!"<%spellout-cardinal-masculine<\u00adhundert[\u00ad>>];"),
    (u!"1000", u!"<%spellout-cardinal-masculine<\u00adtausend[\u00ad>>];"),
    (u!"1000000", u!"eine Million[ >>];"),
    (u!"2000000", u!"<%spellout-cardinal-feminine< Millionen[ >>];"),
    (u!"1000000000", u!"eine Milliarde[ >>];"),
    (u!"2000000000", u!"<%spellout-cardinal-feminine< Milliarden[ >>];"),
    (u!"1000000000000", u!"eine Billion[ >>];"),
    (u!"2000000000000", u!"<%spellout-cardinal-feminine< Billionen[ >>];"),
    (u!"1000000000000000", u!"eine Billiarde[ >>];"),
    (u!"2000000000000000", u!"<%spellout-cardinal-feminine< Billiarden[ >>];"),
    (u!"1000000000000000000", u!"=#,##0=;")]),
  (u!"%spellout-cardinal-s", [(u!"-x", u!"minus >>;"),
    (u!"x.x", u!"<< Komma >>;"),
    (u!"0", u!"null;"),
    (u!"1", u!"eines;"),
    (u!"2", u!"=%spellout-numbering=;"),
    (u!"100", u!"<%spellout-cardinal-masculine<\u00adhundert[\u00ad>>];"),
    (u!"1000", u!"<%spellout-cardinal-masculine<\u00adtausend[\u00ad>>];"),
    (u!"1000000", u!"eine Million[ >>];"),
    (u!"2000000", u!"<%spellout-cardinal-feminine< Millionen[ >>];"),
    (u!"1000000000", u!"eine Milliarde[ >>];"),
    (u!"2000000000", u!"<%spellout-cardinal-feminine< Milliarden[ >>];"),
    (u!"1000000000000", u!"eine Billion[ >>];"),
    (u!"2000000000000", u!"<%spellout-cardinal-feminine< Billionen[ >>];"),
    (u!"1000000000000000", u!"eine Billiarde[ >>];"),
    (u!"2000000000000000", u!"<%spellout-cardinal-feminine< Billiarden[ >>];"),
    (u!"1000000000000000000", u!"=#,##0=;")]),
  (u!"%%ste", [(u!"0", u!"ste;"),
    (u!"1", u!"\u00ad=%spellout-ordinal=;")]),
  (u!"%%ste2", [(u!"0", u!"ste;"),
    (u!"1", u!"' =%spellout-ordinal=;")]),
  (u!"%spellout-ordinal", [(u!"-x", u!"minus >>;"),
    (u!"x.x", u!"=#,##0.#=;"),
    (u!"0", u!"nullte;"),
    (u!"1", u!"erste;"),
    (u!"2", u!"zweite;"),
    (u!"3", u!"dritte;"),
    (u!"4", u!"vierte;"),
    (u!"5", u!"fünfte;"),
    (u!"6", u!"sechste;"),
    (u!"7", u!"siebte;"),
    (u!"8", u!"achte;"),
    (u!"9", u!"=%spellout-numbering=te;"),
    (u!"20", u!"=%spellout-numbering=ste;"),
    (u!"100", u!"<%spellout-cardinal-masculine<\u00adhundert>%%ste>;"),
    (u!"1000", u!"<%spellout-cardinal-masculine<\u00adtausend>%%ste>;"),
    (u!"1000000", u!"eine Million>%%ste2>;"),
    (u!"2000000", u!"<%spellout-cardinal-feminine< Millionen>%%ste2>;"),
    (u!"1000000000", u!"eine Milliarde>%%ste2>;"),
    (u!"2000000000", u!"<%spellout-cardinal-feminine< Milliarden>%%ste2>;"),
    (u!"1000000000000", u!"eine Billion>%%ste>;"),
    (u!"2000000000000", u!"<%spellout-cardinal-feminine< Billionen>%%ste2>;"),
    (u!"1000000000000000", u!"eine Billiarde>%%ste2>;"),
    (u!"2000000000000000", u!"<%spellout-cardinal-feminine< Billiarden>%%ste2>;"),
    (u!"1000000000000000000", u!"=#,##0=.;")]),
  (u!"%spellout-ordinal-n", [(u!"-x", u!"minus >>;"),
    (u!"x.x", u!"=#,##0.#=;"),
    (u!"0", u!"=%spellout-ordinal=n;")]),
  (u!"%spellout-ordinal-r", [(u!"-x", u!"minus >>;"),
    (u!"x.x", u!"=#,##0.#=;"),
    (u!"0", u!"=%spellout-ordinal=r;")]),
  (u!"%spellout-ordinal-s", [(u!"-x", u!"minus >>;"),
    (u!"x.x", u!"=#,##0.#=;"),
    (u!"0", u!"=%spellout-ordinal=s;")])]

/-- `number_parser_data/supplementary_translation_data/de-CH.json` -/
def de_CHSupplementary : Supplementary where
  tables := {
    unit := []
    direct := []
    tens := []
    hundreds := []
    big := [] }
  skipTokens := []
  useLongScale := some true

/-- `number_parser/data/de-CH.py`, lines 1-36 -/
def de_CHModule : Output where
  tables := {
    unit := [(u!"null", 0), (u!"ein", 1), (u!"eine", 1), (u!"einen", 1), (u!"einer", 1), (u!"eines", 1), (u!"eins", 1), (u!"zwei", 2), (u!"drei", 3), (u!"vier", 4), (u!"fünf", 5), (u!"sechs", 6), (u!"sieben", 7), (u!"acht", 8), (u!"neun", 9)]
    direct := [(u!"zehn", 10), (u!"elf", 11), (u!"zwölf", 12), (u!"sechzehn", 16), (u!"siebzehn", 17)]
    tens := []
    hundreds := []
    big := [(u!"Millionen", 1000000), (u!"Milliarden", 1000000000), (u!"Billionen", 1000000000000), (u!"Billiarden", 1000000000000000)] }
  skipTokens := []
  useLongScale := some true

/-- `number_parser_data/raw_cldr_translation_data/ee.json`, `SpelloutRules` -/
def eeRules : RuleSets := [
  (u!"%spellout-numbering-year", [(u!"x.x", u!"=0.0=;"),
    (u!"0", u!"=%spellout-numbering=;")]),
  (u!"%spellout-numbering", [(u!"0", u!"=%spellout-cardinal=;")]),
  (u!"%%after-hundreds", [(u!"0", u!"kple =%spellout-cardinal=;"),
    (u!"21", u!"=%spellout-cardinal=;"),
    (u!"30", u!"kple =%spellout-cardinal=;"),
    (u!"31", u!"=%spellout-cardinal=;"),
    (u!"40", u!"kple =%spellout-cardinal=;"),
    (u!"41", u!"=%spellout-cardinal=;"),
    (u!"50", u!"kple =%spellout-cardinal=;"),
    (u!"51", u!"=%spellout-cardinal=;"),
    (u!"60", u!"kple =%spellout-cardinal=;"),
    (u!"61", u!"=%spellout-cardinal=;"),
    (u!"70", u!"kple =%spellout-cardinal=;"),
    (u!"71", u!"=%spellout-cardinal=;"),
    (u!"80", u!"kple =%spellout-cardinal=;"),
    (u!"81", u!"=%spellout-cardinal=;"),
    (u!"90", u!"kple =%spellout-cardinal=;"),
    (u!"91", u!"=%spellout-cardinal=;")]),
  (u!"%%after-thousands", [(u!"0", u!"' kple =%spellout-cardinal=;"),
    (u!"100", u!"' =%spellout-cardinal=;")]),
  (u!"%%after-hundred-thousands", [(u!"0", u!"' kpakple =%spellout-cardinal=;"),
    (u!"100", u!"' =%spellout-cardinal=;")]),
  (u!"%%after-millions", [(u!"0", u!"' kpakple =%spellout-cardinal=;"),
    (u!"1000", u!"' kple =%spellout-cardinal=;"),
    (u!"100000", u!"' =%spellout-cardinal=;")]),
  (u!"%%after-billions", [(u!"0", u!"' kpakple =%spellout-cardinal=;"),
    (u!"1000", u!"' kple =%spellout-cardinal=;"),
    (u!"100000000", u!"' kple =%spellout-cardinal=;"),
    (u!"100000000000", u!"' =%spellout-cardinal=;")]),
  (u!"%%spellout-base", [(u!"0", u!"ɖekeo;"),
    (u!"1", u!"ɖekɛ;"),
    (u!"2", u!"eve;"),
    (u!"3", u!"etɔ̃;"),
    (u!"4", u!"ene;"),
    (u!"5", u!"atɔ̃;"),
    (u!"6", u!"ade;"),
    (u!"7", u!"adre;"),
    (u!"8", u!"enyi;"),
    (u!"9", u!"asieke;"),
    (u!"10", u!"ewo;"),
    (u!"11", u!"wui>>;"),
    (u!"20", u!"bla<<[ vɔ >>];"),
    (u!"100", u!"alafa <%spellout-cardinal<[ >%%after-hundreds>];"),
    (u!"1000", u!"akpe <%spellout-cardinal<[>%%after-thousands>];"),
    (u!"100000/1000", u!"akpe <%spellout-cardinal<[>%%after-hundred-thousands>];"),
    (u!"1000000", u!"miliɔn <%spellout-cardinal<[>%%after-millions>];"),
    (u!"1000000000", u!"miliɔn akpe <%spellout-cardinal<[>%%after-millions>];"),
    (u!"1000000000000", u!"biliɔn <%spellout-cardinal<[>%%after-billions>];"),
    (u!"1000000000000000000", u!"=#,##0=;")]),
  (u!"%spellout-cardinal", [(u!"-x", u!">> xlẽyimegbee;"),
    (u!"0.x", u!"kakɛ >>;"),
    (u!"x.x", u!"<< kple kakɛ >>;"),
    (u!"0", u!"ɖekeo;"),
    (u!"1", u!"ɖeka;"),
    (u!"2", u!"=%%spellout-base=;")]),
  (u!"%spellout-ordinal", [(u!"-x", u!">> xlẽyimegbee;"),
    (u!"x.x", u!"=#,##0.0=lia;"),
    (u!"0", u!"ɖekeolia;"),
    (u!"1", u!"gbãtɔ;"),
    (u!"2", u!"=%spellout-cardinal=lia;")])]

/-- `number_parser_data/supplementary_translation_data/ee.json` -/
def eeSupplementary : Supplementary where
  tables := {
    unit := []
    direct := []
    tens := []
    hundreds := []
    big := [] }
  skipTokens := []
  useLongScale := some false

/-- `number_parser/data/ee.py`, lines 1-12 -/
def eeModule : Output where
  tables := {
    unit := [(u!"ɖekeo", 0), (u!"ɖeka", 1)]
    direct := []
    tens := []
    hundreds := []
    big := [] }
  skipTokens := []
  useLongScale := some false

/-- `number_parser_data/raw_cldr_translation_data/el.json`, `SpelloutRules` -/
def elRules : RuleSets := [
  (u!"%spellout-numbering-year", [(u!"x.x", u!"=0.0=;"),
    (u!"0", u!"=%spellout-numbering=;")]),
  (u!"%spellout-numbering", [(u!"0", u!"=%spellout-cardinal-neuter=;")]),
  (u!"%spellout-cardinal-masculine", [(u!"-x", u!"μείον >>;"),
    (u!"x.x", u!"<< κόμμα >>;"),
    (u!"0", u!"μηδέν;"),
    (u!"1", u!"ένας;"),
    (u!"2", u!"δύο;"),
    (u!"3", u!"τρεις;"),
    (u!"4", u!"τέσσερις;"),
    (u!"5", u!"πέντε;"),
    (u!"6", u!"έξι;"),
    (u!"7", u!"επτά;"),
    (u!"8", u!"οκτώ;"),
    (u!"9", u!"εννέα;"),
    (u!"10", u!"δέκα;"),
    (u!"11", u!"έντεκα;"),
    (u!"12", u!"δώδεκα;"),
    (u!"13", u!"δεκα\u00ad>>;"),
    (u!"20", u!"είκοσι[ >>];"),
    (u!"30", u!"τριάντα[ >>];"),
    (u!"40", u!"σαράντα[ >>];"),
    (u!"50", u!"πενήντα[ >>];"),
    (u!"60", u!"εξήντα[ >>];"),
    (u!"70", u!"εβδομήντα[ >>];"),
    (u!"80", u!"ογδόντα[ >>];"),
    (u!"90", u!"εννενήντα[ >>];"),
    (u!"100", u!"εκατό[ν >>];"),
    (u!"200", u!"διακόσιοι[ >>];"),
    (u!"300", u!"τριακόσιοι[ >>];"),
    (u!"400", u!"τετρακόσιοι[ >>];"),
    (u!"500", u!"πεντακόσιοι[ >>];"),
    (u!"600", u!"εξακόσιοι[ >>];"),
    (u!"700", u!"επτακόσιοι[ >>];"),
    (u!"800", u!"οκτακόσιοι[ >>];"),
    (u!"900", u!"εννιακόσιοι[ >>];"),
    (u!"1000", u!"χίλιοι[ >>];"),
    (u!"2000", u!"<%spellout-cardinal-feminine< χίλιάδες[ >>];"),
    (u!"1000000", u!"<%spellout-cardinal-neuter< εκατομμύριο[ >>];"),
    (u!"2000000", u!"<%spellout-cardinal-neuter< εκατομμύρια[ >>];"),
    (u!"1000000000", u!"<%spellout-cardinal-neuter< δισεκατομμύριο[ >>];"),
    (u!"2000000000", u!"<%spellout-cardinal-neuter< δισεκατομμύρια[ >>];"),
    (u!"1000000000000", u!"<%spellout-cardinal-neuter< τρισεκατομμύριο[ >>];"),
    (u!"2000000000000", u!"<%spellout-cardinal-neuter< τρισεκατομμύρια[ >>];"),
    (u!"1000000000000000", u!"<%spellout-cardinal-neuter< τετράκις εκατομμύριο[ >>];"),
    (u!"2000000000000000", u!"<%spellout-cardinal-neuter< τετράκις εκατομμύρια[ >>];"),
    (u!"1000000000000000000", u!"=#,##0=;")]),
  (u!"%spellout-cardinal-feminine", [(u!"-x", u!"μείον >>;"),
    (u!"x.x", u!"<< κόμμα >>;"),
    (u!"0", u!"μηδέν;"),
    (u!"1", u!"μία;"),
    (u!"2", u!"δύο;"),
    (u!"3", u!"τρεις;"),
    (u!"4", u!"τέσσερις;"),
    (u!"5", u!"πέντε;"),
    (u!"6", u!"έξι;"),
    (u!"7", u!"επτά;"),
    (u!"8", u!"οκτώ;"),
    (u!"9", u!"εννέα;"),
    (u!"10", u!"δέκα;"),
    (u!"11", u!"έντεκα;"),
    (u!"12", u!"δώδεκα;"),
    (u!"13", u!"δεκα\u00ad>>;"),
    (u!"20", u!"είκοσι[ >>];"),
    (u!"30", u!"τριάντα[ >>];"),
    (u!"40", u!"σαράντα[ >>];"),
    (u!"50", u!"πενήντα[ >>];"),
    (u!"60", u!"εξήντα[ >>];"),
    (u!"70", u!"εβδομήντα[ >>];"),
    (u!"80", u!"ογδόντα[ >>];"),
    (u!"90", u!"εννενήντα[ >>];"),
    (u!"100", u!"εκατό[ν >>];"),
    (u!"200", u!"διακόσιες[ >>];"),
    (u!"300", u!"τριακόσιες[ >>];"),
    (u!"400", u!"τετρακόσιες[ >>];"),
    (u!"500", u!"πεντακόσιες[ >>];"),
    (u!"600", u!"εξακόσιες[ >>];"),
    (u!"700", u!"επτακόσιες[ >>];"),
    (u!"800", u!"οκτακόσιες[ >>];"),
    (u!"900", u!"εννιακόσιες[ >>];"),
    (u!"1000", u!"χίλιες[ >>];"),
    (u!"2000", u!"<%spellout-cardinal-feminine< χίλιάδες[ >>];"),
    (u!"1000000", u!"<%spellout-cardinal-neuter< εκατομμύριο[ >>];"),
    (u!"2000000", u!"<%spellout-cardinal-neuter< εκατομμύρια[ >>];"),
    (u!"1000000000", u!"<%spellout-cardinal-neuter< δισεκατομμύριο[ >>];"),
    (u!"2000000000", u!"<%spellout-cardinal-neuter< δισεκατομμύρια[ >>];"),
    (u!"1000000000000", u!"<%spellout-cardinal-neuter< τρισεκατομμύριο[ >>];"),
    (u!"2000000000000", u!"<%spellout-cardinal-neuter< τρισεκατομμύρια[ >>];"),
    (u!"1000000000000000", u!"<%spellout-cardinal-neuter< τετράκις εκατομμύριο[ >>];"),
    (u!"2000000000000000", u!"<%spellout-cardinal-neuter< τετράκις εκατομμύρια[ >>];"),
    (u!"1000000000000000000", u!"=#,##0=;")]),
  (u!"%spellout-cardinal-neuter", [(u!"-x", u!"μείον >>;"),
    (u!"x.x", u!"<< κόμμα >>;"),
    (u!"0", u!"μηδέν;"),
    (u!"1", u!"ένα;"),
    (u!"2", u!"δύο;"),
    (u!"3", u!"τρία;"),
    (u!"4", u!"τέσσερα;"),
    (u!"5", u!"πέντε;"),
    (u!"6", u!"έξι;"),
    (u!"7", u!"επτά;"),
    (u!"8", u!"οκτώ;"),
    (u!"9", u!"εννέα;"),
    (u!"10", u!"δέκα;"),
    (u!"11", u!"έντεκα;"),
    (u!"12", u!"δώδεκα;"),
    (u!"13", u!"δεκα\u00ad>>;"),
    (u!"20", u!"είκοσι[ >>];"),
    (u!"30", u!"τριάντα[ >>];"),
    (u!"40", u!"σαράντα[ >>];"),
    (u!"50", u!"πενήντα[ >>];"),
    (u!"60", u!"εξήντα[ >>];"),
    (u!"70", u!"εβδομήντα[ >>];"),
    (u!"80", u!"ογδόντα[ >>];"),
    (u!"90", u!"εννενήντα[ >>];"),
    (u!"100", u!"εκατό[ν >>];"),
    (u!"200", u!"διακόσια[ >>];"),
    (u!"300", u!"τριακόσια[ >>];"),
    (u!"400", u!"τετρακόσια[ >>];"),
    (u!"500", u!"πεντακόσια[ >>];"),
    (u!"600", u!"εξακόσια[ >>];"),
    (u!"700", u!"επτακόσια[ >>];"),
    (u!"800", u!"οκτακόσια[ >>];"),
    (u!"900", u!"εννιακόσια[ >>];"),
    (u!"1000", u!"χίλια[ >>];"),
    (u!"2000", u!"<%spellout-cardinal-feminine< χίλιάδες[ >>];"),
    (u!"1000000", u!"<%spellout-cardinal-neuter< εκατομμύριο[ >>];"),
    (u!"2000000", u!"<%spellout-cardinal-neuter< εκατομμύρια[ >>];"),
    (u!"1000000000", u!"<%spellout-cardinal-neuter< δισεκατομμύριο[ >>];"),
    (u!"2000000000", u!"<%spellout-cardinal-neuter< δισεκατομμύρια[ >>];"),
    (u!"1000000000000", u!"<%spellout-cardinal-neuter< τρισεκατομμύριο[ >>];"),
    (u!"2000000000000", u!"<%spellout-cardinal-neuter< τρισεκατομμύρια[ >>];"),
    (u!"1000000000000000", u!"<%spellout-cardinal-neuter< τετράκις εκατομμύριο[ >>];"),
    (u!"2000000000000000", u!"<%spellout-cardinal-neuter< τετράκις εκατομμύρια[ >>];"),
    (u!"1000000000000000000", u!"=#,##0=;")]),
  (u!"%spellout-ordinal-masculine", [(u!"-x", u!"μείον >>;"),
    (u!"x.x", u!"=#,##0.#=;"),
    (u!"0", u!"μηδενικός;"),
    (u!"1", u!"πρώτος;"),
    (u!"2", u!"δεύτερος;"),
    (u!"3", u!"τρίτος;"),
    (u!"4", u!"τέταρτος;"),
    (u!"5", u!"πέμπτος;"),
    (u!"6", u!"έκτος;"),
    (u!"7", u!"έβδομος;"),
    (u!"8", u!"όγδοος;"),
    (u!"9", u!"ένατος;"),
    (u!"10", u!"δέκατος;"),
    (u!"11", u!"ενδέκατος;"),
    (u!"12", u!"δωδέκατος;"),
    (u!"13", u!"δέκατος[ >>];"),
    (u!"20", u!"εικοστός[ >>];"),
    (u!"30", u!"τριακοστός[ >>];"),
    (u!"40", u!"τεσσαρακοστός[ >>];"),
    (u!"50", u!"πεντηκοστός[ >>];"),
    (u!"60", u!"εξηκοστός[ >>];"),
    (u!"70", u!"εβδομηκοστός[ >>];"),
    (u!"80", u!"ογδοηκοστός[ >>];"),
    (u!"90", u!"εννενηκοστός[ >>];"),
    (u!"100", u!"εκατοστός[ >>];"),
    (u!"200", u!"διακοσιοστός[ >>];"),
    (u!"300", u!"τριακοσιοστός[ >>];"),
    (u!"400", u!"τετρακοσιοστός[ >>];"),
    (u!"500", u!"πεντακοσιοστός[ >>];"),
    (u!"600", u!"εξακοσιοστός[ >>];"),
    (u!"700", u!"επτακοσιοστός[ >>];"),
    (u!"800", u!"οκτακοσιοστός[ >>];"),
    (u!"900", u!"εννεακοσιοστός[ >>];"),
    (u!"1000", u!"χιλιοστός[ >>];"),
    (u!"2000", u!"δισχιλιοστός[ >>];"),
    (u!"3000", u!"τρισχιλιοστός[ >>];"),
    (u!"4000", u!"τετράκις χιλιοστός[ >>];"),
    (u!"5000", u!"πεντάκις χιλιοστός[ >>];"),
    (u!"6000", u!"εξάκις χιλιοστός[ >>];"),
    (u!"7000", u!"επτάκις χιλιοστός[ >>];"),
    (u!"8000", u!"οκτάκις χιλιοστός[ >>];"),
    (u!"9000", u!"εννεάκις χιλιοστός[ >>];"),
    (u!"10000/1000", u!"δεκάκις χιλιοστός[ >>];"),
    (u!"11000/1000", u!"<%spellout-cardinal-neuter< χιλιοστός[ >>];"),
    (u!"1000000", u!"<%spellout-cardinal-neuter< εκατομμυριοστός [ >>];"),
    (u!"1000000000", u!"<%spellout-cardinal-neuter< δισεκατομμυριοστός[ >>];"),
    (u!"1000000000000", u!"<%spellout-cardinal-neuter< τρισεκατομμυριοστός[ >>];"),
    (u!"1000000000000000", u!"<%spellout-cardinal-neuter< τετράκις εκατομμυριοστός[ >>];"),
    (u!"1000000000000000000", u!"=#,##0=.;")]),
  (u!"%spellout-ordinal-feminine", [(u!"-x", u!"μείον >>;"),
    (u!"x.x", u!"=#,##0.#=;"),
    (u!"0", u!"μηδενική;"),
    (u!"1", u!"πρώτη;"),
    (u!"2", u!"δεύτερη;"),
    (u!"3", u!"τρίτη;"),
    (u!"4", u!"τέταρτη;"),
    (u!"5", u!"πέμπτη;"),
    (u!"6", u!"έκτη;"),
    (u!"7", u!"έβδομη;"),
    (u!"8", u!"όγδοη;"),
    (u!"9", u!"ένατη;"),
    (u!"10", u!"δέκατη;"),
    (u!"11", u!"ενδέκατη;"),
    (u!"12", u!"δωδέκατη;"),
    (u!"13", u!"δέκατη[ >>];"),
    (u!"20", u!"εικοστή[ >>];"),
    (u!"30", u!"τριακοστή[ >>];"),
    (u!"40", u!"τεσσαρακοστή[ >>];"),
    (u!"50", u!"πεντηκοστή[ >>];"),
    (u!"60", u!"εξηκοστή[ >>];"),
    (u!"70", u!"εβδομηκοστή[ >>];"),
    (u!"80", u!"ογδοηκοστή[ >>];"),
    (u!"90", u!"εννενηκοστή[ >>];"),
    (u!"100", u!"εκατοστή[ >>];"),
    (u!"200", u!"διακοσιοστή[ >>];"),
    (u!"300", u!"τριακοσιοστή[ >>];"),
    (u!"400", u!"τρετρακοσιοστή[ >>];"),
    (u!"500", u!"πεντακοσιοστή[ >>];"),
    (u!"600", u!"εξακοσιοστή[ >>];"),
    (u!"700", u!"επτακοσιοστή[ >>];"),
    (u!"800", u!"οκτακοσιοστή[ >>];"),
    (u!"900", u!"εννεακοσιοστή[ >>];"),
    (u!"1000", u!"χιλιοστή[ >>];"),
    (u!"2000", u!"δισχιλιοστή[ >>];"),
    (u!"3000", u!"τρισχιλιοστή[ >>];"),
    (u!"4000", u!"τετράκις χιλιοστή[ >>];"),
    (u!"5000", u!"πεντάκις χιλιοστή[ >>];"),
    (u!"6000", u!"εξάκις χιλιοστή[ >>];"),
    (u!"7000", u!"επτάκις χιλιοστή[ >>];"),
    (u!"8000", u!"οκτάκις χιλιοστή[ >>];"),
    (u!"9000", u!"εννεάκις χιλιοστή[ >>];"),
    (u!"10000/1000", u!"δεκάκις χιλιοστή[ >>];"),
    (u!"11000/1000", u!"<%spellout-cardinal-neuter< χιλιοστή[ >>];"),
    (u!"1000000", u!"<%spellout-cardinal-neuter< εκατομμυριοστή [ >>];"),
    (u!"1000000000", u!"<%spellout-cardinal-neuter< δισεκατομμυριοστή[ >>];"),
    (u!"1000000000000", u!"<%spellout-cardinal-neuter< τρισεκατομμυριοστή[ >>];"),
    (u!"1000000000000000", u!"<%spellout-cardinal-neuter< τετράκις εκατομμυριοστή[ >>];"),
    (u!"1000000000000000000", u!"=#,##0=.;")]),
  (u!"%spellout-ordinal-neuter", [(u!"-x", u!"μείον >>;"),
    (u!"0", u!"μηδενικό;"),
    (u!"1", u!"πρώτο;"),
    (u!"2", u!"δεύτερο;"),
    (u!"3", u!"τρίτο;"),
    (u!"4", u!"τέταρτο;"),
    (u!"5", u!"πέμπτο;"),
    (u!"6", u!"έκτο;"),
    (u!"7", u!"έβδομο;"),
    (u!"8", u!"όγδο;"),
    (u!"9", u!"ένατο;"),
    (u!"10", u!"δέκατο;"),
    (u!"11", u!"ενδέκατο;"),
    (u!"12", u!"δωδέκατο;"),
    (u!"13", u!"δέκατο[ >>];"),
    (u!"20", u!"εικοστό[ >>];"),
    (u!"30", u!"τριακοστό[ >>];"),
    (u!"40", u!"τεσσαρακοστό[ >>];"),
    (u!"50", u!"πεντηκοστό[ >>];"),
    (u!"60", u!"εξηκοστό[ >>];"),
    (u!"70", u!"εβδομηκοστό[ >>];"),
    (u!"80", u!"ογδοηκοστό[ >>];"),
    (u!"90", u!"εννενηκοστό[ >>];"),
    (u!"100", u!"εκατοστό[ >>];"),
    (u!"200", u!"διακοσιοστό[ >>];"),
    (u!"300", u!"τριακοσιοστό[ >>];"),
    (u!"400", u!"τετρακοσιοστό[ >>];"),
    (u!"500", u!"πεντακοσιοστό[ >>];"),
    (u!"600", u!"εξακοσιοστός[ >>];"),
    (u!"700", u!"επτακοσιοστό[ >>];"),
    (u!"800", u!"οκτακοσιοστό[ >>];"),
    (u!"900", u!"εννεακοσιοστό[ >>];"),
    (u!"1000", u!"χιλιοστό[ >>];"),
    (u!"2000", u!"δισχιλιοστό[ >>];"),
    (u!"3000", u!"τρισχιλιοστό[ >>];"),
    (u!"4000", u!"τετράκις χιλιοστό[ >>];"),
    (u!"5000", u!"πεντάκις χιλιοστό[ >>];"),
    (u!"6000", u!"εξάκις χιλιοστό[ >>];"),
    (u!"7000", u!"επτάκις χιλιοστό[ >>];"),
    (u!"8000", u!"οκτάκις χιλιοστό[ >>];"),
    (u!"9000", u!"εννεάκις χιλιοστό[ >>];"),
    (u!"10000/1000", u!"δεκάκις χιλιοστό[ >>];"),
    (u!"11000/1000", u!"<%spellout-cardinal-neuter< χιλιοστό[ >>];"),
    (u!"1000000", u!"<%spellout-cardinal-neuter< εκατομμυριοστό [ >>];"),
    (u!"1000000000", u!"<%spellout-cardinal-neuter< δισεκατομμυριοστό[ >>];"),
    (u!"1000000000000", u!"<%spellout-cardinal-neuter< τρισεκατομμυριοστό[ >>];"),
    (u!"1000000000000000", u!"<%spellout-cardinal-neuter< τετράκις εκατομμυριοστό[ >>];"),
    (u!"1000000000000000000", u!"=#,##0=.;")])]

/-- `number_parser_data/supplementary_translation_data/el.json` -/
def elSupplementary : Supplementary where
  tables := {
    unit := []
    direct := []
    tens := []
    hundreds := []
    big := [] }
  skipTokens := []
  useLongScale := none

/-- `number_parser/data/el.py`, lines 1-71 -/
def elModule : Output where
  tables := {
    unit := [(u!"μηδέν", 0), (u!"ένα", 1), (u!"ένας", 1), (u!"μία", 1), (u!"δύο", 2), (u!"τρία", 3), (u!"τρεις", 3), (u!"τέσσερα", 4), (u!"τέσσερις", 4), (u!"πέντε", 5), (u!"έξι", 6), (u!"επτά", 7), (u!"οκτώ", 8), (u!"εννέα", 9)]
    direct := [(u!"δέκα", 10), (u!"έντεκα", 11), (u!"δώδεκα", 12)]
    tens := [(u!"είκοσι", 20), (u!"τριάντα", 30), (u!"σαράντα", 40), (u!"πενήντα", 50), (u!"εξήντα", 60), (u!"εβδομήντα", 70), (u!"ογδόντα", 80), (u!"εννενήντα", 90)]
    hundreds := [(u!"διακόσια", 200), (u!"διακόσιες", 200), (u!"διακόσιοι", 200), (u!"τριακόσια", 300), (u!"τριακόσιες", 300), (u!"τριακόσιοι", 300), (u!"τετρακόσια", 400), (u!"τετρακόσιες", 400), (u!"τετρακόσιοι", 400), (u!"πεντακόσια", 500), (u!"πεντακόσιες", 500), (u!"πεντακόσιοι", 500), (u!"εξακόσια", 600), (u!"εξακόσιες", 600), (u!"εξακόσιοι", 600), (u!"επτακόσια", 700), (u!"επτακόσιες", 700), (u!"επτακόσιοι", 700), (u!"οκτακόσια", 800), (u!"οκτακόσιες", 800), (u!"οκτακόσιοι", 800), (u!"εννιακόσια", 900), (u!"εννιακόσιες", 900), (u!"εννιακόσιοι", 900)]
    big := [(u!"χίλιάδες", 1000), (u!"εκατομμύρια", 1000000), (u!"εκατομμύριο", 1000000), (u!"δισεκατομμύρια", 1000000000), (u!"δισεκατομμύριο", 1000000000), (u!"τρισεκατομμύρια", 1000000000000), (u!"τρισεκατομμύριο", 1000000000000), (u!"τετράκις εκατομμύρια", 1000000000000000), (u!"τετράκις εκατομμύριο", 1000000000000000)] }
  skipTokens := []
  useLongScale := none

/-- `number_parser_data/raw_cldr_translation_data/en-IN.json`, `SpelloutRules` -/
def en_INRules : RuleSets := [
  (u!"%%2d-year", [(u!"0", u!"hundred;"),
    (u!"1", u!"oh-=%spellout-numbering=;"),
    (u!"10", u!"=%spellout-numbering=;")]),
  (u!"%spellout-numbering-year", [(u!"-x", u!"minus >>;"),
    (u!"x.x", u!"=#,##0.#=;"),
    (u!"0", u!"=%spellout-numbering=;"),
    (u!"1010/100", u!"<< >%%2d-year>;"),
    (u!"1100/100", u!"<< >%%2d-year>;"),
    (u!"2000", u!"=%spellout-numbering=;"),
    (u!"2010/100", u!"<< >%%2d-year>;"),
    (u!"2100/100", u!"<< >%%2d-year>;"),
    (u!"3000", u!"=%spellout-numbering=;"),
    (u!"3010/100", u!"<< >%%2d-year>;"),
    (u!"3100/100", u!"<< >%%2d-year>;"),
    (u!"4000", u!"=%spellout-numbering=;"),
    (u!"4010/100", u!"<< >%%2d-year>;"),
    (u!"4100/100", u!"<< >%%2d-year>;"),
    (u!"5000", u!"=%spellout-numbering=;"),
    (u!"5010/100", u!"<< >%%2d-year>;"),
    (u!"5100/100", u!"<< >%%2d-year>;"),
    (u!"6000", u!"=%spellout-numbering=;"),
    (u!"6010/100", u!"<< >%%2d-year>;"),
    (u!"6100/100", u!"<< >%%2d-year>;"),
    (u!"7000", u!"=%spellout-numbering=;"),
    (u!"7010/100", u!"<< >%%2d-year>;"),
    (u!"7100/100", u!"<< >%%2d-year>;"),
    (u!"8000", u!"=%spellout-numbering=;"),
    (u!"8010/100", u!"<< >%%2d-year>;"),
    (u!"8100/100", u!"<< >%%2d-year>;"),
    (u!"9000", u!"=%spellout-numbering=;"),
    (u!"9010/100", u!"<< >%%2d-year>;"),
    (u!"9100/100", u!"<< >%%2d-year>;"),
    (u!"10000", u!"=%spellout-numbering=;")]),
  (u!"%spellout-numbering", [(u!"-x", u!"minus >>;"),
    (u!"Inf", u!"infinity;"),
    (u!"NaN", u!"not a number;"),
    (u!"0", u!"=%spellout-cardinal=;")]),
  (u!"%spellout-numbering-verbose", [(u!"-x", u!"minus >>;"),
    (u!"Inf", u!"infinity;"),
    (u!"NaN", u!"not a number;"),
    (u!"0", u!"=%spellout-cardinal-verbose=;")]),
  (u!"%spellout-cardinal", [(u!"-x", u!"minus >>;"),
    (u!"x.x", u!"<< point >>;"),
    (u!"Inf", u!"infinite;"),
    (u!"NaN", u!"not a number;"),
    (u!"0", u!"zero;"),
    (u!"1", u!"one;"),
    (u!"2", u!"two;"),
    (u!"3", u!"three;"),
    (u!"4", u!"four;"),
    (u!"5", u!"five;"),
    (u!"6", u!"six;"),
    (u!"7", u!"seven;"),
    (u!"8", u!"eight;"),
    (u!"9", u!"nine;"),
    (u!"10", u!"ten;"),
    (u!"11", u!"eleven;"),
    (u!"12", u!"twelve;"),
    (u!"13", u!"thirteen;"),
    (u!"14", u!"fourteen;"),
    (u!"15", u!"fifteen;"),
    (u!"16", u!"sixteen;"),
    (u!"17", u!"seventeen;"),
    (u!"18", u!"eighteen;"),
    (u!"19", u!"nineteen;"),
    (u!"20", u!"twenty[->>];"),
    (u!"30", u!"thirty[->>];"),
    (u!"40", u!"forty[->>];"),
    (u!"50", u!"fifty[->>];"),
    (u!"60", u!"sixty[->>];"),
    (u!"70", u!"seventy[->>];"),
    (u!"80", u!"eighty[->>];"),
    (u!"90", u!"ninety[->>];"),
    (u!"100", u!"<< hundred[ >>];"),
    (u!"1000", u!"<< thousand[ >>];"),
    (u!"100000", u!"<< lakh[ >>];"),
    (u!"10000000", u!"<< crore[ >>];"),
    (u!"1000000000000", u!"<< trillion[ >>];"),
    (u!"1000000000000000", u!"<< quadrillion[ >>];"),
    (u!"1000000000000000000", u!"=#,##0=;")]),
  (u!"%%and", [(u!"1", u!"' and =%spellout-cardinal-verbose=;"),
    (u!"100", u!"' =%spellout-cardinal-verbose=;")]),
  (u!"%%commas", [(u!"1", u!"' and =%spellout-cardinal-verbose=;"),
    (u!"100", u!", =%spellout-cardinal-verbose=;"),
    (u!"1000", u!", <%spellout-cardinal-verbose< thousand[>%%commas>];"),
    (u!"1000000", u!", =%spellout-cardinal-verbose=;")]),
  (u!"%spellout-cardinal-verbose", [(u!"-x", u!"minus >>;"),
    (u!"x.x", u!"<< point >>;"),
    (u!"Inf", u!"infinite;"),
    (u!"NaN", u!"not a number;"),
    (u!"0", u!"=%spellout-numbering=;"),
    (u!"100", u!"<< hundred[>%%and>];"),
    (u!"1000", u!"<< thousand[>%%and>];"),
    (u!"100000", u!"<< lakh[>%%commas>];"),
    (u!"10000000", u!"<< crore[>%%commas>];"),
    (u!"1000000000000", u!"<< trillion[>%%commas>];"),
    (u!"1000000000000000", u!"<< quadrillion[>%%commas>];"),
    (u!"1000000000000000000", u!"=#,##0=;")]),
  (u!"%%tieth", [(u!"0", u!"tieth;"),
    (u!"1", u!"ty-=%spellout-ordinal=;")]),
  (u!"%%th", [(u!"0", u!"th;"),
    (u!"1", u!"' =%spellout-ordinal=;")]),
  (u!"%spellout-ordinal", [(u!"-x", u!"minus >>;"),
    (u!"x.x", u!"=#,##0.#=;"),
    (u!"Inf", u!"infinitieth;"),
    (u!"0", u!"zeroth;"),
    (u!"1", u!"first;"),
    (u!"2", u!"second;"),
    (u!"3", u!"third;"),
    (u!"4", u!"fourth;"),
    (u!"5", u!"fifth;"),
    (u!"6", u!"sixth;"),
    (u!"7", u!"seventh;"),
    (u!"8", u!"eighth;"),
    (u!"9", u!"ninth;"),
    (u!"10", u!"tenth;"),
    (u!"11", u!"eleventh;"),
    (u!"12", u!"twelfth;"),
    (u!"13", u!"=%spellout-numbering=th;"),
    (u!"20", u!"twen>%%tieth>;"),
    (u!"30", u!"thir>%%tieth>;"),
    (u!"40", u!"for>%%tieth>;"),
    (u!"50", u!"fif>%%tieth>;"),
    (u!"60", u!"six>%%tieth>;"),
    (u!"70", u!"seven>%%tieth>;"),
    (u!"80", u!"eigh>%%tieth>;"),
    (u!"90", u!"nine>%%tieth>;"),
    (u!"100", u!"<%spellout-numbering< hundred>%%th>;"),
    (u!"1000", u!"<%spellout-numbering< thousand>%%th>;"),
    (u!"1000000", u!"<%spellout-numbering< million>%%th>;"),
    (u!"1000000000", u!"<%spellout-numbering< billion>%%th>;"),
    (u!"1000000000000", u!"<%spellout-numbering< trillion>%%th>;"),
    (u!"1000000000000000", u!"<%spellout-numbering< quadrillion>%%th>;"),
    (u!"1000000000000000000", u!"=#,##0=.;")]),
  (u!"%%and-o", [(u!"0", u!"th;"),
    (u!"1", u!"' and =%spellout-ordinal-verbose=;"),
    (u!"100", u!"' =%spellout-ordinal-verbose=;")]),
  (u!"%%commas-o", [(u!"0", u!"th;"),
    (u!"1", u!"' and =%spellout-ordinal-verbose=;"),
    (u!"100", u!", =%spellout-ordinal-verbose=;"),
    (u!"1000", u!", <%spellout-cardinal-verbose< thousand>%%commas-o>;"),
    (u!"1000000", u!", =%spellout-ordinal-verbose=;")]),
  (u!"%spellout-ordinal-verbose", [(u!"-x", u!"minus >>;"),
    (u!"x.x", u!"=#,##0.#=;"),
    (u!"Inf", u!"infinitieth;"),
    (u!"0", u!"=%spellout-ordinal=;"),
    (u!"100", u!"<%spellout-numbering-verbose< hundred>%%and-o>;"),
    (u!"1000", u!"<%spellout-numbering-verbose< thousand>%%and-o>;"),
    (u!"100000/1000", u!"<%spellout-numbering-verbose< thousand>%%commas-o>;"),
    (u!"1000000", u!"<%spellout-numbering-verbose< million>%%commas-o>;"),
    (u!"1000000000", u!"<%spellout-numbering-verbose< billion>%%commas-o>;"),
    (u!"1000000000000", u!"<%spellout-numbering-verbose< trillion>%%commas-o>;"),
    (u!"1000000000000000", u!"<%spellout-numbering-verbose< quadrillion>%%commas-o>;"),
    (u!"1000000000000000000", u!"=#,##0=.;")])]

/-- `number_parser_data/supplementary_translation_data/en-IN.json` -/
def en_INSupplementary : Supplementary where
  tables := {
    unit := []
    direct := []
    tens := []
    hundreds := []
    big := [] }
  skipTokens := []
  useLongScale := some false

/-- `number_parser/data/en-IN.py`, lines 1-47 -/
def en_INModule : Output where
  tables := {
    unit := [(u!"zero", 0), (u!"one", 1), (u!"two", 2), (u!"three", 3), (u!"four", 4), (u!"five", 5), (u!"six", 6), (u!"seven", 7), (u!"eight", 8), (u!"nine", 9)]
    direct := [(u!"ten", 10), (u!"eleven", 11), (u!"twelve", 12), (u!"thirteen", 13), (u!"fourteen", 14), (u!"fifteen", 15), (u!"sixteen", 16), (u!"seventeen", 17), (u!"eighteen", 18), (u!"nineteen", 19)]
    tens := [(u!"twenty", 20), (u!"thirty", 30), (u!"forty", 40), (u!"fifty", 50), (u!"sixty", 60), (u!"seventy", 70), (u!"eighty", 80), (u!"ninety", 90)]
    hundreds := []
    big := [(u!"hundred", 100), (u!"thousand", 1000), (u!"lakh", 100000), (u!"crore", 10000000), (u!"trillion", 1000000000000), (u!"quadrillion", 1000000000000000)] }
  skipTokens := []
  useLongScale := some false

/-- `number_parser_data/raw_cldr_translation_data/eo.json`, `SpelloutRules` -/
def eoRules : RuleSets := [
  (u!"%spellout-numbering-year", [(u!"x.x", u!"=0.0=;"),
    (u!"0", u!"=%spellout-numbering=;")]),
  (u!"%spellout-numbering", [(u!"0", u!"=%spellout-cardinal=;")]),
  (u!"%spellout-cardinal", [(u!"-x", u!"minus >>;"),
    (u!"x.x", u!"<< komo >>;"),
    (u!"0", u!"nulo;"),
    (u!"1", u!"unu;"),
    (u!"2", u!"du;"),
    (u!"3", u!"tri;"),
    (u!"4", u!"kvar;"),
    (u!"5", u!"kvin;"),
    (u!"6", u!"ses;"),
    (u!"7", u!"sep;"),
    (u!"8", u!"ok;"),
    (u!"9", u!"naŭ;"),
    (u!"10", u!"dek[ >>];"),
    (u!"20", u!"<<dek[ >>];"),
    (u!"100", u!"cent[ >>];"),
    (u!"200", u!"<<cent[ >>];"),
    (u!"1000", u!"mil[ >>];"),
    (u!"2000", u!"<< mil[ >>];"),
    (u!"1000000", u!"miliono[ >>];"),
    (u!"2000000", u!"<< milionoj[ >>];"),
    (u!"1000000000", u!"miliardo[ >>];"),
    (u!"2000000000", u!"<< miliardoj[ >>];"),
    (u!"1000000000000", u!"biliono[ >>];"),
    (u!"2000000000000", u!"<< bilionoj[ >>];"),
    (u!"1000000000000000", u!"biliardo[ >>];"),
    (u!"2000000000000000", u!"<< biliardoj[ >>];"),
    (u!"1000000000000000000", u!"=#,##0=;")]),
  (u!"%spellout-ordinal", [(u!"0", u!"=%spellout-cardinal=a;")])]

/-- `number_parser_data/supplementary_translation_data/eo.json` -/
def eoSupplementary : Supplementary where
  tables := {
    unit := []
    direct := []
    tens := []
    hundreds := []
    big := [] }
  skipTokens := []
  useLongScale := some true

/-- `number_parser/data/eo.py`, lines 1-26 -/
def eoModule : Output where
  tables := {
    unit := [(u!"nulo", 0), (u!"unu", 1), (u!"du", 2), (u!"tri", 3), (u!"kvar", 4), (u!"kvin", 5), (u!"ses", 6), (u!"sep", 7), (u!"ok", 8), (u!"naŭ", 9)]
    direct := []
    tens := []
    hundreds := []
    big := [(u!"mil", 1000), (u!"milionoj", 1000000), (u!"miliardoj", 1000000000), (u!"bilionoj", 1000000000000), (u!"biliardoj", 1000000000000000)] }
  skipTokens := []
  useLongScale := some true

/-- `number_parser_data/raw_cldr_translation_data/et.json`, `SpelloutRules` -/
def etRules : RuleSets := [
  (u!"%spellout-numbering-year", [(u!"-x", u!"miinus >>;"),
    (u!"x.x", u!"=0.0=;"),
    (u!"0", u!"=%spellout-numbering=;"),
    (u!"1100/100", u!"<< sada[ >>];"),
    (u!"10000", u!"=%spellout-numbering=;")]),
  (u!"%spellout-numbering", [(u!"0", u!"=%spellout-cardinal=;")]),
  (u!"%spellout-cardinal", [(u!"-x", u!"miinus >>;"),
    (u!"x.x", u!"<< koma >>;"),
    (u!"0", u!"null;"),
    (u!"1", u!"üks;"),
    (u!"2", u!"kaks;"),
    (u!"3", u!"kolm;"),
    (u!"4", u!"neli;"),
    (u!"5", u!"viis;"),
    (u!"6", u!"kuus;"),
    (u!"7", u!"seitse;"),
    (u!"8", u!"kaheksa;"),
    (u!"9", u!"üheksa;"),
    (u!"10", u!"kümme;"),
    (u!"11", u!">>teist;"),
    (u!"20", u!"<<kümmend[ >>];"),
    (u!"100", u!"<<sada[ >>];"),
    (u!"1000", u!"<< tuhat[ >>];"),
    (u!"1000000", u!"<< miljon[ >>];"),
    (u!"2000000", u!"<< miljonit[ >>];"),
    (u!"1000000000", u!"<< miljard[ >>];"),
    (u!"2000000000", u!"<< miljardit[ >>];"),
    (u!"1000000000000", u!"<< biljon[ >>];"),
    (u!"2000000000000", u!"<< biljonit[ >>];"),
    (u!"1000000000000000", u!"<< biljard[ >>];"),
    (u!"2000000000000000", u!"<< biljardit[ >>];"),
    (u!"1000000000000000000", u!"=#,##0=;")])]

/-- `number_parser_data/supplementary_translation_data/et.json` -/
def etSupplementary : Supplementary where
  tables := {
    unit := []
    direct := []
    tens := []
    hundreds := []
    big := [] }
  skipTokens := []
  useLongScale := some false

/-- `number_parser/data/et.py`, lines 1-32 -/
def etModule : Output where
  tables := {
    unit := [(u!"null", 0), (u!"üks", 1), (u!"kaks", 2), (u!"kolm", 3), (u!"neli", 4), (u!"viis", 5), (u!"kuus", 6), (u!"seitse", 7), (u!"kaheksa", 8), (u!"üheksa", 9)]
    direct := [(u!"kümme", 10)]
    tens := []
    hundreds := []
    big := [(u!"tuhat", 1000), (u!"miljon", 1000000), (u!"miljonit", 1000000), (u!"miljard", 1000000000), (u!"miljardit", 1000000000), (u!"biljon", 1000000000000), (u!"biljonit", 1000000000000), (u!"biljard", 1000000000000000), (u!"biljardit", 1000000000000000)] }
  skipTokens := []
  useLongScale := some false

/-- `number_parser_data/raw_cldr_translation_data/fa.json`, `SpelloutRules` -/
def faRules : RuleSets := [
  (u!"%spellout-numbering-year", [(u!"x.x", u!"=0.0=;"),
    (u!"0", u!"=%spellout-numbering=;")]),
  (u!"%spellout-numbering", [(u!"0", u!"=%spellout-cardinal=;")]),
  (u!"%spellout-cardinal", [(u!"-x", u!"منفی >>;"),
    (u!"x.x", u!"<< ممیز >>;"),
    (u!"0", u!"صفر;"),
    (u!"1", u!"یک;"),
    (u!"2", u!"دو;"),
    (u!"3", u!"سه;"),
    (u!"4", u!"چهار;"),
    (u!"5", u!"پنج;"),
    (u!"6", u!"شش;"),
    (u!"7", u!"هفت;"),
    (u!"8", u!"هشت;"),
    (u!"9", u!"نه;"),
    (u!"10", u!"ده;"),
    (u!"11", u!"یازده;"),
    (u!"12", u!"دوازده;"),
    (u!"13", u!"سیزده;"),
    (u!"14", u!"چهارده;"),
    (u!"15", u!"پانزده;"),
    (u!"16", u!"شانزده;"),
    (u!"17", u!"هفده;"),
    (u!"18", u!"هجده;"),
    (u!"19", u!"نوزده;"),
    (u!"20", u!"بیست[ و >>];"),
    (u!"30", u!"سی[ و >>];"),
    (u!"40", u!"چهل[ و >>];"),
    (u!"50", u!"پنجاه[ و >>];"),
    (u!"60", u!"شصت[ و >>];"),
    (u!"70", u!"هفتاد[ و >>];"),
    (u!"80", u!"هشتاد[ و >>];"),
    (u!"90", u!"نود[ و >>];"),
    (u!"100", u!"صد[ و >>];"),
    (u!"200", u!"دویست[ و >>];"),
    (u!"300", u!"سیصد[ و >>];"),
    (u!"400", u!"چهارصد[ و >>];"),
    (u!"500", u!"پانصد[ و >>];"),
    (u!"600", u!"ششصد[ و >>];"),
    (u!"700", u!"هفتصد[ و >>];"),
    (u!"800", u!"هشتصد[ و >>];"),
    (u!"900", u!"نهصد[ و >>];"),
    (u!"1000", u!"<< هزار[ و >>];"),
    (u!"1000000", u!"<< میلیون[ و >>];"),
    (u!"1000000000", u!"<< میلیارد[ و >>];"),
    (u!"1000000000000", u!"<< هزار میلیارد[ و >>];"),
    (u!"1000000000000000000", u!"=#,##0=;")])]

/-- `number_parser_data/supplementary_translation_data/fa.json` -/
def faSupplementary : Supplementary where
  tables := {
    unit := []
    direct := []
    tens := []
    hundreds := []
    big := [] }
  skipTokens := []
  useLongScale := some true

/-- `number_parser/data/fa.py`, lines 1-54 -/
def faModule : Output where
  tables := {
    unit := [(u!"صفر", 0), (u!"یک", 1), (u!"دو", 2), (u!"سه", 3), (u!"چهار", 4), (u!"پنج", 5), (u!"شش", 6), (u!"هفت", 7), (u!"هشت", 8), (u!"نه", 9)]
    direct := [(u!"ده", 10), (u!"یازده", 11), (u!"دوازده", 12), (u!"سیزده", 13), (u!"چهارده", 14), (u!"پانزده", 15), (u!"شانزده", 16), (u!"هفده", 17), (u!"هجده", 18), (u!"نوزده", 19)]
    tens := [(u!"بیست", 20), (u!"سی", 30), (u!"چهل", 40), (u!"پنجاه", 50), (u!"شصت", 60), (u!"هفتاد", 70), (u!"هشتاد", 80), (u!"نود", 90)]
    hundreds := [(u!"دویست", 200), (u!"سیصد", 300), (u!"چهارصد", 400), (u!"پانصد", 500), (u!"ششصد", 600), (u!"هفتصد", 700), (u!"هشتصد", 800), (u!"نهصد", 900)]
    big := [(u!"هزار", 1000), (u!"میلیون", 1000000), (u!"میلیارد", 1000000000), (u!"هزار میلیارد", 1000000000000)] }
  skipTokens := []
  useLongScale := some true

/-- `number_parser_data/raw_cldr_translation_data/fa-AF.json`, `SpelloutRules` -/
def fa_AFRules : RuleSets := [
  (u!"%spellout-numbering-year", [(u!"x.x", u!"=0.0=;"),
    (u!"0", u!"=%spellout-numbering=;")]),
  (u!"%spellout-numbering", [(u!"0", u!"=%spellout-cardinal=;")]),
  (u!"%spellout-cardinal", [(u!"-x", u!"منفی >>;"),
    (u!"x.x", u!"<< عشاریه >>;"),
    (u!"0", u!"صفر;"),
    (u!"1", u!"یک;"),
    (u!"2", u!"دو;"),
    (u!"3", u!"سه;"),
    (u!"4", u!"چهار;"),
    (u!"5", u!"پنج;"),
    (u!"6", u!"شش;"),
    (u!"7", u!"هفت;"),
    (u!"8", u!"هشت;"),
    (u!"9", u!"نه;"),
    (u!"10", u!"ده;"),
    (u!"11", u!"یازده;"),
    (u!"12", u!"دوازده;"),
    (u!"13", u!"سیزده;"),
    (u!"14", u!"چهارده;"),
    (u!"15", u!"پانزده;"),
    (u!"16", u!"شانزده;"),
    (u!"17", u!"هفده;"),
    (u!"18", u!"هجده;"),
    (u!"19", u!"نزده;"),
    (u!"20", u!"بیست[ و >>];"),
    (u!"30", u!"سی[ و >>];"),
    (u!"40", u!"چهل[ و >>];"),
    (u!"50", u!"پنجاه[ و >>];"),
    (u!"60", u!"شصت[ و >>];"),
    (u!"70", u!"هفتاد[ و >>];"),
    (u!"80", u!"هشتاد[ و >>];"),
    (u!"90", u!"نود[ و >>];"),
    (u!"100", u!"صد[ و >>];"),
    (u!"200", u!"<<صد[ و >>];"),
    (u!"300", u!"<<\u200cصد[ و >>];"),
    (u!"400", u!"<<صد[ و >>];"),
    (u!"1000", u!"<< هزار[ و >>];"),
    (u!"1000000", u!"<< میلیون[ و >>];"),
    (u!"1000000000", u!"<< میلیارد[ و >>];"),
    (u!"1000000000000", u!"<< بیلیون[ و >>];"),
    (u!"1000000000000000", u!"<< بیلیارد[ و >>];"),
    (u!"1000000000000000000", u!"=#,##0=;")])]

/-- `number_parser_data/supplementary_translation_data/fa-AF.json` -/
def fa_AFSupplementary : Supplementary where
  tables := {
    unit := []
    direct := []
    tens := []
    hundreds := []
    big := [] }
  skipTokens := []
  useLongScale := some false

/-- `number_parser/data/fa-AF.py`, lines 1-46 -/
def fa_AFModule : Output where
  tables := {
    unit := [(u!"صفر", 0), (u!"یک", 1), (u!"دو", 2), (u!"سه", 3), (u!"چهار", 4), (u!"پنج", 5), (u!"شش", 6), (u!"هفت", 7), (u!"هشت", 8), (u!"نه", 9)]
    direct := [(u!"ده", 10), (u!"یازده", 11), (u!"دوازده", 12), (u!"سیزده", 13), (u!"چهارده", 14), (u!"پانزده", 15), (u!"شانزده", 16), (u!"هفده", 17), (u!"هجده", 18), (u!"نزده", 19)]
    tens := [(u!"بیست", 20), (u!"سی", 30), (u!"چهل", 40), (u!"پنجاه", 50), (u!"شصت", 60), (u!"هفتاد", 70), (u!"هشتاد", 80), (u!"نود", 90)]
    hundreds := []
    big := [(u!"هزار", 1000), (u!"میلیون", 1000000), (u!"میلیارد", 1000000000), (u!"بیلیون", 1000000000000), (u!"بیلیارد", 1000000000000000)] }
  skipTokens := []
  useLongScale := some false

/-- `number_parser_data/raw_cldr_translation_data/ff.json`, `SpelloutRules` -/
def ffRules : RuleSets := [
  (u!"%spellout-numbering-year", [(u!"x.x", u!"=0.0=;"),
    (u!"0", u!"=%spellout-numbering=;")]),
  (u!"%spellout-numbering", [(u!"0", u!"=%spellout-cardinal=;")]),
  (u!"%spellout-cardinal", [(u!"NaN", u!"alaa limoore;"),
    (u!"Inf", u!"infinity;"),
    (u!"-x", u!"minus >>;"),
    (u!"x.x", u!"<< poofirgel >>;"),
    (u!"0", u!"ɓolum;"),
    (u!"1", u!"goʼo;"),
    (u!"2", u!"ɗiɗi;"),
    (u!"3", u!"tati;"),
    (u!"4", u!"nawi;"),
    (u!"5", u!"jowi;"),
    (u!"6", u!"jeegoʼo;"),
    (u!"7", u!"jeeɗiɗi;"),
    (u!"8", u!"jeetati;"),
    (u!"9", u!"jeenawi;"),
    (u!"10", u!"sappo[ e >>];"),
    (u!"20", u!"noogas[ e >>];"),
    (u!"30", u!"cepanze <<[ e >>];"),
    (u!"100", u!"temedere <<[ e >>];"),
    (u!"1000", u!"ujunere <<[ e >>];"),
    (u!"1000000", u!"miliyo <<[, >>];"),
    (u!"1000000000", u!"miliyaari <<[, >>];"),
    (u!"1000000000000", u!"biliyo <<[, >>];"),
    (u!"1000000000000000", u!"biliyaari <<[, >>];"),
    (u!"1000000000000000000", u!"=#,##0=;")]),
  (u!"%spellout-cardinal-class-o", [(u!"NaN", u!"alaa limoore;"),
    (u!"Inf", u!"infinity;"),
    (u!"-x", u!"minus >>;"),
    (u!"x.x", u!"<< poofirgel >>;"),
    (u!"0", u!"ɓolum;"),
    (u!"1", u!"gooto;"),
    (u!"2", u!"ɗiɗo;"),
    (u!"3", u!"tato;"),
    (u!"4", u!"nawo;"),
    (u!"5", u!"njowo;"),
    (u!"6", u!"jeegomo;"),
    (u!"7", u!"jeeɗiɗo;"),
    (u!"8", u!"jeetato;"),
    (u!"9", u!"jeenawo;"),
    (u!"10", u!"sappo[ e >>];"),
    (u!"20", u!"noogas[ e >>];"),
    (u!"30", u!"cepanze <<[ e >>];"),
    (u!"100", u!"temedere <<[ e >>];"),
    (u!"1000", u!"ujunere <<[ e >>];"),
    (u!"1000000", u!"miliyo <<[, >>];"),
    (u!"1000000000", u!"miliyaari <<[, >>];"),
    (u!"1000000000000", u!"biliyo <<[, >>];"),
    (u!"1000000000000000", u!"biliyaari <<[, >>];"),
    (u!"1000000000000000000", u!"=#,##0=;")]),
  (u!"%spellout-ordinal", [(u!"NaN", u!"alaa limoore;"),
    (u!"Inf", u!"infinity;"),
    (u!"-x", u!"minus >>;"),
    (u!"x.x", u!"=#,##0.0=;"),
    (u!"0", u!"ɓolum;"),
    (u!"1", u!"arande;"),
    (u!"2", u!"ɗiɗaɓo;"),
    (u!"3", u!"tatiaɓo;"),
    (u!"4", u!"nawaɓo;"),
    (u!"5", u!"jowaɓo;"),
    (u!"6", u!"jeearande;"),
    (u!"7", u!"jeeɗiɗaɓo;"),
    (u!"8", u!"jeetataɓo;"),
    (u!"9", u!"jeenawaɓo;"),
    (u!"10", u!"sappo[ e >>];"),
    (u!"20", u!"noogas[ e >>];"),
    (u!"30", u!"cepanze <<[ e >>];"),
    (u!"100", u!"temedere <<[ e >>];"),
    (u!"1000", u!"ujunere <<[ e >>];"),
    (u!"1000000", u!"miliyo <<[, >>];"),
    (u!"1000000000", u!"miliyaari <<[, >>];"),
    (u!"1000000000000", u!"biliyo <<[, >>];"),
    (u!"1000000000000000", u!"biliyaari <<[, >>];"),
    (u!"1000000000000000000", u!"=#,##0=;")])]

/-- `number_parser_data/supplementary_translation_data/ff.json` -/
def ffSupplementary : Supplementary where
  tables := {
    unit := []
    direct := []
    tens := []
    hundreds := []
    big := [] }
  skipTokens := []
  useLongScale := some false

/-- `number_parser/data/ff.py`, lines 1-31 -/
def ffModule : Output where
  tables := {
    unit := [(u!"ɓolum", 0), (u!"gooto", 1), (u!"goʼo", 1), (u!"ɗiɗi", 2), (u!"ɗiɗo", 2), (u!"tati", 3), (u!"tato", 3), (u!"nawi", 4), (u!"nawo", 4), (u!"jowi", 5), (u!"njowo", 5), (u!"jeegomo", 6), (u!"jeegoʼo", 6), (u!"jeeɗiɗi", 7), (u!"jeeɗiɗo", 7), (u!"jeetati", 8), (u!"jeetato", 8), (u!"jeenawi", 9), (u!"jeenawo", 9)]
    direct := []
    tens := [(u!"noogas", 20)]
    hundreds := []
    big := [] }
  skipTokens := []
  useLongScale := some false

/-- `number_parser_data/raw_cldr_translation_data/fi.json`, `SpelloutRules` -/
def fiRules : RuleSets := [
  (u!"%spellout-numbering-year", [(u!"-x", u!"miinus >>;"),
    (u!"x.x", u!"=0.0=;"),
    (u!"0", u!"=%spellout-numbering=;")]),
  (u!"%spellout-numbering", [(u!"0", u!"=%spellout-cardinal=;")]),
  (u!"%spellout-cardinal", [(u!"-x", u!"miinus >>;"),
    (u!"x.x", u!"<< pilkku >>;"),
    (u!"0", u!"nolla;"),
    (u!"1", u!"yksi;"),
    (u!"2", u!"kaksi;"),
    (u!"3", u!"kolme;"),
    (u!"4", u!"neljä;"),
    (u!"5", u!"viisi;"),
    (u!"6", u!"kuusi;"),
    (u!"7", u!"seitsemän;"),
    (u!"8", u!"kahdeksan;"),
    (u!"9", u!"yhdeksän;"),
    (u!"10", u!"kymmenen;"),
    (u!"11", u!">>toista;"),
    (u!"20", u!"<<\u00adkymmentä[\u00ad>>];"),
    (u!"100", u!"sata[\u00ad>>];"),
    (u!"200", u!"<<\u00adsataa[\u00ad>>];"),
    (u!"1000", u!"tuhat[\u00ad>>];"),
    (u!"2000", u!"<<\u00adtuhatta[\u00ad>>];"),
    (u!"1000000", u!"<< miljoona[ >>];"),
    (u!"2000000", u!"<< miljoonaa[ >>];"),
    (u!"1000000000", u!"<< miljardi[ >>];"),
    (u!"2000000000", u!"<< miljardia[ >>];"),
    (u!"1000000000000", u!"<< biljoona[ >>];"),
    (u!"2000000000000", u!"<< biljoonaa[ >>];"),
    (u!"1000000000000000000", u!"=#,##0=;")]),
  (u!"%spellout-cardinal-genitive", [(u!"-x", u!"miinus >>;"),
    (u!"x.x", u!"<< pilkku >>;"),
    (u!"0", u!"nollan;"),
    (u!"1", u!"yhden;"),
    (u!"2", u!"kahden;"),
    (u!"3", u!"kolmen;"),
    (u!"4", u!"neljän;"),
    (u!"5", u!"viiden;"),
    (u!"6", u!"kuuden;"),
    (u!"7", u!"seitsemän;"),
    (u!"8", u!"kahdeksan;"),
    (u!"9", u!"yhdeksän;"),
    (u!"10", u!"kymmenen;"),
    (u!"11", u!">>toista;"),
    (u!"20", u!"<<\u00adkymmenen[\u00ad>>];"),
    (u!"100", u!"sadan[\u00ad>>];"),
    (u!"200", u!"<<\u00adsadan[\u00ad>>];"),
    (u!"1000", u!"tuhannen[\u00ad>>];"),
    (u!"2000", u!"<<\u00adtuhannen[\u00ad>>];"),
    (u!"1000000", u!"<< miljoonan[ >>];"),
    (u!"2000000", u!"<< miljoonan[ >>];"),
    (u!"1000000000", u!"<< miljardin[ >>];"),
    (u!"2000000000", u!"<< miljardin[ >>];"),
    (u!"1000000000000", u!"<< biljoonan[ >>];"),
    (u!"2000000000000", u!"<< biljoonan[ >>];"),
    (u!"1000000000000000000", u!"=#,##0=;")]),
  (u!"%spellout-cardinal-partitive", [(u!"-x", u!"miinus >>;"),
    (u!"x.x", u!"<< pilkku >>;"),
    (u!"0", u!"nollaa;"),
    (u!"1", u!"yhtä;"),
    (u!"2", u!"kahta;"),
    (u!"3", u!"kolmea;"),
    (u!"4", u!"neljää;"),
    (u!"5", u!"viittä;"),
    (u!"6", u!"kuutta;"),
    (u!"7", u!"seitsemää;"),
    (u!"8", u!"kahdeksaa;"),
    (u!"9", u!"yhdeksää;"),
    (u!"10", u!"kymmentä;"),
    (u!"11", u!">>toista;"),
    (u!"20", u!"<<\u00adkymmentä[\u00ad>>];"),
    (u!"100", u!"sataa[\u00ad>>];"),
    (u!"200", u!"<<\u00adsataa[\u00ad>>];"),
    (u!"1000", u!"tuhatta[\u00ad>>];"),
    (u!"2000", u!"<<\u00adtuhatta[\u00ad>>];"),
    (u!"1000000", u!"<< miljoonaa[ >>];"),
    (u!"2000000", u!"<< miljoonaa[ >>];"),
    (u!"1000000000", u!"<< miljardia[ >>];"),
    (u!"2000000000", u!"<< miljardia[ >>];"),
    (u!"1000000000000", u!"<< biljoonaa[ >>];"),
    (u!"2000000000000", u!"<< biljoonaa[ >>];"),
    (u!"1000000000000000000", u!"=#,##0=;")]),
  (u!"%spellout-cardinal-essive", [(u!"-x", u!"miinus >>;"),
    (u!"x.x", u!"<< pilkku >>;"),
    (u!"0", u!"nollana;"),
    (u!"1", u!"yhtenä;"),
    (u!"2", u!"kahtena;"),
    (u!"3", u!"kolmena;"),
    (u!"4", u!"neljänä;"),
    (u!"5", u!"viitenä;"),
    (u!"6", u!"kuutena;"),
    (u!"7", u!"seitsemänä;"),
    (u!"8", u!"kahdeksana;"),
    (u!"9", u!"yhdeksänä;"),
    (u!"10", u!"kymmenenä;"),
    (u!"11", u!">>toista;"),
    (u!"20", u!"<<\u00adkymmenenä[\u00ad>>];"),
    (u!"100", u!"satana[\u00ad>>];"),
    (u!"200", u!"<<\u00adsatana[\u00ad>>];"),
    (u!"1000", u!"tuhantena[\u00ad>>];"),
    (u!"2000", u!"<<\u00adtuhantena[\u00ad>>];"),
    (u!"1000000", u!"<< miljoonana[ >>];"),
    (u!"2000000", u!"<< miljoonana[ >>];"),
    (u!"1000000000", u!"<< miljardina[ >>];"),
    (u!"2000000000", u!"<< miljardina[ >>];"),
    (u!"1000000000000", u!"<< biljoonana[ >>];"),
    (u!"2000000000000", u!"<< biljoonana[ >>];"),
    (u!"1000000000000000000", u!"=#,##0=;")]),
  (u!"%spellout-cardinal-translative", [(u!"-x", u!"miinus >>;"),
    (u!"x.x", u!"<< pilkku >>;"),
    (u!"0", u!"nollaksi;"),
    (u!"1", u!"yhdeksi;"),
    (u!"2", u!"kahdeksi;"),
    (u!"3", u!"kolmeksi;"),
    (u!"4", u!"neljäksi;"),
    (u!"5", u!"viideksi;"),
    (u!"6", u!"kuudeksi;"),
    (u!"7", u!"seitsemäksi;"),
    (u!"8", u!"kahdeksaksi;"),
    (u!"9", u!"yhdeksäksi;"),
    (u!"10", u!"kymmeneksi;"),
    (u!"11", u!">>toista;"),
    (u!"20", u!"<<\u00adkymmeneksi[\u00ad>>];"),
    (u!"100", u!"sadaksi[\u00ad>>];"),
    (u!"200", u!"<<\u00adsadaksi[\u00ad>>];"),
    (u!"1000", u!"tuhanneksi[\u00ad>>];"),
    (u!"2000", u!"<<\u00adtuhanneksi[\u00ad>>];"),
    (u!"1000000", u!"<< miljoonaksi[ >>];"),
    (u!"2000000", u!"<< miljoonaksi[ >>];"),
    (u!"1000000000", u!"<< miljardiksi[ >>];"),
    (u!"2000000000", u!"<< miljardiksi[ >>];"),
    (u!"1000000000000", u!"<< biljoonaksi[ >>];"),
    (u!"2000000000000", u!"<< biljoonaksi[ >>];"),
    (u!"1000000000000000000", u!"=#,##0=;")]),
  (u!"%spellout-cardinal-inessive", [(u!"-x", u!"miinus >>;"),
    (u!"x.x", u!"<< pilkku >>;"),
    (u!"0", u!"nollassa;"),
    (u!"1", u!"yhdessä;"),
    (u!"2", u!"kahdessa;"),
    (u!"3", u!"kolmessa;"),
    (u!"4", u!"neljässä;"),
    (u!"5", u!"viidessä;"),
    (u!"6", u!"kuudessa;"),
    (u!"7", u!"seitsemässä;"),
    (u!"8", u!"kahdeksassa;"),
    (u!"9", u!"yhdeksässä;"),
    (u!"10", u!"kymmenessä;"),
    (u!"11", u!">>toista;"),
    (u!"20", u!"<<\u00adkymmenessä[\u00ad>>];"),
    (u!"100", u!"sadassa[\u00ad>>];"),
    (u!"200", u!"<<\u00adsadassa[\u00ad>>];"),
    (u!"1000", u!"tuhannessa[\u00ad>>];"),
    (u!"2000", u!"<<\u00adtuhannessa[\u00ad>>];"),
    (u!"1000000", u!"<< miljoonassa[ >>];"),
    (u!"2000000", u!"<< miljoonassa[ >>];"),
    (u!"1000000000", u!"<< miljardissa[ >>];"),
    (u!"2000000000", u!"<< miljardissa[ >>];"),
    (u!"1000000000000", u!"<< biljoonassa[ >>];"),
    (u!"2000000000000", u!"<< biljoonassa[ >>];"),
    (u!"1000000000000000000", u!"=#,##0=;")]),
  (u!"%spellout-cardinal-elative", [(u!"-x", u!"miinus >>;"),
    (u!"x.x", u!"<< pilkku >>;"),
    (u!"0", u!"nollasta;"),
    (u!"1", u!"yhdestä;"),
    (u!"2", u!"kahdesta;"),
    (u!"3", u!"kolmesta;"),
    (u!"4", u!"neljästä;"),
    (u!"5", u!"viidestä;"),
    (u!"6", u!"kuudesta;"),
    (u!"7", u!"seitsemästä;"),
    (u!"8", u!"kahdeksasta;"),
    (u!"9", u!"yhdeksästä;"),
    (u!"10", u!"kymmenestä;"),
    (u!"11", u!">>toista;"),
    (u!"20", u!"<<\u00adkymmenestä[\u00ad>>];"),
    (u!"100", u!"sadasta[\u00ad>>];"),
    (u!"200", u!"<<\u00adsadasta[\u00ad>>];"),
    (u!"1000", u!"tuhannesta[\u00ad>>];"),
    (u!"2000", u!"<<\u00adtuhannesta[\u00ad>>];"),
    (u!"1000000", u!"<< miljoonasta[ >>];"),
    (u!"2000000", u!"<< miljoonasta[ >>];"),
    (u!"1000000000", u!"<< miljardista[ >>];"),
    (u!"2000000000", u!"<< miljardista[ >>];"),
    (u!"1000000000000", u!"<< biljoonasta[ >>];"),
    (u!"2000000000000", u!"<< biljoonasta[ >>];"),
    (u!"1000000000000000000", u!"=#,##0=;")]),
  (u!"%spellout-cardinal-illative", [(u!"-x", u!"miinus >>;"),
    (u!"x.x", u!"<< pilkku >>;"),
    (u!"0", u!"nollaan;"),
    (u!"1", u!"yhteen;"),
    (u!"2", u!"kahteen;"),
    (u!"3", u!"kolmeen;"),
    (u!"4", u!"neljään;"),
    (u!"5", u!"viiteen;"),
    (u!"6", u!"kuuteen;"),
    (u!"7", u!"seitsemään;"),
    (u!"8", u!"kahdeksaan;"),
    (u!"9", u!"yhdeksään;"),
    (u!"10", u!"kymmeneen;"),
    (u!"11", u!">>toista;"),
    (u!"20", u!"<<\u00adkymmeneen[\u00ad>>];"),
    (u!"100", u!"sataan[\u00ad>>];"),
    (u!"200", u!"<<\u00adsataan[\u00ad>>];"),
    (u!"1000", u!"tuhanteen[\u00ad>>];"),
    (u!"2000", u!"<<\u00adtuhanteen[\u00ad>>];"),
    (u!"1000000", u!"<< miljoonaan[ >>];"),
    (u!"2000000", u!"<< miljoonaan[ >>];"),
    (u!"1000000000", u!"<< miljardiin[ >>];"),
    (u!"2000000000", u!"<< miljardiin[ >>];"),
    (u!"1000000000000", u!"<< biljoonaan[ >>];"),
    (u!"2000000000000", u!"<< biljoonaan[ >>];"),
    (u!"1000000000000000000", u!"=#,##0=;")]),
  (u!"%spellout-cardinal-adessive", [(u!"-x", u!"miinus >>;"),
    (u!"x.x", u!"<< pilkku >>;"),
    (u!"0", u!"nollalla;"),
    (u!"1", u!"yhdellä;"),
    (u!"2", u!"kahdella;"),
    (u!"3", u!"kolmella;"),
    (u!"4", u!"neljällä;"),
    (u!"5", u!"viidellä;"),
    (u!"6", u!"kuudella;"),
    (u!"7", u!"seitsemällä;"),
    (u!"8", u!"kahdeksalla;"),
    (u!"9", u!"yhdeksällä;"),
    (u!"10", u!"kymmenellä;"),
    (u!"11", u!">>toista;"),
    (u!"20", u!"<<\u00adkymmenellä[\u00ad>>];"),
    (u!"100", u!"sadalla[\u00ad>>];"),
    (u!"200", u!"<<\u00adsadalla[\u00ad>>];"),
    (u!"1000", u!"tuhannella[\u00ad>>];"),
    (u!"2000", u!"<<\u00adtuhannella[\u00ad>>];"),
    (u!"1000000", u!"<< miljoonalla[ >>];"),
    (u!"2000000", u!"<< miljoonalla[ >>];"),
    (u!"1000000000", u!"<< miljardilla[ >>];"),
    (u!"2000000000", u!"<< miljardilla[ >>];"),
    (u!"1000000000000", u!"<< biljoonalla[ >>];"),
    (u!"2000000000000", u!"<< biljoonalla[ >>];"),
    (u!"1000000000000000000", u!"=#,##0=;")]),
  (u!"%spellout-cardinal-ablative", [(u!"-x", u!"miinus >>;"),
    (u!"x.x", u!"<< pilkku >>;"),
    (u!"0", u!"nollalta;"),
    (u!"1", u!"yhdeltä;"),
    (u!"2", u!"kahdelta;"),
    (u!"3", u!"kolmelta;"),
    (u!"4", u!"neljältä;"),
    (u!"5", u!"viideltä;"),
    (u!"6", u!"kuudelta;"),
    (u!"7", u!"seitsemältä;"),
    (u!"8", u!"kahdeksalta;"),
    (u!"9", u!"yhdeksältä;"),
    (u!"10", u!"kymmeneltä;"),
    (u!"11", u!">>toista;"),
    (u!"20", u!"<<\u00adkymmeneltä[\u00ad>>];"),
    (u!"100", u!"sadalta[\u00ad>>];"),
    (u!"200", u!"<<\u00adsadalta[\u00ad>>];"),
    (u!"1000", u!"tuhannelta[\u00ad>>];"),
    (u!"2000", u!"<<\u00adtuhannelta[\u00ad>>];"),
    (u!"1000000", u!"<< miljoonalta[ >>];"),
    (u!"2000000", u!"<< miljoonalta[ >>];"),
    (u!"1000000000", u!"<< miljardilta[ >>];"),
    (u!"2000000000", u!"<< miljardilta[ >>];"),
    (u!"1000000000000", u!"<< biljoonalta[ >>];"),
    (u!"2000000000000", u!"<< biljoonalta[ >>];"),
    (u!"1000000000000000000", u!"=#,##0=;")]),
  (u!"%spellout-cardinal-allative", [(u!"-x", u!"miinus >>;"),
    (u!"x.x", u!"<< pilkku >>;"),
    (u!"0", u!"nollalle;"),
    (u!"1", u!"yhdelle;"),
    (u!"2", u!"kahdelle;"),
    (u!"3", u!"kolmelle;"),
    (u!"4", u!"neljälle;"),
    (u!"5", u!"viidelle;"),
    (u!"6", u!"kuudelle;"),
    (u!"7", u!"seitsemälle;"),
    (u!"8", u!"kahdeksalle;"),
    (u!"9", u!"yhdeksälle;"),
    (u!"10", u!"kymmenelle;"),
    (u!"11", u!">>toista;"),
    (u!"20", u!"<<\u00adkymmenelle[\u00ad>>];"),
    (u!"100", u!"sadalle[\u00ad>>];"),
    (u!"200", u!"<<\u00adsadalle[\u00ad>>];"),
    (u!"1000", u!"tuhannelle[\u00ad>>];"),
    (u!"2000", u!"<<\u00adtuhannelle[\u00ad>>];"),
    (u!"1000000", u!"<< miljoonalle[ >>];"),
    (u!"2000000", u!"<< miljoonalle[ >>];"),
    (u!"1000000000", u!"<< miljardille[ >>];"),
    (u!"2000000000", u!"<< miljardille[ >>];"),
    (u!"1000000000000", u!"<< biljoonalle[ >>];"),
    (u!"2000000000000", u!"<< biljoonalle[ >>];"),
    (u!"1000000000000000000", u!"=#,##0=;")]),
  (u!"%spellout-cardinal-genitive-plural", [(u!"-x", u!"miinus >>;"),
    (u!"x.x", u!"<< pilkku >>;"),
    (u!"0", u!"nollien;"),
    (u!"1", u!"yksien;"),
    (u!"2", u!"kaksien;"),
    (u!"3", u!"kolmien;"),
    (u!"4", u!"neljien;"),
    (u!"5", u!"viisien;"),
    (u!"6", u!"kuusien;"),
    (u!"7", u!"seitsemien;"),
    (u!"8", u!"kahdeksien;"),
    (u!"9", u!"yhdeksien;"),
    (u!"10", u!"kymmenien;"),
    (u!"11", u!">>toista;"),
    (u!"20", u!"<<\u00adkymmenien[\u00ad>>];"),
    (u!"100", u!"satojen[\u00ad>>];"),
    (u!"200", u!"<<\u00adsatojen[\u00ad>>];"),
    (u!"1000", u!"tuhansien[\u00ad>>];"),
    (u!"2000", u!"<<\u00adtuhansien[\u00ad>>];"),
    (u!"1000000", u!"<< miljoonien[ >>];"),
    (u!"2000000", u!"<< miljoonien[ >>];"),
    (u!"1000000000", u!"<< miljardien[ >>];"),
    (u!"2000000000", u!"<< miljardien[ >>];"),
    (u!"1000000000000", u!"<< biljoonien[ >>];"),
    (u!"2000000000000", u!"<< biljoonien[ >>];"),
    (u!"1000000000000000000", u!"=#,##0=;")]),
  (u!"%spellout-cardinal-partitive-plural", [(u!"-x", u!"miinus >>;"),
    (u!"x.x", u!"<< pilkku >>;"),
    (u!"0", u!"nollia;"),
    (u!"1", u!"yksiä;"),
    (u!"2", u!"kaksia;"),
    (u!"3", u!"kolmia;"),
    (u!"4", u!"neljiä;"),
    (u!"5", u!"viisiä;"),
    (u!"6", u!"kuusia;"),
    (u!"7", u!"seitsemiä;"),
    (u!"8", u!"kahdeksia;"),
    (u!"9", u!"yhdeksiä;"),
    (u!"10", u!"kymmeniä;"),
    (u!"11", u!">>toista;"),
    (u!"20", u!"<<\u00adkymmeniä[\u00ad>>];"),
    (u!"100", u!"satoja[\u00ad>>];"),
    (u!"200", u!"<<\u00adsatoja[\u00ad>>];"),
    (u!"1000", u!"tuhansia[\u00ad>>];"),
    (u!"2000", u!"<<\u00adtuhansia[\u00ad>>];"),
    (u!"1000000", u!"<< miljoonia[ >>];"),
    (u!"2000000", u!"<< miljoonia[ >>];"),
    (u!"1000000000", u!"<< miljardeja[ >>];"),
    (u!"2000000000", u!"<< miljardeja[ >>];"),
    (u!"1000000000000", u!"<< biljoonia[ >>];"),
    (u!"2000000000000", u!"<< biljoonia[ >>];"),
    (u!"1000000000000000000", u!"=#,##0=;")]),
  (u!"%spellout-cardinal-essive-plural", [(u!"-x", u!"miinus >>;"),
    (u!"x.x", u!"<< pilkku >>;"),
    (u!"0", u!"nollina;"),
    (u!"1", u!"yksinä;"),
    (u!"2", u!"kaksina;"),
    (u!"3", u!"kolmina;"),
    (u!"4", u!"neljinä;"),
    (u!"5", u!"viisinä;"),
    (u!"6", u!"kuusina;"),
    (u!"7", u!"seitseminä;"),
    (u!"8", u!"kahdeksina;"),
    (u!"9", u!"yhdeksinä;"),
    (u!"10", u!"kymmeninä;"),
    (u!"11", u!">>toista;"),
    (u!"20", u!"<<\u00adkymmeninä[\u00ad>>];"),
    (u!"100", u!"satoina[\u00ad>>];"),
    (u!"200", u!"<<\u00adsatoina[\u00ad>>];"),
    (u!"1000", u!"tuhansina[\u00ad>>];"),
    (u!"2000", u!"<<\u00adtuhansina[\u00ad>>];"),
    (u!"1000000", u!"<< miljoonina[ >>];"),
    (u!"2000000", u!"<< miljoonina[ >>];"),
    (u!"1000000000", u!"<< miljardeina[ >>];"),
    (u!"2000000000", u!"<< miljardeina[ >>];"),
    (u!"1000000000000", u!"<< biljoonina[ >>];"),
    (u!"2000000000000", u!"<< biljoonina[ >>];"),
    (u!"1000000000000000000", u!"=#,##0=;")]),
  (u!"%spellout-cardinal-translative-plural", [(u!"-x", u!"miinus >>;"),
    (u!"x.x", u!"<< pilkku >>;"),
    (u!"0", u!"nolliksi;"),
    (u!"1", u!"yksiksi;"),
    (u!"2", u!"kaksiksi;"),
    (u!"3", u!"kolmiksi;"),
    (u!"4", u!"neljiksi;"),
    (u!"5", u!"viisiksi;"),
    (u!"6", u!"kuusiksi;"),
    (u!"7", u!"seitsemiksi;"),
    (u!"8", u!"kahdeksiksi;"),
    (u!"9", u!"yhdeksiksi;"),
    (u!"10", u!"kymmeniksi;"),
    (u!"11", u!">>toista;"),
    (u!"20", u!"<<\u00adkymmeniksi[\u00ad>>];"),
    (u!"100", u!"sadoiksi[\u00ad>>];"),
    (u!"200", u!"<<\u00adsadoiksi[\u00ad>>];"),
    (u!"1000", u!"tuhansiksi[\u00ad>>];"),
    (u!"2000", u!"<<\u00adtuhansiksi[\u00ad>>];"),
    (u!"1000000", u!"<< miljooniksi[ >>];"),
    (u!"2000000", u!"<< miljooniksi[ >>];"),
    (u!"1000000000", u!"<< miljardeiksi[ >>];"),
    (u!"2000000000", u!"<< miljardeiksi[ >>];"),
    (u!"1000000000000", u!"<< biljooniksi[ >>];"),
    (u!"2000000000000", u!"<< biljooniksi[ >>];"),
    (u!"1000000000000000000", u!"=#,##0=;")]),
  (u!"%spellout-cardinal-inessive-plural", [(u!"-x", u!"miinus >>;"),
    (u!"x.x", u!"<< pilkku >>;"),
    (u!"0", u!"nollissa;"),
    (u!"1", u!"yksissä;"),
    (u!"2", u!"kaksissa;"),
    (u!"3", u!"kolmissa;"),
    (u!"4", u!"neljissä;"),
    (u!"5", u!"viisissä;"),
    (u!"6", u!"kuusissa;"),
    (u!"7", u!"seitsemissä;"),
    (u!"8", u!"kahdeksissa;"),
    (u!"9", u!"yhdeksissä;"),
    (u!"10", u!"kymmenissä;"),
    (u!"11", u!">>toista;"),
    (u!"20", u!"<<\u00adkymmenissä[\u00ad>>];"),
    (u!"100", u!"sadoissa[\u00ad>>];"),
    (u!"200", u!"<<\u00adsadoissa[\u00ad>>];"),
    (u!"1000", u!"tuhansissa[\u00ad>>];"),
    (u!"2000", u!"<<\u00adtuhansissa[\u00ad>>];"),
    (u!"1000000", u!"<< miljoonissa[ >>];"),
    (u!"2000000", u!"<< miljoonissa[ >>];"),
    (u!"1000000000", u!"<< miljardeissa[ >>];"),
    (u!"2000000000", u!"<< miljardeissa[ >>];"),
    (u!"1000000000000", u!"<< biljoonissa[ >>];"),
    (u!"2000000000000", u!"<< biljoonissa[ >>];"),
    (u!"1000000000000000000", u!"=#,##0=;")]),
  (u!"%spellout-cardinal-elative-plural", [(u!"-x", u!"miinus >>;"),
    (u!"x.x", u!"<< pilkku >>;"),
    (u!"0", u!"nollista;"),
    (u!"1", u!"yksistä;"),
    (u!"2", u!"kaksista;"),
    (u!"3", u!"kolmista;"),
    (u!"4", u!"neljistä;"),
    (u!"5", u!"viisistä;"),
    (u!"6", u!"kuusista;"),
    (u!"7", u!"seitsemistä;"),
    (u!"8", u!"kahdeksista;"),
    (u!"9", u!"yhdeksistä;"),
    (u!"10", u!"kymmenistä;"),
    (u!"11", u!">>toista;"),
    (u!"20", u!"<<\u00adkymmenistä[\u00ad>>];"),
    (u!"100", u!"sadoista[\u00ad>>];"),
    (u!"200", u!"<<\u00adsadoista[\u00ad>>];"),
    (u!"1000", u!"tuhansista[\u00ad>>];"),
    (u!"2000", u!"<<\u00adtuhansista[\u00ad>>];"),
    (u!"1000000", u!"<< miljoonista[ >>];"),
    (u!"2000000", u!"<< miljoonista[ >>];"),
    (u!"1000000000", u!"<< miljardeista[ >>];"),
    (u!"2000000000", u!"<< miljardeista[ >>];"),
    (u!"1000000000000", u!"<< biljoonista[ >>];"),
    (u!"2000000000000", u!"<< biljoonista[ >>];"),
    (u!"1000000000000000000", u!"=#,##0=;")]),
  (u!"%spellout-cardinal-illative-plural", [(u!"-x", u!"miinus >>;"),
    (u!"x.x", u!"<< pilkku >>;"),
    (u!"0", u!"nolliin;"),
    (u!"1", u!"yksiin;"),
    (u!"2", u!"kaksiin;"),
    (u!"3", u!"kolmiin;"),
    (u!"4", u!"neljiin;"),
    (u!"5", u!"viisiin;"),
    (u!"6", u!"kuusiin;"),
    (u!"7", u!"seitsemiin;"),
    (u!"8", u!"kahdeksiin;"),
    (u!"9", u!"yhdeksiin;"),
    (u!"10", u!"kymmeniin;"),
    (u!"11", u!">>toista;"),
    (u!"20", u!"<<\u00adkymmeniin[\u00ad>>];"),
    (u!"100", u!"satoihin[\u00ad>>];"),
    (u!"200", u!"<<\u00adsatoihin[\u00ad>>];"),
    (u!"1000", u!"tuhansiin\u00ad[\u00ad>>];"),
    (u!"2000", u!"<<\u00adtuhansiin\u00ad[\u00ad>>];"),
    (u!"1000000", u!"<< miljooniin[ >>];"),
    (u!"2000000", u!"<< miljooniin[ >>];"),
    (u!"1000000000", u!"<< miljardeihin[ >>];"),
    (u!"2000000000", u!"<< miljardeihin[ >>];"),
    (u!"1000000000000", u!"<< biljooniin[ >>];"),
    (u!"2000000000000", u!"<< biljooniin[ >>];"),
    (u!"1000000000000000000", u!"=#,##0=;")]),
  (u!"%spellout-cardinal-adessive-plural", [(u!"-x", u!"miinus >>;"),
    (u!"x.x", u!"<< pilkku >>;"),
    (u!"0", u!"nollilla;"),
    (u!"1", u!"yksillä;"),
    (u!"2", u!"kaksilla;"),
    (u!"3", u!"kolmilla;"),
    (u!"4", u!"neljillä;"),
    (u!"5", u!"viisillä;"),
    (u!"6", u!"kuusilla;"),
    (u!"7", u!"seitsemillä;"),
    (u!"8", u!"kahdeksilla;"),
    (u!"9", u!"yhdeksillä;"),
    (u!"10", u!"kymmenillä;"),
    (u!"11", u!">>toista;"),
    (u!"20", u!"<<\u00adkymmenillä[\u00ad>>];"),
    (u!"100", u!"sadoilla[\u00ad>>];"),
    (u!"200", u!"<<\u00adsadoilla[\u00ad>>];"),
    (u!"1000", u!"tuhansilla\u00ad[\u00ad>>];"),
    (u!"2000", u!"<<\u00adtuhansilla[\u00ad>>];"),
    (u!"1000000", u!"<< miljoonilla[ >>];"),
    (u!"2000000", u!"<< miljoonilla[ >>];"),
    (u!"1000000000", u!"<< miljardeilla[ >>];"),
    (u!"2000000000", u!"<< miljardeilla[ >>];"),
    (u!"1000000000000", u!"<< biljoonilla[ >>];"),
    (u!"2000000000000", u!"<< biljoonilla[ >>];"),
    (u!"1000000000000000000", u!"=#,##0=;")]),
  (u!"%spellout-cardinal-ablative-plural", [(u!"-x", u!"miinus >>;"),
    (u!"x.x", u!"<< pilkku >>;"),
    (u!"0", u!"nollilta;"),
    (u!"1", u!"yksiltä;"),
    (u!"2", u!"kaksilta;"),
    (u!"3", u!"kolmilta;"),
    (u!"4", u!"neljiltä;"),
    (u!"5", u!"viisiltä;"),
    (u!"6", u!"kuusilta;"),
    (u!"7", u!"seitsemiltä;"),
    (u!"8", u!"kahdeksilta;"),
    (u!"9", u!"yhdeksiltä;"),
    (u!"10", u!"kymmeniltä;"),
    (u!"11", u!">>toista;"),
    (u!"20", u!"<<\u00adkymmeniltä[\u00ad>>];"),
    (u!"100", u!"sadoilta[\u00ad>>];"),
    (u!"200", u!"<<\u00adsadoilta[\u00ad>>];"),
    (u!"1000", u!"tuhansilta[\u00ad>>];"),
    (u!"2000", u!"<<\u00adtuhansilta[\u00ad>>];"),
    (u!"1000000", u!"<< miljoonilta[ >>];"),
    (u!"2000000", u!"<< miljoonilta[ >>];"),
    (u!"1000000000", u!"<< miljardeilta[ >>];"),
    (u!"2000000000", u!"<< miljardeilta[ >>];"),
    (u!"1000000000000", u!"<< biljoonilta[ >>];"),
    (u!"2000000000000", u!"<< biljoonilta[ >>];"),
    (u!"1000000000000000000", u!"=#,##0=;")]),
  (u!"%spellout-cardinal-allative-plural", [(u!"-x", u!"miinus >>;"),
    (u!"x.x", u!"<< pilkku >>;"),
    (u!"0", u!"nollille;"),
    (u!"1", u!"yksille;"),
    (u!"2", u!"kaksille;"),
    (u!"3", u!"kolmille;"),
    (u!"4", u!"neljille;"),
    (u!"5", u!"viisille;"),
    (u!"6", u!"kuusille;"),
    (u!"7", u!"seitsemille;"),
    (u!"8", u!"kahdeksille;"),
    (u!"9", u!"yhdeksille;"),
    (u!"10", u!"kymmenille;"),
    (u!"11", u!">>toista;"),
    (u!"20", u!"<<\u00adkymmenille[\u00ad>>];"),
    (u!"100", u!"sadoille[\u00ad>>];"),
    (u!"200", u!"<<\u00adsadoille[\u00ad>>];"),
    (u!"1000", u!"tuhansille[\u00ad>>];"),
    (u!"2000", u!"<<\u00adtuhansille[\u00ad>>];"),
    (u!"1000000", u!"<< miljoonille[ >>];"),
    (u!"2000000", u!"<< miljoonille[ >>];"),
    (u!"1000000000", u!"<< miljardeille[ >>];"),
    (u!"2000000000", u!"<< miljardeille[ >>];"),
    (u!"1000000000000", u!"<< biljoonille[ >>];"),
    (u!"2000000000000", u!"<< biljoonille[ >>];"),
    (u!"1000000000000000000", u!"=#,##0=;")]),
  (u!"%%spellout-ordinal-larger", [(u!"0", u!";"),
    (u!"2", u!"kahdes;"),
    (u!"3", u!"=%spellout-ordinal=;")]),
  (u!"%spellout-ordinal", [(u!"-x", u!"miinus >>;"),
    (u!"x.x", u!"=#,##0.#=;"),
    (u!"0", u!"nollas;"),
    (u!"1", u!"ensimmäinen;"),
    (u!"2", u!"toinen;"),
    (u!"3", u!"kolmas;"),
    (u!"4", u!"neljäs;"),
    (u!"5", u!"viides;"),
    (u!"6", u!"kuudes;"),
    (u!"7", u!"seitsemäs;"),
    (u!"8", u!"kahdeksas;"),
    (u!"9", u!"yhdeksäs;"),
    (u!"10", u!"kymmenes;"),
    (u!"11", u!"yhdestoista;"),
    (u!"12", u!"kahdestoista;"),
    (u!"13", u!">>toista;"),
    (u!"20", u!"<%%spellout-ordinal-larger<\u00adkymmenes[\u00ad>>];"),
    (u!"100", u!"sadas[\u00ad>>];"),
    (u!"200", u!"<%%spellout-ordinal-larger<\u00adsadas[\u00ad>>];"),
    (u!"1000", u!"tuhannes[\u00ad>>];"),
    (u!"2000", u!"<%%spellout-ordinal-larger<\u00adtuhannes[\u00ad>>];"),
    (u!"1000000", u!"miljoonas[\u00ad>>];"),
    (u!"2000000", u!"<%%spellout-ordinal-larger< miljoonas[\u00ad>>];"),
    (u!"1000000000", u!"miljardis[\u00ad>>];"),
    (u!"2000000000", u!"<%%spellout-ordinal-larger< miljardis[\u00ad>>];"),
    (u!"1000000000000", u!"biljoonas[ >>];"),
    (u!"2000000000000", u!"<%%spellout-ordinal-larger< biljoonas[ >>];"),
    (u!"1000000000000000000", u!"=#,##0=;")]),
  (u!"%%spellout-ordinal-genitive-larger", [(u!"0", u!";"),
    (u!"2", u!"kahdennen;"),
    (u!"3", u!"=%spellout-ordinal-genitive=;")]),
  (u!"%spellout-ordinal-genitive", [(u!"-x", u!"miinus >>;"),
    (u!"x.x", u!"=#,##0.#=;"),
    (u!"0", u!"nollannen;"),
    (u!"1", u!"ensimmäisen;"),
    (u!"2", u!"toisen;"),
    (u!"3", u!"kolmannen;"),
    (u!"4", u!"neljännen;"),
    (u!"5", u!"viidennen;"),
    (u!"6", u!"kuudennen;"),
    (u!"7", u!"seitsemännen;"),
    (u!"8", u!"kahdeksannen;"),
    (u!"9", u!"yhdeksännen;"),
    (u!"10", u!"kymmenennen;"),
    (u!"11", u!"yhdennentoista;"),
    (u!"12", u!"kahdennentoista;"),
    (u!"13", u!">>toista;"),
    (u!"20", u!"<%%spellout-ordinal-genitive-larger<\u00adkymmenennen[\u00ad>>];"),
    (u!"100", u!"sadannen[\u00ad>>];"),
    (u!"200", u!"<%%spellout-ordinal-genitive-larger<\u00adsadannen[\u00ad>>];"),
    (u!"1000", u!"tuhannennen[\u00ad>>];"),
    (u!"2000", u!"<%%spellout-ordinal-genitive-larger<\u00adtuhannennen[\u00ad>>];"),
    (u!"1000000", u!"miljoonannen[\u00ad>>];"),
    (u!"2000000", u!"<%%spellout-ordinal-genitive-larger<\u00admiljoonannen[\u00ad>>];"),
    (u!"1000000000", u!"miljardinnen[\u00ad>>];"),
    (u!"2000000000", u!"<%%spellout-ordinal-genitive-larger<\u00admiljardinnen[\u00ad>>];"),
    (u!"1000000000000", u!"biljoonannen[ >>];"),
    (u!"2000000000000", u!"<%%spellout-ordinal-genitive-larger<\u00adbiljoonannen[ >>];"),
    (u!"1000000000000000000", u!"=#,##0=;")]),
  (u!"%%spellout-ordinal-partitive-larger", [(u!"0", u!";"),
    (u!"2", u!"kahdetta;"),
    (u!"3", u!"=%spellout-ordinal-partitive=;")]),
  (u!"%spellout-ordinal-partitive", [(u!"-x", u!"miinus >>;"),
    (u!"x.x", u!"=#,##0.#=;"),
    (u!"0", u!"nollatta;"),
    (u!"1", u!"ensimmäistä;"),
    (u!"2", u!"toista;"),
    (u!"3", u!"kolmatta;"),
    (u!"4", u!"neljättä;"),
    (u!"5", u!"viidettä;"),
    (u!"6", u!"kuudetta;"),
    (u!"7", u!"seitsemättä;"),
    (u!"8", u!"kahdeksatta;"),
    (u!"9", u!"yhdeksättä;"),
    (u!"10", u!"kymmenettä;"),
    (u!"11", u!"yhdettätoista;"),
    (u!"12", u!"kahdettatoista;"),
    (u!"13", u!">>toista;"),
    (u!"20", u!"<%%spellout-ordinal-partitive-larger<\u00adkymmenettä[\u00ad>>];"),
    (u!"100", u!"sadatta[\u00ad>>];"),
    (u!"200", u!"<%%spellout-ordinal-partitive-larger<\u00adsadatta[\u00ad>>];"),
    (u!"1000", u!"tuhannetta[\u00ad>>];"),
    (u!"2000", u!"<%%spellout-ordinal-partitive-larger<\u00adtuhannetta[\u00ad>>];"),
    (u!"1000000", u!"miljoonatta[\u00ad>>];"),
    (u!"2000000", u!"<%%spellout-ordinal-partitive-larger<\u00admiljoonatta[\u00ad>>];"),
    (u!"1000000000", u!"miljarditta[\u00ad>>];"),
    (u!"2000000000", u!"<%%spellout-ordinal-partitive-larger<\u00admiljarditta[\u00ad>>];"),
    (u!"1000000000000", u!"biljoonatta[ >>];"),
    (u!"2000000000000", u!"<%%spellout-ordinal-partitive-larger<\u00adbiljoonatta[ >>];"),
    (u!"1000000000000000000", u!"=#,##0=;")]),
  (u!"%%spellout-ordinal-essive-larger", [(u!"0", u!";"),
    (u!"2", u!"kahdentena;"),
    (u!"3", u!"=%spellout-ordinal-essive=;")]),
  (u!"%spellout-ordinal-essive", [(u!"-x", u!"miinus >>;"),
    (u!"x.x", u!"=#,##0.#=;"),
    (u!"0", u!"nollantena;"),
    (u!"1", u!"ensimmäisenä;"),
    (u!"2", u!"toisena;"),
    (u!"3", u!"kolmantena;"),
    (u!"4", u!"neljäntenä;"),
    (u!"5", u!"viidentenä;"),
    (u!"6", u!"kuudentena;"),
    (u!"7", u!"seitsemäntenä;"),
    (u!"8", u!"kahdeksantena;"),
    (u!"9", u!"yhdeksäntenä;"),
    (u!"10", u!"kymmenentenä;"),
    (u!"11", u!"yhdentenätoista;"),
    (u!"12", u!"kahdentenatoista;"),
    (u!"13", u!">>toista;"),
    (u!"20", u!"<%%spellout-ordinal-essive-larger<\u00adkymmenentenä[\u00ad>>];"),
    (u!"100", u!"sadantena[\u00ad>>];"),
    (u!"200", u!"<%%spellout-ordinal-essive-larger<\u00adsadantena[\u00ad>>];"),
    (u!"1000", u!"tuhannentena[\u00ad>>];"),
    (u!"2000", u!"<%%spellout-ordinal-essive-larger<\u00adtuhannentena[\u00ad>>];"),
    (u!"1000000", u!"miljoonantena[\u00ad>>];"),
    (u!"2000000", u!"<%%spellout-ordinal-essive-larger<\u00admiljoonantena[\u00ad>>];"),
    (u!"1000000000", u!"miljardintena[\u00ad>>];"),
    (u!"2000000000", u!"<%%spellout-ordinal-essive-larger<\u00admiljardintena[\u00ad>>];"),
    (u!"1000000000000", u!"biljoonantena[ >>];"),
    (u!"2000000000000", u!"<%%spellout-ordinal-essive-larger<\u00adbiljoonantena[ >>];"),
    (u!"1000000000000000000", u!"=#,##0=;")]),
  (u!"%%spellout-ordinal-translative-larger", [(u!"0", u!";"),
    (u!"2", u!"kahdenneksi;"),
    (u!"3", u!"=%spellout-ordinal-translative=;")]),
  (u!"%spellout-ordinal-translative", [(u!"-x", u!"miinus >>;"),
    (u!"x.x", u!"=#,##0.#=;"),
    (u!"0", u!"nollanneksi;"),
    (u!"1", u!"ensimmäiseksi;"),
    (u!"2", u!"toiseksi;"),
    (u!"3", u!"kolmanneksi;"),
    (u!"4", u!"neljänneksi;"),
    (u!"5", u!"viidenneksi;"),
    (u!"6", u!"kuudenneksi;"),
    (u!"7", u!"seitsemänneksi;"),
    (u!"8", u!"kahdeksanneksi;"),
    (u!"9", u!"yhdeksänneksi;"),
    (u!"10", u!"kymmenenneksi;"),
    (u!"11", u!"yhdenneksitoista;"),
    (u!"12", u!"kahdenneksitoista;"),
    (u!"13", u!">>toista;"),
    (u!"20", u!"<%%spellout-ordinal-translative-larger<\u00adkymmenenneksi[\u00ad>>];"),
    (u!"100", u!"sadanneksi[\u00ad>>];"),
    (u!"200", u!"<%%spellout-ordinal-translative-larger<\u00adsadanneksi[\u00ad>>];"),
    (u!"1000", u!"tuhannenneksi[\u00ad>>];"),
    (u!"2000", u!"<%%spellout-ordinal-translative-larger<\u00adtuhannenneksi[\u00ad>>];"),
    (u!"1000000", u!"miljoonanneksi[\u00ad>>];"),
    (u!"2000000", u!"<%%spellout-ordinal-translative-larger<\u00admiljoonanneksi[\u00ad>>];"),
    (u!"1000000000", u!"miljardinneksi[\u00ad>>];"),
    (u!"2000000000", u!"<%%spellout-ordinal-translative-larger<\u00admiljardinneksi[\u00ad>>];"),
    (u!"1000000000000", u!"biljoonanneksi[ >>];"),
    (u!"2000000000000", u!"<%%spellout-ordinal-translative-larger<\u00adbiljoonanneksi[ >>];"),
    (u!"1000000000000000000", u!"=#,##0=;")]),
  (u!"%%spellout-ordinal-inessive-larger", [(u!"0", u!";"),
    (u!"2", u!"kahdennessa;"),
    (u!"3", u!"=%spellout-ordinal-inessive=;")]),
  (u!"%spellout-ordinal-inessive", [(u!"-x", u!"miinus >>;"),
    (u!"x.x", u!"=#,##0.#=;"),
    (u!"0", u!"nollannessa;"),
    (u!"1", u!"ensimmäisessä;"),
    (u!"2", u!"toisessa;"),
    (u!"3", u!"kolmannessa;"),
    (u!"4", u!"neljännessä;"),
    (u!"5", u!"viidennessä;"),
    (u!"6", u!"kuudennessa;"),
    (u!"7", u!"seitsemännessä;"),
    (u!"8", u!"kahdeksannessa;"),
    (u!"9", u!"yhdeksännessä;"),
    (u!"10", u!"kymmenennessä;"),
    (u!"11", u!"yhdennessätoista;"),
    (u!"12", u!"kahdennessatoista;"),
    (u!"13", u!">>toista;"),
    (u!"20", u!"<%%spellout-ordinal-inessive-larger<\u00adkymmenennessä[\u00ad>>];"),
    (u!"100", u!"sadannessa[\u00ad>>];"),
    (u!"200", u!"<%%spellout-ordinal-inessive-larger<\u00adsadannessa[\u00ad>>];"),
    (u!"1000", u!"tuhannennessa[\u00ad>>];"),
    (u!"2000", u!"<%%spellout-ordinal-inessive-larger<\u00adtuhannennessa[\u00ad>>];"),
    (u!"1000000", u!"miljoonannessa[\u00ad>>];"),
    (u!"2000000", u!"<%%spellout-ordinal-inessive-larger<\u00admiljoonannessa[\u00ad>>];"),
    (u!"1000000000", u!"miljardinnessa[\u00ad>>];"),
    (u!"2000000000", u!"<%%spellout-ordinal-inessive-larger<\u00admiljardinnessa[\u00ad>>];"),
    (u!"1000000000000", u!"biljoonannessa[ >>];"),
    (u!"2000000000000", u!"<%%spellout-ordinal-inessive-larger<\u00adbiljoonannessa[ >>];"),
    (u!"1000000000000000000", u!"=#,##0=;")]),
  (u!"%%spellout-ordinal-elative-larger", [(u!"0", u!";"),
    (u!"2", u!"kahdennesta;"),
    (u!"3", u!"=%spellout-ordinal-elative=;")]),
  (u!"%spellout-ordinal-elative", [(u!"-x", u!"miinus >>;"),
    (u!"x.x", u!"=#,##0.#=;"),
    (u!"0", u!"nollannesta;"),
    (u!"1", u!"ensimmäisestä;"),
    (u!"2", u!"toisesta;"),
    (u!"3", u!"kolmannesta;"),
    (u!"4", u!"neljännestä;"),
    (u!"5", u!"viidennestä;"),
    (u!"6", u!"kuudennesta;"),
    (u!"7", u!"seitsemännestä;"),
    (u!"8", u!"kahdeksannesta;"),
    (u!"9", u!"yhdeksännestä;"),
    (u!"10", u!"kymmenennestä;"),
    (u!"11", u!"yhdennestätoista;"),
    (u!"12", u!"kahdennestatoista;"),
    (u!"13", u!">>toista;"),
    (u!"20", u!"<%%spellout-ordinal-elative-larger<\u00adkymmenennestä[\u00ad>>];"),
    (u!"100", u!"sadannesta[\u00ad>>];"),
    (u!"200", u!"<%%spellout-ordinal-elative-larger<\u00adsadannesta[\u00ad>>];"),
    (u!"1000", u!"tuhannennesta[\u00ad>>];"),
    (u!"2000", u!"<%%spellout-ordinal-elative-larger<\u00adtuhannennesta[\u00ad>>];"),
    (u!"1000000", u!"miljoonannesta[\u00ad>>];"),
    (u!"2000000", u!"<%%spellout-ordinal-elative-larger<\u00admiljoonannesta[\u00ad>>];"),
    (u!"1000000000", u!"miljardinnesta[\u00ad>>];"),
    (u!"2000000000", u!"<%%spellout-ordinal-elative-larger<\u00admiljardinnesta[\u00ad>>];"),
    (u!"1000000000000", u!"biljoonannesta[ >>];"),
    (u!"2000000000000", u!"<%%spellout-ordinal-elative-larger<\u00adbiljoonannesta[ >>];"),
    (u!"1000000000000000000", u!"=#,##0=;")]),
  (u!"%%spellout-ordinal-illative-larger", [(u!"0", u!";"),
    (u!"2", u!"kahdenteen;"),
    (u!"3", u!"=%spellout-ordinal-illative=;")]),
  (u!"%spellout-ordinal-illative", [(u!"-x", u!"miinus >>;"),
    (u!"x.x", u!"=#,##0.#=;"),
    (u!"0", u!"nollanteen;"),
    (u!"1", u!"ensimmäiseen;"),
    (u!"2", u!"toiseen;"),
    (u!"3", u!"kolmanteen;"),
    (u!"4", u!"neljänteen;"),
    (u!"5", u!"viidenteen;"),
    (u!"6", u!"kuudenteen;"),
    (u!"7", u!"seitsemänteen;"),
    (u!"8", u!"kahdeksanteen;"),
    (u!"9", u!"yhdeksänteen;"),
    (u!"10", u!"kymmenenteen;"),
    (u!"11", u!"yhdenteentoista;"),
    (u!"12", u!"kahdenteentoista;"),
    (u!"13", u!">>toista;"),
    (u!"20", u!"<%%spellout-ordinal-illative-larger<\u00adkymmenenteen[\u00ad>>];"),
    (u!"100", u!"sadanteen[\u00ad>>];"),
    (u!"200", u!"<%%spellout-ordinal-illative-larger<\u00adsadanteen[\u00ad>>];"),
    (u!"1000", u!"tuhannenteen[\u00ad>>];"),
    (u!"2000", u!"<%%spellout-ordinal-illative-larger<\u00adtuhannenteen[\u00ad>>];"),
    (u!"1000000", u!"miljoonanteen[\u00ad>>];"),
    (u!"2000000", u!"<%%spellout-ordinal-illative-larger<\u00admiljoonanteen[\u00ad>>];"),
    (u!"1000000000", u!"miljardinteen[\u00ad>>];"),
    (u!"2000000000", u!"<%%spellout-ordinal-illative-larger<\u00admiljardinteen[\u00ad>>];"),
    (u!"1000000000000", u!"biljoonanteen[ >>];"),
    (u!"2000000000000", u!"<%%spellout-ordinal-illative-larger<\u00adbiljoonanteen[ >>];"),
    (u!"1000000000000000000", u!"=#,##0=;")]),
  (u!"%%spellout-ordinal-adessive-larger", [(u!"0", u!";"),
    (u!"2", u!"kahdennella;"),
    (u!"3", u!"=%spellout-ordinal-adessive=;")]),
  (u!"%spellout-ordinal-adessive", [(u!"-x", u!"miinus >>;"),
    (u!"x.x", u!"=#,##0.#=;"),
    (u!"0", u!"nollannella;"),
    (u!"1", u!"ensimmäisellä;"),
    (u!"2", u!"toisella;"),
    (u!"3", u!"kolmannella;"),
    (u!"4", u!"neljännellä;"),
    (u!"5", u!"viidennellä;"),
    (u!"6", u!"kuudennella;"),
    (u!"7", u!"seitsemännellä;"),
    (u!"8", u!"kahdeksannella;"),
    (u!"9", u!"yhdeksännellä;"),
    (u!"10", u!"kymmenennellä;"),
    (u!"11", u!"yhdennellätoista;"),
    (u!"12", u!"kahdennellatoista;"),
    (u!"13", u!">>toista;"),
    (u!"20", u!"<%%spellout-ordinal-adessive-larger<\u00adkymmenennellä[\u00ad>>];"),
    (u!"100", u!"sadannella[\u00ad>>];"),
    (u!"200", u!"<%%spellout-ordinal-adessive-larger<\u00adsadannella[\u00ad>>];"),
    (u!"1000", u!"tuhannennella[\u00ad>>];"),
    (u!"2000", u!"<%%spellout-ordinal-adessive-larger<\u00adtuhannennella[\u00ad>>];"),
    (u!"1000000", u!"miljoonannella[\u00ad>>];"),
    (u!"2000000", u!"<%%spellout-ordinal-adessive-larger<\u00admiljoonannella[\u00ad>>];"),
    (u!"1000000000", u!"miljardinnella[\u00ad>>];"),
    (u!"2000000000", u!"<%%spellout-ordinal-adessive-larger<\u00admiljardinnella[\u00ad>>];"),
    (u!"1000000000000", u!"biljoonannella[ >>];"),
    (u!"2000000000000", u!"<%%spellout-ordinal-adessive-larger<\u00adbiljoonannella[ >>];"),
    (u!"1000000000000000000", u!"=#,##0=;")]),
  (u!"%%spellout-ordinal-ablative-larger", [(u!"0", u!";"),
    (u!"2", u!"kahdennelta;"),
    (u!"3", u!"=%spellout-ordinal-ablative=;")]),
  (u!"%spellout-ordinal-ablative", [(u!"-x", u!"miinus >>;"),
    (u!"x.x", u!"=#,##0.#=;"),
    (u!"0", u!"nollannelta;"),
    (u!"1", u!"ensimmäiseltä;"),
    (u!"2", u!"toiselta;"),
    (u!"3", u!"kolmannelta;"),
    (u!"4", u!"neljänneltä;"),
    (u!"5", u!"viidenneltä;"),
    (u!"6", u!"kuudennelta;"),
    (u!"7", u!"seitsemänneltä;"),
    (u!"8", u!"kahdeksannelta;"),
    (u!"9", u!"yhdeksänneltä;"),
    (u!"10", u!"kymmenenneltä;"),
    (u!"11", u!"yhdenneltätoista;"),
    (u!"12", u!"kahdenneltatoista;"),
    (u!"13", u!">>toista;"),
    (u!"20", u!"<%%spellout-ordinal-ablative-larger<\u00adkymmenenneltä[\u00ad>>];"),
    (u!"100", u!"sadannelta[\u00ad>>];"),
    (u!"200", u!"<%%spellout-ordinal-ablative-larger<\u00adsadannelta[\u00ad>>];"),
    (u!"1000", u!"tuhannennelta[\u00ad>>];"),
    (u!"2000", u!"<%%spellout-ordinal-ablative-larger<\u00adtuhannennelta[\u00ad>>];"),
    (u!"1000000", u!"miljoonannelta[\u00ad>>];"),
    (u!"2000000", u!"<%%spellout-ordinal-ablative-larger<\u00admiljoonannelta[\u00ad>>];"),
    (u!"1000000000", u!"miljardinnelta[\u00ad>>];"),
    (u!"2000000000", u!"<%%spellout-ordinal-ablative-larger<\u00admiljardinnelta[\u00ad>>];"),
    (u!"1000000000000", u!"biljoonannelta[ >>];"),
    (u!"2000000000000", u!"<%%spellout-ordinal-ablative-larger<\u00adbiljoonannelta[ >>];"),
    (u!"1000000000000000000", u!"=#,##0=;")]),
  (u!"%%spellout-ordinal-allative-larger", [(u!"0", u!";"),
    (u!"2", u!"kahdennelle;"),
    (u!"3", u!"=%spellout-ordinal-allative=;")]),
  (u!"%spellout-ordinal-allative", [(u!"-x", u!"miinus >>;"),
    (u!"x.x", u!"=#,##0.#=;"),
    (u!"0", u!"nollannelle;"),
    (u!"1", u!"ensimmäiselle;"),
    (u!"2", u!"toiselle;"),
    (u!"3", u!"kolmannelle;"),
    (u!"4", u!"neljännelle;"),
    (u!"5", u!"viidennelle;"),
    (u!"6", u!"kuudennelle;"),
    (u!"7", u!"seitsemännelle;"),
    (u!"8", u!"kahdeksannelle;"),
    (u!"9", u!"yhdeksännelle;"),
    (u!"10", u!"kymmenennelle;"),
    (u!"11", u!"yhdennelletoista;"),
    (u!"12", u!"kahdennelletoista;"),
    (u!"13", u!">>toista;"),
    (u!"20", u!"<%%spellout-ordinal-allative-larger<\u00adkymmenennelle[\u00ad>>];"),
    (u!"100", u!"sadannelle[\u00ad>>];"),
    (u!"200", u!"<%%spellout-ordinal-allative-larger<\u00adsadannelle[\u00ad>>];"),
    (u!"1000", u!"tuhannennelle[\u00ad>>];"),
    (u!"2000", u!"<%%spellout-ordinal-allative-larger<\u00adtuhannennelle[\u00ad>>];"),
    (u!"1000000", u!"miljoonannelle[\u00ad>>];"),
    (u!"2000000", u!"<%%spellout-ordinal-allative-larger<\u00admiljoonannelle[\u00ad>>];"),
    (u!"1000000000", u!"miljardinnelle[\u00ad>>];"),
    (u!"2000000000", u!"<%%spellout-ordinal-allative-larger<\u00admiljardinnelle[\u00ad>>];"),
    (u!"1000000000000", u!"biljoonannelle[ >>];"),
    (u!"2000000000000", u!"<%%spellout-ordinal-allative-larger<\u00adbiljoonannelle[ >>];"),
    (u!"1000000000000000000", u!"=#,##0=;")]),
  (u!"%%spellout-ordinal-genitive-plural-larger", [(u!"0", u!";"),
    (u!"2", u!"kahdensien;"),
    (u!"3", u!"=%spellout-ordinal-genitive-plural=;")]),
  (u!"%spellout-ordinal-genitive-plural", [(u!"-x", u!"miinus >>;"),
    (u!"x.x", u!"=#,##0.#=;"),
    (u!"0", u!"nollansien;"),
    (u!"1", u!"ensimmäisten;"),
    (u!"2", u!"toisten;"),
    (u!"3", u!"kolmansien;"),
    (u!"4", u!"neljänsien;"),
    (u!"5", u!"viidensien;"),
    (u!"6", u!"kuudensien;"),
    (u!"7", u!"seitsemänsien;"),
    (u!"8", u!"kahdeksansien;"),
    (u!"9", u!"yhdeksänsien;"),
    (u!"10", u!"kymmenensien;"),
    (u!"11", u!"yhdensientoista;"),
    (u!"12", u!"kahdensientoista;"),
    (u!"13", u!">>toista;"),
    (u!"20", u!"<%%spellout-ordinal-genitive-plural-larger<\u00adkymmenensien[\u00ad>>];"),
    (u!"100", u!"sadansien[\u00ad>>];"),
    (u!"200", u!"<%%spellout-ordinal-genitive-plural-larger<\u00adsadansien[\u00ad>>];"),
    (u!"1000", u!"tuhannensien[\u00ad>>];"),
    (u!"2000", u!"<%%spellout-ordinal-genitive-plural-larger<\u00adtuhannensien[\u00ad>>];"),
    (u!"1000000", u!"miljoonansien[\u00ad>>];"),
    (u!"2000000", u!"<%%spellout-ordinal-genitive-plural-larger<\u00admiljoonansien[\u00ad>>];"),
    (u!"1000000000", u!"miljardinsien[\u00ad>>];"),
    (u!"2000000000", u!"<%%spellout-ordinal-genitive-plural-larger<\u00admiljardinsien[\u00ad>>];"),
    (u!"1000000000000", u!"biljoonansien[ >>];"),
    (u!"2000000000000", u!"<%%spellout-ordinal-genitive-plural-larger<\u00adbiljoonansien[ >>];"),
    (u!"1000000000000000000", u!"=#,##0=;")]),
  (u!"%%spellout-ordinal-partitive-plural-larger", [(u!"0", u!";"),
    (u!"2", u!"kahdensia;"),
    (u!"3", u!"=%spellout-ordinal-partitive-plural=;")]),
  (u!"%spellout-ordinal-partitive-plural", [(u!"-x", u!"miinus >>;"),
    (u!"x.x", u!"=#,##0.#=;"),
    (u!"0", u!"nollansia;"),
    (u!"1", u!"ensimmäisiä;"),
    (u!"2", u!"toisia;"),
    (u!"3", u!"kolmansia;"),
    (u!"4", u!"neljänsiä;"),
    (u!"5", u!"viidensiä;"),
    (u!"6", u!"kuudensia;"),
    (u!"7", u!"seitsemänsiä;"),
    (u!"8", u!"kahdeksansia;"),
    (u!"9", u!"yhdeksänsiä;"),
    (u!"10", u!"kymmenensiä;"),
    (u!"11", u!"yhdensiätoista;"),
    (u!"12", u!"kahdensiatoista;"),
    (u!"13", u!">>toista;"),
    (u!"20", u!"<%%spellout-ordinal-partitive-plural-larger<\u00adkymmenensiä[\u00ad>>];"),
    (u!"100", u!"sadansia[\u00ad>>];"),
    (u!"200", u!"<%%spellout-ordinal-partitive-plural-larger<\u00adsadansia[\u00ad>>];"),
    (u!"1000", u!"tuhannensia[\u00ad>>];"),
    (u!"2000", u!"<%%spellout-ordinal-partitive-plural-larger<\u00adtuhannensia[\u00ad>>];"),
    (u!"1000000", u!"miljoonansia[\u00ad>>];"),
    (u!"2000000", u!"<%%spellout-ordinal-partitive-plural-larger<\u00admiljoonansia[\u00ad>>];"),
    (u!"1000000000", u!"miljardinsia[\u00ad>>];"),
    (u!"2000000000", u!"<%%spellout-ordinal-partitive-plural-larger<\u00admiljardinsia[\u00ad>>];"),
    (u!"1000000000000", u!"biljoonansia[ >>];"),
    (u!"2000000000000", u!"<%%spellout-ordinal-partitive-plural-larger<\u00adbiljoonansia[ >>];"),
    (u!"1000000000000000000", u!"=#,##0=;")]),
  (u!"%%spellout-ordinal-essive-plural-larger", [(u!"0", u!";"),
    (u!"2", u!"kahdensina;"),
    (u!"3", u!"=%spellout-ordinal-essive-plural=;")]),
  (u!"%spellout-ordinal-essive-plural", [(u!"-x", u!"miinus >>;"),
    (u!"x.x", u!"=#,##0.#=;"),
    (u!"0", u!"nollansina;"),
    (u!"1", u!"ensimmäisinä;"),
    (u!"2", u!"toisina;"),
    (u!"3", u!"kolmansina;"),
    (u!"4", u!"neljänsinä;"),
    (u!"5", u!"viidensinä;"),
    (u!"6", u!"kuudensina;"),
    (u!"7", u!"seitsemänsinä;"),
    (u!"8", u!"kahdeksansina;"),
    (u!"9", u!"yhdeksänsinä;"),
    (u!"10", u!"kymmenensinä;"),
    (u!"11", u!"yhdensinätoista;"),
    (u!"12", u!"kahdensinatoista;"),
    (u!"13", u!">>toista;"),
    (u!"20", u!"<%%spellout-ordinal-essive-plural-larger<\u00adkymmenensinä[\u00ad>>];"),
    (u!"100", u!"sadansina[\u00ad>>];"),
    (u!"200", u!"<%%spellout-ordinal-essive-plural-larger<\u00adsadansina[\u00ad>>];"),
    (u!"1000", u!"tuhannensina[\u00ad>>];"),
    (u!"2000", u!"<%%spellout-ordinal-essive-plural-larger<\u00adtuhannensina[\u00ad>>];"),
    (u!"1000000", u!"miljoonansina[\u00ad>>];"),
    (u!"2000000", u!"<%%spellout-ordinal-essive-plural-larger<\u00admiljoonansina[\u00ad>>];"),
    (u!"1000000000", u!"miljardinsina[\u00ad>>];"),
    (u!"2000000000", u!"<%%spellout-ordinal-essive-plural-larger<\u00admiljardinsina[\u00ad>>];"),
    (u!"1000000000000", u!"biljoonansina[ >>];"),
    (u!"2000000000000", u!"<%%spellout-ordinal-essive-plural-larger<\u00adbiljoonansina[ >>];"),
    (u!"1000000000000000000", u!"=#,##0=;")]),
  (u!"%%spellout-ordinal-translative-plural-larger", [(u!"0", u!";"),
    (u!"2", u!"kahdensiksi;"),
    (u!"3", u!"=%spellout-ordinal-translative-plural=;")]),
  (u!"%spellout-ordinal-translative-plural", [(u!"-x", u!"miinus >>;"),
    (u!"x.x", u!"=#,##0.#=;"),
    (u!"0", u!"nollansiksi;"),
    (u!"1", u!"ensimmäisiksi;"),
    (u!"2", u!"toisiksi;"),
    (u!"3", u!"kolmansiksi;"),
    (u!"4", u!"neljänsiksi;"),
    (u!"5", u!"viidensiksi;"),
    (u!"6", u!"kuudensiksi;"),
    (u!"7", u!"seitsemänsiksi;"),
    (u!"8", u!"kahdeksansiksi;"),
    (u!"9", u!"yhdeksänsiksi;"),
    (u!"10", u!"kymmenensiksi;"),
    (u!"11", u!"yhdensiksitoista;"),
    (u!"12", u!"kahdensiksitoista;"),
    (u!"13", u!">>toista;"),
    (u!"20", u!"<%%spellout-ordinal-translative-plural-larger<\u00adkymmenensiksi[\u00ad>>];"),
    (u!"100", u!"sadansiksi[\u00ad>>];"),
    (u!"200", u!"<%%spellout-ordinal-translative-plural-larger<\u00adsadansiksi[\u00ad>>];"),
    (u!"1000", u!"tuhannensiksi[\u00ad>>];"),
    (u!"2000", u!"<%%spellout-ordinal-translative-plural-larger<\u00adtuhannensiksi[\u00ad>>];"),
    (u!"1000000", u!"miljoonansiksi[\u00ad>>];"),
    (u!"2000000", u!"<%%spellout-ordinal-translative-plural-larger<\u00admiljoonansiksi[\u00ad>>];"),
    (u!"1000000000", u!"miljardinsiksi[\u00ad>>];"),
    (u!"2000000000", u!"<%%spellout-ordinal-translative-plural-larger<\u00admiljardinsiksi[\u00ad>>];"),
    (u!"1000000000000", u!"biljoonansiksi[ >>];"),
    (u!"2000000000000", u!"<%%spellout-ordinal-translative-plural-larger<\u00adbiljoonansiksi[ >>];"),
    (u!"1000000000000000000", u!"=#,##0=;")]),
  (u!"%%spellout-ordinal-inessive-plural-larger", [(u!"0", u!";"),
    (u!"2", u!"kahdensissa;"),
    (u!"3", u!"=%spellout-ordinal-inessive-plural=;")]),
  (u!"%spellout-ordinal-inessive-plural", [(u!"-x", u!"miinus >>;"),
    (u!"x.x", u!"=#,##0.#=;"),
    (u!"0", u!"nollansissa;"),
    (u!"1", u!"ensimmäisissä;"),
    (u!"2", u!"toisissa;"),
    (u!"3", u!"kolmansissa;"),
    (u!"4", u!"neljänsissä;"),
    (u!"5", u!"viidensissä;"),
    (u!"6", u!"kuudensissa;"),
    (u!"7", u!"seitsemänsissä;"),
    (u!"8", u!"kahdeksansissa;"),
    (u!"9", u!"yhdeksänsissä;"),
    (u!"10", u!"kymmenensissä;"),
    (u!"11", u!"yhdensissätoista;"),
    (u!"12", u!"kahdensissatoista;"),
    (u!"13", u!">>toista;"),
    (u!"20", u!"<%%spellout-ordinal-inessive-plural-larger<\u00adkymmenensissä[\u00ad>>];"),
    (u!"100", u!"sadansissa[\u00ad>>];"),
    (u!"200", u!"<%%spellout-ordinal-inessive-plural-larger<\u00adsadansissa[\u00ad>>];"),
    (u!"1000", u!"tuhannensissa[\u00ad>>];"),
    (u!"2000", u!"<%%spellout-ordinal-inessive-plural-larger<\u00adtuhannensissa[\u00ad>>];"),
    (u!"1000000", u!"miljoonansissa[\u00ad>>];"),
    (u!"2000000", u!"<%%spellout-ordinal-inessive-plural-larger<\u00admiljoonansissa[\u00ad>>];"),
    (u!"1000000000", u!"miljardinsissa[\u00ad>>];"),
    (u!"2000000000", u!"<%%spellout-ordinal-inessive-plural-larger<\u00admiljardinsissa[\u00ad>>];"),
    (u!"1000000000000", u!"biljoonansissa[ >>];"),
    (u!"2000000000000", u!"<%%spellout-ordinal-inessive-plural-larger<\u00adbiljoonansissa[ >>];"),
    (u!"1000000000000000000", u!"=#,##0=;")]),
  (u!"%%spellout-ordinal-elative-plural-larger", [(u!"0", u!";"),
    (u!"2", u!"kahdensista;"),
    (u!"3", u!"=%spellout-ordinal-elative-plural=;")]),
  (u!"%spellout-ordinal-elative-plural", [(u!"-x", u!"miinus >>;"),
    (u!"x.x", u!"=#,##0.#=;"),
    (u!"0", u!"nollansista;"),
    (u!"1", u!"ensimmäisistä;"),
    (u!"2", u!"toisista;"),
    (u!"3", u!"kolmansista;"),
    (u!"4", u!"neljänsistä;"),
    (u!"5", u!"viidensistä;"),
    (u!"6", u!"kuudensista;"),
    (u!"7", u!"seitsemänsistä;"),
    (u!"8", u!"kahdeksansista;"),
    (u!"9", u!"yhdeksänsistä;"),
    (u!"10", u!"kymmenensistä;"),
    (u!"11", u!"yhdensistätoista;"),
    (u!"12", u!"kahdensistatoista;"),
    (u!"13", u!">>toista;"),
    (u!"20", u!"<%%spellout-ordinal-elative-plural-larger<\u00adkymmenensistä[\u00ad>>];"),
    (u!"100", u!"sadansista[\u00ad>>];"),
    (u!"200", u!"<%%spellout-ordinal-elative-plural-larger<\u00adsadansista[\u00ad>>];"),
    (u!"1000", u!"tuhannensista[\u00ad>>];"),
    (u!"2000", u!"<%%spellout-ordinal-elative-plural-larger<\u00adtuhannensista[\u00ad>>];"),
    (u!"1000000", u!"miljoonansista[\u00ad>>];"),
    (u!"2000000", u!"<%%spellout-ordinal-elative-plural-larger<\u00admiljoonansista[\u00ad>>];"),
    (u!"1000000000", u!"miljardinsista[\u00ad>>];"),
    (u!"2000000000", u!"<%%spellout-ordinal-elative-plural-larger<\u00admiljardinsista[\u00ad>>];"),
    (u!"1000000000000", u!"biljoonansista[ >>];"),
    (u!"2000000000000", u!"<%%spellout-ordinal-elative-plural-larger<\u00adbiljoonansista[ >>];"),
    (u!"1000000000000000000", u!"=#,##0=;")]),
  (u!"%%spellout-ordinal-illative-plural-larger", [(u!"0", u!";"),
    (u!"2", u!"kahdensiin;"),
    (u!"3", u!"=%spellout-ordinal-illative-plural=;")]),
  (u!"%spellout-ordinal-illative-plural", [(u!"-x", u!"miinus >>;"),
    (u!"x.x", u!"=#,##0.#=;"),
    (u!"0", u!"nollansiin;"),
    (u!"1", u!"ensimmäisiin;"),
    (u!"2", u!"toisiin;"),
    (u!"3", u!"kolmansiin;"),
    (u!"4", u!"neljänsiin;"),
    (u!"5", u!"viidensiin;"),
    (u!"6", u!"kuudensiin;"),
    (u!"7", u!"seitsemänsiin;"),
    (u!"8", u!"kahdeksansiin;"),
    (u!"9", u!"yhdeksänsiin;"),
    (u!"10", u!"kymmenensiin;"),
    (u!"11", u!"yhdensiintoista;"),
    (u!"12", u!"kahdensiintoista;"),
    (u!"13", u!">>toista;"),
    (u!"20", u!"<%%spellout-ordinal-illative-plural-larger<\u00adkymmenensiin[\u00ad>>];"),
    (u!"100", u!"sadansiin[\u00ad>>];"),
    (u!"200", u!"<%%spellout-ordinal-illative-plural-larger<\u00adsadansiin[\u00ad>>];"),
    (u!"1000", u!"tuhannensiin[\u00ad>>];"),
    (u!"2000", u!"<%%spellout-ordinal-illative-plural-larger<\u00adtuhannensiin[\u00ad>>];"),
    (u!"1000000", u!"miljoonansiin[\u00ad>>];"),
    (u!"2000000", u!"<%%spellout-ordinal-illative-plural-larger<\u00admiljoonansiin[\u00ad>>];"),
    (u!"1000000000", u!"miljardinsiin[\u00ad>>];"),
    (u!"2000000000", u!"<%%spellout-ordinal-illative-plural-larger<\u00admiljardinsiin[\u00ad>>];"),
    (u!"1000000000000", u!"biljoonansiin[ >>];"),
    (u!"2000000000000", u!"<%%spellout-ordinal-illative-plural-larger<\u00adbiljoonansiin[ >>];"),
    (u!"1000000000000000000", u!"=#,##0=;")]),
  (u!"%%spellout-ordinal-adessive-plural-larger", [(u!"0", u!";"),
    (u!"2", u!"kahdennilla;"),
    (u!"3", u!"=%spellout-ordinal-adessive-plural=;")]),
  (u!"%spellout-ordinal-adessive-plural", [(u!"-x", u!"miinus >>;"),
    (u!"x.x", u!"=#,##0.#=;"),
    (u!"0", u!"nollannilla;"),
    (u!"1", u!"ensimmäisillä;"),
    (u!"2", u!"toisilla;"),
    (u!"3", u!"kolmannilla;"),
    (u!"4", u!"neljännillä;"),
    (u!"5", u!"viidennillä;"),
    (u!"6", u!"kuudennilla;"),
    (u!"7", u!"seitsemännillä;"),
    (u!"8", u!"kahdeksannilla;"),
    (u!"9", u!"yhdeksännillä;"),
    (u!"10", u!"kymmenennillä;"),
    (u!"11", u!"yhdennillätoista;"),
    (u!"12", u!"kahdennillatoista;"),
    (u!"13", u!">>toista;"),
    (u!"20", u!"<%%spellout-ordinal-adessive-plural-larger<\u00adkymmenennillä[\u00ad>>];"),
    (u!"100", u!"sadannilla[\u00ad>>];"),
    (u!"200", u!"<%%spellout-ordinal-adessive-plural-larger<\u00adsadannilla[\u00ad>>];"),
    (u!"1000", u!"tuhannennilla[\u00ad>>];"),
    (u!"2000", u!"<%%spellout-ordinal-adessive-plural-larger<\u00adtuhannennilla[\u00ad>>];"),
    (u!"1000000", u!"miljoonannilla[\u00ad>>];"),
    (u!"2000000", u!"<%%spellout-ordinal-adessive-plural-larger<\u00admiljoonannilla[\u00ad>>];"),
    (u!"1000000000", u!"miljardinnilla[\u00ad>>];"),
    (u!"2000000000", u!"<%%spellout-ordinal-adessive-plural-larger<\u00admiljardinnilla[\u00ad>>];"),
    (u!"1000000000000", u!"biljoonannilla[ >>];"),
    (u!"2000000000000", u!"<%%spellout-ordinal-adessive-plural-larger<\u00adbiljoonannilla[ >>];"),
    (u!"1000000000000000000", u!"=#,##0=;")]),
  (u!"%%spellout-ordinal-ablative-plural-larger", [(u!"0", u!";"),
    (u!"2", u!"kahdennilta;"),
    (u!"3", u!"=%spellout-ordinal-ablative-plural=;")]),
  (u!"%spellout-ordinal-ablative-plural", [(u!"-x", u!"miinus >>;"),
    (u!"x.x", u!"=#,##0.#=;"),
    (u!"0", u!"nollannilta;"),
    (u!"1", u!"ensimmäisiltä;"),
    (u!"2", u!"toisilta;"),
    (u!"3", u!"kolmannilta;"),
    (u!"4", u!"neljänniltä;"),
    (u!"5", u!"viidenniltä;"),
    (u!"6", u!"kuudennilta;"),
    (u!"7", u!"seitsemänniltä;"),
    (u!"8", u!"kahdeksannilta;"),
    (u!"9", u!"yhdeksänniltä;"),
    (u!"10", u!"kymmenenniltä;"),
    (u!"11", u!"yhdenniltätoista;"),
    (u!"12", u!"kahdenniltatoista;"),
    (u!"13", u!">>toista;"),
    (u!"20", u!"<%%spellout-ordinal-ablative-plural-larger<\u00adkymmenenniltä[\u00ad>>];"),
    (u!"100", u!"sadannilta[\u00ad>>];"),
    (u!"200", u!"<%%spellout-ordinal-ablative-plural-larger<\u00adsadannilta[\u00ad>>];"),
    (u!"1000", u!"tuhannennilta[\u00ad>>];"),
    (u!"2000", u!"<%%spellout-ordinal-ablative-plural-larger<\u00adtuhannennilta[\u00ad>>];"),
    (u!"1000000", u!"miljoonannilta[\u00ad>>];"),
    (u!"2000000", u!"<%%spellout-ordinal-ablative-plural-larger<\u00admiljoonannilta[\u00ad>>];"),
    (u!"1000000000", u!"miljardinnilta[\u00ad>>];"),
    (u!"2000000000", u!"<%%spellout-ordinal-ablative-plural-larger<\u00admiljardinnilta[\u00ad>>];"),
    (u!"1000000000000", u!"biljoonannilta[ >>];"),
    (u!"2000000000000", u!"<%%spellout-ordinal-ablative-plural-larger<\u00adbiljoonannilta[ >>];"),
    (u!"1000000000000000000", u!"=#,##0=;")]),
  (u!"%%spellout-ordinal-allative-plural-larger", [(u!"0", u!";"),
    (u!"2", u!"kahdennille;"),
    (u!"3", u!"=%spellout-ordinal-allative-plural=;")]),
  (u!"%spellout-ordinal-allative-plural", [(u!"-x", u!"miinus >>;"),
    (u!"x.x", u!"=#,##0.#=;"),
    (u!"0", u!"nollannille;"),
    (u!"1", u!"ensimmäisille;"),
    (u!"2", u!"toisille;"),
    (u!"3", u!"kolmannille;"),
    (u!"4", u!"neljännille;"),
    (u!"5", u!"viidennille;"),
    (u!"6", u!"kuudennille;"),
    (u!"7", u!"seitsemännille;"),
    (u!"8", u!"kahdeksannille;"),
    (u!"9", u!"yhdeksännille;"),
    (u!"10", u!"kymmenennille;"),
    (u!"11", u!"yhdennilletoista;"),
    (u!"12", u!"kahdennilletoista;"),
    (u!"13", u!">>toista;"),
    (u!"20", u!"<%%spellout-ordinal-allative-plural-larger<\u00adkymmenennille[\u00ad>>];"),
    (u!"100", u!"sadannille[\u00ad>>];"),
    (u!"200", u!"<%%spellout-ordinal-allative-plural-larger<\u00adsadannille[\u00ad>>];"),
    (u!"1000", u!"tuhannennille[\u00ad>>];"),
    (u!"2000", u!"<%%spellout-ordinal-allative-plural-larger<\u00adtuhannennille[\u00ad>>];"),
    (u!"1000000", u!"miljoonannille[\u00ad>>];"),
    (u!"2000000", u!"<%%spellout-ordinal-allative-plural-larger<\u00admiljoonannille[\u00ad>>];"),
    (u!"1000000000", u!"miljardinnille[\u00ad>>];"),
    (u!"2000000000", u!"<%%spellout-ordinal-allative-plural-larger<\u00admiljardinnille[\u00ad>>];"),
    (u!"1000000000000", u!"biljoonannille[ >>];"),
    (u!"2000000000000", u!"<%%spellout-ordinal-allative-plural-larger<\u00adbiljoonannille[ >>];"),
    (u!"1000000000000000000", u!"=#,##0=;")])]

/-- `number_parser_data/supplementary_translation_data/fi.json` -/
def fiSupplementary : Supplementary where
  tables := {
    unit := []
    direct := []
    tens := []
    hundreds := []
    big := [] }
  skipTokens := []
  useLongScale := some true

/-- `number_parser/data/fi.py`, lines 1-302 -/
def fiModule : Output where
  tables := {
    unit := [(u!"nolla", 0), (u!"nollaa", 0), (u!"nollaan", 0), (u!"nollaksi", 0), (u!"nollalla", 0), (u!"nollalle", 0), (u!"nollalta", 0), (u!"nollan", 0), (u!"nollana", 0), (u!"nollassa", 0), (u!"nollasta", 0), (u!"nollia", 0), (u!"nollien", 0), (u!"nolliin", 0), (u!"nolliksi", 0), (u!"nollilla", 0), (u!"nollille", 0), (u!"nollilta", 0), (u!"nollina", 0), (u!"nollissa", 0), (u!"nollista", 0), (u!"yhdeksi", 1), (u!"yhdelle", 1), (u!"yhdellä", 1), (u!"yhdeltä", 1), (u!"yhden", 1), (u!"yhdessä", 1), (u!"yhdestä", 1), (u!"yhteen", 1), (u!"yhtenä", 1), (u!"yhtä", 1), (u!"yksi", 1), (u!"yksien", 1), (u!"yksiin", 1), (u!"yksiksi", 1), (u!"yksille", 1), (u!"yksillä", 1), (u!"yksiltä", 1), (u!"yksinä", 1), (u!"yksissä", 1), (u!"yksistä", 1), (u!"yksiä", 1), (u!"kahdeksi", 2), (u!"kahdella", 2), (u!"kahdelle", 2), (u!"kahdelta", 2), (u!"kahden", 2), (u!"kahdessa", 2), (u!"kahdesta", 2), (u!"kahta", 2), (u!"kahteen", 2), (u!"kahtena", 2), (u!"kaksi", 2), (u!"kaksia", 2), (u!"kaksien", 2), (u!"kaksiin", 2), (u!"kaksiksi", 2), (u!"kaksilla", 2), (u!"kaksille", 2), (u!"kaksilta", 2), (u!"kaksina", 2), (u!"kaksissa", 2), (u!"kaksista", 2), (u!"kolme", 3), (u!"kolmea", 3), (u!"kolmeen", 3), (u!"kolmeksi", 3), (u!"kolmella", 3), (u!"kolmelle", 3), (u!"kolmelta", 3), (u!"kolmen", 3), (u!"kolmena", 3), (u!"kolmessa", 3), (u!"kolmesta", 3), (u!"kolmia", 3), (u!"kolmien", 3), (u!"kolmiin", 3), (u!"kolmiksi", 3), (u!"kolmilla", 3), (u!"kolmille", 3), (u!"kolmilta", 3), (u!"kolmina", 3), (u!"kolmissa", 3), (u!"kolmista", 3), (u!"neljien", 4), (u!"neljiin", 4), (u!"neljiksi", 4), (u!"neljille", 4), (u!"neljillä", 4), (u!"neljiltä", 4), (u!"neljinä", 4), (u!"neljissä", 4), (u!"neljistä", 4), (u!"neljiä", 4), (u!"neljä", 4), (u!"neljäksi", 4), (u!"neljälle", 4), (u!"neljällä", 4), (u!"neljältä", 4), (u!"neljän", 4), (u!"neljänä", 4), (u!"neljässä", 4), (u!"neljästä", 4), (u!"neljää", 4), (u!"neljään", 4), (u!"viideksi", 5), (u!"viidelle", 5), (u!"viidellä", 5), (u!"viideltä", 5), (u!"viiden", 5), (u!"viidessä", 5), (u!"viidestä", 5), (u!"viisi", 5), (u!"viisien", 5), (u!"viisiin", 5), (u!"viisiksi", 5), (u!"viisille", 5), (u!"viisillä", 5), (u!"viisiltä", 5), (u!"viisinä", 5), (u!"viisissä", 5), (u!"viisistä", 5), (u!"viisiä", 5), (u!"viiteen", 5), (u!"viitenä", 5), (u!"viittä", 5), (u!"kuudeksi", 6), (u!"kuudella", 6), (u!"kuudelle", 6), (u!"kuudelta", 6), (u!"kuuden", 6), (u!"kuudessa", 6), (u!"kuudesta", 6), (u!"kuusi", 6), (u!"kuusia", 6), (u!"kuusien", 6), (u!"kuusiin", 6), (u!"kuusiksi", 6), (u!"kuusilla", 6), (u!"kuusille", 6), (u!"kuusilta", 6), (u!"kuusina", 6), (u!"kuusissa", 6), (u!"kuusista", 6), (u!"kuuteen", 6), (u!"kuutena", 6), (u!"kuutta", 6), (u!"seitsemien", 7), (u!"seitsemiin", 7), (u!"seitsemiksi", 7), (u!"seitsemille", 7), (u!"seitsemillä", 7), (u!"seitsemiltä", 7), (u!"seitseminä", 7), (u!"seitsemissä", 7), (u!"seitsemistä", 7), (u!"seitsemiä", 7), (u!"seitsemäksi", 7), (u!"seitsemälle", 7), (u!"seitsemällä", 7), (u!"seitsemältä", 7), (u!"seitsemän", 7), (u!"seitsemänä", 7), (u!"seitsemässä", 7), (u!"seitsemästä", 7), (u!"seitsemää", 7), (u!"seitsemään", 7), (u!"kahdeksaa", 8), (u!"kahdeksaan", 8), (u!"kahdeksaksi", 8), (u!"kahdeksalla", 8), (u!"kahdeksalle", 8), (u!"kahdeksalta", 8), (u!"kahdeksan", 8), (u!"kahdeksana", 8), (u!"kahdeksassa", 8), (u!"kahdeksasta", 8), (u!"kahdeksia", 8), (u!"kahdeksien", 8), (u!"kahdeksiin", 8), (u!"kahdeksiksi", 8), (u!"kahdeksilla", 8), (u!"kahdeksille", 8), (u!"kahdeksilta", 8), (u!"kahdeksina", 8), (u!"kahdeksissa", 8), (u!"kahdeksista", 8), (u!"yhdeksien", 9), (u!"yhdeksiin", 9), (u!"yhdeksiksi", 9), (u!"yhdeksille", 9), (u!"yhdeksillä", 9), (u!"yhdeksiltä", 9), (u!"yhdeksinä", 9), (u!"yhdeksissä", 9), (u!"yhdeksistä", 9), (u!"yhdeksiä", 9), (u!"yhdeksäksi", 9), (u!"yhdeksälle", 9), (u!"yhdeksällä", 9), (u!"yhdeksältä", 9), (u!"yhdeksän", 9), (u!"yhdeksänä", 9), (u!"yhdeksässä", 9), (u!"yhdeksästä", 9), (u!"yhdeksää", 9), (u!"yhdeksään", 9)]
    direct := [(u!"kymmeneen", 10), (u!"kymmeneksi", 10), (u!"kymmenelle", 10), (u!"kymmenellä", 10), (u!"kymmeneltä", 10), (u!"kymmenen", 10), (u!"kymmenenä", 10), (u!"kymmenessä", 10), (u!"kymmenestä", 10), (u!"kymmenien", 10), (u!"kymmeniin", 10), (u!"kymmeniksi", 10), (u!"kymmenille", 10), (u!"kymmenillä", 10), (u!"kymmeniltä", 10), (u!"kymmeninä", 10), (u!"kymmenissä", 10), (u!"kymmenistä", 10), (u!"kymmeniä", 10), (u!"kymmentä", 10)]
    tens := []
    hundreds := []
    big := [(u!"miljoona", 1000000), (u!"miljoonaa", 1000000), (u!"miljoonaan", 1000000), (u!"miljoonaksi", 1000000), (u!"miljoonalla", 1000000), (u!"miljoonalle", 1000000), (u!"miljoonalta", 1000000), (u!"miljoonan", 1000000), (u!"miljoonana", 1000000), (u!"miljoonassa", 1000000), (u!"miljoonasta", 1000000), (u!"miljoonia", 1000000), (u!"miljoonien", 1000000), (u!"miljooniin", 1000000), (u!"miljooniksi", 1000000), (u!"miljoonilla", 1000000), (u!"miljoonille", 1000000), (u!"miljoonilta", 1000000), (u!"miljoonina", 1000000), (u!"miljoonissa", 1000000), (u!"miljoonista", 1000000), (u!"miljardeihin", 1000000000), (u!"miljardeiksi", 1000000000), (u!"miljardeilla", 1000000000), (u!"miljardeille", 1000000000), (u!"miljardeilta", 1000000000), (u!"miljardeina", 1000000000), (u!"miljardeissa", 1000000000), (u!"miljardeista", 1000000000), (u!"miljardeja", 1000000000), (u!"miljardi", 1000000000), (u!"miljardia", 1000000000), (u!"miljardien", 1000000000), (u!"miljardiin", 1000000000), (u!"miljardiksi", 1000000000), (u!"miljardilla", 1000000000), (u!"miljardille", 1000000000), (u!"miljardilta", 1000000000), (u!"miljardin", 1000000000), (u!"miljardina", 1000000000), (u!"miljardissa", 1000000000), (u!"miljardista", 1000000000), (u!"biljoona", 1000000000000), (u!"biljoonaa", 1000000000000), (u!"biljoonaan", 1000000000000), (u!"biljoonaksi", 1000000000000), (u!"biljoonalla", 1000000000000), (u!"biljoonalle", 1000000000000), (u!"biljoonalta", 1000000000000), (u!"biljoonan", 1000000000000), (u!"biljoonana", 1000000000000), (u!"biljoonassa", 1000000000000), (u!"biljoonasta", 1000000000000), (u!"biljoonia", 1000000000000), (u!"biljoonien", 1000000000000), (u!"biljooniin", 1000000000000), (u!"biljooniksi", 1000000000000), (u!"biljoonilla", 1000000000000), (u!"biljoonille", 1000000000000), (u!"biljoonilta", 1000000000000), (u!"biljoonina", 1000000000000), (u!"biljoonissa", 1000000000000), (u!"biljoonista", 1000000000000)] }
  skipTokens := []
  useLongScale := some true

/-- The languages de, de-CH, ee, el, en-IN, eo, et, fa, fa-AF, ff, fi: rules, supplementary data, data module -/
def partB : List (PyStr × RuleSets × Supplementary × Output) := [
  (u!"de", deRules, deSupplementary, deModule),
  (u!"de-CH", de_CHRules, de_CHSupplementary, de_CHModule),
  (u!"ee", eeRules, eeSupplementary, eeModule),
  (u!"el", elRules, elSupplementary, elModule),
  (u!"en-IN", en_INRules, en_INSupplementary, en_INModule),
  (u!"eo", eoRules, eoSupplementary, eoModule),
  (u!"et", etRules, etSupplementary, etModule),
  (u!"fa", faRules, faSupplementary, faModule),
  (u!"fa-AF", fa_AFRules, fa_AFSupplementary, fa_AFModule),
  (u!"ff", ffRules, ffSupplementary, ffModule),
  (u!"fi", fiRules, fiSupplementary, fiModule)]

end NumberParser.Gen.Sources
