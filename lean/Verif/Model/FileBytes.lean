import Verif.Model.Bytes

/-! GENERATED by tools/gen_bytes.py from files in /repo/number_parser_data. Do not edit. -/

namespace NumberParser.Gen.FileBytes

open NumberParser Gen

/-- /repo/number_parser_data/raw_cldr_translation_data/en.json -/
def enSource : Bytes := unpackAll [
  b!"{\n",
  b!"  \"rbnf\": {\n",
  b!"    \"identity\": {\n",
  b!"      \"version\": {\n",
  b!"        \"cldrVersion\": \"37\"\n",
  b!"      },\n",
  b!"      \"language\": \"en\"\n",
  b!"    },\n",
  b!"    \"rbnf\": {\n",
  b!"      \"OrdinalRules\": {\n",
  b!"        \"%digits-ordinal\": {\n",
  b!"          \"-x\": \"−>>;\",\n",
  b!"          \"0\": \"=#,##0=$(ordinal,one{st}two{nd}few{rd}other{th})$;\"\n",
  b!"        }\n",
  b!"      },\n",
  b!"      \"SpelloutRules\": {\n",
  b!"        \"%%2d-year\": {\n",
  b!"          \"0\": \"hundred;\",\n",
  b!"          \"1\": \"oh-=%spellout-numbering=;\",\n",
  b!"          \"10\": \"=%spellout-numbering=;\"\n",
  b!"        },\n",
  b!"        \"%spellout-numbering-year\": {\n",
  b!"          \"-x\": \"minus >>;\",\n",
  b!"          \"x.x\": \"=#,##0.#=;\",\n",
  b!"          \"0\": \"=%spellout-numbering=;\",\n",
  b!"          \"1010/100\": \"<< >%%2d-year>;\",\n",
  b!"          \"1100/100\": \"<< >%%2d-year>;\",\n",
  b!"          \"2000\": \"=%spellout-numbering=;\",\n",
  b!"          \"2010/100\": \"<< >%%2d-year>;\",\n",
  b!"          \"2100/100\": \"<< >%%2d-year>;\",\n",
  b!"          \"3000\": \"=%spellout-numbering=;\",\n",
  b!"          \"3010/100\": \"<< >%%2d-year>;\",\n",
  b!"          \"3100/100\": \"<< >%%2d-year>;\",\n",
  b!"          \"4000\": \"=%spellout-numbering=;\",\n",
  b!"          \"4010/100\": \"<< >%%2d-year>;\",\n",
  b!"          \"4100/100\": \"<< >%%2d-year>;\",\n",
  b!"          \"5000\": \"=%spellout-numbering=;\",\n",
  b!"          \"5010/100\": \"<< >%%2d-year>;\",\n",
  b!"          \"5100/100\": \"<< >%%2d-year>;\",\n",
  b!"          \"6000\": \"=%spellout-numbering=;\",\n",
  b!"          \"6010/100\": \"<< >%%2d-year>;\",\n",
  b!"          \"6100/100\": \"<< >%%2d-year>;\",\n",
  b!"          \"7000\": \"=%spellout-numbering=;\",\n",
  b!"          \"7010/100\": \"<< >%%2d-year>;\",\n",
  b!"          \"7100/100\": \"<< >%%2d-year>;\",\n",
  b!"          \"8000\": \"=%spellout-numbering=;\",\n",
  b!"          \"8010/100\": \"<< >%%2d-year>;\",\n",
  b!"          \"8100/100\": \"<< >%%2d-year>;\",\n",
  b!"          \"9000\": \"=%spellout-numbering=;\",\n",
  b!"          \"9010/100\": \"<< >%%2d-year>;\",\n",
  b!"          \"9100/100\": \"<< >%%2d-year>;\",\n",
  b!"          \"10000\": \"=%spellout-numbering=;\"\n",
  b!"        },\n",
  b!"        \"%spellout-numbering\": {\n",
  b!"          \"-x\": \"minus >>;\",\n",
  b!"          \"Inf\": \"infinity;\",\n",
  b!"          \"NaN\": \"not a number;\",\n",
  b!"          \"0\": \"=%spellout-cardinal=;\"\n",
  b!"        },\n",
  b!"        \"%spellout-numbering-verbose\": {\n",
  b!"          \"-x\": \"minus >>;\",\n",
  b!"          \"Inf\": \"infinity;\",\n",
  b!"          \"NaN\": \"not a number;\",\n",
  b!"          \"0\": \"=%spellout-cardinal-verbose=;\"\n",
  b!"        },\n",
  b!"        \"%spellout-cardinal\": {\n",
  b!"          \"-x\": \"minus >>;\",\n",
  b!"          \"x.x\": \"<< point >>;\",\n",
  b!"          \"Inf\": \"infinite;\",\n",
  b!"          \"NaN\": \"not a number;\",\n",
  b!"          \"0\": \"zero;\",\n",
  b!"          \"1\": \"one;\",\n",
  b!"          \"2\": \"two;\",\n",
  b!"          \"3\": \"three;\",\n",
  b!"          \"4\": \"four;\",\n",
  b!"          \"5\": \"five;\",\n",
  b!"          \"6\": \"six;\",\n",
  b!"          \"7\": \"seven;\",\n",
  b!"          \"8\": \"eight;\",\n",
  b!"          \"9\": \"nine;\",\n",
  b!"          \"10\": \"ten;\",\n",
  b!"          \"11\": \"eleven;\",\n",
  b!"          \"12\": \"twelve;\",\n",
  b!"          \"13\": \"thirteen;\",\n",
  b!"          \"14\": \"fourteen;\",\n",
  b!"          \"15\": \"fifteen;\",\n",
  b!"          \"16\": \"sixteen;\",\n",
  b!"          \"17\": \"seventeen;\",\n",
  b!"          \"18\": \"eighteen;\",\n",
  b!"          \"19\": \"nineteen;\",\n",
  b!"          \"20\": \"twenty[->>];\",\n",
  b!"          \"30\": \"thirty[->>];\",\n",
  b!"          \"40\": \"forty[->>];\",\n",
  b!"          \"50\": \"fifty[->>];\",\n",
  b!"          \"60\": \"sixty[->>];\",\n",
  b!"          \"70\": \"seventy[->>];\",\n",
  b!"          \"80\": \"eighty[->>];\",\n",
  b!"          \"90\": \"ninety[->>];\",\n",
  b!"          \"100\": \"<< hundred[ >>];\",\n",
  b!"          \"1000\": \"<< thousand[ >>];\",\n",
  b!"          \"1000000\": \"<< million[ >>];\",\n",
  b!"          \"1000000000\": \"<< billion[ >>];\",\n",
  b!"          \"1000000000000\": \"<< trillion[ >>];\",\n",
  b!"          \"1000000000000000\": \"<< quadrillion[ >>];\",\n",
  b!"          \"1000000000000000000\": \"=#,##0=;\"\n",
  b!"        },\n",
  b!"        \"%%and\": {\n",
  b!"          \"1\": \"' and =%spellout-cardinal-verbose=;\",\n",
  b!"          \"100\": \"' =%spellout-cardinal-verbose=;\"\n",
  b!"        },\n",
  b!"        \"%%commas\": {\n",
  b!"          \"1\": \"' and =%spellout-cardinal-verbose=;\",\n",
  b!"          \"100\": \", =%spellout-cardinal-verbose=;\",\n",
  b!"          \"1000\": \", <%spellout-cardinal-verbose< thousand[>%%commas>];\",\n",
  b!"          \"1000000\": \", =%spellout-cardinal-verbose=;\"\n",
  b!"        },\n",
  b!"        \"%spellout-cardinal-verbose\": {\n",
  b!"          \"-x\": \"minus >>;\",\n",
  b!"          \"x.x\": \"<< point >>;\",\n",
  b!"          \"Inf\": \"infinite;\",\n",
  b!"          \"NaN\": \"not a number;\",\n",
  b!"          \"0\": \"=%spellout-numbering=;\",\n",
  b!"          \"100\": \"<< hundred[>%%and>];\",\n",
  b!"          \"1000\": \"<< thousand[>%%and>];\",\n",
  b!"          \"100000/1000\": \"<< thousand[>%%commas>];\",\n",
  b!"          \"1000000\": \"<< million[>%%commas>];\",\n",
  b!"          \"1000000000\": \"<< billion[>%%commas>];\",\n",
  b!"          \"1000000000000\": \"<< trillion[>%%commas>];\",\n",
  b!"          \"1000000000000000\": \"<< quadrillion[>%%commas>];\",\n",
  b!"          \"1000000000000000000\": \"=#,##0=;\"\n",
  b!"        },\n",
  b!"        \"%%tieth\": {\n",
  b!"          \"0\": \"tieth;\",\n",
  b!"          \"1\": \"ty-=%spellout-ordinal=;\"\n",
  b!"        },\n",
  b!"        \"%%th\": {\n",
  b!"          \"0\": \"th;\",\n",
  b!"          \"1\": \"' =%spellout-ordinal=;\"\n",
  b!"        },\n",
  b!"        \"%spellout-ordinal\": {\n",
  b!"          \"-x\": \"minus >>;\",\n",
  b!"          \"x.x\": \"=#,##0.#=;\",\n",
  b!"          \"Inf\": \"infinitieth;\",\n",
  b!"          \"0\": \"zeroth;\",\n",
  b!"          \"1\": \"first;\",\n",
  b!"          \"2\": \"second;\",\n",
  b!"          \"3\": \"third;\",\n",
  b!"          \"4\": \"fourth;\",\n",
  b!"          \"5\": \"fifth;\",\n",
  b!"          \"6\": \"sixth;\",\n",
  b!"          \"7\": \"seventh;\",\n",
  b!"          \"8\": \"eighth;\",\n",
  b!"          \"9\": \"ninth;\",\n",
  b!"          \"10\": \"tenth;\",\n",
  b!"          \"11\": \"eleventh;\",\n",
  b!"          \"12\": \"twelfth;\",\n",
  b!"          \"13\": \"=%spellout-numbering=th;\",\n",
  b!"          \"20\": \"twen>%%tieth>;\",\n",
  b!"          \"30\": \"thir>%%tieth>;\",\n",
  b!"          \"40\": \"for>%%tieth>;\",\n",
  b!"          \"50\": \"fif>%%tieth>;\",\n",
  b!"          \"60\": \"six>%%tieth>;\",\n",
  b!"          \"70\": \"seven>%%tieth>;\",\n",
  b!"          \"80\": \"eigh>%%tieth>;\",\n",
  b!"          \"90\": \"nine>%%tieth>;\",\n",
  b!"          \"100\": \"<%spellout-numbering< hundred>%%th>;\",\n",
  b!"          \"1000\": \"<%spellout-numbering< thousand>%%th>;\",\n",
  b!"          \"1000000\": \"<%spellout-numbering< million>%%th>;\",\n",
  b!"          \"1000000000\": \"<%spellout-numbering< billion>%%th>;\",\n",
  b!"          \"1000000000000\": \"<%spellout-numbering< trillion>%%th>;\",\n",
  b!"          \"1000000000000000\": \"<%spellout-numbering< quadrillion>%%th>;\",\n",
  b!"          \"1000000000000000000\": \"=#,##0=.;\"\n",
  b!"        },\n",
  b!"        \"%%and-o\": {\n",
  b!"          \"0\": \"th;\",\n",
  b!"          \"1\": \"' and =%spellout-ordinal-verbose=;\",\n",
  b!"          \"100\": \"' =%spellout-ordinal-verbose=;\"\n",
  b!"        },\n",
  b!"        \"%%commas-o\": {\n",
  b!"          \"0\": \"th;\",\n",
  b!"          \"1\": \"' and =%spellout-ordinal-verbose=;\",\n",
  b!"          \"100\": \", =%spellout-ordinal-verbose=;\",\n",
  b!"          \"1000\": \", <%spellout-cardinal-verbose< thousand>%%commas-o>;\",\n",
  b!"          \"1000000\": \", =%spellout-ordinal-verbose=;\"\n",
  b!"        },\n",
  b!"        \"%spellout-ordinal-verbose\": {\n",
  b!"          \"-x\": \"minus >>;\",\n",
  b!"          \"x.x\": \"=#,##0.#=;\",\n",
  b!"          \"Inf\": \"infinitieth;\",\n",
  b!"          \"0\": \"=%spellout-ordinal=;\",\n",
  b!"          \"100\": \"<%spellout-numbering-verbose< hundred>%%and-o>;\",\n",
  b!"          \"1000\": \"<%spellout-numbering-verbose< thousand>%%and-o>;\",\n",
  b!"          \"100000/1000\": \"<%spellout-numbering-verbose< thousand>%%commas-o>;\",\n",
  b!"          \"1000000\": \"<%spellout-numbering-verbose< million>%%commas-o>;\",\n",
  b!"          \"1000000000\": \"<%spellout-numbering-verbose< billion>%%commas-o>;\",\n",
  b!"          \"1000000000000\": \"<%spellout-numbering-verbose< trillion>%%commas-o>;\",\n",
  b!"          \"1000000000000000\": \"<%spellout-numbering-verbose< quadrillion>%%commas-o>;\",\n",
  b!"          \"1000000000000000000\": \"=#,##0=.;\"\n",
  b!"        }\n",
  b!"      }\n",
  b!"    }\n",
  b!"  }\n",
  b!"}\n"]

/-- /repo/number_parser_data/raw_cldr_translation_data/es.json -/
def esSource : Bytes := unpackAll [
  b!"{\n",
  b!"  \"rbnf\": {\n",
  b!"    \"identity\": {\n",
  b!"      \"version\": {\n",
  b!"        \"cldrVersion\": \"37\"\n",
  b!"      },\n",
  b!"      \"language\": \"es\"\n",
  b!"    },\n",
  b!"    \"rbnf\": {\n",
  b!"      \"OrdinalRules\": {\n",
  b!"        \"%%dord-mascabbrev\": {\n",
  b!"          \"0\": \"º;\",\n",
  b!"          \"1\": \"ᵉʳ;\",\n",
  b!"          \"2\": \"º;\",\n",
  b!"          \"3\": \"ᵉʳ;\",\n",
  b!"          \"4\": \"º;\",\n",
  b!"          \"20\": \">>;\",\n",
  b!"          \"100\": \">>;\"\n",
  b!"        },\n",
  b!"        \"%digits-ordinal-masculine-adjective\": {\n",
  b!"          \"-x\": \"−>>;\",\n",
  b!"          \"0\": \"=#,##0=.=%%dord-mascabbrev=;\"\n",
  b!"        },\n",
  b!"        \"%digits-ordinal-masculine\": {\n",
  b!"          \"-x\": \"−>>;\",\n",
  b!"          \"0\": \"=#,##0=.º;\"\n",
  b!"        },\n",
  b!"        \"%digits-ordinal-feminine\": {\n",
  b!"          \"-x\": \"−>>;\",\n",
  b!"          \"0\": \"=#,##0=.ª;\"\n",
  b!"        },\n",
  b!"        \"%digits-ordinal\": {\n",
  b!"          \"0\": \"=%digits-ordinal-masculine=;\"\n",
  b!"        }\n",
  b!"      },\n",
  b!"      \"SpelloutRules\": {\n",
  b!"        \"%%lenient-parse\": {\n",
  b!"          \"0\": \"&[last primary ignorable ] << ' ' << ',' << '-' << '­';\"\n",
  b!"        },\n",
  b!"        \"%spellout-numbering-year\": {\n",
  b!"          \"x.x\": \"=0.0=;\",\n",
  b!"          \"0\": \"=%spellout-numbering=;\"\n",
  b!"        },\n",
  b!"        \"%spellout-numbering\": {\n",
  b!"          \"-x\": \"menos >>;\",\n",
  b!"          \"x.x\": \"<< punto >>;\",\n",
  b!"          \"x,x\": \"<< coma >>;\",\n",
  b!"          \"0\": \"cero;\",\n",
  b!"          \"1\": \"uno;\",\n",
  b!"          \"2\": \"dos;\",\n",
  b!"          \"3\": \"tres;\",\n",
  b!"          \"4\": \"cuatro;\",\n",
  b!"          \"5\": \"cinco;\",\n",
  b!"          \"6\": \"seis;\",\n",
  b!"          \"7\": \"siete;\",\n",
  b!"          \"8\": \"ocho;\",\n",
  b!"          \"9\": \"nueve;\",\n",
  b!"          \"10\": \"diez;\",\n",
  b!"          \"11\": \"once;\",\n",
  b!"          \"12\": \"doce;\",\n",
  b!"          \"13\": \"trece;\",\n",
  b!"          \"14\": \"catorce;\",\n",
  b!"          \"15\": \"quince;\",\n",
  b!"          \"16\": \"dieciséis;\",\n",
  b!"          \"17\": \"dieci>>;\",\n",
  b!"          \"20\": \"veinte;\",\n",
  b!"          \"21\": \"veintiuno;\",\n",
  b!"          \"22\": \"veintidós;\",\n",
  b!"          \"23\": \"veintitrés;\",\n",
  b!"          \"24\": \"veinticuatro;\",\n",
  b!"          \"25\": \"veinticinco;\",\n",
  b!"          \"26\": \"veintiséis;\",\n",
  b!"          \"27\": \"veinti>>;\",\n",
  b!"          \"30\": \"treinta[ y >>];\",\n",
  b!"          \"40\": \"cuarenta[ y >>];\",\n",
  b!"          \"50\": \"cincuenta[ y >>];\",\n",
  b!"          \"60\": \"sesenta[ y >>];\",\n",
  b!"          \"70\": \"setenta[ y >>];\",\n",
  b!"          \"80\": \"ochenta[ y >>];\",\n",
  b!"          \"90\": \"noventa[ y >>];\",\n",
  b!"          \"100\": \"cien;\",\n",
  b!"          \"101\": \"ciento >>;\",\n",
  b!"          \"200\": \"doscientos[ >>];\",\n",
  b!"          \"300\": \"trescientos[ >>];\",\n",
  b!"          \"400\": \"cuatrocientos[ >>];\",\n",
  b!"          \"500\": \"quinientos[ >>];\",\n",
  b!"          \"600\": \"seiscientos[ >>];\",\n",
  b!"          \"700\": \"setecientos[ >>];\",\n",
  b!"          \"800\": \"ochocientos[ >>];\",\n",
  b!"          \"900\": \"novecientos[ >>];\",\n",
  b!"          \"1000\": \"mil[ >>];\",\n",
  b!"          \"2000\": \"<%spellout-cardinal-masculine< mil[ >>];\",\n",
  b!"          \"1000000\": \"un millón[ >>];\",\n",
  b!"          \"2000000\": \"<%spellout-cardinal-masculine< millones[ >>];\",\n",
  b!"          \"1000000000000\": \"un billón[ >>];\",\n",
  b!"          \"2000000000000\": \"<%spellout-cardinal-masculine< billones[ >>];\",\n",
  b!"          \"1000000000000000000\": \"=#,##0=;\"\n",
  b!"        },\n",
  b!"        \"%spellout-cardinal-masculine\": {\n",
  b!"          \"-x\": \"menos >>;\",\n",
  b!"          \"x.x\": \"<< punto >>;\",\n",
  b!"          \"x,x\": \"<< coma >>;\",\n",
  b!"          \"0\": \"cero;\",\n",
  b!"          \"1\": \"un;\",\n",
  b!"          \"2\": \"=%spellout-numbering=;\",\n",
  b!"          \"21\": \"veintiún;\",\n",
  b!"          \"22\": \"=%spellout-numbering=;\",\n",
  b!"          \"30\": \"treinta[ y >>];\",\n",
  b!"          \"40\": \"cuarenta[ y >>];\",\n",
  b!"          \"50\": \"cincuenta[ y >>];\",\n",
  b!"          \"60\": \"sesenta[ y >>];\",\n",
  b!"          \"70\": \"setenta[ y >>];\",\n",
  b!"          \"80\": \"ochenta[ y >>];\",\n",
  b!"          \"90\": \"noventa[ y >>];\",\n",
  b!"          \"100\": \"cien;\",\n",
  b!"          \"101\": \"ciento >>;\",\n",
  b!"          \"200\": \"doscientos[ >>];\",\n",
  b!"          \"300\": \"trescientos[ >>];\",\n",
  b!"          \"400\": \"cuatrocientos[ >>];\",\n",
  b!"          \"500\": \"quinientos[ >>];\",\n",
  b!"          \"600\": \"seis­cientos[ >>];\",\n",
  b!"          \"700\": \"sete­cientos[ >>];\",\n",
  b!"          \"800\": \"ocho­cientos[ >>];\",\n",
  b!"          \"900\": \"nove­cientos[ >>];\",\n",
  b!"          \"1000\": \"mil[ >>];\",\n",
  b!"          \"2000\": \"<%spellout-cardinal-masculine< mil[ >>];\",\n",
  b!"          \"1000000\": \"un millón[ >>];\",\n",
  b!"          \"2000000\": \"<%spellout-cardinal-masculine< millones[ >>];\",\n",
  b!"          \"1000000000000\": \"un billón[ >>];\",\n",
  b!"          \"2000000000000\": \"<%spellout-cardinal-masculine< billones[ >>];\",\n",
  b!"          \"1000000000000000000\": \"=#,##0=;\"\n",
  b!"        },\n",
  b!"        \"%spellout-cardinal-feminine\": {\n",
  b!"          \"-x\": \"menos >>;\",\n",
  b!"          \"x.x\": \"<< punto >>;\",\n",
  b!"          \"x,x\": \"<< coma >>;\",\n",
  b!"          \"0\": \"cero;\",\n",
  b!"          \"1\": \"una;\",\n",
  b!"          \"2\": \"=%spellout-numbering=;\",\n",
  b!"          \"21\": \"veintiuna;\",\n",
  b!"          \"22\": \"=%spellout-numbering=;\",\n",
  b!"          \"30\": \"treinta[ y >>];\",\n",
  b!"          \"40\": \"cuarenta[ y >>];\",\n",
  b!"          \"50\": \"cincuenta[ y >>];\",\n",
  b!"          \"60\": \"sesenta[ y >>];\",\n",
  b!"          \"70\": \"setenta[ y >>];\",\n",
  b!"          \"80\": \"ochenta[ y >>];\",\n",
  b!"          \"90\": \"noventa[ y >>];\",\n",
  b!"          \"100\": \"cien;\",\n",
  b!"          \"101\": \"ciento >>;\",\n",
  b!"          \"200\": \"dos­cientas[ >>];\",\n",
  b!"          \"300\": \"tres­cientas[ >>];\",\n",
  b!"          \"400\": \"cuatro­cientas[ >>];\",\n",
  b!"          \"500\": \"quinientas[ >>];\",\n",
  b!"          \"600\": \"seis­cientas[ >>];\",\n",
  b!"          \"700\": \"sete­cientas[ >>];\",\n",
  b!"          \"800\": \"ocho­cientas[ >>];\",\n",
  b!"          \"900\": \"nove­cientas[ >>];\",\n",
  b!"          \"1000\": \"mil[ >>];\",\n",
  b!"          \"2000\": \"<%spellout-cardinal-masculine< mil[ >>];\",\n",
  b!"          \"1000000\": \"un millón[ >>];\",\n",
  b!"          \"2000000\": \"<%spellout-cardinal-masculine< millones[ >>];\",\n",
  b!"          \"1000000000000\": \"un billón[ >>];\",\n",
  b!"          \"2000000000000\": \"<%spellout-cardinal-masculine< billones[ >>];\",\n",
  b!"          \"1000000000000000000\": \"=#,##0=;\"\n",
  b!"        },\n",
  b!"        \"%spellout-ordinal-masculine-adjective\": {\n",
  b!"          \"-x\": \"menos >>;\",\n",
  b!"          \"x.x\": \"=#,##0.#=;\",\n",
  b!"          \"0\": \"cero;\",\n",
  b!"          \"1\": \"primer;\",\n",
  b!"          \"2\": \"segundo;\",\n",
  b!"          \"3\": \"tercer;\",\n",
  b!"          \"4\": \"cuarto;\",\n",
  b!"          \"5\": \"quinto;\",\n",
  b!"          \"6\": \"sexto;\",\n",
  b!"          \"7\": \"séptimo;\",\n",
  b!"          \"8\": \"octavo;\",\n",
  b!"          \"9\": \"noveno;\",\n",
  b!"          \"10\": \"décimo;\",\n",
  b!"          \"11\": \"undécimo;\",\n",
  b!"          \"12\": \"duodécimo;\",\n",
  b!"          \"13\": \"decimo>>;\",\n",
  b!"          \"18\": \"decim>>;\",\n",
  b!"          \"19\": \"decimo>>;\",\n",
  b!"          \"20\": \"vigésimo[ >>];\",\n",
  b!"          \"30\": \"trigésimo[ >>];\",\n",
  b!"          \"40\": \"cuadragésimo[ >>];\",\n",
  b!"          \"50\": \"quincuagésimo[ >>];\",\n",
  b!"          \"60\": \"sexagésimo[ >>];\",\n",
  b!"          \"70\": \"septuagésimo[ >>];\",\n",
  b!"          \"80\": \"octogésimo[ >>];\",\n",
  b!"          \"90\": \"nonagésimo[ >>];\",\n",
  b!"          \"100\": \"centésimo[ >>];\",\n",
  b!"          \"200\": \"ducentésimo[ >>];\",\n",
  b!"          \"300\": \"tricentésimo[ >>];\",\n",
  b!"          \"400\": \"cuadringentésimo[ >>];\",\n",
  b!"          \"500\": \"quingentésimo[ >>];\",\n",
  b!"          \"600\": \"sexcentésimo[ >>];\",\n",
  b!"          \"700\": \"septingentésimo[ >>];\",\n",
  b!"          \"800\": \"octingésimo[ >>];\",\n",
  b!"          \"900\": \"noningentésimo[ >>];\",\n",
  b!"          \"1000\": \"milésimo[ >>];\",\n",
  b!"          \"2000\": \"<%spellout-cardinal-masculine< milésimo[ >>];\",\n",
  b!"          \"1000000\": \"un millonésimo[ >>];\",\n",
  b!"          \"2000000\": \"<%spellout-cardinal-masculine< millonésimo[ >>];\",\n",
  b!"          \"1000000000000\": \"un billonésimo[ >>];\",\n",
  b!"          \"2000000000000\": \"<%spellout-cardinal-masculine< billonésimo[ >>];\",\n",
  b!"          \"1000000000000000000\": \"=#,##0=º;\"\n",
  b!"        },\n",
  b!"        \"%spellout-ordinal-masculine-plural\": {\n",
  b!"          \"-x\": \"menos >>;\",\n",
  b!"          \"x.x\": \"=#,##0.#=;\",\n",
  b!"          \"0\": \"=%spellout-ordinal-masculine=;\",\n",
  b!"          \"1\": \"=%spellout-ordinal-masculine=s;\",\n",
  b!"          \"1000000000000000000\": \"=#,##0=º;\"\n",
  b!"        },\n",
  b!"        \"%spellout-ordinal-masculine\": {\n",
  b!"          \"-x\": \"menos >>;\",\n",
  b!"          \"x.x\": \"=#,##0.#=;\",\n",
  b!"          \"0\": \"cero;\",\n",
  b!"          \"1\": \"primero;\",\n",
  b!"          \"2\": \"segundo;\",\n",
  b!"          \"3\": \"tercero;\",\n",
  b!"          \"4\": \"cuarto;\",\n",
  b!"          \"5\": \"quinto;\",\n",
  b!"          \"6\": \"sexto;\",\n",
  b!"          \"7\": \"séptimo;\",\n",
  b!"          \"8\": \"octavo;\",\n",
  b!"          \"9\": \"noveno;\",\n",
  b!"          \"10\": \"décimo;\",\n",
  b!"          \"11\": \"decimo>>;\",\n",
  b!"          \"18\": \"decim>>;\",\n",
  b!"          \"19\": \"decimo>>;\",\n",
  b!"          \"20\": \"vigésimo[ >>];\",\n",
  b!"          \"30\": \"trigésimo[ >>];\",\n",
  b!"          \"40\": \"cuadragésimo[ >>];\",\n",
  b!"          \"50\": \"quincuagésimo[ >>];\",\n",
  b!"          \"60\": \"sexagésimo[ >>];\",\n",
  b!"          \"70\": \"septuagésimo[ >>];\",\n",
  b!"          \"80\": \"octogésimo[ >>];\",\n",
  b!"          \"90\": \"nonagésimo[ >>];\",\n",
  b!"          \"100\": \"centésimo[ >>];\",\n",
  b!"          \"200\": \"ducentésimo[ >>];\",\n",
  b!"          \"300\": \"tricentésimo[ >>];\",\n",
  b!"          \"400\": \"cuadringentésimo[ >>];\",\n",
  b!"          \"500\": \"quingentésimo[ >>];\",\n",
  b!"          \"600\": \"sexcentésimo[ >>];\",\n",
  b!"          \"700\": \"septingentésimo[ >>];\",\n",
  b!"          \"800\": \"octingésimo[ >>];\",\n",
  b!"          \"900\": \"noningentésimo[ >>];\",\n",
  b!"          \"1000\": \"milésimo[ >>];\",\n",
  b!"          \"2000\": \"<%spellout-cardinal-masculine< milésimo[ >>];\",\n",
  b!"          \"1000000\": \"un millonésimo[ >>];\",\n",
  b!"          \"2000000\": \"<%spellout-cardinal-masculine< millonésimo[ >>];\",\n",
  b!"          \"1000000000000\": \"un billonésimo[ >>];\",\n",
  b!"          \"2000000000000\": \"<%spellout-cardinal-masculine< billonésimo[ >>];\",\n",
  b!"          \"1000000000000000000\": \"=#,##0=º;\"\n",
  b!"        },\n",
  b!"        \"%spellout-ordinal-feminine-plural\": {\n",
  b!"          \"-x\": \"menos >>;\",\n",
  b!"          \"x.x\": \"=#,##0.#=;\",\n",
  b!"          \"0\": \"=%spellout-ordinal-feminine=;\",\n",
  b!"          \"1\": \"=%spellout-ordinal-feminine=s;\",\n",
  b!"          \"1000000000000000000\": \"=#,##0=ª;\"\n",
  b!"        },\n",
  b!"        \"%spellout-ordinal-feminine\": {\n",
  b!"          \"-x\": \"menos >>;\",\n",
  b!"          \"x.x\": \"=#,##0.#=;\",\n",
  b!"          \"0\": \"cero;\",\n",
  b!"          \"1\": \"primera;\",\n",
  b!"          \"2\": \"segunda;\",\n",
  b!"          \"3\": \"tercera;\",\n",
  b!"          \"4\": \"cuarta;\",\n",
  b!"          \"5\": \"quinta;\",\n",
  b!"          \"6\": \"sexta;\",\n",
  b!"          \"7\": \"séptima;\",\n",
  b!"          \"8\": \"octava;\",\n",
  b!"          \"9\": \"novena;\",\n",
  b!"          \"10\": \"décima;\",\n",
  b!"          \"11\": \"decimo>>;\",\n",
  b!"          \"18\": \"decim>>;\",\n",
  b!"          \"19\": \"decimo>>;\",\n",
  b!"          \"20\": \"vigésima[ >>];\",\n",
  b!"          \"30\": \"trigésima[ >>];\",\n",
  b!"          \"40\": \"cuadragésima[ >>];\",\n",
  b!"          \"50\": \"quincuagésima[ >>];\",\n",
  b!"          \"60\": \"sexagésima[ >>];\",\n",
  b!"          \"70\": \"septuagésima[ >>];\",\n",
  b!"          \"80\": \"octogésima[ >>];\",\n",
  b!"          \"90\": \"nonagésima[ >>];\",\n",
  b!"          \"100\": \"centésima[ >>];\",\n",
  b!"          \"200\": \"ducentésima[ >>];\",\n",
  b!"          \"300\": \"tricentésima[ >>];\",\n",
  b!"          \"400\": \"cuadringentésima[ >>];\",\n",
  b!"          \"500\": \"quingentésima[ >>];\",\n",
  b!"          \"600\": \"sexcentésima[ >>];\",\n",
  b!"          \"700\": \"septingentésima[ >>];\",\n",
  b!"          \"800\": \"octingésima[ >>];\",\n",
  b!"          \"900\": \"noningentésima[ >>];\",\n",
  b!"          \"1000\": \"milésima[ >>];\",\n",
  b!"          \"2000\": \"<%spellout-cardinal-masculine< milésima[ >>];\",\n",
  b!"          \"1000000\": \"un millonésima[ >>];\",\n",
  b!"          \"2000000\": \"<%spellout-cardinal-masculine< millonésima[ >>];\",\n",
  b!"          \"1000000000000\": \"un billonésima[ >>];\",\n",
  b!"          \"2000000000000\": \"<%spellout-cardinal-masculine< billonésima[ >>];\",\n",
  b!"          \"1000000000000000000\": \"=#,##0=ª;\"\n",
  b!"        }\n",
  b!"      }\n",
  b!"    }\n",
  b!"  }\n",
  b!"}\n"]

/-- /repo/number_parser_data/raw_cldr_translation_data/hi.json -/
def hiSource : Bytes := unpackAll [
  b!"{\n",
  b!"  \"rbnf\": {\n",
  b!"    \"identity\": {\n",
  b!"      \"version\": {\n",
  b!"        \"cldrVersion\": \"37\"\n",
  b!"      },\n",
  b!"      \"language\": \"hi\"\n",
  b!"    },\n",
  b!"    \"rbnf\": {\n",
  b!"      \"OrdinalRules\": {\n",
  b!"        \"%digits-ordinal-masculine\": {\n",
  b!"          \"-x\": \"−>>;\",\n",
  b!"          \"x.x\": \"=#,##,##0.0=;\",\n",
  b!"          \"0\": \"0;\",\n",
  b!"          \"1\": \"=0=ला;\",\n",
  b!"          \"2\": \"=0=रा;\",\n",
  b!"          \"4\": \"=0=था;\",\n",
  b!"          \"5\": \"=0=वाँ;\",\n",
  b!"          \"6\": \"=0=ठा;\",\n",
  b!"          \"7\": \"=#,##,##0=वाँ;\"\n",
  b!"        },\n",
  b!"        \"%digits-ordinal-masculine-oblique\": {\n",
  b!"          \"-x\": \"−>>;\",\n",
  b!"          \"x.x\": \"=#,##,##0.0=;\",\n",
  b!"          \"0\": \"0;\",\n",
  b!"          \"1\": \"=0=ले;\",\n",
  b!"          \"2\": \"=0=रे;\",\n",
  b!"          \"4\": \"=0=थे;\",\n",
  b!"          \"5\": \"=0=वें;\",\n",
  b!"          \"6\": \"=0=ठे;\",\n",
  b!"          \"7\": \"=#,##,##0=वें;\"\n",
  b!"        },\n",
  b!"        \"%digits-ordinal-feminine\": {\n",
  b!"          \"-x\": \"−>>;\",\n",
  b!"          \"x.x\": \"=#,##,##0.0=;\",\n",
  b!"          \"0\": \"0;\",\n",
  b!"          \"1\": \"=0=ली;\",\n",
  b!"          \"2\": \"=0=री;\",\n",
  b!"          \"4\": \"=0=थी;\",\n",
  b!"          \"5\": \"=0=वीँ;\",\n",
  b!"          \"6\": \"=0=ठी;\",\n",
  b!"          \"7\": \"=#,##,##0=वीँ;\"\n",
  b!"        },\n",
  b!"        \"%digits-ordinal\": {\n",
  b!"          \"0\": \"=%digits-ordinal-masculine=;\"\n",
  b!"        }\n",
  b!"      },\n",
  b!"      \"SpelloutRules\": {\n",
  b!"        \"%spellout-numbering-year\": {\n",
  b!"          \"x.x\": \"=0.0=;\",\n",
  b!"          \"0\": \"=%spellout-numbering=;\"\n",
  b!"        },\n",
  b!"        \"%spellout-numbering\": {\n",
  b!"          \"0\": \"=%spellout-cardinal=;\"\n",
  b!"        },\n",
  b!"        \"%spellout-cardinal\": {\n",
  b!"          \"-x\": \"ऋण >>;\",\n",
  b!"          \"x.x\": \"<< दशमलव >>;\",\n",
  b!"          \"0\": \"शून्य;\",\n",
  b!"          \"1\": \"एक;\",\n",
  b!"          \"2\": \"दो;\",\n",
  b!"          \"3\": \"तीन;\",\n",
  b!"          \"4\": \"चार;\",\n",
  b!"          \"5\": \"पाँच;\",\n",
  b!"          \"6\": \"छह;\",\n",
  b!"          \"7\": \"सात;\",\n",
  b!"          \"8\": \"आठ;\",\n",
  b!"          \"9\": \"नौ;\",\n",
  b!"          \"10\": \"दस;\",\n",
  b!"          \"11\": \"ग्यारह;\",\n",
  b!"          \"12\": \"बारह;\",\n",
  b!"          \"13\": \"तेरह;\",\n",
  b!"          \"14\": \"चौदह;\",\n",
  b!"          \"15\": \"पन्द्रह;\",\n",
  b!"          \"16\": \"सोलह;\",\n",
  b!"          \"17\": \"सत्रह;\",\n",
  b!"          \"18\": \"अठारह;\",\n",
  b!"          \"19\": \"उन्नीस;\",\n",
  b!"          \"20\": \"बीस;\",\n",
  b!"          \"21\": \"इक्कीस;\",\n",
  b!"          \"22\": \"बाईस;\",\n",
  b!"          \"23\": \"तेईस;\",\n",
  b!"          \"24\": \"चौबीस;\",\n",
  b!"          \"25\": \"पच्चीस;\",\n",
  b!"          \"26\": \"छब्बीस;\",\n",
  b!"          \"27\": \"सत्ताईस;\",\n",
  b!"          \"28\": \"अट्ठाईस;\",\n",
  b!"          \"29\": \"उनतीस;\",\n",
  b!"          \"30\": \"तीस;\",\n",
  b!"          \"31\": \"इकतीस;\",\n",
  b!"          \"32\": \"बत्तीस;\",\n",
  b!"          \"33\": \"तैंतीस;\",\n",
  b!"          \"34\": \"चौंतीस;\",\n",
  b!"          \"35\": \"पैंतीस;\",\n",
  b!"          \"36\": \"छत्तीस;\",\n",
  b!"          \"37\": \"सैंतीस;\",\n",
  b!"          \"38\": \"अड़तीस;\",\n",
  b!"          \"39\": \"उनतालीस;\",\n",
  b!"          \"40\": \"चालीस;\",\n",
  b!"          \"41\": \"इकतालीस;\",\n",
  b!"          \"42\": \"बयालीस;\",\n",
  b!"          \"43\": \"तैंतालीस;\",\n",
  b!"          \"44\": \"चौवालीस;\",\n",
  b!"          \"45\": \"पैंतालीस;\",\n",
  b!"          \"46\": \"छियालीस;\",\n",
  b!"          \"47\": \"सैंतालीस;\",\n",
  b!"          \"48\": \"अड़तालीस;\",\n",
  b!"          \"49\": \"उनचास;\",\n",
  b!"          \"50\": \"पचास;\",\n",
  b!"          \"51\": \"इक्यावन;\",\n",
  b!"          \"52\": \"बावन;\",\n",
  b!"          \"53\": \"तिरेपन;\",\n",
  b!"          \"54\": \"चौवन;\",\n",
  b!"          \"55\": \"पचपन;\",\n",
  b!"          \"56\": \"छप्पन;\",\n",
  b!"          \"57\": \"सत्तावन;\",\n",
  b!"          \"58\": \"अट्ठावन;\",\n",
  b!"          \"59\": \"उनसठ;\",\n",
  b!"          \"60\": \"साठ;\",\n",
  b!"          \"61\": \"इकसठ;\",\n",
  b!"          \"62\": \"बासठ;\",\n",
  b!"          \"63\": \"तिरेसठ;\",\n",
  b!"          \"64\": \"चौंसठ;\",\n",
  b!"          \"65\": \"पैंसठ;\",\n",
  b!"          \"66\": \"छियासठ;\",\n",
  b!"          \"67\": \"सड़सठ;\",\n",
  b!"          \"68\": \"अड़सठ;\",\n",
  b!"          \"69\": \"उनहत्तर;\",\n",
  b!"          \"70\": \"सत्तर;\",\n",
  b!"          \"71\": \"इकहत्तर;\",\n",
  b!"          \"72\": \"बहत्तर;\",\n",
  b!"          \"73\": \"तिहत्तर;\",\n",
  b!"          \"74\": \"चौहत्तर;\",\n",
  b!"          \"75\": \"पचहत्तर;\",\n",
  b!"          \"76\": \"छिहत्तर;\",\n",
  b!"          \"77\": \"सतहत्तर;\",\n",
  b!"          \"78\": \"अठहत्तर;\",\n",
  b!"          \"79\": \"उनासी;\",\n",
  b!"          \"80\": \"अस्सी;\",\n",
  b!"          \"81\": \"इक्यासी;\",\n",
  b!"          \"82\": \"बयासी;\",\n",
  b!"          \"83\": \"तिरासी;\",\n",
  b!"          \"84\": \"चौरासी;\",\n",
  b!"          \"85\": \"पचासी;\",\n",
  b!"          \"86\": \"छियासी;\",\n",
  b!"          \"87\": \"सत्तासी;\",\n",
  b!"          \"88\": \"अट्ठासी;\",\n",
  b!"          \"89\": \"नवासी;\",\n",
  b!"          \"90\": \"नब्बे;\",\n",
  b!"          \"91\": \"इक्यानबे;\",\n",
  b!"          \"92\": \"बानबे;\",\n",
  b!"          \"93\": \"तिरानबे;\",\n",
  b!"          \"94\": \"चौरानबे;\",\n",
  b!"          \"95\": \"पंचानबे;\",\n",
  b!"          \"96\": \"छियानबे;\",\n",
  b!"          \"97\": \"सत्तानबे;\",\n",
  b!"          \"98\": \"अट्ठानबे;\",\n",
  b!"          \"99\": \"निन्यानबे;\",\n",
  b!"          \"100\": \"<< सौ[ >>];\",\n",
  b!"          \"1000\": \"<< हज़ार[ >>];\",\n",
  b!"          \"100000\": \"<< लाख[ >>];\",\n",
  b!"          \"10000000\": \"<< करोड़[ >>];\",\n",
  b!"          \"1000000000\": \"<< अरब[ >>];\",\n",
  b!"          \"100000000000\": \"<< खरब[ >>];\",\n",
  b!"          \"1000000000000000000\": \"=#,##,##0=;\"\n",
  b!"        },\n",
  b!"        \"%spellout-ordinal-masculine\": {\n",
  b!"          \"-x\": \"ऋण >>;\",\n",
  b!"          \"x.x\": \"=#,##,##0.0=;\",\n",
  b!"          \"0\": \"शून्यवाँ;\",\n",
  b!"          \"1\": \"पहला;\",\n",
  b!"          \"2\": \"दूसरा;\",\n",
  b!"          \"3\": \"तीसरा;\",\n",
  b!"          \"4\": \"चौथा;\",\n",
  b!"          \"5\": \"पाँचवाँ;\",\n",
  b!"          \"6\": \"छठा;\",\n",
  b!"          \"7\": \"=%spellout-cardinal=वाँ;\"\n",
  b!"        },\n",
  b!"        \"%spellout-ordinal-feminine\": {\n",
  b!"          \"-x\": \"ऋण >>;\",\n",
  b!"          \"x.x\": \"=#,##,##0.0=;\",\n",
  b!"          \"0\": \"शून्यवी;\",\n",
  b!"          \"1\": \"पहली;\",\n",
  b!"          \"2\": \"दूसरी;\",\n",
  b!"          \"3\": \"तीसरी;\",\n",
  b!"          \"4\": \"चौथी;\",\n",
  b!"          \"5\": \"पाँचवी;\",\n",
  b!"          \"6\": \"छठी;\",\n",
  b!"          \"7\": \"=%spellout-cardinal=वी;\"\n",
  b!"        }\n",
  b!"      }\n",
  b!"    }\n",
  b!"  }\n",
  b!"}\n"]

/-- /repo/number_parser_data/raw_cldr_translation_data/ru.json -/
def ruSource : Bytes := unpackAll [
  b!"{\n",
  b!"  \"rbnf\": {\n",
  b!"    \"identity\": {\n",
  b!"      \"version\": {\n",
  b!"        \"cldrVersion\": \"37\"\n",
  b!"      },\n",
  b!"      \"language\": \"ru\"\n",
  b!"    },\n",
  b!"    \"rbnf\": {\n",
  b!"      \"SpelloutRules\": {\n",
  b!"        \"%spellout-numbering-year\": {\n",
  b!"          \"x.x\": \"=0.0=;\",\n",
  b!"          \"0\": \"=%spellout-ordinal-masculine-genitive=;\"\n",
  b!"        },\n",
  b!"        \"%spellout-numbering\": {\n",
  b!"          \"0\": \"=%spellout-cardinal-masculine=;\"\n",
  b!"        },\n",
  b!"        \"%spellout-cardinal-masculine\": {\n",
  b!"          \"-x\": \"минус >>;\",\n",
  b!"          \"x.x\": \"[<%spellout-cardinal-feminine< $(cardinal,one{целый}other{целых})$ ]>%%fractions-feminine>;\",\n",
  b!"          \"0\": \"ноль;\",\n",
  b!"          \"1\": \"один;\",\n",
  b!"          \"2\": \"два;\",\n",
  b!"          \"3\": \"три;\",\n",
  b!"          \"4\": \"четыре;\",\n",
  b!"          \"5\": \"пять;\",\n",
  b!"          \"6\": \"шесть;\",\n",
  b!"          \"7\": \"семь;\",\n",
  b!"          \"8\": \"восемь;\",\n",
  b!"          \"9\": \"девять;\",\n",
  b!"          \"10\": \"десять;\",\n",
  b!"          \"11\": \"одиннадцать;\",\n",
  b!"          \"12\": \"двенадцать;\",\n",
  b!"          \"13\": \"тринадцать;\",\n",
  b!"          \"14\": \"четырнадцать;\",\n",
  b!"          \"15\": \"пятнадцать;\",\n",
  b!"          \"16\": \"шестнадцать;\",\n",
  b!"          \"17\": \"семнадцать;\",\n",
  b!"          \"18\": \"восемнадцать;\",\n",
  b!"          \"19\": \"девятнадцать;\",\n",
  b!"          \"20\": \"двадцать[ >>];\",\n",
  b!"          \"30\": \"тридцать[ >>];\",\n",
  b!"          \"40\": \"сорок[ >>];\",\n",
  b!"          \"50\": \"пятьдесят[ >>];\",\n",
  b!"          \"60\": \"шестьдесят[ >>];\",\n",
  b!"          \"70\": \"семьдесят[ >>];\",\n",
  b!"          \"80\": \"восемьдесят[ >>];\",\n",
  b!"          \"90\": \"девяносто[ >>];\",\n",
  b!"          \"100\": \"сто[ >>];\",\n",
  b!"          \"200\": \"<%spellout-cardinal-feminine<сти[ >>];\",\n",
  b!"          \"300\": \"<%spellout-cardinal-feminine<ста[ >>];\",\n",
  b!"          \"500\": \"<%spellout-cardinal-feminine<сот[ >>];\",\n",
  b!"          \"1000\": \"<%spellout-cardinal-feminine< $(cardinal,one{тысяча}few{тысячи}other{тысяч})$[ >>];\",\n",
  b!"          \"1000000\": \"<%spellout-cardinal-masculine< $(cardinal,one{миллион}few{миллиона}other{миллионов})$[ >>];\",\n",
  b!"          \"1000000000\": \"<%spellout-cardinal-masculine< $(cardinal,one{миллиард}few{миллиарда}other{миллиардов})$[ >>];\",\n",
  b!"          \"1000000000000\": \"<%spellout-cardinal-masculine< $(cardinal,one{триллион}few{триллиона}other{триллионов})$[ >>];\",\n",
  b!"          \"1000000000000000\": \"<%spellout-cardinal-masculine< $(cardinal,one{квадриллион}few{квадриллиона}other{квадриллионов})$[ >>];\",\n",
  b!"          \"1000000000000000000\": \"=#,##0=;\"\n",
  b!"        },\n",
  b!"        \"%spellout-cardinal-neuter\": {\n",
  b!"          \"-x\": \"минус >>;\",\n",
  b!"          \"x.x\": \"[<%spellout-cardinal-feminine< $(cardinal,one{целая}other{целых})$ ]>%%fractions-feminine>;\",\n",
  b!"          \"0\": \"ноль;\",\n",
  b!"          \"1\": \"одно;\",\n",
  b!"          \"2\": \"=%spellout-cardinal-masculine=;\",\n",
  b!"          \"20\": \"двадцать[ >>];\",\n",
  b!"          \"30\": \"тридцать[ >>];\",\n",
  b!"          \"40\": \"сорок[ >>];\",\n",
  b!"          \"50\": \"пятьдесят[ >>];\",\n",
  b!"          \"60\": \"шестьдесят[ >>];\",\n",
  b!"          \"70\": \"семьдесят[ >>];\",\n",
  b!"          \"80\": \"восемьдесят[ >>];\",\n",
  b!"          \"90\": \"девяносто[ >>];\",\n",
  b!"          \"100\": \"сто[ >>];\",\n",
  b!"          \"200\": \"<%spellout-cardinal-feminine<сти[ >>];\",\n",
  b!"          \"300\": \"<%spellout-cardinal-feminine<ста[ >>];\",\n",
  b!"          \"500\": \"<%spellout-cardinal-feminine<сот[ >>];\",\n",
  b!"          \"1000\": \"<%spellout-cardinal-feminine< $(cardinal,one{тысяча}few{тысячи}other{тысяч})$[ >>];\",\n",
  b!"          \"1000000\": \"<%spellout-cardinal-masculine< $(cardinal,one{миллион}few{миллиона}other{миллионов})$[ >>];\",\n",
  b!"          \"1000000000\": \"<%spellout-cardinal-masculine< $(cardinal,one{миллиард}few{миллиарда}other{миллиардов})$[ >>];\",\n",
  b!"          \"1000000000000\": \"<%spellout-cardinal-masculine< $(cardinal,one{триллион}few{триллиона}other{триллионов})$[ >>];\",\n",
  b!"          \"1000000000000000\": \"<%spellout-cardinal-masculine< $(cardinal,one{квадриллион}few{квадриллиона}other{квадриллионов})$[ >>];\",\n",
  b!"          \"1000000000000000000\": \"=#,##0=;\"\n",
  b!"        },\n",
  b!"        \"%spellout-cardinal-feminine\": {\n",
  b!"          \"-x\": \"минус >>;\",\n",
  b!"          \"x.x\": \"[<< $(cardinal,one{целая}other{целых})$ ]>%%fractions-feminine>;\",\n",
  b!"          \"0\": \"ноль;\",\n",
  b!"          \"1\": \"одна;\",\n",
  b!"          \"2\": \"две;\",\n",
  b!"          \"3\": \"=%spellout-cardinal-masculine=;\",\n",
  b!"          \"20\": \"двадцать[ >>];\",\n",
  b!"          \"30\": \"тридцать[ >>];\",\n",
  b!"          \"40\": \"сорок[ >>];\",\n",
  b!"          \"50\": \"пятьдесят[ >>];\",\n",
  b!"          \"60\": \"шестьдесят[ >>];\",\n",
  b!"          \"70\": \"семьдесят[ >>];\",\n",
  b!"          \"80\": \"восемьдесят[ >>];\",\n",
  b!"          \"90\": \"девяносто[ >>];\",\n",
  b!"          \"100\": \"сто[ >>];\",\n",
  b!"          \"200\": \"<%spellout-cardinal-feminine<сти[ >>];\",\n",
  b!"          \"300\": \"<%spellout-cardinal-feminine<ста[ >>];\",\n",
  b!"          \"500\": \"<%spellout-cardinal-feminine<сот[ >>];\",\n",
  b!"          \"1000\": \"<%spellout-cardinal-feminine< $(cardinal,one{тысяча}few{тысячи}other{тысяч})$[ >>];\",\n",
  b!"          \"1000000\": \"<%spellout-cardinal-masculine< $(cardinal,one{миллион}few{миллиона}other{миллионов})$[ >>];\",\n",
  b!"          \"1000000000\": \"<%spellout-cardinal-masculine< $(cardinal,one{миллиард}few{миллиарда}other{миллиардов})$[ >>];\",\n",
  b!"          \"1000000000000\": \"<%spellout-cardinal-masculine< $(cardinal,one{триллион}few{триллиона}other{триллионов})$[ >>];\",\n",
  b!"          \"1000000000000000\": \"<%spellout-cardinal-masculine< $(cardinal,one{квадриллион}few{квадриллиона}other{квадриллионов})$[ >>];\",\n",
  b!"          \"1000000000000000000\": \"=#,##0=;\"\n",
  b!"        },\n",
  b!"        \"%spellout-cardinal-plural\": {\n",
  b!"          \"-x\": \"минус >>;\",\n",
  b!"          \"x.x\": \"<< запятая >>;\",\n",
  b!"          \"0\": \"ноль;\",\n",
  b!"          \"1\": \"одни;\",\n",
  b!"          \"2\": \"две;\",\n",
  b!"          \"3\": \"=%spellout-cardinal-masculine=;\",\n",
  b!"          \"20\": \"двадцать[ >>];\",\n",
  b!"          \"30\": \"тридцать[ >>];\",\n",
  b!"          \"40\": \"сорок[ >>];\",\n",
  b!"          \"50\": \"пятьдесят[ >>];\",\n",
  b!"          \"60\": \"шестьдесят[ >>];\",\n",
  b!"          \"70\": \"семьдесят[ >>];\",\n",
  b!"          \"80\": \"восемьдесят[ >>];\",\n",
  b!"          \"90\": \"девяносто[ >>];\",\n",
  b!"          \"100\": \"сто[ >>];\",\n",
  b!"          \"200\": \"<%spellout-cardinal-feminine<сти[ >>];\",\n",
  b!"          \"300\": \"<%spellout-cardinal-feminine<ста[ >>];\",\n",
  b!"          \"500\": \"<%spellout-cardinal-feminine<сот[ >>];\",\n",
  b!"          \"1000\": \"<%spellout-cardinal-feminine< $(cardinal,one{тысяча}few{тысячи}other{тысяч})$[ >>];\",\n",
  b!"          \"1000000\": \"<%spellout-cardinal-masculine< $(cardinal,one{миллион}few{миллиона}other{миллионов})$[ >>];\",\n",
  b!"          \"1000000000\": \"<%spellout-cardinal-masculine< $(cardinal,one{миллиард}few{миллиарда}other{миллиардов})$[ >>];\",\n",
  b!"          \"1000000000000\": \"<%spellout-cardinal-masculine< $(cardinal,one{триллион}few{триллиона}other{триллионов})$[ >>];\",\n",
  b!"          \"1000000000000000\": \"<%spellout-cardinal-masculine< $(cardinal,one{квадриллион}few{квадриллиона}other{квадриллионов})$[ >>];\",\n",
  b!"          \"1000000000000000000\": \"=#,##0=;\"\n",
  b!"        },\n",
  b!"        \"%%fractions-feminine\": {\n",
  b!"          \"10\": \"<%spellout-cardinal-feminine< $(cardinal,one{десятая}other{десятых})$;\",\n",
  b!"          \"100\": \"<%spellout-cardinal-feminine< $(cardinal,one{сотая}other{сотых})$;\",\n",
  b!"          \"1000\": \"<%spellout-cardinal-feminine< $(cardinal,one{тысячная}other{тысячных})$;\",\n",
  b!"          \"10000\": \"<%spellout-cardinal-feminine< $(cardinal,one{десятитысячная}other{десятитысячных})$;\",\n",
  b!"          \"100000\": \"<%spellout-cardinal-feminine< $(cardinal,one{стотысячная}other{стотысячных})$;\",\n",
  b!"          \"1000000\": \"<%spellout-cardinal-feminine< $(cardinal,one{миллионная}other{миллионных})$;\",\n",
  b!"          \"10000000\": \"<%spellout-cardinal-feminine< $(cardinal,one{десятимиллионная}other{десятимиллионных})$;\",\n",
  b!"          \"100000000\": \"<%spellout-cardinal-feminine< $(cardinal,one{стомиллионная}other{стомиллионных})$;\",\n",
  b!"          \"1000000000\": \"<%spellout-cardinal-feminine< $(cardinal,one{миллиардная}other{миллиардных})$;\",\n",
  b!"          \"10000000000\": \"<%spellout-cardinal-feminine< $(cardinal,one{десятимиллиардная}other{десятимиллиардных})$;\",\n",
  b!"          \"100000000000\": \"<%spellout-cardinal-feminine< $(cardinal,one{стомиллиардная}other{стомиллиардных})$;\",\n",
  b!"          \"1000000000000\": \"<0<;\"\n",
  b!"        },\n",
  b!"        \"%spellout-cardinal-masculine-genitive\": {\n",
  b!"          \"-x\": \"минус >>;\",\n",
  b!"          \"x.x\": \"[<%spellout-cardinal-feminine-genitive< $(cardinal,one{целой}other{целых})$ ]>%%fractions-feminine-genitive>;\",\n",
  b!"          \"0\": \"ноля;\",\n",
  b!"          \"1\": \"одного;\",\n",
  b!"          \"2\": \"двух;\",\n",
  b!"          \"3\": \"трех;\",\n",
  b!"          \"4\": \"четырех;\",\n",
  b!"          \"5\": \"пяти;\",\n",
  b!"          \"6\": \"шести;\",\n",
  b!"          \"7\": \"семи;\",\n",
  b!"          \"8\": \"восьми;\",\n",
  b!"          \"9\": \"девяти;\",\n",
  b!"          \"10\": \"десяти;\",\n",
  b!"          \"11\": \"одиннадцати;\",\n",
  b!"          \"12\": \"двенадцати;\",\n",
  b!"          \"13\": \"тринадцати;\",\n",
  b!"          \"14\": \"четырнадцати;\",\n",
  b!"          \"15\": \"пятнадцати;\",\n",
  b!"          \"16\": \"шестнадцати;\",\n",
  b!"          \"17\": \"семнадцати;\",\n",
  b!"          \"18\": \"восемнадцати;\",\n",
  b!"          \"19\": \"девятнадцати;\",\n",
  b!"          \"20\": \"двадцати[ >>];\",\n",
  b!"          \"30\": \"тридцати[ >>];\",\n",
  b!"          \"40\": \"сорока[ >>];\",\n",
  b!"          \"50\": \"пятидесяти[ >>];\",\n",
  b!"          \"60\": \"шестидесяти[ >>];\",\n",
  b!"          \"70\": \"семидесяти[ >>];\",\n",
  b!"          \"80\": \"восьмидесяти[ >>];\",\n",
  b!"          \"90\": \"девяноста[ >>];\",\n",
  b!"          \"100\": \"ста[ >>];\",\n",
  b!"          \"200\": \"<%spellout-cardinal-feminine-genitive<сот[ >>];\",\n",
  b!"          \"1000\": \"<%spellout-cardinal-feminine-genitive< $(cardinal,one{тысячи}other{тысяч})$[ >>];\",\n",
  b!"          \"1000000\": \"<%spellout-cardinal-masculine-genitive< $(cardinal,one{миллиона}other{миллионов})$[ >>];\",\n",
  b!"          \"1000000000\": \"<%spellout-cardinal-masculine-genitive< $(cardinal,one{миллиарда}other{миллиардов})$[ >>];\",\n",
  b!"          \"1000000000000\": \"<%spellout-cardinal-masculine-genitive< $(cardinal,one{триллиона}other{триллионов})$[ >>];\",\n",
  b!"          \"1000000000000000\": \"<%spellout-cardinal-masculine-genitive< $(cardinal,one{квадриллиона}other{квадриллионов})$[ >>];\",\n",
  b!"          \"1000000000000000000\": \"=#,##0=;\"\n",
  b!"        },\n",
  b!"        \"%spellout-cardinal-neuter-genitive\": {\n",
  b!"          \"0\": \"=%spellout-cardinal-masculine-genitive=;\"\n",
  b!"        },\n",
  b!"        \"%spellout-cardinal-feminine-genitive\": {\n",
  b!"          \"-x\": \"минус >>;\",\n",
  b!"          \"x.x\": \"[<< $(cardinal,one{целой}other{целых})$ ]>%%fractions-feminine-genitive>;\",\n",
  b!"          \"0\": \"ноля;\",\n",
  b!"          \"1\": \"одной;\",\n",
  b!"          \"2\": \"=%spellout-cardinal-masculine-genitive=;\",\n",
  b!"          \"20\": \"двадцати[ >>];\",\n",
  b!"          \"30\": \"тридцати[ >>];\",\n",
  b!"          \"40\": \"сорока[ >>];\",\n",
  b!"          \"50\": \"пятидесяти[ >>];\",\n",
  b!"          \"60\": \"шестидесяти[ >>];\",\n",
  b!"          \"70\": \"семидесяти[ >>];\",\n",
  b!"          \"80\": \"восьмидесяти[ >>];\",\n",
  b!"          \"90\": \"девяноста[ >>];\",\n",
  b!"          \"100\": \"ста[ >>];\",\n",
  b!"          \"200\": \"<%spellout-cardinal-feminine-genitive<сот[ >>];\",\n",
  b!"          \"1000\": \"<%spellout-cardinal-feminine-genitive< $(cardinal,one{тысячи}other{тысяч})$[ >>];\",\n",
  b!"          \"1000000\": \"<%spellout-cardinal-masculine-genitive< $(cardinal,one{миллиона}other{миллионов})$[ >>];\",\n",
  b!"          \"1000000000\": \"<%spellout-cardinal-masculine-genitive< $(cardinal,one{миллиарда}other{миллиардов})$[ >>];\",\n",
  b!"          \"1000000000000\": \"<%spellout-cardinal-masculine-genitive< $(cardinal,one{триллиона}other{триллионов})$[ >>];\",\n",
  b!"          \"1000000000000000\": \"<%spellout-cardinal-masculine-genitive< $(cardinal,one{квадриллиона}other{квадриллионов})$[ >>];\",\n",
  b!"          \"1000000000000000000\": \"=#,##0=;\"\n",
  b!"        },\n",
  b!"        \"%spellout-cardinal-plural-genitive\": {\n",
  b!"          \"-x\": \"минус >>;\",\n",
  b!"          \"x.x\": \"<< запятая >>;\",\n",
  b!"          \"0\": \"ноля;\",\n",
  b!"          \"1\": \"одних;\",\n",
  b!"          \"2\": \"=%spellout-cardinal-masculine-genitive=;\",\n",
  b!"          \"20\": \"двадцати[ >>];\",\n",
  b!"          \"30\": \"тридцати[ >>];\",\n",
  b!"          \"40\": \"сорока[ >>];\",\n",
  b!"          \"50\": \"пятидесяти[ >>];\",\n",
  b!"          \"60\": \"шестидесяти[ >>];\",\n",
  b!"          \"70\": \"семидесяти[ >>];\",\n",
  b!"          \"80\": \"восьмидесяти[ >>];\",\n",
  b!"          \"90\": \"девяноста[ >>];\",\n",
  b!"          \"100\": \"ста[ >>];\",\n",
  b!"          \"200\": \"<%spellout-cardinal-feminine-genitive<сот[ >>];\",\n",
  b!"          \"1000\": \"<%spellout-cardinal-feminine-genitive< $(cardinal,one{тысячи}other{тысяч})$[ >>];\",\n",
  b!"          \"1000000\": \"<%spellout-cardinal-masculine-genitive< $(cardinal,one{миллиона}other{миллионов})$[ >>];\",\n",
  b!"          \"1000000000\": \"<%spellout-cardinal-masculine-genitive< $(cardinal,one{миллиарда}other{миллиардов})$[ >>];\",\n",
  b!"          \"1000000000000\": \"<%spellout-cardinal-masculine-genitive< $(cardinal,one{триллиона}other{триллионов})$[ >>];\",\n",
  b!"          \"1000000000000000\": \"<%spellout-cardinal-masculine-genitive< $(cardinal,one{квадриллиона}other{квадриллионов})$[ >>];\",\n",
  b!"          \"1000000000000000000\": \"=#,##0=;\"\n",
  b!"        },\n",
  b!"        \"%%fractions-feminine-genitive\": {\n",
  b!"          \"10\": \"<%spellout-cardinal-feminine-genitive< $(cardinal,one{десятой}other{десятых})$;\",\n",
  b!"          \"100\": \"<%spellout-cardinal-feminine-genitive< $(cardinal,one{сотой}other{сотых})$;\",\n",
  b!"          \"1000\": \"<%spellout-cardinal-feminine-genitive< $(cardinal,one{тысячной}other{тысячных})$;\",\n",
  b!"          \"10000\": \"<%spellout-cardinal-feminine-genitive< $(cardinal,one{десятитысячной}other{десятитысячных})$;\",\n",
  b!"          \"100000\": \"<%spellout-cardinal-feminine-genitive< $(cardinal,one{стотысячной}other{стотысячных})$;\",\n",
  b!"          \"1000000\": \"<%spellout-cardinal-feminine-genitive< $(cardinal,one{миллионной}other{миллионных})$;\",\n",
  b!"          \"10000000\": \"<%spellout-cardinal-feminine-genitive< $(cardinal,one{десятимиллионной}other{десятимиллионных})$;\",\n",
  b!"          \"100000000\": \"<%spellout-cardinal-feminine-genitive< $(cardinal,one{стомиллионной}other{стомиллионных})$;\",\n",
  b!"          \"1000000000\": \"<%spellout-cardinal-feminine-genitive< $(cardinal,one{миллиардной}other{миллиардных})$;\",\n",
  b!"          \"10000000000\": \"<%spellout-cardinal-feminine-genitive< $(cardinal,one{десятимиллиардной}other{десятимиллиардных})$;\",\n",
  b!"          \"100000000000\": \"<%spellout-cardinal-feminine-genitive< $(cardinal,one{стомиллиардной}other{стомиллиардных})$;\",\n",
  b!"          \"1000000000000\": \"<0<;\"\n",
  b!"        },\n",
  b!"        \"%spellout-cardinal-masculine-dative\": {\n",
  b!"          \"-x\": \"минус >>;\",\n",
  b!"          \"x.x\": \"[<%spellout-cardinal-feminine-dative< $(cardinal,one{целой}other{целым})$ ]>%%fractions-feminine-dative>;\",\n",
  b!"          \"0\": \"нолю;\",\n",
  b!"          \"1\": \"одному;\",\n",
  b!"          \"2\": \"двум;\",\n",
  b!"          \"3\": \"трем;\",\n",
  b!"          \"4\": \"четырем;\",\n",
  b!"          \"5\": \"пяти;\",\n",
  b!"          \"6\": \"шести;\",\n",
  b!"          \"7\": \"семи;\",\n",
  b!"          \"8\": \"восьми;\",\n",
  b!"          \"9\": \"девяти;\",\n",
  b!"          \"10\": \"десяти;\",\n",
  b!"          \"11\": \"одиннадцати;\",\n",
  b!"          \"12\": \"двенадцати;\",\n",
  b!"          \"13\": \"тринадцати;\",\n",
  b!"          \"14\": \"четырнадцати;\",\n",
  b!"          \"15\": \"пятнадцати;\",\n",
  b!"          \"16\": \"шестнадцати;\",\n",
  b!"          \"17\": \"семнадцати;\",\n",
  b!"          \"18\": \"восемнадцати;\",\n",
  b!"          \"19\": \"девятнадцати;\",\n",
  b!"          \"20\": \"двадцати[ >>];\",\n",
  b!"          \"30\": \"тридцати[ >>];\",\n",
  b!"          \"40\": \"сорока[ >>];\",\n",
  b!"          \"50\": \"пятидесяти[ >>];\",\n",
  b!"          \"60\": \"шестидесяти[ >>];\",\n",
  b!"          \"70\": \"семидесяти[ >>];\",\n",
  b!"          \"80\": \"восьмидесяти[ >>];\",\n",
  b!"          \"90\": \"девяноста[ >>];\",\n",
  b!"          \"100\": \"ста[ >>];\",\n",
  b!"          \"200\": \"<%spellout-cardinal-feminine-dative<стам[ >>];\",\n",
  b!"          \"1000\": \"<%spellout-cardinal-feminine-dative< $(cardinal,one{тысяче}other{тысячам})$[ >>];\",\n",
  b!"          \"1000000\": \"<%spellout-cardinal-masculine-dative< $(cardinal,one{миллиону}other{миллионам})$[ >>];\",\n",
  b!"          \"1000000000\": \"<%spellout-cardinal-masculine-dative< $(cardinal,one{миллиарду}other{миллиардам})$[ >>];\",\n",
  b!"          \"1000000000000\": \"<%spellout-cardinal-masculine-dative< $(cardinal,one{триллиону}other{триллионам})$[ >>];\",\n",
  b!"          \"1000000000000000\": \"<%spellout-cardinal-masculine-dative< $(cardinal,one{квадриллиону}other{квадриллионам})$[ >>];\",\n",
  b!"          \"1000000000000000000\": \"=#,##0=;\"\n",
  b!"        },\n",
  b!"        \"%spellout-cardinal-neuter-dative\": {\n",
  b!"          \"0\": \"=%spellout-cardinal-masculine-dative=;\"\n",
  b!"        },\n",
  b!"        \"%spellout-cardinal-feminine-dative\": {\n",
  b!"          \"-x\": \"минус >>;\",\n",
  b!"          \"x.x\": \"[<< $(cardinal,one{целой}other{целым})$ ]>%%fractions-feminine-dative>;\",\n",
  b!"          \"0\": \"нолю;\",\n",
  b!"          \"1\": \"одной;\",\n",
  b!"          \"2\": \"=%spellout-cardinal-masculine-dative=;\",\n",
  b!"          \"20\": \"двадцати[ >>];\",\n",
  b!"          \"30\": \"тридцати[ >>];\",\n",
  b!"          \"40\": \"сорока[ >>];\",\n",
  b!"          \"50\": \"пятидесяти[ >>];\",\n",
  b!"          \"60\": \"шестидесяти[ >>];\",\n",
  b!"          \"70\": \"семидесяти[ >>];\",\n",
  b!"          \"80\": \"восьмидесяти[ >>];\",\n",
  b!"          \"90\": \"девяноста[ >>];\",\n",
  b!"          \"100\": \"ста[ >>];\",\n",
  b!"          \"200\": \"<%spellout-cardinal-feminine-dative<стам[ >>];\",\n",
  b!"          \"1000\": \"<%spellout-cardinal-feminine-dative< $(cardinal,one{тысяче}other{тысячам})$[ >>];\",\n",
  b!"          \"1000000\": \"<%spellout-cardinal-masculine-dative< $(cardinal,one{миллиону}other{миллионам})$[ >>];\",\n",
  b!"          \"1000000000\": \"<%spellout-cardinal-masculine-dative< $(cardinal,one{миллиарду}other{миллиардам})$[ >>];\",\n",
  b!"          \"1000000000000\": \"<%spellout-cardinal-masculine-dative< $(cardinal,one{триллиону}other{триллионам})$[ >>];\",\n",
  b!"          \"1000000000000000\": \"<%spellout-cardinal-masculine-dative< $(cardinal,one{квадриллиону}other{квадриллионам})$[ >>];\",\n",
  b!"          \"1000000000000000000\": \"=#,##0=;\"\n",
  b!"        },\n",
  b!"        \"%spellout-cardinal-plural-dative\": {\n",
  b!"          \"-x\": \"минус >>;\",\n",
  b!"          \"x.x\": \"<< запятая >>;\",\n",
  b!"          \"0\": \"нолю;\",\n",
  b!"          \"1\": \"одним;\",\n",
  b!"          \"2\": \"=%spellout-cardinal-masculine-dative=;\",\n",
  b!"          \"20\": \"двадцати[ >>];\",\n",
  b!"          \"30\": \"тридцати[ >>];\",\n",
  b!"          \"40\": \"сорока[ >>];\",\n",
  b!"          \"50\": \"пятидесяти[ >>];\",\n",
  b!"          \"60\": \"шестидесяти[ >>];\",\n",
  b!"          \"70\": \"семидесяти[ >>];\",\n",
  b!"          \"80\": \"восьмидесяти[ >>];\",\n",
  b!"          \"90\": \"девяноста[ >>];\",\n",
  b!"          \"100\": \"ста[ >>];\",\n",
  b!"          \"200\": \"<%spellout-cardinal-feminine-dative<стам[ >>];\",\n",
  b!"          \"1000\": \"<%spellout-cardinal-feminine-dative< $(cardinal,one{тысяче}other{тысячам})$[ >>];\",\n",
  b!"          \"1000000\": \"<%spellout-cardinal-masculine-dative< $(cardinal,one{миллиону}other{миллионам})$[ >>];\",\n",
  b!"          \"1000000000\": \"<%spellout-cardinal-masculine-dative< $(cardinal,one{миллиарду}other{миллиардам})$[ >>];\",\n",
  b!"          \"1000000000000\": \"<%spellout-cardinal-masculine-dative< $(cardinal,one{триллиону}other{триллионам})$[ >>];\",\n",
  b!"          \"1000000000000000\": \"<%spellout-cardinal-masculine-dative< $(cardinal,one{квадриллиону}other{квадриллионам})$[ >>];\",\n",
  b!"          \"1000000000000000000\": \"=#,##0=;\"\n",
  b!"        },\n",
  b!"        \"%%fractions-feminine-dative\": {\n",
  b!"          \"10\": \"<%spellout-cardinal-feminine-dative< $(cardinal,one{десятой}other{десятым})$;\",\n",
  b!"          \"100\": \"<%spellout-cardinal-feminine-dative< $(cardinal,one{сотой}other{сотым})$;\",\n",
  b!"          \"1000\": \"<%spellout-cardinal-feminine-dative< $(cardinal,one{тысячной}other{тысячным})$;\",\n",
  b!"          \"10000\": \"<%spellout-cardinal-feminine-dative< $(cardinal,one{десятитысячной}other{десятитысячным})$;\",\n",
  b!"          \"100000\": \"<%spellout-cardinal-feminine-dative< $(cardinal,one{стотысячной}other{стотысячным})$;\",\n",
  b!"          \"1000000\": \"<%spellout-cardinal-feminine-dative< $(cardinal,one{миллионной}other{миллионным})$;\",\n",
  b!"          \"10000000\": \"<%spellout-cardinal-feminine-dative< $(cardinal,one{десятимиллионной}other{десятимиллионным})$;\",\n",
  b!"          \"100000000\": \"<%spellout-cardinal-feminine-dative< $(cardinal,one{стомиллионной}other{стомиллионным})$;\",\n",
  b!"          \"1000000000\": \"<%spellout-cardinal-feminine-dative< $(cardinal,one{миллиардной}other{миллиардным})$;\",\n",
  b!"          \"10000000000\": \"<%spellout-cardinal-feminine-dative< $(cardinal,one{десятимиллиардной}other{десятимиллиардным})$;\",\n",
  b!"          \"100000000000\": \"<%spellout-cardinal-feminine-dative< $(cardinal,one{стомиллиардной}other{стомиллиардным})$;\",\n",
  b!"          \"1000000000000\": \"<0<;\"\n",
  b!"        },\n",
  b!"        \"%spellout-cardinal-masculine-accusative\": {\n",
  b!"          \"-x\": \"минус >>;\",\n",
  b!"          \"x.x\": \"[<%spellout-cardinal-feminine-accusative< $(cardinal,one{целую}other{целых})$ ]>%%fractions-feminine-accusative>;\",\n",
  b!"          \"0\": \"ноль;\",\n",
  b!"          \"1\": \"один;\",\n",
  b!"          \"2\": \"два;\",\n",
  b!"          \"3\": \"три;\",\n",
  b!"          \"4\": \"четыре;\",\n",
  b!"          \"5\": \"пять;\",\n",
  b!"          \"6\": \"шесть;\",\n",
  b!"          \"7\": \"семь;\",\n",
  b!"          \"8\": \"восемь;\",\n",
  b!"          \"9\": \"девять;\",\n",
  b!"          \"10\": \"десять;\",\n",
  b!"          \"11\": \"одиннадцать;\",\n",
  b!"          \"12\": \"двенадцать;\",\n",
  b!"          \"13\": \"тринадцать;\",\n",
  b!"          \"14\": \"четырнадцать;\",\n",
  b!"          \"15\": \"пятнадцать;\",\n",
  b!"          \"16\": \"шестнадцать;\",\n",
  b!"          \"17\": \"семнадцать;\",\n",
  b!"          \"18\": \"восемнадцать;\",\n",
  b!"          \"19\": \"девятнадцать;\",\n",
  b!"          \"20\": \"двадцать[ >>];\",\n",
  b!"          \"30\": \"тридцать[ >>];\",\n",
  b!"          \"40\": \"сорок[ >>];\",\n",
  b!"          \"50\": \"пятьдесят[ >>];\",\n",
  b!"          \"60\": \"шестьдесят[ >>];\",\n",
  b!"          \"70\": \"семьдесят[ >>];\",\n",
  b!"          \"80\": \"восемьдесят[ >>];\",\n",
  b!"          \"90\": \"девяносто[ >>];\",\n",
  b!"          \"100\": \"сто[ >>];\",\n",
  b!"          \"200\": \"<%spellout-cardinal-feminine-accusative<сти[ >>];\",\n",
  b!"          \"300\": \"<%spellout-cardinal-feminine-accusative<ста[ >>];\",\n",
  b!"          \"500\": \"<%spellout-cardinal-feminine-accusative<сот[ >>];\",\n",
  b!"          \"1000\": \"<%spellout-cardinal-feminine-accusative< $(cardinal,one{тысячу}few{тысячи}other{тысяч})$[ >>];\",\n",
  b!"          \"1000000\": \"<%spellout-cardinal-masculine-accusative< $(cardinal,one{миллион}few{миллиона}other{миллионов})$[ >>];\",\n",
  b!"          \"1000000000\": \"<%spellout-cardinal-masculine-accusative< $(cardinal,one{миллиард}few{миллиарда}other{миллиардов})$[ >>];\",\n",
  b!"          \"1000000000000\": \"<%spellout-cardinal-masculine< $(cardinal,one{триллион}few{триллиона}other{триллионов})$[ >>];\",\n",
  b!"          \"1000000000000000\": \"<%spellout-cardinal-masculine< $(cardinal,one{квадриллион}few{квадриллиона}other{квадриллионов})$[ >>];\",\n",
  b!"          \"1000000000000000000\": \"=#,##0=;\"\n",
  b!"        },\n",
  b!"        \"%spellout-cardinal-neuter-accusative\": {\n",
  b!"          \"-x\": \"минус >>;\",\n",
  b!"          \"x.x\": \"[<%spellout-cardinal-feminine-accusative< $(cardinal,one{целую}other{целых})$ ]>%%fractions-feminine-accusative>;\",\n",
  b!"          \"0\": \"ноль;\",\n",
  b!"          \"1\": \"одно;\",\n",
  b!"          \"2\": \"=%spellout-cardinal-masculine-accusative=;\",\n",
  b!"          \"20\": \"двадцать[ >>];\",\n",
  b!"          \"30\": \"тридцать[ >>];\",\n",
  b!"          \"40\": \"сорок[ >>];\",\n",
  b!"          \"50\": \"пятьдесят[ >>];\",\n",
  b!"          \"60\": \"шестьдесят[ >>];\",\n",
  b!"          \"70\": \"семьдесят[ >>];\",\n",
  b!"          \"80\": \"восемьдесят[ >>];\",\n",
  b!"          \"90\": \"девяносто[ >>];\",\n",
  b!"          \"100\": \"сто[ >>];\",\n",
  b!"          \"200\": \"<%spellout-cardinal-feminine-accusative<сти[ >>];\",\n",
  b!"          \"300\": \"<%spellout-cardinal-feminine-accusative<ста[ >>];\",\n",
  b!"          \"500\": \"<%spellout-cardinal-feminine-accusative<сот[ >>];\",\n",
  b!"          \"1000\": \"<%spellout-cardinal-feminine-accusative< $(cardinal,one{тысячу}few{тысячи}other{тысяч})$[ >>];\",\n",
  b!"          \"1000000\": \"<%spellout-cardinal-masculine-accusative< $(cardinal,one{миллион}few{миллиона}other{миллионов})$[ >>];\",\n",
  b!"          \"1000000000\": \"<%spellout-cardinal-masculine-accusative< $(cardinal,one{миллиард}few{миллиарда}other{миллиардов})$[ >>];\",\n",
  b!"          \"1000000000000\": \"<%spellout-cardinal-masculine< $(cardinal,one{триллион}few{триллиона}other{триллионов})$[ >>];\",\n",
  b!"          \"1000000000000000\": \"<%spellout-cardinal-masculine< $(cardinal,one{квадриллион}few{квадриллиона}other{квадриллионов})$[ >>];\",\n",
  b!"          \"1000000000000000000\": \"=#,##0=;\"\n",
  b!"        },\n",
  b!"        \"%spellout-cardinal-feminine-accusative\": {\n",
  b!"          \"-x\": \"минус >>;\",\n",
  b!"          \"x.x\": \"[<%spellout-cardinal-feminine-accusative< $(cardinal,one{целую}other{целых})$ ]>%%fractions-feminine-accusative>;\",\n",
  b!"          \"0\": \"ноль;\",\n",
  b!"          \"1\": \"одну;\",\n",
  b!"          \"2\": \"две;\",\n",
  b!"          \"3\": \"=%spellout-cardinal-masculine-accusative=;\",\n",
  b!"          \"20\": \"двадцать[ >>];\",\n",
  b!"          \"30\": \"тридцать[ >>];\",\n",
  b!"          \"40\": \"сорок[ >>];\",\n",
  b!"          \"50\": \"пятьдесят[ >>];\",\n",
  b!"          \"60\": \"шестьдесят[ >>];\",\n",
  b!"          \"70\": \"семьдесят[ >>];\",\n",
  b!"          \"80\": \"восемьдесят[ >>];\",\n",
  b!"          \"90\": \"девяносто[ >>];\",\n",
  b!"          \"100\": \"сто[ >>];\",\n",
  b!"          \"200\": \"<%spellout-cardinal-feminine-accusative<сти[ >>];\",\n",
  b!"          \"300\": \"<%spellout-cardinal-feminine-accusative<ста[ >>];\",\n",
  b!"          \"500\": \"<%spellout-cardinal-feminine-accusative<сот[ >>];\",\n",
  b!"          \"1000\": \"<%spellout-cardinal-feminine-accusative< $(cardinal,one{тысячу}few{тысячи}other{тысяч})$[ >>];\",\n",
  b!"          \"1000000\": \"<%spellout-cardinal-masculine-accusative< $(cardinal,one{миллион}few{миллиона}other{миллионов})$[ >>];\",\n",
  b!"          \"1000000000\": \"<%spellout-cardinal-masculine-accusative< $(cardinal,one{миллиард}few{миллиарда}other{миллиардов})$[ >>];\",\n",
  b!"          \"1000000000000\": \"<%spellout-cardinal-masculine< $(cardinal,one{триллион}few{триллиона}other{триллионов})$[ >>];\",\n",
  b!"          \"1000000000000000\": \"<%spellout-cardinal-masculine< $(cardinal,one{квадриллион}few{квадриллиона}other{квадриллионов})$[ >>];\",\n",
  b!"          \"1000000000000000000\": \"=#,##0=;\"\n",
  b!"        },\n",
  b!"        \"%spellout-cardinal-plural-accusative\": {\n",
  b!"          \"-x\": \"минус >>;\",\n",
  b!"          \"x.x\": \"<< запятая >>;\",\n",
  b!"          \"0\": \"ноль;\",\n",
  b!"          \"1\": \"одни;\",\n",
  b!"          \"2\": \"две;\",\n",
  b!"          \"3\": \"=%spellout-cardinal-masculine-accusative=;\",\n",
  b!"          \"20\": \"двадцать[ >>];\",\n",
  b!"          \"30\": \"тридцать[ >>];\",\n",
  b!"          \"40\": \"сорок[ >>];\",\n",
  b!"          \"50\": \"пятьдесят[ >>];\",\n",
  b!"          \"60\": \"шестьдесят[ >>];\",\n",
  b!"          \"70\": \"семьдесят[ >>];\",\n",
  b!"          \"80\": \"восемьдесят[ >>];\",\n",
  b!"          \"90\": \"девяносто[ >>];\",\n",
  b!"          \"100\": \"сто[ >>];\",\n",
  b!"          \"200\": \"<%spellout-cardinal-feminine-accusative<сти[ >>];\",\n",
  b!"          \"300\": \"<%spellout-cardinal-feminine-accusative<ста[ >>];\",\n",
  b!"          \"500\": \"<%spellout-cardinal-feminine-accusative<сот[ >>];\",\n",
  b!"          \"1000\": \"<%spellout-cardinal-feminine-accusative< $(cardinal,one{тысячу}few{тысячи}other{тысяч})$[ >>];\",\n",
  b!"          \"1000000\": \"<%spellout-cardinal-masculine-accusative< $(cardinal,one{миллион}few{миллиона}other{миллионов})$[ >>];\",\n",
  b!"          \"1000000000\": \"<%spellout-cardinal-masculine-accusative< $(cardinal,one{миллиард}few{миллиарда}other{миллиардов})$[ >>];\",\n",
  b!"          \"1000000000000\": \"<%spellout-cardinal-masculine< $(cardinal,one{триллион}few{триллиона}other{триллионов})$[ >>];\",\n",
  b!"          \"1000000000000000\": \"<%spellout-cardinal-masculine< $(cardinal,one{квадриллион}few{квадриллиона}other{квадриллионов})$[ >>];\",\n",
  b!"          \"1000000000000000000\": \"=#,##0=;\"\n",
  b!"        },\n",
  b!"        \"%%fractions-feminine-accusative\": {\n",
  b!"          \"10\": \"<%spellout-cardinal-feminine-accusative< $(cardinal,one{десятую}other{десятых})$;\",\n",
  b!"          \"100\": \"<%spellout-cardinal-feminine-accusative< $(cardinal,one{сотую}other{сотых})$;\",\n",
  b!"          \"1000\": \"<%spellout-cardinal-feminine-accusative< $(cardinal,one{тысячную}other{тысячных})$;\",\n",
  b!"          \"10000\": \"<%spellout-cardinal-feminine-accusative< $(cardinal,one{десятитысячную}other{десятитысячных})$;\",\n",
  b!"          \"100000\": \"<%spellout-cardinal-feminine-accusative< $(cardinal,one{стотысячную}other{стотысячных})$;\",\n",
  b!"          \"1000000\": \"<%spellout-cardinal-feminine-accusative< $(cardinal,one{миллионную}other{миллионных})$;\",\n",
  b!"          \"10000000\": \"<%spellout-cardinal-feminine-accusative< $(cardinal,one{десятимиллионную}other{десятимиллионных})$;\",\n",
  b!"          \"100000000\": \"<%spellout-cardinal-feminine-accusative< $(cardinal,one{стомиллионную}other{стомиллионных})$;\",\n",
  b!"          \"1000000000\": \"<%spellout-cardinal-feminine-accusative< $(cardinal,one{миллиардную}other{миллиардных})$;\",\n",
  b!"          \"10000000000\": \"<%spellout-cardinal-feminine-accusative< $(cardinal,one{десятимиллиардную}other{десятимиллиардных})$;\",\n",
  b!"          \"100000000000\": \"<%spellout-cardinal-feminine-accusative< $(cardinal,one{стомиллиардную}other{стомиллиардных})$;\",\n",
  b!"          \"1000000000000\": \"<0<;\"\n",
  b!"        },\n",
  b!"        \"%spellout-cardinal-masculine-locative\": {\n",
  b!"          \"-x\": \"минус >>;\",\n",
  b!"          \"x.x\": \"[<%spellout-cardinal-feminine-locative< $(cardinal,one{целой}other{целых})$ ]>%%fractions-feminine-locative>;\",\n",
  b!"          \"0\": \"нуле;\",\n",
  b!"          \"1\": \"одном;\",\n",
  b!"          \"2\": \"двух;\",\n",
  b!"          \"3\": \"трех;\",\n",
  b!"          \"4\": \"четырех;\",\n",
  b!"          \"5\": \"пяти;\",\n",
  b!"          \"6\": \"шести;\",\n",
  b!"          \"7\": \"семи;\",\n",
  b!"          \"8\": \"восьми;\",\n",
  b!"          \"9\": \"девяти;\",\n",
  b!"          \"10\": \"десяти;\",\n",
  b!"          \"11\": \"одиннадцати;\",\n",
  b!"          \"12\": \"двенадцати;\",\n",
  b!"          \"13\": \"тринадцати;\",\n",
  b!"          \"14\": \"четырнадцати;\",\n",
  b!"          \"15\": \"пятнадцати;\",\n",
  b!"          \"16\": \"шестнадцати;\",\n",
  b!"          \"17\": \"семнадцати;\",\n",
  b!"          \"18\": \"восемнадцати;\",\n",
  b!"          \"19\": \"девятнадцати;\",\n",
  b!"          \"20\": \"двадцать[ >>];\",\n",
  b!"          \"30\": \"тридцать[ >>];\",\n",
  b!"          \"40\": \"сорока[ >>];\",\n",
  b!"          \"50\": \"пятидесяти[ >>];\",\n",
  b!"          \"60\": \"шестидесяти[ >>];\",\n",
  b!"          \"70\": \"семидесяти[ >>];\",\n",
  b!"          \"80\": \"восьмидесяти[ >>];\",\n",
  b!"          \"90\": \"девяноста[ >>];\",\n",
  b!"          \"100\": \"ста[ >>];\",\n",
  b!"          \"200\": \"<%spellout-cardinal-feminine-locative<стах[ >>];\",\n",
  b!"          \"1000\": \"<%spellout-cardinal-feminine-locative< $(cardinal,one{тысяче}other{тысячах})$[ >>];\",\n",
  b!"          \"1000000\": \"<%spellout-cardinal-masculine-locative< $(cardinal,one{миллионе}other{миллионах})$[ >>];\",\n",
  b!"          \"1000000000\": \"<%spellout-cardinal-masculine-locative< $(cardinal,one{миллиарде}other{миллиардах})$[ >>];\",\n",
  b!"          \"1000000000000\": \"<%spellout-cardinal-masculine-locative< $(cardinal,one{триллионе}other{триллионах})$[ >>];\",\n",
  b!"          \"1000000000000000\": \"<%spellout-cardinal-masculine-locative< $(cardinal,one{квадриллионе}other{квадриллионах})$[ >>];\",\n",
  b!"          \"1000000000000000000\": \"=#,##0=;\"\n",
  b!"        },\n",
  b!"        \"%spellout-cardinal-neuter-locative\": {\n",
  b!"          \"-x\": \"минус >>;\",\n",
  b!"          \"x.x\": \"[<%spellout-cardinal-feminine-locative< $(cardinal,one{целой}other{целых})$ ]>%%fractions-feminine-locative>;\",\n",
  b!"          \"0\": \"нуле;\",\n",
  b!"          \"1\": \"одном;\",\n",
  b!"          \"2\": \"=%spellout-cardinal-masculine-locative=;\",\n",
  b!"          \"20\": \"двадцати[ >>];\",\n",
  b!"          \"30\": \"тридцати[ >>];\",\n",
  b!"          \"40\": \"сорока[ >>];\",\n",
  b!"          \"50\": \"пятидесяти[ >>];\",\n",
  b!"          \"60\": \"шестидесяти[ >>];\",\n",
  b!"          \"70\": \"семидесяти[ >>];\",\n",
  b!"          \"80\": \"восьмидесяти[ >>];\",\n",
  b!"          \"90\": \"девяноста[ >>];\",\n",
  b!"          \"100\": \"ста[ >>];\",\n",
  b!"          \"200\": \"<%spellout-cardinal-feminine-locative<стах[ >>];\",\n",
  b!"          \"1000\": \"<%spellout-cardinal-feminine-locative< $(cardinal,one{тысяче}other{тысячах})$[ >>];\",\n",
  b!"          \"1000000\": \"<%spellout-cardinal-masculine-locative< $(cardinal,one{миллионе}other{миллионах})$[ >>];\",\n",
  b!"          \"1000000000\": \"<%spellout-cardinal-masculine-locative< $(cardinal,one{миллиарде}other{миллиардах})$[ >>];\",\n",
  b!"          \"1000000000000\": \"<%spellout-cardinal-masculine-locative< $(cardinal,one{триллионе}other{триллионах})$[ >>];\",\n",
  b!"          \"1000000000000000\": \"<%spellout-cardinal-masculine-locative< $(cardinal,one{квадриллионе}other{квадриллионах})$[ >>];\",\n",
  b!"          \"1000000000000000000\": \"=#,##0=;\"\n",
  b!"        },\n",
  b!"        \"%spellout-cardinal-feminine-locative\": {\n",
  b!"          \"-x\": \"минус >>;\",\n",
  b!"          \"x.x\": \"[<< $(cardinal,one{целой}other{целых})$ ]>%%fractions-feminine-locative>;\",\n",
  b!"          \"0\": \"нуле;\",\n",
  b!"          \"1\": \"одной;\",\n",
  b!"          \"2\": \"=%spellout-cardinal-masculine-locative=;\",\n",
  b!"          \"20\": \"двадцати[ >>];\",\n",
  b!"          \"30\": \"тридцати[ >>];\",\n",
  b!"          \"40\": \"сорока[ >>];\",\n",
  b!"          \"50\": \"пятидесяти[ >>];\",\n",
  b!"          \"60\": \"шестидесяти[ >>];\",\n",
  b!"          \"70\": \"семидесяти[ >>];\",\n",
  b!"          \"80\": \"восьмидесяти[ >>];\",\n",
  b!"          \"90\": \"девяноста[ >>];\",\n",
  b!"          \"100\": \"ста[ >>];\",\n",
  b!"          \"200\": \"<%spellout-cardinal-feminine-locative<стах[ >>];\",\n",
  b!"          \"1000\": \"<%spellout-cardinal-feminine-locative< $(cardinal,one{тысяче}other{тысячах})$[ >>];\",\n",
  b!"          \"1000000\": \"<%spellout-cardinal-masculine-locative< $(cardinal,one{миллионе}other{миллионах})$[ >>];\",\n",
  b!"          \"1000000000\": \"<%spellout-cardinal-masculine-locative< $(cardinal,one{миллиарде}other{миллиардах})$[ >>];\",\n",
  b!"          \"1000000000000\": \"<%spellout-cardinal-masculine-locative< $(cardinal,one{триллионе}other{триллионах})$[ >>];\",\n",
  b!"          \"1000000000000000\": \"<%spellout-cardinal-masculine-locative< $(cardinal,one{квадриллионе}other{квадриллионах})$[ >>];\",\n",
  b!"          \"1000000000000000000\": \"=#,##0=;\"\n",
  b!"        },\n",
  b!"        \"%spellout-cardinal-plural-locative\": {\n",
  b!"          \"-x\": \"минус >>;\",\n",
  b!"          \"x.x\": \"<< запятая >>;\",\n",
  b!"          \"0\": \"нуле;\",\n",
  b!"          \"1\": \"одних;\",\n",
  b!"          \"2\": \"=%spellout-cardinal-masculine-locative=;\",\n",
  b!"          \"20\": \"двадцати[ >>];\",\n",
  b!"          \"30\": \"тридцати[ >>];\",\n",
  b!"          \"40\": \"сорока[ >>];\",\n",
  b!"          \"50\": \"пятидесяти[ >>];\",\n",
  b!"          \"60\": \"шестидесяти[ >>];\",\n",
  b!"          \"70\": \"семидесяти[ >>];\",\n",
  b!"          \"80\": \"восьмидесяти[ >>];\",\n",
  b!"          \"90\": \"девяноста[ >>];\",\n",
  b!"          \"100\": \"ста[ >>];\",\n",
  b!"          \"200\": \"<%spellout-cardinal-feminine-locative<стах[ >>];\",\n",
  b!"          \"1000\": \"<%spellout-cardinal-feminine-locative< $(cardinal,one{тысяче}other{тысячах})$[ >>];\",\n",
  b!"          \"1000000\": \"<%spellout-cardinal-masculine-locative< $(cardinal,one{миллионе}other{миллионах})$[ >>];\",\n",
  b!"          \"1000000000\": \"<%spellout-cardinal-masculine-locative< $(cardinal,one{миллиарде}other{миллиардах})$[ >>];\",\n",
  b!"          \"1000000000000\": \"<%spellout-cardinal-masculine-locative< $(cardinal,one{триллионе}other{триллионах})$[ >>];\",\n",
  b!"          \"1000000000000000\": \"<%spellout-cardinal-masculine-locative< $(cardinal,one{квадриллионе}other{квадриллионах})$[ >>];\",\n",
  b!"          \"1000000000000000000\": \"=#,##0=;\"\n",
  b!"        },\n",
  b!"        \"%%fractions-feminine-locative\": {\n",
  b!"          \"10\": \"<%spellout-cardinal-feminine-locative< $(cardinal,one{десятой}other{десятых})$;\",\n",
  b!"          \"100\": \"<%spellout-cardinal-feminine-locative< $(cardinal,one{сотой}other{сотых})$;\",\n",
  b!"          \"1000\": \"<%spellout-cardinal-feminine-locative< $(cardinal,one{тысячной}other{тысячных})$;\",\n",
  b!"          \"10000\": \"<%spellout-cardinal-feminine-locative< $(cardinal,one{десятитысячной}other{десятитысячных})$;\",\n",
  b!"          \"100000\": \"<%spellout-cardinal-feminine-locative< $(cardinal,one{стотысячной}other{стотысячных})$;\",\n",
  b!"          \"1000000\": \"<%spellout-cardinal-feminine-locative< $(cardinal,one{миллионной}other{миллионных})$;\",\n",
  b!"          \"10000000\": \"<%spellout-cardinal-feminine-locative< $(cardinal,one{десятимиллионной}other{десятимиллионных})$;\",\n",
  b!"          \"100000000\": \"<%spellout-cardinal-feminine-locative< $(cardinal,one{стомиллионной}other{стомиллионных})$;\",\n",
  b!"          \"1000000000\": \"<%spellout-cardinal-feminine-locative< $(cardinal,one{миллиардной}other{миллиардных})$;\",\n",
  b!"          \"10000000000\": \"<%spellout-cardinal-feminine-locative< $(cardinal,one{десятимиллиардной}other{десятимиллиардных})$;\",\n",
  b!"          \"100000000000\": \"<%spellout-cardinal-feminine-locative< $(cardinal,one{стомиллиардной}other{стомиллиардных})$;\",\n",
  b!"          \"1000000000000\": \"<0<;\"\n",
  b!"        },\n",
  b!"        \"%spellout-cardinal-masculine-ablative\": {\n",
  b!"          \"-x\": \"минус >>;\",\n",
  b!"          \"x.x\": \"[<%spellout-cardinal-feminine-ablative< $(cardinal,one{целой}other{целыми})$ ]>%%fractions-feminine-ablative>;\",\n",
  b!"          \"0\": \"нулем;\",\n",
  b!"          \"1\": \"одним;\",\n",
  b!"          \"2\": \"двумя;\",\n",
  b!"          \"3\": \"тремя;\",\n",
  b!"          \"4\": \"четырьмя;\",\n",
  b!"          \"5\": \"пятью;\",\n",
  b!"          \"6\": \"шестью;\",\n",
  b!"          \"7\": \"семью;\",\n",
  b!"          \"8\": \"восемью;\",\n",
  b!"          \"9\": \"девятью;\",\n",
  b!"          \"10\": \"десятью;\",\n",
  b!"          \"11\": \"одиннадцатью;\",\n",
  b!"          \"12\": \"двенадцатью;\",\n",
  b!"          \"13\": \"тринадцатью;\",\n",
  b!"          \"14\": \"четырнадцатью;\",\n",
  b!"          \"15\": \"пятнадцатью;\",\n",
  b!"          \"16\": \"шестнадцатью;\",\n",
  b!"          \"17\": \"семнадцатью;\",\n",
  b!"          \"18\": \"восемнадцатью;\",\n",
  b!"          \"19\": \"девятнадцатью;\",\n",
  b!"          \"20\": \"двадцатью[ >>];\",\n",
  b!"          \"30\": \"тридцатью[ >>];\",\n",
  b!"          \"40\": \"сорока[ >>];\",\n",
  b!"          \"50\": \"пятьюдесятью[ >>];\",\n",
  b!"          \"60\": \"шестьюдесятью[ >>];\",\n",
  b!"          \"70\": \"семьюдесятью[ >>];\",\n",
  b!"          \"80\": \"восемьюдесятью[ >>];\",\n",
  b!"          \"90\": \"девяноста[ >>];\",\n",
  b!"          \"100\": \"ста[ >>];\",\n",
  b!"          \"200\": \"<%spellout-cardinal-feminine-ablative<стами[ >>];\",\n",
  b!"          \"1000\": \"<%spellout-cardinal-feminine-ablative< $(cardinal,one{тысячей}other{тысячами})$[ >>];\",\n",
  b!"          \"1000000\": \"<%spellout-cardinal-masculine-ablative< $(cardinal,one{миллионом}other{миллионами})$[ >>];\",\n",
  b!"          \"1000000000\": \"<%spellout-cardinal-masculine-ablative< $(cardinal,one{миллиардом}other{миллиардами})$[ >>];\",\n",
  b!"          \"1000000000000\": \"<%spellout-cardinal-masculine-ablative< $(cardinal,one{триллионом}other{триллионами})$[ >>];\",\n",
  b!"          \"1000000000000000\": \"<%spellout-cardinal-masculine-ablative< $(cardinal,one{квадриллионом}other{квадриллионами})$[ >>];\",\n",
  b!"          \"1000000000000000000\": \"=#,##0=;\"\n",
  b!"        },\n",
  b!"        \"%spellout-cardinal-neuter-ablative\": {\n",
  b!"          \"0\": \"=%spellout-cardinal-masculine-ablative=;\"\n",
  b!"        },\n",
  b!"        \"%spellout-cardinal-feminine-ablative\": {\n",
  b!"          \"-x\": \"минус >>;\",\n",
  b!"          \"x.x\": \"[<%spellout-cardinal-feminine-ablative< $(cardinal,one{целой}other{целыми})$ ]>%%fractions-feminine-ablative>;\",\n",
  b!"          \"0\": \"нулем;\",\n",
  b!"          \"1\": \"одной;\",\n",
  b!"          \"2\": \"=%spellout-cardinal-masculine-ablative=;\",\n",
  b!"          \"20\": \"двадцатью[ >>];\",\n",
  b!"          \"30\": \"тридцатью[ >>];\",\n",
  b!"          \"40\": \"сорока[ >>];\",\n",
  b!"          \"50\": \"пятьюдесятью[ >>];\",\n",
  b!"          \"60\": \"шестьюдесятью[ >>];\",\n",
  b!"          \"70\": \"семьюдесятью[ >>];\",\n",
  b!"          \"80\": \"восемьюдесятью[ >>];\",\n",
  b!"          \"90\": \"девяноста[ >>];\",\n",
  b!"          \"100\": \"ста[ >>];\",\n",
  b!"          \"200\": \"<%spellout-cardinal-feminine-ablative<стами[ >>];\",\n",
  b!"          \"1000\": \"<%spellout-cardinal-feminine-ablative< $(cardinal,one{тысячей}other{тысячами})$[ >>];\",\n",
  b!"          \"1000000\": \"<%spellout-cardinal-masculine-ablative< $(cardinal,one{миллионом}other{миллионами})$[ >>];\",\n",
  b!"          \"1000000000\": \"<%spellout-cardinal-masculine-ablative< $(cardinal,one{миллиардом}other{миллиардами})$[ >>];\",\n",
  b!"          \"1000000000000\": \"<%spellout-cardinal-masculine-ablative< $(cardinal,one{триллионом}other{триллионами})$[ >>];\",\n",
  b!"          \"1000000000000000\": \"<%spellout-cardinal-masculine-ablative< $(cardinal,one{квадриллионом}other{квадриллионами})$[ >>];\",\n",
  b!"          \"1000000000000000000\": \"=#,##0=;\"\n",
  b!"        },\n",
  b!"        \"%spellout-cardinal-plural-ablative\": {\n",
  b!"          \"-x\": \"минус >>;\",\n",
  b!"          \"x.x\": \"<< запятая >>;\",\n",
  b!"          \"0\": \"нулем;\",\n",
  b!"          \"1\": \"одними;\",\n",
  b!"          \"2\": \"=%spellout-cardinal-masculine-ablative=;\",\n",
  b!"          \"20\": \"двадцатью[ >>];\",\n",
  b!"          \"30\": \"тридцатью[ >>];\",\n",
  b!"          \"40\": \"сорока[ >>];\",\n",
  b!"          \"50\": \"пятьюдесятью[ >>];\",\n",
  b!"          \"60\": \"шестьюдесятью[ >>];\",\n",
  b!"          \"70\": \"семьюдесятью[ >>];\",\n",
  b!"          \"80\": \"восемьюдесятью[ >>];\",\n",
  b!"          \"90\": \"девяноста[ >>];\",\n",
  b!"          \"100\": \"ста[ >>];\",\n",
  b!"          \"200\": \"<%spellout-cardinal-feminine-ablative<стами[ >>];\",\n",
  b!"          \"1000\": \"<%spellout-cardinal-feminine-ablative< $(cardinal,one{тысячей}other{тысячами})$[ >>];\",\n",
  b!"          \"1000000\": \"<%spellout-cardinal-masculine-ablative< $(cardinal,one{миллионом}other{миллионами})$[ >>];\",\n",
  b!"          \"1000000000\": \"<%spellout-cardinal-masculine-ablative< $(cardinal,one{миллиардом}other{миллиардами})$[ >>];\",\n",
  b!"          \"1000000000000\": \"<%spellout-cardinal-masculine-ablative< $(cardinal,one{триллионом}other{триллионами})$[ >>];\",\n",
  b!"          \"1000000000000000\": \"<%spellout-cardinal-masculine-ablative< $(cardinal,one{квадриллионом}other{квадриллионами})$[ >>];\",\n",
  b!"          \"1000000000000000000\": \"=#,##0=;\"\n",
  b!"        },\n",
  b!"        \"%%fractions-feminine-ablative\": {\n",
  b!"          \"10\": \"<%spellout-cardinal-feminine-ablative< $(cardinal,one{десятой}other{десятыми})$;\",\n",
  b!"          \"100\": \"<%spellout-cardinal-feminine-ablative< $(cardinal,one{сотой}other{сотыми})$;\",\n",
  b!"          \"1000\": \"<%spellout-cardinal-feminine-ablative< $(cardinal,one{тысячной}other{тысячными})$;\",\n",
  b!"          \"10000\": \"<%spellout-cardinal-feminine-ablative< $(cardinal,one{десятитысячной}other{десятитысячными})$;\",\n",
  b!"          \"100000\": \"<%spellout-cardinal-feminine-ablative< $(cardinal,one{стотысячной}other{стотысячными})$;\",\n",
  b!"          \"1000000\": \"<%spellout-cardinal-feminine-ablative< $(cardinal,one{миллионной}other{миллионными})$;\",\n",
  b!"          \"10000000\": \"<%spellout-cardinal-feminine-ablative< $(cardinal,one{десятимиллионной}other{десятимиллионными})$;\",\n",
  b!"          \"100000000\": \"<%spellout-cardinal-feminine-ablative< $(cardinal,one{стомиллионной}other{стомиллионными})$;\",\n",
  b!"          \"1000000000\": \"<%spellout-cardinal-feminine-ablative< $(cardinal,one{миллиардной}other{миллиардными})$;\",\n",
  b!"          \"10000000000\": \"<%spellout-cardinal-feminine-ablative< $(cardinal,one{десятимиллиардной}other{десятимиллиардными})$;\",\n",
  b!"          \"100000000000\": \"<%spellout-cardinal-feminine-ablative< $(cardinal,one{стомиллиардной}other{стомиллиардными})$;\",\n",
  b!"          \"1000000000000\": \"<0<;\"\n",
  b!"        },\n",
  b!"        \"%%yj\": {\n",
  b!"          \"0\": \"ный;\",\n",
  b!"          \"1\": \"'а =%spellout-ordinal-masculine=;\"\n",
  b!"        },\n",
  b!"        \"%%oe\": {\n",
  b!"          \"0\": \"ное;\",\n",
  b!"          \"1\": \"'а =%spellout-ordinal-neuter=;\"\n",
  b!"        },\n",
  b!"        \"%%aja\": {\n",
  b!"          \"0\": \"ная;\",\n",
  b!"          \"1\": \"'а =%spellout-ordinal-feminine=;\"\n",
  b!"        },\n",
  b!"        \"%%omu\": {\n",
  b!"          \"0\": \"ному;\",\n",
  b!"          \"1\": \"'а =%spellout-ordinal-masculine-dative=;\"\n",
  b!"        },\n",
  b!"        \"%%oj\": {\n",
  b!"          \"0\": \"ной;\",\n",
  b!"          \"1\": \"'а =%spellout-ordinal-feminine-genitive=;\"\n",
  b!"        },\n",
  b!"        \"%%ogo\": {\n",
  b!"          \"0\": \"ного;\",\n",
  b!"          \"1\": \"'а =%spellout-ordinal-masculine-genitive=;\"\n",
  b!"        },\n",
  b!"        \"%%uju\": {\n",
  b!"          \"0\": \"ную;\",\n",
  b!"          \"1\": \"'а =%spellout-ordinal-feminine-accusative=;\"\n",
  b!"        },\n",
  b!"        \"%%ym\": {\n",
  b!"          \"0\": \"ным;\",\n",
  b!"          \"1\": \"'а =%spellout-ordinal-masculine-ablative=;\"\n",
  b!"        },\n",
  b!"        \"%%om\": {\n",
  b!"          \"0\": \"ном;\",\n",
  b!"          \"1\": \"'а =%spellout-ordinal-masculine-locative=;\"\n",
  b!"        },\n",
  b!"        \"%%ye\": {\n",
  b!"          \"0\": \"ные;\",\n",
  b!"          \"1\": \"'а =%spellout-ordinal-plural=;\"\n",
  b!"        },\n",
  b!"        \"%%yh\": {\n",
  b!"          \"0\": \"ных;\",\n",
  b!"          \"1\": \"'а =%spellout-ordinal-plural-genitive=;\"\n",
  b!"        },\n",
  b!"        \"%%ymi\": {\n",
  b!"          \"0\": \"ными;\",\n",
  b!"          \"1\": \"'а =%spellout-ordinal-plural-ablative=;\"\n",
  b!"        },\n",
  b!"        \"%%thousandsprefixconjoined\": {\n",
  b!"          \"0\": \"=%spellout-cardinal-feminine-genitive=;\",\n",
  b!"          \"1\": \"одно;\",\n",
  b!"          \"2\": \"=%spellout-cardinal-feminine-genitive=;\",\n",
  b!"          \"21\": \"двадцатиодно;\",\n",
  b!"          \"22\": \"двадцати[>>];\",\n",
  b!"          \"30\": \"тридцати;\",\n",
  b!"          \"31\": \"тридцатиодно;\",\n",
  b!"          \"32\": \"тридцати[>>];\",\n",
  b!"          \"40\": \"сорока;\",\n",
  b!"          \"41\": \"сорокаодно;\",\n",
  b!"          \"42\": \"сорока[>>];\",\n",
  b!"          \"50\": \"пятидесяти;\",\n",
  b!"          \"51\": \"пятидесятиодно;\",\n",
  b!"          \"52\": \"пятидесяти[>>];\",\n",
  b!"          \"60\": \"шестидесяти;\",\n",
  b!"          \"61\": \"шестидесятиодно;\",\n",
  b!"          \"62\": \"шестидесяти[>>];\",\n",
  b!"          \"70\": \"семидесяти;\",\n",
  b!"          \"71\": \"семидесятиодно;\",\n",
  b!"          \"72\": \"семидесяти[>>];\",\n",
  b!"          \"80\": \"восьмидесяти;\",\n",
  b!"          \"81\": \"восьмидесятиодно;\",\n",
  b!"          \"82\": \"восьмидесяти[>>];\",\n",
  b!"          \"90\": \"=%spellout-cardinal-feminine=;\",\n",
  b!"          \"91\": \"девяностоодно;\",\n",
  b!"          \"92\": \"девяносто[>>];\",\n",
  b!"          \"100\": \"сто[>>];\",\n",
  b!"          \"200\": \"<%spellout-cardinal-feminine-genitive<сот[>>];\"\n",
  b!"        },\n",
  b!"        \"%%thousandsprefixseparate\": {\n",
  b!"          \"0\": \"=%spellout-cardinal-feminine= ;\"\n",
  b!"        },\n",
  b!"        \"%spellout-ordinal-masculine\": {\n",
  b!"          \"-x\": \"минус >>;\",\n",
  b!"          \"x.x\": \"=0.#=;\",\n",
  b!"          \"0\": \"нулевой;\",\n",
  b!"          \"1\": \"первый;\",\n",
  b!"          \"2\": \"второй;\",\n",
  b!"          \"3\": \"третий;\",\n",
  b!"          \"4\": \"четвертый;\",\n",
  b!"          \"5\": \"пятый;\",\n",
  b!"          \"6\": \"шестой;\",\n",
  b!"          \"7\": \"седьмой;\",\n",
  b!"          \"8\": \"восьмой;\",\n",
  b!"          \"9\": \"девятый;\",\n",
  b!"          \"10\": \"десятый;\",\n",
  b!"          \"11\": \"одиннадцатый;\",\n",
  b!"          \"12\": \"двенадцатый;\",\n",
  b!"          \"13\": \"тринадцатый;\",\n",
  b!"          \"14\": \"четырнадцатый;\",\n",
  b!"          \"15\": \"пятнадцатый;\",\n",
  b!"          \"16\": \"шестнадцатый;\",\n",
  b!"          \"17\": \"семнадцатый;\",\n",
  b!"          \"18\": \"восемнадцатый;\",\n",
  b!"          \"19\": \"девятнадцатый;\",\n",
  b!"          \"20\": \"двадцатый;\",\n",
  b!"          \"21\": \"двадцать >>;\",\n",
  b!"          \"30\": \"тридцатый;\",\n",
  b!"          \"31\": \"тридцать >>;\",\n",
  b!"          \"40\": \"сороковой;\",\n",
  b!"          \"41\": \"сорок >>;\",\n",
  b!"          \"50\": \"пятидесятый;\",\n",
  b!"          \"51\": \"пятьдесят >>;\",\n",
  b!"          \"60\": \"шестидесятый;\",\n",
  b!"          \"61\": \"шестьдесят >>;\",\n",
  b!"          \"70\": \"семидесятый;\",\n",
  b!"          \"71\": \"семьдесят >>;\",\n",
  b!"          \"80\": \"восьмидесятый;\",\n",
  b!"          \"81\": \"восемьдесят >>;\",\n",
  b!"          \"90\": \"девяностый;\",\n",
  b!"          \"91\": \"девяносто >>;\",\n",
  b!"          \"100\": \"сотый;\",\n",
  b!"          \"101\": \"сто >>;\",\n",
  b!"          \"200\": \"<%spellout-cardinal-feminine<сти[ >>];\",\n",
  b!"          \"300\": \"<%spellout-cardinal-feminine<ста[ >>];\",\n",
  b!"          \"500\": \"<%spellout-cardinal-feminine<сот[ >>];\",\n",
  b!"          \"1000\": \"тысяч>%%yj>;\",\n",
  b!"          \"1001\": \"одна тысяч>%%yj>;\",\n",
  b!"          \"2000/1000\": \"<%%thousandsprefixconjoined<тысячный;\",\n",
  b!"          \"2001/1000\": \"<%%thousandsprefixseparate<тысячи[ >>];\",\n",
  b!"          \"5000/1000\": \"<%%thousandsprefixconjoined<тысячный;\",\n",
  b!"          \"5001/1000\": \"<%%thousandsprefixseparate<тысяч[ >>];\",\n",
  b!"          \"21001\": \"=0=.;\"\n",
  b!"        },\n",
  b!"        \"%spellout-ordinal-neuter\": {\n",
  b!"          \"-x\": \"минус >>;\",\n",
  b!"          \"x.x\": \"=0.#=;\",\n",
  b!"          \"0\": \"нулевое;\",\n",
  b!"          \"1\": \"первое;\",\n",
  b!"          \"2\": \"второе;\",\n",
  b!"          \"3\": \"третье;\",\n",
  b!"          \"4\": \"четвертое;\",\n",
  b!"          \"5\": \"пятое;\",\n",
  b!"          \"6\": \"шестое;\",\n",
  b!"          \"7\": \"седьмое;\",\n",
  b!"          \"8\": \"восьмое;\",\n",
  b!"          \"9\": \"девятое;\",\n",
  b!"          \"10\": \"десятое;\",\n",
  b!"          \"11\": \"одиннадцатое;\",\n",
  b!"          \"12\": \"двенадцатое;\",\n",
  b!"          \"13\": \"тринадцатое;\",\n",
  b!"          \"14\": \"четырнадцатое;\",\n",
  b!"          \"15\": \"пятнадцатое;\",\n",
  b!"          \"16\": \"шестнадцатое;\",\n",
  b!"          \"17\": \"семнадцатое;\",\n",
  b!"          \"18\": \"восемнадцатое;\",\n",
  b!"          \"19\": \"девятнадцатое;\",\n",
  b!"          \"20\": \"двадцатое;\",\n",
  b!"          \"21\": \"двадцать >>;\",\n",
  b!"          \"30\": \"тридцатое;\",\n",
  b!"          \"31\": \"тридцать >>;\",\n",
  b!"          \"40\": \"сороковое;\",\n",
  b!"          \"41\": \"сорок >>;\",\n",
  b!"          \"50\": \"пятидесятое;\",\n",
  b!"          \"51\": \"пятьдесят >>;\",\n",
  b!"          \"60\": \"шестидесятое;\",\n",
  b!"          \"61\": \"шестьдесят >>;\",\n",
  b!"          \"70\": \"семидесятое;\",\n",
  b!"          \"71\": \"семьдесят >>;\",\n",
  b!"          \"80\": \"восемьдесятое;\",\n",
  b!"          \"81\": \"восемьдесят >>;\",\n",
  b!"          \"90\": \"девяностое;\",\n",
  b!"          \"91\": \"девяносто >>;\",\n",
  b!"          \"100\": \"сотое;\",\n",
  b!"          \"101\": \"сто >>;\",\n",
  b!"          \"200\": \"<%spellout-cardinal-feminine<сти[ >>];\",\n",
  b!"          \"300\": \"<%spellout-cardinal-feminine<ста[ >>];\",\n",
  b!"          \"500\": \"<%spellout-cardinal-feminine<сот[ >>];\",\n",
  b!"          \"1000\": \"тысяч>%%oe>;\",\n",
  b!"          \"1001\": \"одна тысяч>%%oe>;\",\n",
  b!"          \"2000/1000\": \"<%%thousandsprefixconjoined<тысячное;\",\n",
  b!"          \"2001/1000\": \"<%%thousandsprefixseparate<тысячи[ >>];\",\n",
  b!"          \"5000/1000\": \"<%%thousandsprefixconjoined<тысячное;\",\n",
  b!"          \"5001/1000\": \"<%%thousandsprefixseparate<тысяч[ >>];\",\n",
  b!"          \"21001\": \"=0=.;\"\n",
  b!"        },\n",
  b!"        \"%spellout-ordinal-feminine\": {\n",
  b!"          \"-x\": \"минус >>;\",\n",
  b!"          \"x.x\": \"=0.#=;\",\n",
  b!"          \"0\": \"ноль;\",\n",
  b!"          \"1\": \"первая;\",\n",
  b!"          \"2\": \"вторая;\",\n",
  b!"          \"3\": \"третья;\",\n",
  b!"          \"4\": \"четвертая;\",\n",
  b!"          \"5\": \"пятая;\",\n",
  b!"          \"6\": \"шестая;\",\n",
  b!"          \"7\": \"седьмая;\",\n",
  b!"          \"8\": \"восьмая;\",\n",
  b!"          \"9\": \"девятая;\",\n",
  b!"          \"10\": \"десятая;\",\n",
  b!"          \"11\": \"одиннадцатая;\",\n",
  b!"          \"12\": \"двенадцатая;\",\n",
  b!"          \"13\": \"тринадцатая;\",\n",
  b!"          \"14\": \"четырнадцатая;\",\n",
  b!"          \"15\": \"пятнадцатая;\",\n",
  b!"          \"16\": \"шестнадцатая;\",\n",
  b!"          \"17\": \"семнадцатая;\",\n",
  b!"          \"18\": \"восемнадцатая;\",\n",
  b!"          \"19\": \"девятнадцатая;\",\n",
  b!"          \"20\": \"двадцатая;\",\n",
  b!"          \"21\": \"двадцать >>;\",\n",
  b!"          \"30\": \"тридцатая;\",\n",
  b!"          \"31\": \"тридцать >>;\",\n",
  b!"          \"40\": \"сороковая;\",\n",
  b!"          \"41\": \"сорок >>;\",\n",
  b!"          \"50\": \"пятидесятая;\",\n",
  b!"          \"51\": \"пятьдесят >>;\",\n",
  b!"          \"60\": \"шестидесятая;\",\n",
  b!"          \"61\": \"шестьдесят >>;\",\n",
  b!"          \"70\": \"семидесятая;\",\n",
  b!"          \"71\": \"семьдесят >>;\",\n",
  b!"          \"80\": \"восьмидесятая;\",\n",
  b!"          \"81\": \"восемьдесят >>;\",\n",
  b!"          \"90\": \"девяностая;\",\n",
  b!"          \"91\": \"девяносто >>;\",\n",
  b!"          \"100\": \"сотая;\",\n",
  b!"          \"101\": \"сто >>;\",\n",
  b!"          \"200\": \"<%spellout-cardinal-feminine<сти[ >>];\",\n",
  b!"          \"300\": \"<%spellout-cardinal-feminine<ста[ >>];\",\n",
  b!"          \"500\": \"<%spellout-cardinal-feminine<сот[ >>];\",\n",
  b!"          \"1000\": \"тысяч>%%aja>;\",\n",
  b!"          \"1001\": \"одна тысяч>%%aja>;\",\n",
  b!"          \"2000/1000\": \"<%%thousandsprefixconjoined<тысячная;\",\n",
  b!"          \"2001/1000\": \"<%%thousandsprefixseparate<тысячи[ >>];\",\n",
  b!"          \"5000/1000\": \"<%%thousandsprefixconjoined<тысячная;\",\n",
  b!"          \"5001/1000\": \"<%%thousandsprefixseparate<тысяч[ >>];\",\n",
  b!"          \"21001\": \"=0=.;\"\n",
  b!"        },\n",
  b!"        \"%spellout-ordinal-plural\": {\n",
  b!"          \"-x\": \"минус >>;\",\n",
  b!"          \"x.x\": \"=0.#=;\",\n",
  b!"          \"0\": \"нулевые;\",\n",
  b!"          \"1\": \"первые;\",\n",
  b!"          \"2\": \"вторые;\",\n",
  b!"          \"3\": \"третьи;\",\n",
  b!"          \"4\": \"четвертые;\",\n",
  b!"          \"5\": \"пятые;\",\n",
  b!"          \"6\": \"шестые;\",\n",
  b!"          \"7\": \"седьмые;\",\n",
  b!"          \"8\": \"восьмые;\",\n",
  b!"          \"9\": \"девятые;\",\n",
  b!"          \"10\": \"десятые;\",\n",
  b!"          \"11\": \"одиннадцатые;\",\n",
  b!"          \"12\": \"двенадцатые;\",\n",
  b!"          \"13\": \"тринадцатые;\",\n",
  b!"          \"14\": \"четырнадцатые;\",\n",
  b!"          \"15\": \"пятнадцатые;\",\n",
  b!"          \"16\": \"шестнадцатые;\",\n",
  b!"          \"17\": \"семнадцатые;\",\n",
  b!"          \"18\": \"восемнадцатые;\",\n",
  b!"          \"19\": \"девятнадцатые;\",\n",
  b!"          \"20\": \"двадцатые;\",\n",
  b!"          \"21\": \"двадцать >>;\",\n",
  b!"          \"30\": \"тридцатые;\",\n",
  b!"          \"31\": \"тридцать >>;\",\n",
  b!"          \"40\": \"сороковые;\",\n",
  b!"          \"41\": \"сорок >>;\",\n",
  b!"          \"50\": \"пятидесятые;\",\n",
  b!"          \"51\": \"пятьдесят >>;\",\n",
  b!"          \"60\": \"шестидесятые;\",\n",
  b!"          \"61\": \"шестьдесят >>;\",\n",
  b!"          \"70\": \"семидесятые;\",\n",
  b!"          \"71\": \"семьдесят >>;\",\n",
  b!"          \"80\": \"восемьдесятые;\",\n",
  b!"          \"81\": \"восемьдесят >>;\",\n",
  b!"          \"90\": \"девяностые;\",\n",
  b!"          \"91\": \"девяносто >>;\",\n",
  b!"          \"100\": \"сотые;\",\n",
  b!"          \"101\": \"сто >>;\",\n",
  b!"          \"200\": \"<%spellout-cardinal-feminine<сти[ >>];\",\n",
  b!"          \"300\": \"<%spellout-cardinal-feminine<ста[ >>];\",\n",
  b!"          \"500\": \"<%spellout-cardinal-feminine<сот[ >>];\",\n",
  b!"          \"1000\": \"тысяч>%%ye>;\",\n",
  b!"          \"1001\": \"одна тысяч>%%ye>;\",\n",
  b!"          \"2000/1000\": \"<%%thousandsprefixconjoined<тысячные;\",\n",
  b!"          \"2001/1000\": \"<%%thousandsprefixseparate<тысячи[ >>];\",\n",
  b!"          \"5000/1000\": \"<%%thousandsprefixconjoined<тысячные;\",\n",
  b!"          \"5001/1000\": \"<%%thousandsprefixseparate<тысяч[ >>];\",\n",
  b!"          \"21001\": \"=0=.;\"\n",
  b!"        },\n",
  b!"        \"%spellout-ordinal-masculine-genitive\": {\n",
  b!"          \"-x\": \"минус >>;\",\n",
  b!"          \"x.x\": \"=0.#=;\",\n",
  b!"          \"0\": \"нулевого;\",\n",
  b!"          \"1\": \"первого;\",\n",
  b!"          \"2\": \"второго;\",\n",
  b!"          \"3\": \"третьего;\",\n",
  b!"          \"4\": \"четвертого;\",\n",
  b!"          \"5\": \"пятого;\",\n",
  b!"          \"6\": \"шестого;\",\n",
  b!"          \"7\": \"седьмого;\",\n",
  b!"          \"8\": \"восьмого;\",\n",
  b!"          \"9\": \"девятого;\",\n",
  b!"          \"10\": \"десятого;\",\n",
  b!"          \"11\": \"одиннадцатого;\",\n",
  b!"          \"12\": \"двенадцатого;\",\n",
  b!"          \"13\": \"тринадцатого;\",\n",
  b!"          \"14\": \"четырнадцатого;\",\n",
  b!"          \"15\": \"пятнадцатого;\",\n",
  b!"          \"16\": \"шестнадцатого;\",\n",
  b!"          \"17\": \"семнадцатого;\",\n",
  b!"          \"18\": \"восемнадцатого;\",\n",
  b!"          \"19\": \"девятнадцатого;\",\n",
  b!"          \"20\": \"двадцатого;\",\n",
  b!"          \"21\": \"двадцать >>;\",\n",
  b!"          \"30\": \"тридцатого;\",\n",
  b!"          \"31\": \"тридцать >>;\",\n",
  b!"          \"40\": \"сорокового;\",\n",
  b!"          \"41\": \"сорок >>;\",\n",
  b!"          \"50\": \"пятидесятого;\",\n",
  b!"          \"51\": \"пятьдесят >>;\",\n",
  b!"          \"60\": \"шестидесятого;\",\n",
  b!"          \"61\": \"шестьдесят >>;\",\n",
  b!"          \"70\": \"семидесятого;\",\n",
  b!"          \"71\": \"семьдесят >>;\",\n",
  b!"          \"80\": \"восьмидесятого;\",\n",
  b!"          \"81\": \"восемьдесят >>;\",\n",
  b!"          \"90\": \"девяностого;\",\n",
  b!"          \"91\": \"девяносто >>;\",\n",
  b!"          \"100\": \"сотого;\",\n",
  b!"          \"101\": \"сто >>;\",\n",
  b!"          \"200\": \"<%spellout-cardinal-feminine<сти[ >>];\",\n",
  b!"          \"300\": \"<%spellout-cardinal-feminine<ста[ >>];\",\n",
  b!"          \"500\": \"<%spellout-cardinal-feminine<сот[ >>];\",\n",
  b!"          \"1000\": \"тысяч>%%ogo>;\",\n",
  b!"          \"1001\": \"одна тысяч>%%ogo>;\",\n",
  b!"          \"2000/1000\": \"<%%thousandsprefixconjoined<тысячного;\",\n",
  b!"          \"2001/1000\": \"<%%thousandsprefixseparate<тысячи[ >>];\",\n",
  b!"          \"5000/1000\": \"<%%thousandsprefixconjoined<тысячного;\",\n",
  b!"          \"5001/1000\": \"<%%thousandsprefixseparate<тысяч[ >>];\",\n",
  b!"          \"21001\": \"=0=.;\"\n",
  b!"        },\n",
  b!"        \"%spellout-ordinal-neuter-genitive\": {\n",
  b!"          \"0\": \"=%spellout-ordinal-masculine-genitive=;\"\n",
  b!"        },\n",
  b!"        \"%spellout-ordinal-feminine-genitive\": {\n",
  b!"          \"-x\": \"минус >>;\",\n",
  b!"          \"x.x\": \"=0.#=;\",\n",
  b!"          \"0\": \"нулевой;\",\n",
  b!"          \"1\": \"первой;\",\n",
  b!"          \"2\": \"второй;\",\n",
  b!"          \"3\": \"третьей;\",\n",
  b!"          \"4\": \"четвертой;\",\n",
  b!"          \"5\": \"пятой;\",\n",
  b!"          \"6\": \"шестой;\",\n",
  b!"          \"7\": \"седьмой;\",\n",
  b!"          \"8\": \"восьмой;\",\n",
  b!"          \"9\": \"девятой;\",\n",
  b!"          \"10\": \"десятой;\",\n",
  b!"          \"11\": \"одиннадцатой;\",\n",
  b!"          \"12\": \"двенадцатой;\",\n",
  b!"          \"13\": \"тринадцатой;\",\n",
  b!"          \"14\": \"четырнадцатой;\",\n",
  b!"          \"15\": \"пятнадцатой;\",\n",
  b!"          \"16\": \"шестнадцатой;\",\n",
  b!"          \"17\": \"семнадцатой;\",\n",
  b!"          \"18\": \"восемнадцатой;\",\n",
  b!"          \"19\": \"девятнадцатой;\",\n",
  b!"          \"20\": \"двадцатой;\",\n",
  b!"          \"21\": \"двадцать >>;\",\n",
  b!"          \"30\": \"тридцатой;\",\n",
  b!"          \"31\": \"тридцать >>;\",\n",
  b!"          \"40\": \"сороковой;\",\n",
  b!"          \"41\": \"сорок >>;\",\n",
  b!"          \"50\": \"пятидесятой;\",\n",
  b!"          \"51\": \"пятьдесят >>;\",\n",
  b!"          \"60\": \"шестидесятой;\",\n",
  b!"          \"61\": \"шестьдесят >>;\",\n",
  b!"          \"70\": \"семидесятой;\",\n",
  b!"          \"71\": \"семьдесят >>;\",\n",
  b!"          \"80\": \"восьмидесятой;\",\n",
  b!"          \"81\": \"восемьдесят >>;\",\n",
  b!"          \"90\": \"девяностой;\",\n",
  b!"          \"91\": \"девяносто >>;\",\n",
  b!"          \"100\": \"сотой;\",\n",
  b!"          \"101\": \"сто >>;\",\n",
  b!"          \"200\": \"<%spellout-cardinal-feminine<сти[ >>];\",\n",
  b!"          \"300\": \"<%spellout-cardinal-feminine<ста[ >>];\",\n",
  b!"          \"500\": \"<%spellout-cardinal-feminine<сот[ >>];\",\n",
  b!"          \"1000\": \"тысяч>%%oj>;\",\n",
  b!"          \"1001\": \"одна тысяч>%%oj>;\",\n",
  b!"          \"2000/1000\": \"<%%thousandsprefixconjoined<тысячной;\",\n",
  b!"          \"2001/1000\": \"<%%thousandsprefixseparate<тысячи[ >>];\",\n",
  b!"          \"5000/1000\": \"<%%thousandsprefixconjoined<тысячной;\",\n",
  b!"          \"5001/1000\": \"<%%thousandsprefixseparate<тысяч[ >>];\",\n",
  b!"          \"21001\": \"=0=.;\"\n",
  b!"        },\n",
  b!"        \"%spellout-ordinal-plural-genitive\": {\n",
  b!"          \"-x\": \"минус >>;\",\n",
  b!"          \"x.x\": \"=0.#=;\",\n",
  b!"          \"0\": \"нулевых;\",\n",
  b!"          \"1\": \"первых;\",\n",
  b!"          \"2\": \"вторых;\",\n",
  b!"          \"3\": \"третьих;\",\n",
  b!"          \"4\": \"четвертых;\",\n",
  b!"          \"5\": \"пятых;\",\n",
  b!"          \"6\": \"шестых;\",\n",
  b!"          \"7\": \"седьмых;\",\n",
  b!"          \"8\": \"восьмых;\",\n",
  b!"          \"9\": \"девятых;\",\n",
  b!"          \"10\": \"десятых;\",\n",
  b!"          \"11\": \"одиннадцатых;\",\n",
  b!"          \"12\": \"двенадцатых;\",\n",
  b!"          \"13\": \"тринадцатых;\",\n",
  b!"          \"14\": \"четырнадцатых;\",\n",
  b!"          \"15\": \"пятнадцатых;\",\n",
  b!"          \"16\": \"шестнадцатых;\",\n",
  b!"          \"17\": \"семнадцатых;\",\n",
  b!"          \"18\": \"восемнадцатых;\",\n",
  b!"          \"19\": \"девятнадцатых;\",\n",
  b!"          \"20\": \"двадцатых;\",\n",
  b!"          \"21\": \"двадцать >>;\",\n",
  b!"          \"30\": \"тридцатых;\",\n",
  b!"          \"31\": \"тридцать >>;\",\n",
  b!"          \"40\": \"сороковых;\",\n",
  b!"          \"41\": \"сорок >>;\",\n",
  b!"          \"50\": \"пятидесятых;\",\n",
  b!"          \"51\": \"пятьдесят >>;\",\n",
  b!"          \"60\": \"шестидесятых;\",\n",
  b!"          \"61\": \"шестьдесят >>;\",\n",
  b!"          \"70\": \"семидесятых;\",\n",
  b!"          \"71\": \"семьдесят >>;\",\n",
  b!"          \"80\": \"восьмидесятых;\",\n",
  b!"          \"81\": \"восемьдесят >>;\",\n",
  b!"          \"90\": \"девяностых;\",\n",
  b!"          \"91\": \"девяносто >>;\",\n",
  b!"          \"100\": \"сотых;\",\n",
  b!"          \"101\": \"сто >>;\",\n",
  b!"          \"200\": \"<%spellout-cardinal-feminine<сти[ >>];\",\n",
  b!"          \"300\": \"<%spellout-cardinal-feminine<ста[ >>];\",\n",
  b!"          \"500\": \"<%spellout-cardinal-feminine<сот[ >>];\",\n",
  b!"          \"1000\": \"тысяч>%%yh>;\",\n",
  b!"          \"1001\": \"одна тысяч>%%yh>;\",\n",
  b!"          \"2000/1000\": \"<%%thousandsprefixconjoined<тысячных;\",\n",
  b!"          \"2001/1000\": \"<%%thousandsprefixseparate<тысячи[ >>];\",\n",
  b!"          \"5000/1000\": \"<%%thousandsprefixconjoined<тысячных;\",\n",
  b!"          \"5001/1000\": \"<%%thousandsprefixseparate<тысяч[ >>];\",\n",
  b!"          \"21001\": \"=0=.;\"\n",
  b!"        },\n",
  b!"        \"%spellout-ordinal-masculine-dative\": {\n",
  b!"          \"-x\": \"минус >>;\",\n",
  b!"          \"x.x\": \"=0.#=;\",\n",
  b!"          \"0\": \"нулевому;\",\n",
  b!"          \"1\": \"первому;\",\n",
  b!"          \"2\": \"второму;\",\n",
  b!"          \"3\": \"третьому;\",\n",
  b!"          \"4\": \"четвертому;\",\n",
  b!"          \"5\": \"пятому;\",\n",
  b!"          \"6\": \"шестому;\",\n",
  b!"          \"7\": \"седьмому;\",\n",
  b!"          \"8\": \"восьмому;\",\n",
  b!"          \"9\": \"девятому;\",\n",
  b!"          \"10\": \"десятому;\",\n",
  b!"          \"11\": \"одиннадцатому;\",\n",
  b!"          \"12\": \"двенадцатому;\",\n",
  b!"          \"13\": \"тринадцатому;\",\n",
  b!"          \"14\": \"четырнадцатому;\",\n",
  b!"          \"15\": \"пятнадцатому;\",\n",
  b!"          \"16\": \"шестнадцатому;\",\n",
  b!"          \"17\": \"семнадцатому;\",\n",
  b!"          \"18\": \"восемнадцатому;\",\n",
  b!"          \"19\": \"девятнадцатому;\",\n",
  b!"          \"20\": \"двадцатому;\",\n",
  b!"          \"21\": \"двадцать >>;\",\n",
  b!"          \"30\": \"тридцатому;\",\n",
  b!"          \"31\": \"тридцать >>;\",\n",
  b!"          \"40\": \"сороковому;\",\n",
  b!"          \"41\": \"сорок >>;\",\n",
  b!"          \"50\": \"пятидесятому;\",\n",
  b!"          \"51\": \"пятьдесят >>;\",\n",
  b!"          \"60\": \"шестидесятому;\",\n",
  b!"          \"61\": \"шестьдесят >>;\",\n",
  b!"          \"70\": \"семидесятому;\",\n",
  b!"          \"71\": \"семьдесят >>;\",\n",
  b!"          \"80\": \"восемьдесятому;\",\n",
  b!"          \"81\": \"восемьдесят >>;\",\n",
  b!"          \"90\": \"девяностому;\",\n",
  b!"          \"91\": \"девяносто >>;\",\n",
  b!"          \"100\": \"сотому;\",\n",
  b!"          \"101\": \"сто >>;\",\n",
  b!"          \"200\": \"<%spellout-cardinal-feminine<сти[ >>];\",\n",
  b!"          \"300\": \"<%spellout-cardinal-feminine<ста[ >>];\",\n",
  b!"          \"500\": \"<%spellout-cardinal-feminine<сот[ >>];\",\n",
  b!"          \"1000\": \"тысяч>%%omu>;\",\n",
  b!"          \"1001\": \"одна тысяч>%%omu>;\",\n",
  b!"          \"2000/1000\": \"<%%thousandsprefixconjoined<тысячному;\",\n",
  b!"          \"2001/1000\": \"<%%thousandsprefixseparate<тысячи[ >>];\",\n",
  b!"          \"5000/1000\": \"<%%thousandsprefixconjoined<тысячному;\",\n",
  b!"          \"5001/1000\": \"<%%thousandsprefixseparate<тысяч[ >>];\",\n",
  b!"          \"21001\": \"=0=.;\"\n",
  b!"        },\n",
  b!"        \"%spellout-ordinal-neuter-dative\": {\n",
  b!"          \"0\": \"=%spellout-ordinal-masculine-dative=;\"\n",
  b!"        },\n",
  b!"        \"%spellout-ordinal-feminine-dative\": {\n",
  b!"          \"0\": \"=%spellout-ordinal-feminine-genitive=;\"\n",
  b!"        },\n",
  b!"        \"%spellout-ordinal-plural-dative\": {\n",
  b!"          \"0\": \"=%spellout-ordinal-masculine-ablative=;\"\n",
  b!"        },\n",
  b!"        \"%spellout-ordinal-masculine-accusative\": {\n",
  b!"          \"0\": \"=%spellout-ordinal-masculine=;\"\n",
  b!"        },\n",
  b!"        \"%spellout-ordinal-neuter-accusative\": {\n",
  b!"          \"0\": \"=%spellout-ordinal-neuter=;\"\n",
  b!"        },\n",
  b!"        \"%spellout-ordinal-feminine-accusative\": {\n",
  b!"          \"-x\": \"минус >>;\",\n",
  b!"          \"x.x\": \"=0.#=;\",\n",
  b!"          \"0\": \"нулевую;\",\n",
  b!"          \"1\": \"первую;\",\n",
  b!"          \"2\": \"вторую;\",\n",
  b!"          \"3\": \"третью;\",\n",
  b!"          \"4\": \"четвертую;\",\n",
  b!"          \"5\": \"пятую;\",\n",
  b!"          \"6\": \"шестую;\",\n",
  b!"          \"7\": \"седьмую;\",\n",
  b!"          \"8\": \"восьмую;\",\n",
  b!"          \"9\": \"девятую;\",\n",
  b!"          \"10\": \"десятую;\",\n",
  b!"          \"11\": \"одиннадцатую;\",\n",
  b!"          \"12\": \"двенадцатую;\",\n",
  b!"          \"13\": \"тринадцатую;\",\n",
  b!"          \"14\": \"четырнадцатую;\",\n",
  b!"          \"15\": \"пятнадцатую;\",\n",
  b!"          \"16\": \"шестнадцатую;\",\n",
  b!"          \"17\": \"семнадцатую;\",\n",
  b!"          \"18\": \"восемнадцатую;\",\n",
  b!"          \"19\": \"девятнадцатую;\",\n",
  b!"          \"20\": \"двадцатую;\",\n",
  b!"          \"21\": \"двадцать >>;\",\n",
  b!"          \"30\": \"тридцатую;\",\n",
  b!"          \"31\": \"тридцать >>;\",\n",
  b!"          \"40\": \"сороковую;\",\n",
  b!"          \"41\": \"сорок >>;\",\n",
  b!"          \"50\": \"пятидесятую;\",\n",
  b!"          \"51\": \"пятьдесят >>;\",\n",
  b!"          \"60\": \"шестидесятую;\",\n",
  b!"          \"61\": \"шестьдесят >>;\",\n",
  b!"          \"70\": \"семидесятую;\",\n",
  b!"          \"71\": \"семьдесят >>;\",\n",
  b!"          \"80\": \"восьмидесятую;\",\n",
  b!"          \"81\": \"восемьдесят >>;\",\n",
  b!"          \"90\": \"девяностую;\",\n",
  b!"          \"91\": \"девяносто >>;\",\n",
  b!"          \"100\": \"сотую;\",\n",
  b!"          \"101\": \"сто >>;\",\n",
  b!"          \"200\": \"<%spellout-cardinal-feminine<сти[ >>];\",\n",
  b!"          \"300\": \"<%spellout-cardinal-feminine<ста[ >>];\",\n",
  b!"          \"500\": \"<%spellout-cardinal-feminine<сот[ >>];\",\n",
  b!"          \"1000\": \"тысяч>%%uju>;\",\n",
  b!"          \"1001\": \"одна тысяч>%%uju>;\",\n",
  b!"          \"2000/1000\": \"<%%thousandsprefixconjoined<тысячную;\",\n",
  b!"          \"2001/1000\": \"<%%thousandsprefixseparate<тысячи[ >>];\",\n",
  b!"          \"5000/1000\": \"<%%thousandsprefixconjoined<тысячную;\",\n",
  b!"          \"5001/1000\": \"<%%thousandsprefixseparate<тысяч[ >>];\",\n",
  b!"          \"21001\": \"=0=.;\"\n",
  b!"        },\n",
  b!"        \"%spellout-ordinal-plural-accusative\": {\n",
  b!"          \"0\": \"=%spellout-ordinal-plural=;\"\n",
  b!"        },\n",
  b!"        \"%spellout-ordinal-masculine-locative\": {\n",
  b!"          \"-x\": \"минус >>;\",\n",
  b!"          \"x.x\": \"=0.#=;\",\n",
  b!"          \"0\": \"нулевом;\",\n",
  b!"          \"1\": \"первом;\",\n",
  b!"          \"2\": \"втором;\",\n",
  b!"          \"3\": \"третьем;\",\n",
  b!"          \"4\": \"четвертом;\",\n",
  b!"          \"5\": \"пятом;\",\n",
  b!"          \"6\": \"шестом;\",\n",
  b!"          \"7\": \"седьмом;\",\n",
  b!"          \"8\": \"восьмом;\",\n",
  b!"          \"9\": \"девятом;\",\n",
  b!"          \"10\": \"десятом;\",\n",
  b!"          \"11\": \"одиннадцатом;\",\n",
  b!"          \"12\": \"двенадцатом;\",\n",
  b!"          \"13\": \"тринадцатом;\",\n",
  b!"          \"14\": \"четырнадцатом;\",\n",
  b!"          \"15\": \"пятнадцатом;\",\n",
  b!"          \"16\": \"шестнадцатом;\",\n",
  b!"          \"17\": \"семнадцатом;\",\n",
  b!"          \"18\": \"восемнадцатом;\",\n",
  b!"          \"19\": \"девятнадцатом;\",\n",
  b!"          \"20\": \"двадцатом;\",\n",
  b!"          \"21\": \"двадцать >>;\",\n",
  b!"          \"30\": \"тридцатом;\",\n",
  b!"          \"31\": \"тридцать >>;\",\n",
  b!"          \"40\": \"сороковой;\",\n",
  b!"          \"41\": \"сорок >>;\",\n",
  b!"          \"50\": \"пятидесятом;\",\n",
  b!"          \"51\": \"пятьдесят >>;\",\n",
  b!"          \"60\": \"шестидесятом;\",\n",
  b!"          \"61\": \"шестьдесят >>;\",\n",
  b!"          \"70\": \"семидесятом;\",\n",
  b!"          \"71\": \"семьдесят >>;\",\n",
  b!"          \"80\": \"восьмидесятом;\",\n",
  b!"          \"81\": \"восемьдесят >>;\",\n",
  b!"          \"90\": \"девяностом;\",\n",
  b!"          \"91\": \"девяносто >>;\",\n",
  b!"          \"100\": \"сотом;\",\n",
  b!"          \"101\": \"сто >>;\",\n",
  b!"          \"200\": \"<%spellout-cardinal-feminine<сти[ >>];\",\n",
  b!"          \"300\": \"<%spellout-cardinal-feminine<ста[ >>];\",\n",
  b!"          \"500\": \"<%spellout-cardinal-feminine<сот[ >>];\",\n",
  b!"          \"1000\": \"тысяч>%%om>;\",\n",
  b!"          \"1001\": \"одна тысяч>%%om>;\",\n",
  b!"          \"2000/1000\": \"<%%thousandsprefixconjoined<тысячном;\",\n",
  b!"          \"2001/1000\": \"<%%thousandsprefixseparate<тысячи[ >>];\",\n",
  b!"          \"5000/1000\": \"<%%thousandsprefixconjoined<тысячном;\",\n",
  b!"          \"5001/1000\": \"<%%thousandsprefixseparate<тысяч[ >>];\",\n",
  b!"          \"21001\": \"=0=.;\"\n",
  b!"        },\n",
  b!"        \"%spellout-ordinal-neuter-locative\": {\n",
  b!"          \"0\": \"=%spellout-ordinal-masculine-locative=;\"\n",
  b!"        },\n",
  b!"        \"%spellout-ordinal-feminine-locative\": {\n",
  b!"          \"0\": \"=%spellout-ordinal-feminine-genitive=;\"\n",
  b!"        },\n",
  b!"        \"%spellout-ordinal-plural-locative\": {\n",
  b!"          \"0\": \"=%spellout-ordinal-plural-genitive=;\"\n",
  b!"        },\n",
  b!"        \"%spellout-ordinal-masculine-ablative\": {\n",
  b!"          \"-x\": \"минус >>;\",\n",
  b!"          \"x.x\": \"=0.#=;\",\n",
  b!"          \"0\": \"нулевым;\",\n",
  b!"          \"1\": \"первым;\",\n",
  b!"          \"2\": \"вторым;\",\n",
  b!"          \"3\": \"третьим;\",\n",
  b!"          \"4\": \"четвертым;\",\n",
  b!"          \"5\": \"пятым;\",\n",
  b!"          \"6\": \"шестым;\",\n",
  b!"          \"7\": \"седьмым;\",\n",
  b!"          \"8\": \"восьмым;\",\n",
  b!"          \"9\": \"девятым;\",\n",
  b!"          \"10\": \"десятым;\",\n",
  b!"          \"11\": \"одиннадцатым;\",\n",
  b!"          \"12\": \"двенадцатым;\",\n",
  b!"          \"13\": \"тринадцатым;\",\n",
  b!"          \"14\": \"четырнадцатым;\",\n",
  b!"          \"15\": \"пятнадцатым;\",\n",
  b!"          \"16\": \"шестнадцатым;\",\n",
  b!"          \"17\": \"семнадцатым;\",\n",
  b!"          \"18\": \"восемнадцатым;\",\n",
  b!"          \"19\": \"девятнадцатым;\",\n",
  b!"          \"20\": \"двадцатым;\",\n",
  b!"          \"21\": \"двадцать >>;\",\n",
  b!"          \"30\": \"тридцатым;\",\n",
  b!"          \"31\": \"тридцать >>;\",\n",
  b!"          \"40\": \"сороковым;\",\n",
  b!"          \"41\": \"сорок >>;\",\n",
  b!"          \"50\": \"пятидесятым;\",\n",
  b!"          \"51\": \"пятьдесят >>;\",\n",
  b!"          \"60\": \"шестидесятым;\",\n",
  b!"          \"61\": \"шестьдесят >>;\",\n",
  b!"          \"70\": \"семидесятым;\",\n",
  b!"          \"71\": \"семьдесят >>;\",\n",
  b!"          \"80\": \"восьмидесятым;\",\n",
  b!"          \"81\": \"восемьдесят >>;\",\n",
  b!"          \"90\": \"девяностым;\",\n",
  b!"          \"91\": \"девяносто >>;\",\n",
  b!"          \"100\": \"сотым;\",\n",
  b!"          \"101\": \"сто >>;\",\n",
  b!"          \"200\": \"<%spellout-cardinal-feminine<сти[ >>];\",\n",
  b!"          \"300\": \"<%spellout-cardinal-feminine<ста[ >>];\",\n",
  b!"          \"500\": \"<%spellout-cardinal-feminine<сот[ >>];\",\n",
  b!"          \"1000\": \"тысяч>%%ym>;\",\n",
  b!"          \"1001\": \"одна тысяч>%%ym>;\",\n",
  b!"          \"2000/1000\": \"<%%thousandsprefixconjoined<тысячным;\",\n",
  b!"          \"2001/1000\": \"<%%thousandsprefixseparate<тысячи[ >>];\",\n",
  b!"          \"5000/1000\": \"<%%thousandsprefixconjoined<тысячным;\",\n",
  b!"          \"5001/1000\": \"<%%thousandsprefixseparate<тысяч[ >>];\",\n",
  b!"          \"21001\": \"=0=.;\"\n",
  b!"        },\n",
  b!"        \"%spellout-ordinal-neuter-ablative\": {\n",
  b!"          \"0\": \"=%spellout-ordinal-masculine-ablative=;\"\n",
  b!"        },\n",
  b!"        \"%spellout-ordinal-feminine-ablative\": {\n",
  b!"          \"0\": \"=%spellout-ordinal-feminine-genitive=;\"\n",
  b!"        },\n",
  b!"        \"%spellout-ordinal-plural-ablative\": {\n",
  b!"          \"-x\": \"минус >>;\",\n",
  b!"          \"x.x\": \"=0.#=;\",\n",
  b!"          \"0\": \"нулевыми;\",\n",
  b!"          \"1\": \"первыми;\",\n",
  b!"          \"2\": \"вторыми;\",\n",
  b!"          \"3\": \"третьими;\",\n",
  b!"          \"4\": \"четвертыми;\",\n",
  b!"          \"5\": \"пятыми;\",\n",
  b!"          \"6\": \"шестыми;\",\n",
  b!"          \"7\": \"седьмыми;\",\n",
  b!"          \"8\": \"восьмыми;\",\n",
  b!"          \"9\": \"девятыми;\",\n",
  b!"          \"10\": \"десятыми;\",\n",
  b!"          \"11\": \"одиннадцатыми;\",\n",
  b!"          \"12\": \"двенадцатыми;\",\n",
  b!"          \"13\": \"тринадцатыми;\",\n",
  b!"          \"14\": \"четырнадцатыми;\",\n",
  b!"          \"15\": \"пятнадцатыми;\",\n",
  b!"          \"16\": \"шестнадцатыми;\",\n",
  b!"          \"17\": \"семнадцатыми;\",\n",
  b!"          \"18\": \"восемнадцатыми;\",\n",
  b!"          \"19\": \"девятнадцатыми;\",\n",
  b!"          \"20\": \"двадцатыми;\",\n",
  b!"          \"21\": \"двадцать >>;\",\n",
  b!"          \"30\": \"тридцатыми;\",\n",
  b!"          \"31\": \"тридцать >>;\",\n",
  b!"          \"40\": \"сороковой;\",\n",
  b!"          \"41\": \"сорок >>;\",\n",
  b!"          \"50\": \"пятидесятыми;\",\n",
  b!"          \"51\": \"пятьдесят >>;\",\n",
  b!"          \"60\": \"шестидесятыми;\",\n",
  b!"          \"61\": \"шестьдесят >>;\",\n",
  b!"          \"70\": \"семидесятыми;\",\n",
  b!"          \"71\": \"семьдесят >>;\",\n",
  b!"          \"80\": \"восьмидесятыми;\",\n",
  b!"          \"81\": \"восемьдесят >>;\",\n",
  b!"          \"90\": \"девяностыми;\",\n",
  b!"          \"91\": \"девяносто >>;\",\n",
  b!"          \"100\": \"сотыми;\",\n",
  b!"          \"101\": \"сто >>;\",\n",
  b!"          \"200\": \"<%spellout-cardinal-feminine<сти[ >>];\",\n",
  b!"          \"300\": \"<%spellout-cardinal-feminine<ста[ >>];\",\n",
  b!"          \"500\": \"<%spellout-cardinal-feminine<сот[ >>];\",\n",
  b!"          \"1000\": \"тысяч>%%ymi>;\",\n",
  b!"          \"1001\": \"одна тысяч>%%ymi>;\",\n",
  b!"          \"2000/1000\": \"<%%thousandsprefixconjoined<тысячными;\",\n",
  b!"          \"2001/1000\": \"<%%thousandsprefixseparate<тысячи[ >>];\",\n",
  b!"          \"5000/1000\": \"<%%thousandsprefixconjoined<тысячными;\",\n",
  b!"          \"5001/1000\": \"<%%thousandsprefixseparate<тысяч[ >>];\",\n",
  b!"          \"21001\": \"=0=.;\"\n",
  b!"        }\n",
  b!"      }\n",
  b!"    }\n",
  b!"  }\n",
  b!"}\n"]

/-- /repo/number_parser_data/raw_cldr_translation_data/uk.json -/
def ukSource : Bytes := unpackAll [
  b!"{\n",
  b!"  \"rbnf\": {\n",
  b!"    \"identity\": {\n",
  b!"      \"version\": {\n",
  b!"        \"cldrVersion\": \"37\"\n",
  b!"      },\n",
  b!"      \"language\": \"uk\"\n",
  b!"    },\n",
  b!"    \"rbnf\": {\n",
  b!"      \"SpelloutRules\": {\n",
  b!"        \"%spellout-numbering-year\": {\n",
  b!"          \"x.x\": \"=0.0=;\",\n",
  b!"          \"0\": \"=%spellout-numbering=;\"\n",
  b!"        },\n",
  b!"        \"%spellout-numbering\": {\n",
  b!"          \"0\": \"=%spellout-cardinal-masculine=;\"\n",
  b!"        },\n",
  b!"        \"%spellout-cardinal-masculine\": {\n",
  b!"          \"-x\": \"мінус >>;\",\n",
  b!"          \"x.x\": \"<< кома >>;\",\n",
  b!"          \"0\": \"нуль;\",\n",
  b!"          \"1\": \"один;\",\n",
  b!"          \"2\": \"два;\",\n",
  b!"          \"3\": \"три;\",\n",
  b!"          \"4\": \"чотири;\",\n",
  b!"          \"5\": \"пʼять;\",\n",
  b!"          \"6\": \"шість;\",\n",
  b!"          \"7\": \"сім;\",\n",
  b!"          \"8\": \"вісім;\",\n",
  b!"          \"9\": \"девʼять;\",\n",
  b!"          \"10\": \"десять;\",\n",
  b!"          \"11\": \"одинадцять;\",\n",
  b!"          \"12\": \"дванадцять;\",\n",
  b!"          \"13\": \"тринадцять;\",\n",
  b!"          \"14\": \"чотирнадцять;\",\n",
  b!"          \"15\": \"пʼятнадцять;\",\n",
  b!"          \"16\": \"шістнадцять;\",\n",
  b!"          \"17\": \"сімнадцять;\",\n",
  b!"          \"18\": \"вісімнадцять;\",\n",
  b!"          \"19\": \"девʼятнадцять;\",\n",
  b!"          \"20\": \"двадцять[ >>];\",\n",
  b!"          \"30\": \"тридцять[ >>];\",\n",
  b!"          \"40\": \"сорок[ >>];\",\n",
  b!"          \"50\": \"пʼятдесят[ >>];\",\n",
  b!"          \"60\": \"шістдесят[ >>];\",\n",
  b!"          \"70\": \"сімдесят[ >>];\",\n",
  b!"          \"80\": \"вісімдесят[ >>];\",\n",
  b!"          \"90\": \"девʼяносто[ >>];\",\n",
  b!"          \"100\": \"сто[ >>];\",\n",
  b!"          \"200\": \"двісті[ >>];\",\n",
  b!"          \"300\": \"триста[ >>];\",\n",
  b!"          \"400\": \"чотириста[ >>];\",\n",
  b!"          \"500\": \"пʼятсот[ >>];\",\n",
  b!"          \"600\": \"шістсот[ >>];\",\n",
  b!"          \"700\": \"сімсот[ >>];\",\n",
  b!"          \"800\": \"вісімсот[ >>];\",\n",
  b!"          \"900\": \"девʼятсот[ >>];\",\n",
  b!"          \"1000\": \"<%spellout-cardinal-feminine< $(cardinal,one{тисяча}few{тисячі}other{тисяч})$[ >>];\",\n",
  b!"          \"1000000\": \"<%spellout-cardinal-masculine< $(cardinal,one{мільйон}few{мільйони}other{мільйонів})$[ >>];\",\n",
  b!"          \"1000000000\": \"<%spellout-cardinal-masculine< $(cardinal,one{мільярд}few{мільярди}other{мільярдів})$[ >>];\",\n",
  b!"          \"1000000000000\": \"<%spellout-cardinal-masculine< $(cardinal,one{більйон}few{більйони}other{більйонів})$[ >>];\",\n",
  b!"          \"1000000000000000\": \"<%spellout-cardinal-masculine< $(cardinal,one{більярд}few{більярди}other{більярдів})$[ >>];\",\n",
  b!"          \"1000000000000000000\": \"=#,##0=;\"\n",
  b!"        },\n",
  b!"        \"%spellout-cardinal-neuter\": {\n",
  b!"          \"-x\": \"мінус >>;\",\n",
  b!"          \"x.x\": \"<< кома >>;\",\n",
  b!"          \"0\": \"нуль;\",\n",
  b!"          \"1\": \"одне;\",\n",
  b!"          \"2\": \"два;\",\n",
  b!"          \"3\": \"=%spellout-cardinal-masculine=;\",\n",
  b!"          \"20\": \"двадцять[ >>];\",\n",
  b!"          \"30\": \"тридцять[ >>];\",\n",
  b!"          \"40\": \"сорок[ >>];\",\n",
  b!"          \"50\": \"пʼятдесят[ >>];\",\n",
  b!"          \"60\": \"шістдесят[ >>];\",\n",
  b!"          \"70\": \"сімдесят[ >>];\",\n",
  b!"          \"80\": \"вісімдесят[ >>];\",\n",
  b!"          \"90\": \"девʼяносто[ >>];\",\n",
  b!"          \"100\": \"сто[ >>];\",\n",
  b!"          \"200\": \"двісті[ >>];\",\n",
  b!"          \"300\": \"триста[ >>];\",\n",
  b!"          \"400\": \"чотириста[ >>];\",\n",
  b!"          \"500\": \"пʼятсот[ >>];\",\n",
  b!"          \"600\": \"шістсот[ >>];\",\n",
  b!"          \"700\": \"сімсот[ >>];\",\n",
  b!"          \"800\": \"вісімсот[ >>];\",\n",
  b!"          \"900\": \"девʼятсот[ >>];\",\n",
  b!"          \"1000\": \"<%spellout-cardinal-feminine< $(cardinal,one{тисяча}few{тисячі}other{тисяч})$[ >>];\",\n",
  b!"          \"1000000\": \"<%spellout-cardinal-masculine< $(cardinal,one{мільйон}few{мільйони}other{мільйонів})$[ >>];\",\n",
  b!"          \"1000000000\": \"<%spellout-cardinal-masculine< $(cardinal,one{мільярд}few{мільярди}other{мільярдів})$[ >>];\",\n",
  b!"          \"1000000000000\": \"<%spellout-cardinal-masculine< $(cardinal,one{більйон}few{більйони}other{більйонів})$[ >>];\",\n",
  b!"          \"1000000000000000\": \"<%spellout-cardinal-masculine< $(cardinal,one{більярд}few{більярди}other{більярдів})$[ >>];\",\n",
  b!"          \"1000000000000000000\": \"=#,##0=;\"\n",
  b!"        },\n",
  b!"        \"%spellout-cardinal-feminine\": {\n",
  b!"          \"-x\": \"мінус >>;\",\n",
  b!"          \"x.x\": \"<< кома >>;\",\n",
  b!"          \"0\": \"нуль;\",\n",
  b!"          \"1\": \"одна;\",\n",
  b!"          \"2\": \"дві;\",\n",
  b!"          \"3\": \"=%spellout-cardinal-masculine=;\",\n",
  b!"          \"20\": \"двадцять[ >>];\",\n",
  b!"          \"30\": \"тридцять[ >>];\",\n",
  b!"          \"40\": \"сорок[ >>];\",\n",
  b!"          \"50\": \"пʼятдесят[ >>];\",\n",
  b!"          \"60\": \"шістдесят[ >>];\",\n",
  b!"          \"70\": \"сімдесят[ >>];\",\n",
  b!"          \"80\": \"вісімдесят[ >>];\",\n",
  b!"          \"90\": \"девʼяносто[ >>];\",\n",
  b!"          \"100\": \"сто[ >>];\",\n",
  b!"          \"200\": \"двісті[ >>];\",\n",
  b!"          \"300\": \"триста[ >>];\",\n",
  b!"          \"400\": \"чотириста[ >>];\",\n",
  b!"          \"500\": \"пʼятсот[ >>];\",\n",
  b!"          \"600\": \"шістсот[ >>];\",\n",
  b!"          \"700\": \"сімсот[ >>];\",\n",
  b!"          \"800\": \"вісімсот[ >>];\",\n",
  b!"          \"900\": \"девʼятсот[ >>];\",\n",
  b!"          \"1000\": \"<%spellout-cardinal-feminine< $(cardinal,one{тисяча}few{тисячі}other{тисяч})$[ >>];\",\n",
  b!"          \"1000000\": \"<%spellout-cardinal-masculine< $(cardinal,one{мільйон}few{мільйони}other{мільйонів})$[ >>];\",\n",
  b!"          \"1000000000\": \"<%spellout-cardinal-masculine< $(cardinal,one{мільярд}few{мільярди}other{мільярдів})$[ >>];\",\n",
  b!"          \"1000000000000\": \"<%spellout-cardinal-masculine< $(cardinal,one{більйон}few{більйони}other{більйонів})$[ >>];\",\n",
  b!"          \"1000000000000000\": \"<%spellout-cardinal-masculine< $(cardinal,one{більярд}few{більярди}other{більярдів})$[ >>];\",\n",
  b!"          \"1000000000000000000\": \"=#,##0=;\"\n",
  b!"        }\n",
  b!"      }\n",
  b!"    }\n",
  b!"  }\n",
  b!"}\n"]

/-- /repo/number_parser_data/supplementary_translation_data/en.json -/
def enSupplementary : Bytes := unpackAll [
  b!"{\n",
  b!"    \"UNIT_NUMBERS\": {},\n",
  b!"    \"DIRECT_NUMBERS\": {},\n",
  b!"    \"TENS\": {},\n",
  b!"    \"HUNDREDS\": {},\n",
  b!"    \"BIG_POWERS_OF_TEN\": {\n",
  b!"        \"quintillion\": 1e+18,\n",
  b!"        \"sextillion\": 1e+21\n",
  b!"    },\n",
  b!"    \"SKIP_TOKENS\": [\n",
  b!"        \"and\",\n",
  b!"        \"-\"\n",
  b!"    ],\n",
  b!"    \"USE_LONG_SCALE\": false\n",
  b!"}"]

/-- /repo/number_parser_data/supplementary_translation_data/es.json -/
def esSupplementary : Bytes := unpackAll [
  b!"{\n",
  b!"    \"UNIT_NUMBERS\": {},\n",
  b!"    \"DIRECT_NUMBERS\": {\n",
  b!"        \"diecisiete\": 17,\n",
  b!"        \"dieciocho\": 18,\n",
  b!"        \"diecinueve\": 19,\n",
  b!"        \"veintisiete\": 27,\n",
  b!"        \"veintiocho\": 28,\n",
  b!"        \"veintinueve\": 29\n",
  b!"    },\n",
  b!"    \"TENS\": {},\n",
  b!"    \"HUNDREDS\": {\n",
  b!"        \"cien\": 100,\n",
  b!"        \"ciento\": 100\n",
  b!"    },\n",
  b!"    \"BIG_POWERS_OF_TEN\": {\n",
  b!"        \"millón\": 1000000,\n",
  b!"        \"millardo\": 1000000000,\n",
  b!"        \"billón\": 1000000000000,\n",
  b!"        \"billones\": 1000000000000,\n",
  b!"        \"trillón\": 1000000000000000000,\n",
  b!"        \"trillones\": 1000000000000000000,\n",
  b!"        \"cuatrillón\": 1000000000000000000000000,\n",
  b!"        \"cuatrillones\": 1000000000000000000000000,\n",
  b!"        \"quintillón\": 1000000000000000000000000000000,\n",
  b!"        \"quintillones\": 1000000000000000000000000000000,\n",
  b!"        \"sextillón\": 1000000000000000000000000000000000000,\n",
  b!"        \"sextillones\": 1000000000000000000000000000000000000,\n",
  b!"        \"septillón\": 1000000000000000000000000000000000000000000,\n",
  b!"        \"septillones\": 1000000000000000000000000000000000000000000,\n",
  b!"        \"octillón\": 1000000000000000000000000000000000000000000000000,\n",
  b!"        \"octillones\": 1000000000000000000000000000000000000000000000000,\n",
  b!"        \"nonillón\": 1000000000000000000000000000000000000000000000000000000,\n",
  b!"        \"nonillones\": 1000000000000000000000000000000000000000000000000000000,\n",
  b!"        \"decillón\": 1000000000000000000000000000000000000000000000000000000000000,\n",
  b!"        \"decillones\": 1000000000000000000000000000000000000000000000000000000000000000000,\n",
  b!"        \"undecillón\": 1000000000000000000000000000000000000000000000000000000000000000000,\n",
  b!"        \"undecillones\": 1000000000000000000000000000000000000000000000000000000000000000000,\n",
  b!"        \"duodecillón\": 1000000000000000000000000000000000000000000000000000000000000000000000000,\n",
  b!"        \"duodecillones\": 1000000000000000000000000000000000000000000000000000000000000000000000000,\n",
  b!"        \"tredecillón\": 1000000000000000000000000000000000000000000000000000000000000000000000000000000,\n",
  b!"        \"tredecillones\": 1000000000000000000000000000000000000000000000000000000000000000000000000000000,\n",
  b!"        \"vigintillón\": 1000000000000000000000000000000000000000000000000000000000000000000000000000000000000000000000000000000000000000000000000,\n",
  b!"        \"vigintillones\": 1000000000000000000000000000000000000000000000000000000000000000000000000000000000000000000000000000000000000000000000000,\n",
  b!"        \"gúgol\": 10000000000000000000000000000000000000000000000000000000000000000000000000000000000000000000000000000,\n",
  b!"        \"centillón\": 1000000000000000000000000000000000000000000000000000000000000000000000000000000000000000000000000000000000000000000000000000000000000000000000000000000000000000000000000000000000000000000000000000000000000000000000000000000000000000000000000000000000000000000000000000000000000000000000000000000000000000000000000000000000000000000000000000000000000000000000000000000000000000000000000000000000000000000000000000000000000000000000000000000000000000000000000000000000000000000000000000000000000000000000000000000000000000000000000000000000000000000000000000000000000000000000000000000000000000000000000\n",
  b!"    },\n",
  b!"    \"SKIP_TOKENS\": [\n",
  b!"        \"y\"\n",
  b!"    ],\n",
  b!"    \"USE_LONG_SCALE\": true\n",
  b!"}"]

/-- /repo/number_parser_data/supplementary_translation_data/hi.json -/
def hiSupplementary : Bytes := unpackAll [
  b!"{\n",
  b!"    \"UNIT_NUMBERS\": {},\n",
  b!"    \"DIRECT_NUMBERS\": {},\n",
  b!"    \"TENS\": {},\n",
  b!"    \"HUNDREDS\": {},\n",
  b!"    \"BIG_POWERS_OF_TEN\": {},\n",
  b!"    \"SKIP_TOKENS\": [],\n",
  b!"    \"USE_LONG_SCALE\": false\n",
  b!"}"]

/-- /repo/number_parser_data/supplementary_translation_data/ru.json -/
def ruSupplementary : Bytes := unpackAll [
  b!"{\n",
  b!"    \"UNIT_NUMBERS\": {},\n",
  b!"    \"DIRECT_NUMBERS\": {},\n",
  b!"    \"TENS\": {},\n",
  b!"    \"HUNDREDS\": {\n",
  b!"        \"сто\": 100,\n",
  b!"        \"ста\": 100,\n",
  b!"        \"двести\": 200,\n",
  b!"        \"двухсот\": 200,\n",
  b!"        \"двумстам\": 200,\n",
  b!"        \"двухстах\": 200,\n",
  b!"        \"двумястами\": 200,\n",
  b!"        \"триста\": 300,\n",
  b!"        \"трехсот\": 300,\n",
  b!"        \"тремстам\": 300,\n",
  b!"        \"трехстах\": 300,\n",
  b!"        \"тремястами\": 300,\n",
  b!"        \"четыреста\": 400,\n",
  b!"        \"четырехсот\": 400,\n",
  b!"        \"четыремстам\": 400,\n",
  b!"        \"четырехстах\": 400,\n",
  b!"        \"четырьмястами\": 400,\n",
  b!"        \"пятьсот\": 500,\n",
  b!"        \"пятисот\": 500,\n",
  b!"        \"пятистам\": 500,\n",
  b!"        \"пятистах\": 500,\n",
  b!"        \"пятьюстами\": 500,\n",
  b!"        \"шестьсот\": 600,\n",
  b!"        \"шестисот\": 600,\n",
  b!"        \"шестистам\": 600,\n",
  b!"        \"шестистах\": 600,\n",
  b!"        \"шестьюстами\": 600,\n",
  b!"        \"семьсот\": 700,\n",
  b!"        \"семисот\": 700,\n",
  b!"        \"семистам\": 700,\n",
  b!"        \"семистах\": 700,\n",
  b!"        \"семьюстами\": 700,\n",
  b!"        \"восемьсот\": 800,\n",
  b!"        \"восьмисот\": 800,\n",
  b!"        \"восьмистам\": 800,\n",
  b!"        \"восьмистах\": 800,\n",
  b!"        \"восемьюстами\": 800,\n",
  b!"        \"девятьсот\": 900,\n",
  b!"        \"девятисот\": 900,\n",
  b!"        \"девятистам\": 900,\n",
  b!"        \"девятистах\": 900,\n",
  b!"        \"девятьюстами\": 900,\n",
  b!"        \"двасти\": 200\n",
  b!"    },\n",
  b!"    \"BIG_POWERS_OF_TEN\": {\n",
  b!"        \"квинтиллион\": 1e+18,\n",
  b!"        \"квинтиллиона\": 1e+18,\n",
  b!"        \"квинтиллионам\": 1e+18,\n",
  b!"        \"квинтиллионами\": 1e+18,\n",
  b!"        \"квинтиллионах\": 1e+18,\n",
  b!"        \"квинтиллионе\": 1e+18,\n",
  b!"        \"квинтиллионов\": 1e+18,\n",
  b!"        \"квинтиллионом\": 1e+18,\n",
  b!"        \"квинтиллиону\": 1e+18,\n",
  b!"        \"секстиллион\": 1e+21,\n",
  b!"        \"секстиллиона\": 1e+21,\n",
  b!"        \"секстиллионам\": 1e+21,\n",
  b!"        \"секстиллионами\": 1e+21,\n",
  b!"        \"секстиллионах\": 1e+21,\n",
  b!"        \"секстиллионе\": 1e+21,\n",
  b!"        \"секстиллионов\": 1e+21,\n",
  b!"        \"секстиллионом\": 1e+21,\n",
  b!"        \"секстиллиону\": 1e+21\n",
  b!"    },\n",
  b!"    \"SKIP_TOKENS\": [],\n",
  b!"    \"USE_LONG_SCALE\": false\n",
  b!"}"]

/-- /repo/number_parser_data/supplementary_translation_data/uk.json -/
def ukSupplementary : Bytes := unpackAll [
  b!"{\n",
  b!"    \"UNIT_NUMBERS\": {\n",
  b!"        \"нуль\": 0,\n",
  b!"        \"нулю\": 0,\n",
  b!"        \"один\": 1,\n",
  b!"        \"одному\": 1,\n",
  b!"        \"одним\": 1,\n",
  b!"        \"одними\": 1,\n",
  b!"        \"одну\": 1,\n",
  b!"        \"одного\": 1,\n",
  b!"        \"одне\": 1,\n",
  b!"        \"одні\": 1,\n",
  b!"        \"одна\": 1,\n",
  b!"        \"одній\": 1,\n",
  b!"        \"два\": 2,\n",
  b!"        \"двом\": 2,\n",
  b!"        \"двох\": 2,\n",
  b!"        \"двома\": 2,\n",
  b!"        \"дві\": 2,\n",
  b!"        \"двоє\": 2,\n",
  b!"        \"двум\": 2,\n",
  b!"        \"три\": 3,\n",
  b!"        \"трьом\": 3,\n",
  b!"        \"трьох\": 3,\n",
  b!"        \"троє\": 3,\n",
  b!"        \"трьома\": 3,\n",
  b!"        \"чотири\": 4,\n",
  b!"        \"четверо\": 4,\n",
  b!"        \"чотирьом\": 4,\n",
  b!"        \"чотирьох\": 4,\n",
  b!"        \"чотирьома\": 4,\n",
  b!"        \"пять\": 5,\n",
  b!"        \"пʼять\": 5,\n",
  b!"        \"пʼятеро\": 5,\n",
  b!"        \"пʼяти\": 5,\n",
  b!"        \"пʼятих\": 5,\n",
  b!"        \"пʼятьма\": 5,\n",
  b!"        \"шість\": 6,\n",
  b!"        \"шести\": 6,\n",
  b!"        \"шістьма\": 6,\n",
  b!"        \"сім\": 7,\n",
  b!"        \"семи\": 7,\n",
  b!"        \"сімма\": 7,\n",
  b!"        \"вісім\": 8,\n",
  b!"        \"восьми\": 8,\n",
  b!"        \"восьмима\": 8,\n",
  b!"        \"девʼять\": 9,\n",
  b!"        \"девять\": 9,\n",
  b!"        \"девʼяти\": 9,\n",
  b!"        \"девʼятьма\": 9\n",
  b!"    },\n",
  b!"    \"DIRECT_NUMBERS\": {\n",
  b!"        \"десять\": 10,\n",
  b!"        \"одинадцять\": 11,\n",
  b!"        \"дванадцять\": 12,\n",
  b!"        \"тринадцять\": 13,\n",
  b!"        \"чотирнадцять\": 14,\n",
  b!"        \"пʼятнадцять\": 15,\n",
  b!"        \"пятнадцять\": 15,\n",
  b!"        \"шістнадцять\": 16,\n",
  b!"        \"сімнадцять\": 17,\n",
  b!"        \"вісімнадцять\": 18,\n",
  b!"        \"девʼятнадцять\": 19,\n",
  b!"        \"девятнадцять\": 19\n",
  b!"    },\n",
  b!"    \"TENS\": {\n",
  b!"        \"двадцять\": 20,\n",
  b!"        \"тридцять\": 30,\n",
  b!"        \"сорок\": 40,\n",
  b!"        \"пʼятдесят\": 50,\n",
  b!"        \"пятдесят\": 50,\n",
  b!"        \"шістдесят\": 60,\n",
  b!"        \"сімдесят\": 70,\n",
  b!"        \"вісімдесят\": 80,\n",
  b!"        \"девʼяносто\": 90,\n",
  b!"        \"девяносто\": 90\n",
  b!"    },\n",
  b!"    \"HUNDREDS\": {\n",
  b!"        \"сто\": 100,\n",
  b!"        \"двісті\": 200,\n",
  b!"        \"триста\": 300,\n",
  b!"        \"чотириста\": 400,\n",
  b!"        \"п'ятсот\": 500,\n",
  b!"        \"шістсот\": 600,\n",
  b!"        \"сімсот\": 700,\n",
  b!"        \"вісімсот\": 800,\n",
  b!"        \"дев'ятсот\": 900\n",
  b!"    },\n",
  b!"    \"BIG_POWERS_OF_TEN\": {\n",
  b!"        \"тисяча\": 1000,\n",
  b!"        \"мільйон\": 1000000,\n",
  b!"        \"міліон\": 1000000,\n",
  b!"        \"мільярд\": 1000000000,\n",
  b!"        \"міліярд\": 1000000000,\n",
  b!"        \"трильйон\": 1000000000000,\n",
  b!"        \"триліон\": 1000000000000,\n",
  b!"        \"квадрильйон\": 1000000000000000,\n",
  b!"        \"квадриліон\": 1000000000000000,\n",
  b!"        \"квінтильйон\": 1000000000000000000,\n",
  b!"        \"квінтиліон\": 1000000000000000000,\n",
  b!"        \"секстильйон\": 1000000000000000000000,\n",
  b!"        \"секстиліон\": 1000000000000000000000,\n",
  b!"        \"септильйон\": 1000000000000000000000000,\n",
  b!"        \"септиліон\": 1000000000000000000000000,\n",
  b!"        \"октильйон\": 1000000000000000000000000000,\n",
  b!"        \"октиліон\": 1000000000000000000000000000,\n",
  b!"        \"нонільйон\": 1000000000000000000000000000000,\n",
  b!"        \"нонильйон\": 1000000000000000000000000000000,\n",
  b!"        \"ноніліон\": 1000000000000000000000000000000,\n",
  b!"        \"децильйон\": 1000000000000000000000000000000000,\n",
  b!"        \"децільйон\": 1000000000000000000000000000000000,\n",
  b!"        \"дециліон\": 1000000000000000000000000000000000,\n",
  b!"        \"ундецільйон\": 1000000000000000000000000000000000000,\n",
  b!"        \"ундецильйон\": 1000000000000000000000000000000000000,\n",
  b!"        \"ундециліон\": 1000000000000000000000000000000000000,\n",
  b!"        \"дуодецильйон\": 1000000000000000000000000000000000000000,\n",
  b!"        \"дуодецільйон\": 1000000000000000000000000000000000000000,\n",
  b!"        \"дуодециліон\": 1000000000000000000000000000000000000000,\n",
  b!"        \"тредецильйон\": 1000000000000000000000000000000000000000000,\n",
  b!"        \"тредециліон\": 1000000000000000000000000000000000000000000,\n",
  b!"        \"тредецільйон\": 1000000000000000000000000000000000000000000,\n",
  b!"        \"кваттуордецильйон\": 1000000000000000000000000000000000000000000000,\n",
  b!"        \"кваттуордециліон\": 1000000000000000000000000000000000000000000000,\n",
  b!"        \"квіндецильйон\": 1000000000000000000000000000000000000000000000000,\n",
  b!"        \"квіндециліон\": 1000000000000000000000000000000000000000000000000,\n",
  b!"        \"сексдецильйон\": 1000000000000000000000000000000000000000000000000000,\n",
  b!"        \"сексдециліон\": 1000000000000000000000000000000000000000000000000000,\n",
  b!"        \"септендецильйон\": 1000000000000000000000000000000000000000000000000000000,\n",
  b!"        \"септендециліон\": 1000000000000000000000000000000000000000000000000000000,\n",
  b!"        \"октодецильйон\": 1000000000000000000000000000000000000000000000000000000000,\n",
  b!"        \"октодециліон\": 1000000000000000000000000000000000000000000000000000000000,\n",
  b!"        \"новемдецильйон\": 1000000000000000000000000000000000000000000000000000000000000,\n",
  b!"        \"новемдециліон\": 1000000000000000000000000000000000000000000000000000000000000,\n",
  b!"        \"вігінтільйон\": 1000000000000000000000000000000000000000000000000000000000000000,\n",
  b!"        \"унвігінтільйон\": 1000000000000000000000000000000000000000000000000000000000000000000,\n",
  b!"        \"дуовігінтільйон\": 1000000000000000000000000000000000000000000000000000000000000000000000,\n",
  b!"        \"тревігінтільйон\": 1000000000000000000000000000000000000000000000000000000000000000000000000,\n",
  b!"        \"кваттуорвігінтільйон\": 1000000000000000000000000000000000000000000000000000000000000000000000000000,\n",
  b!"        \"квінвігінтільйон\": 1000000000000000000000000000000000000000000000000000000000000000000000000000000,\n",
  b!"        \"сексвігінтільйон\": 1000000000000000000000000000000000000000000000000000000000000000000000000000000000,\n",
  b!"        \"септемвігінтільйон\": 1000000000000000000000000000000000000000000000000000000000000000000000000000000000000,\n",
  b!"        \"октовігінтільйон\": 1000000000000000000000000000000000000000000000000000000000000000000000000000000000000000,\n",
  b!"        \"новемвігінтільйон\": 1000000000000000000000000000000000000000000000000000000000000000000000000000000000000000000,\n",
  b!"        \"тригінтільйон\": 1000000000000000000000000000000000000000000000000000000000000000000000000000000000000000000000,\n",
  b!"        \"унтригінтільйон\": 1000000000000000000000000000000000000000000000000000000000000000000000000000000000000000000000000,\n",
  b!"        \"дуотригінтільйон\": 1000000000000000000000000000000000000000000000000000000000000000000000000000000000000000000000000000,\n",
  b!"        \"третригінтільйон\": 1000000000000000000000000000000000000000000000000000000000000000000000000000000000000000000000000000000,\n",
  b!"        \"кваттуортригінтільйон\": 1000000000000000000000000000000000000000000000000000000000000000000000000000000000000000000000000000000000,\n",
  b!"        \"квінтригінтільйон\": 1000000000000000000000000000000000000000000000000000000000000000000000000000000000000000000000000000000000000,\n",
  b!"        \"секстригінтільйон\": 1000000000000000000000000000000000000000000000000000000000000000000000000000000000000000000000000000000000000000,\n",
  b!"        \"септентригінтільйон\": 1000000000000000000000000000000000000000000000000000000000000000000000000000000000000000000000000000000000000000000,\n",
  b!"        \"октотригінтільйон\": 1000000000000000000000000000000000000000000000000000000000000000000000000000000000000000000000000000000000000000000000,\n",
  b!"        \"новемтригінтільйон\": 1000000000000000000000000000000000000000000000000000000000000000000000000000000000000000000000000000000000000000000000000,\n",
  b!"        \"квадрагінтільйон\": 1000000000000000000000000000000000000000000000000000000000000000000000000000000000000000000000000000000000000000000000000000,\n",
  b!"        \"унквадрагінтільйон\": 1000000000000000000000000000000000000000000000000000000000000000000000000000000000000000000000000000000000000000000000000000000,\n",
  b!"        \"дуоквадрагінтільйон\": 1000000000000000000000000000000000000000000000000000000000000000000000000000000000000000000000000000000000000000000000000000000000\n",
  b!"    },\n",
  b!"    \"SKIP_TOKENS\": [],\n",
  b!"    \"USE_LONG_SCALE\": false\n",
  b!"}"]

end NumberParser.Gen.FileBytes
