"""Writes lean/Verif/Model/RuleData.lean from the JSON files of /repo/number_parser_data (read as text)."""
import json
R = "/repo/number_parser_data/"
T = [("UNIT_NUMBERS", "unit"), ("DIRECT_NUMBERS", "direct"), ("TENS", "tens"), ("HUNDREDS", "hundreds"), ("BIG_POWERS_OF_TEN", "big")]

def q(s):
    for c in s:
        assert c not in "\\" and ord(c) >= 32
    return 'u!"' + s.replace('"', '\\"') + '"'

def num(n):
    if isinstance(n, float):
        a, b = n.as_integer_ratio()
        assert b & (b - 1) == 0
        return "⟨%d, %d⟩" % (a, b.bit_length() - 1)
    return "⟨%d, 0⟩" % n

out = ["/- GENERATED by tools/gen_rules.py from the text of /repo/number_parser_data/{raw_cldr,supplementary}_translation_data/{en,es,hi,ru,uk}.json. Do not edit. -/",
       "import Verif.Model.Generator", "", "namespace NumberParser.Gen.RuleData", "open NumberParser Gen", ""]
for l in ["en", "es", "hi", "ru", "uk"]:
    d = json.load(open(R + "raw_cldr_translation_data/" + l + ".json"))["rbnf"]["rbnf"]["SpelloutRules"]
    names = []
    for i, (k, v) in enumerate(d.items()):
        n = f"{l}Rules{i}"
        names.append(f"({q(k)}, {n})")
        out.append(f"/-- `number_parser_data/raw_cldr_translation_data/{l}.json`, the rule set `{k}` -/")
        out.append(f"def {n} : List (PyStr × PyStr) := [")
        out.append(",\n".join(f"  ({q(a)}, {q(b)})" for a, b in v.items()) + "]\n")
    out.append(f"/-- `number_parser_data/raw_cldr_translation_data/{l}.json`, `SpelloutRules` -/")
    out.append(f"def {l}Rules : RuleSets := [\n  " + ",\n  ".join(names) + "]\n")
    s = json.load(open(R + "supplementary_translation_data/" + l + ".json"))
    out.append(f"/-- `number_parser_data/supplementary_translation_data/{l}.json` -/")
    out.append(f"def {l}Supplementary : Supplementary where")
    out.append("  tables := {")
    for K, f in T:
        out.append(f"    {f} := [" + ", ".join(f"({q(a)}, {num(b)})" for a, b in s[K].items()) + "]")
    out[-1] += " }"
    out.append("  skipTokens := [" + ", ".join(q(t) for t in s["SKIP_TOKENS"]) + "]")
    ls = s.get("USE_LONG_SCALE")
    out.append("  useLongScale := " + ("none" if ls is None else f"some {str(ls).lower()}") + "\n")
out.append("end NumberParser.Gen.RuleData")
open("/verif/lean/Verif/Model/RuleData.lean", "w").write("\n".join(out) + "\n")
