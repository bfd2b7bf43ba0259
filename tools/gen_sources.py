"""Writes lean/Verif/Model/Sources*.lean: for each language that the parser does not support but the repository has data for, the
rule file, the supplementary file and the data module (all read as text, from /repo/number_parser_data and /repo/number_parser/data)."""
import ast, glob, json, os
R = "/repo/number_parser_data/"
T = [("UNIT_NUMBERS", "unit"), ("DIRECT_NUMBERS", "direct"), ("TENS", "tens"), ("HUNDREDS", "hundreds"), ("BIG_POWERS_OF_TEN", "big")]
SUPPORTED = ["en", "es", "hi", "ru", "uk"]

def q(s):
    return 'u!"' + "".join(c if c.isprintable() and c not in '"\\' else "\\u%04x" % ord(c) for c in s) + '"'

def num(n):
    assert isinstance(n, (int, float)) and not isinstance(n, bool)
    if isinstance(n, float):
        a, b = n.as_integer_ratio()
        assert b & (b - 1) == 0
        return "⟨%d, %d⟩" % (a, b.bit_length() - 1)
    return "⟨%d, 0⟩" % n

def pairs(ps):
    # as in Python, the last value of a repeated key wins
    if len(set(k for k, _ in ps)) != len(ps):
        print("repeated keys", [k for k in dict(ps) if sum(a == k for a, _ in ps) > 1][:5])
    return dict(ps)

def module(lang):
    txt = open(f"/repo/number_parser/data/{lang}.py", encoding="utf8").read()
    assert txt.startswith("info = ")
    return json.loads(txt[len("info = "):].replace(": False", ": false").replace(": True", ": true"), object_pairs_hook=pairs), txt.count("\n")

def b(x):
    return "none" if x is None else f"some {str(x).lower()}"

langs = sorted(f[:-5] for f in os.listdir(R + "raw_cldr_translation_data") if f not in ("root.json", "es-419.json"))
langs = [l for l in langs if l not in SUPPORTED]
assert sorted(os.path.basename(p)[:-3] for p in glob.glob("/repo/number_parser/data/*.py")) == sorted(langs + SUPPORTED + ["__init__", "root"])

def text(l):
    n = l.replace("-", "_")
    o = []
    d = json.load(open(R + "raw_cldr_translation_data/" + l + ".json"), object_pairs_hook=pairs)["rbnf"]["rbnf"]["SpelloutRules"]
    o.append(f"/-- `number_parser_data/raw_cldr_translation_data/{l}.json`, `SpelloutRules` -/")
    o.append(f"def {n}Rules : RuleSets := [")
    o.append(",\n".join(f"  ({q(k)}, [" + ",\n    ".join(f"({q(a)}, {q(c)})" for a, c in v.items()) + "])" for k, v in d.items()) + "]\n")
    s = json.load(open(R + "supplementary_translation_data/" + l + ".json"), object_pairs_hook=pairs)
    o.append(f"/-- `number_parser_data/supplementary_translation_data/{l}.json` -/")
    o.append(f"def {n}Supplementary : Supplementary where")
    o.append("  tables := {")
    for K, f in T:
        o.append(f"    {f} := [" + ", ".join(f"({q(a)}, {num(c)})" for a, c in s[K].items()) + "]")
    o[-1] += " }"
    o.append("  skipTokens := [" + ", ".join(q(t) for t in s["SKIP_TOKENS"]) + "]")
    o.append("  useLongScale := " + b(s.get("USE_LONG_SCALE")) + "\n")
    m, lines = module(l)
    o.append(f"/-- `number_parser/data/{l}.py`, lines 1-{lines} -/")
    o.append(f"def {n}Module : Output where")
    o.append("  tables := {")
    for K, f in T:
        o.append(f"    {f} := [" + ", ".join(f"({q(a)}, {c})" for a, c in m[K].items()) + "]")
    o[-1] += " }"
    o.append("  skipTokens := [" + ", ".join(q(t) for t in m["SKIP_TOKENS"]) + "]")
    o.append("  useLongScale := " + b(m.get("USE_LONG_SCALE")) + "\n")
    return "\n".join(o)

texts = [(l, text(l)) for l in langs]
size = sum(len(t) for _, t in texts)
parts, cur, acc = [], [], 0
N = 6
for l, t in texts:
    cur.append((l, t)); acc += len(t)
    if acc >= size / N and len(parts) < N - 1:
        parts.append(cur); cur, acc = [], 0
parts.append(cur)
for i, part in enumerate(parts):
    x = "ABCDEFGH"[i]
    out = ["/- GENERATED by tools/gen_sources.py from /repo/number_parser_data/{raw_cldr,supplementary}_translation_data/*.json and",
           "/repo/number_parser/data/*.py. Do not edit. -/",
           "import Verif.Model.Generator", "", "set_option maxRecDepth 100000", "", "namespace NumberParser.Gen.Sources", "open NumberParser Gen", ""]
    out += [t for _, t in part]
    out.append(f"/-- The languages {', '.join(l for l, _ in part)}: rules, supplementary data, data module -/")
    out.append(f"def part{x} : List (PyStr × RuleSets × Supplementary × Output) := [")
    out.append(",\n".join("  (%s, %s, %s, %s)" % (q(l), *(l.replace("-", "_") + y for y in ("Rules", "Supplementary", "Module"))) for l, _ in part) + "]\n")
    out.append("end NumberParser.Gen.Sources")
    open(f"/verif/lean/Verif/Model/Sources{x}.lean", "w").write("\n".join(out) + "\n")
    print(x, len(part), sum(len(t) for _, t in part))
print(len(langs))
