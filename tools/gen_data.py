#!/usr/bin/env python3
"""Transcribes number_parser/data/{en,es,hi,ru,uk}.py (read as text) into lean/Verif/Model/Data.lean."""
import json, re
out = ["/- GENERATED by tools/gen_data.py from the text of /repo/number_parser/data/{en,es,hi,ru,uk}.py. Do not edit. -/",
       "import Verif.Model.Py\n\nnamespace NumberParser.Data\nopen NumberParser\n"]
def pairs(ps):
    assert len(set(k for k, _ in ps)) == len(ps), "duplicate key"
    return ps
for lang in ["en", "es", "hi", "ru", "uk"]:
    txt = open(f"/repo/number_parser/data/{lang}.py", encoding="utf8").read()
    assert txt.startswith("info = ")
    nlines = txt.count("\n")
    body = txt[len("info = "):].replace("False", "false").replace("True", "true")
    d = json.loads(body, object_pairs_hook=pairs)
    assert [k for k, _ in d] == ["UNIT_NUMBERS", "DIRECT_NUMBERS", "TENS", "HUNDREDS", "BIG_POWERS_OF_TEN", "SKIP_TOKENS", "USE_LONG_SCALE"]
    d = dict(d)
    def tab(name, key):
        out.append(f"/-- `number_parser/data/{lang}.py`, `info[\"{key}\"]` -/")
        es = d[key]
        if not es: out.append(f"def {lang}{name} : Dict := []\n"); return
        out.append(f"def {lang}{name} : Dict := [")
        out.append(",\n".join(f'  (u!"{w}", {v})' for w, v in es) + "]\n")
    tab("Unit", "UNIT_NUMBERS"); tab("Direct", "DIRECT_NUMBERS"); tab("Tens", "TENS")
    tab("Hundreds", "HUNDREDS"); tab("Big", "BIG_POWERS_OF_TEN")
    sk = ", ".join(f'u!"{w}"' for w in d["SKIP_TOKENS"])
    out.append(f"/-- `number_parser/data/{lang}.py` (lines 1-{nlines}): the module's `info` dictionary -/")
    out.append(f"""def {lang} : Info where
  unitNumbers := {lang}Unit
  directNumbers := {lang}Direct
  tens := {lang}Tens
  hundreds := {lang}Hundreds
  bigPowersOfTen := {lang}Big
  skipTokens := [{sk}]
  useLongScale := {"true" if d["USE_LONG_SCALE"] else "false"}
""")
out.append("end NumberParser.Data")
open("/verif/lean/Verif/Model/Data.lean", "w").write("\n".join(out) + "\n")
