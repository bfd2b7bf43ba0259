"""Writes lean/Verif/Model/DataText.lean: the texts of the five data modules of /repo/number_parser/data, line by line."""
import os
HERE = os.path.dirname(os.path.abspath(__file__))
out = ["import Verif.Model.Py", "",
       "/-! Generated by tools/gen_text.py: the texts of the data modules in /repo/number_parser/data. -/", "",
       "namespace NumberParser.DataText", "", "open NumberParser", ""]
for lang in ["en", "es", "hi", "ru", "uk"]:
    text = open(f"/repo/number_parser/data/{lang}.py", encoding="utf-8", newline="").read()
    out.append(f"/-- /repo/number_parser/data/{lang}.py -/")
    out.append(f"def {lang} : PyStr := List.flatten [")
    lines = text.split("\n")
    assert lines[-1] == ""
    body = []
    for l in lines[:-1]:
        assert "\r" not in l and "\t" not in l
        body.append('  u!"' + l.replace("\\", "\\\\").replace('"', '\\"') + '\\n"')
    out.append(",\n".join(body) + "]")
    out.append("")
out.append("end NumberParser.DataText")
open(os.path.join(HERE, "../lean/Verif/Model/DataText.lean"), "w", encoding="utf-8").write("\n".join(out) + "\n")
