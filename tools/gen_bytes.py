"""Writes lean/Verif/Model/FileBytes*.lean: the bytes of the JSON files in /repo/number_parser_data, line by line."""
import sys
R = "/repo/number_parser_data/"

def lines(b):
    # str literals of Lean; a line is kept together with its line feed
    out = []
    for l in b.decode("utf-8").split("\n"):
        out.append(l + "\n")
    last = out.pop()[:-1]
    if last:
        out.append(last)
    assert "".join(out).encode("utf-8") == b
    return out

def q(l):
    for c in l:
        assert ord(c) >= 32 or c in "\n\t\r", repr(c)
    return 'b!"' + l.replace("\\", "\\\\").replace('"', '\\"').replace("\n", "\\n").replace("\t", "\\t").replace("\r", "\\r") + '"'

def emit(names, path):
    out = ["import Verif.Model.Bytes", "",
           "/-! GENERATED by tools/gen_bytes.py from files in /repo/number_parser_data. Do not edit. -/", "",
           "namespace NumberParser.Gen.FileBytes", "", "open NumberParser Gen", ""]
    for n, d, f in names:
        out.append(f"/-- /repo/number_parser_data/{d}/{f} -/")
        out.append(f"def {n} : Bytes := unpackAll [")
        out.append(",\n".join("  " + q(l) for l in lines(open(R + d + "/" + f, "rb").read())) + "]\n")
    out.append("end NumberParser.Gen.FileBytes")
    open("/verif/lean/Verif/Model/" + path, "w").write("\n".join(out) + "\n")

L = ["en", "es", "hi", "ru", "uk"]
emit([(l + "Source", "raw_cldr_translation_data", l + ".json") for l in L] +
     [(l + "Supplementary", "supplementary_translation_data", l + ".json") for l in L], "FileBytes.lean")
