#!/usr/bin/env python3
"""Generates lean/Verif/Model/UnicodeData.lean from CPython's own character database
(python 3.11, Unicode 14.0).  Uses only built-ins; nothing from /repo is run."""
import unicodedata as u, re, sys
N = 0x110000
out = []
def ranges(l):
    r = []
    for c in l:
        if r and r[-1][1] == c - 1: r[-1][1] = c
        else: r.append([c, c])
    return [tuple(x) for x in r]
def rtree(rs):
    if not rs: return ".leaf"
    m = len(rs) // 2
    return f"(.node {rtree(rs[:m])} {rs[m][0]} {rs[m][1]} {rtree(rs[m+1:])})"
def mtree(es):
    if not es: return ".leaf"
    m = len(es) // 2
    return f"(.node {mtree(es[:m])} {es[m][0]} {es[m][1]} {mtree(es[m+1:])})"
def chunked(name, ty, items, build, doc):
    """emit a balanced tree; subtrees of <= 60 items become their own definitions"""
    cnt = [0]
    def rec(l):
        if len(l) <= 60:
            if not l: return ".leaf"
            nm = f"{name}_{cnt[0]}"; cnt[0] += 1
            out.append(f"def {nm} : {ty} := {build(l)}")
            return nm
        m = len(l) // 2
        a = rec(l[:m]); b = rec(l[m+1:])
        return f"(.node {a} {l[m][0]} {l[m][1]} {b})"
    body = rec(items)
    out.append(f"/-- {doc} -/")
    out.append(f"def {name} : {ty} := {body}\n")
def lst(s): return "[" + ", ".join(str(ord(c)) for c in s) + "]"
out.append("/- GENERATED by tools/gen_unicode.py from CPython 3.11's character database (Unicode %s). Do not edit. -/" % u.unidata_version)
out.append("import Verif.Model.Tables\n\nnamespace NumberParser.UnicodeData\nopen NumberParser\n")
chunked("wordRanges", "RTree", ranges([c for c in range(N) if re.match(r"\w", chr(c))]), rtree,
  "code points matched by `re` `\\w` on `str` (`str.isalnum()` or `_`)")
chunked("mnRanges", "RTree", ranges([c for c in range(N) if u.category(chr(c)) == "Mn"]), rtree,
  "code points with `unicodedata.category(c) == \"Mn\"`")
chunked("numericRanges", "RTree", ranges([c for c in range(N) if chr(c).isnumeric()]), rtree,
  "code points with `str.isnumeric()`")
dec = [c for c in range(N) if chr(c).isdecimal()]
# maximal runs start at a digit zero and have a length that is a multiple of ten
for a, b in ranges(dec):
    for c in range(a, b + 1): assert u.decimal(chr(c)) == (c - a) % 10
chunked("decimalRanges", "RTree", ranges(dec), rtree,
  "maximal runs of code points with `str.isdecimal()`; every run starts at a digit zero, the value of `c` is `(c - lo) % 10`")
cas = [c for c in range(N) if c != 0x3a3 and (chr(c) + "\u03a3").lower()[-1] == "\u03c2"]
ci = sorted(set(c for c in range(N) if ("A" + chr(c) + "\u03a3").lower()[-1] == "\u03c2") - set(cas) - {0x3a3})
assert 0x3a3 not in ci
chunked("casedRanges", "RTree", ranges(sorted(cas + [0x3a3])), rtree,
  "code points that are Cased and not Case_Ignorable (as `str.lower` sees them in the final-sigma rule)")
chunked("caseIgnorableRanges", "RTree", ranges(ci), rtree, "Case_Ignorable code points (as used by `str.lower`)")
low = [(c, lst(chr(c).lower())) for c in range(N) if chr(c).lower() != chr(c)]
chunked("lowerMap", "MTree", low, mtree, "`chr(c).lower()` where it differs from `chr(c)`")
nfd = [(c, lst(u.normalize("NFD", chr(c)))) for c in range(N)
       if u.normalize("NFD", chr(c)) != chr(c) and not (0xac00 <= c <= 0xd7a3)]
chunked("nfdMap", "MTree", nfd, mtree, "full canonical decompositions, Hangul syllables excepted")
ccc = []
for c in range(N):
    k = u.combining(chr(c))
    if k:
        if ccc and ccc[-1][1] == c - 1 and ccc[-1][2] == k: ccc[-1][1] = c
        else: ccc.append([c, c, k])
def ctree(rs):
    if not rs: return ".leaf"
    m = len(rs) // 2
    return f"(.node {ctree(rs[:m])} {rs[m][0]} {rs[m][1]} {rs[m][2]} {ctree(rs[m+1:])})"
def cchunk():
    cnt = [0]
    def rec(l):
        if len(l) <= 60:
            if not l: return ".leaf"
            nm = f"cccTree_{cnt[0]}"; cnt[0] += 1
            out.append(f"def {nm} : CTree := {ctree(l)}"); return nm
        m = len(l) // 2
        a = rec(l[:m]); b = rec(l[m+1:])
        return f"(.node {a} {l[m][0]} {l[m][1]} {l[m][2]} {b})"
    body = rec([tuple(x) for x in ccc])
    out.append("/-- canonical combining classes (`unicodedata.combining`), where not 0 -/")
    out.append(f"def cccTree : CTree := {body}\n")
cchunk()
out.append("end NumberParser.UnicodeData")
open("/verif/lean/Verif/Model/UnicodeData.lean", "w").write("\n".join(out) + "\n")
