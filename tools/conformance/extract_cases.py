import ast,glob,csv,os,json
def ev(n):
    if isinstance(n,ast.BinOp): return ev(n.left)**ev(n.right)
    if isinstance(n,(ast.List,ast.Tuple)): return [ev(x) for x in n.elts]
    return ast.literal_eval(n)
cases=[]
FN={"parse":"P","parse_number":"N","parse_ordinal":"O","parse_fraction":"F","_valid_tokens_by_language":"D"}
for f in sorted(glob.glob("/repo/tests/test_*.py")):
    m=ast.parse(open(f).read()); LANG=None
    for n in m.body:
        if isinstance(n,ast.Assign) and n.targets[0].id=="LANG": LANG=n.value.value
        if isinstance(n,ast.FunctionDef) and n.decorator_list:
            call=n.decorator_list[0]; rows=ev(call.args[1])
            c=n.body[0].test.left; fn=FN[c.func.id]
            nargs=len(c.args)+len(c.keywords)
            for r in rows:
                lang = r[2] if len(r)>2 else (LANG if nargs>1 else None)
                cases.append((fn,r[0],lang,r[1]))
for d in ["hundreds","permutations","ordinals","ordinals_permutations"]:
    for f in sorted(glob.glob(f"/repo/tests/data/{d}/*.csv")):
        lang=os.path.basename(f).split("_")[0]
        for row in csv.DictReader(open(f,encoding="utf8")):
            cases.append(("O",row["text"],lang,int(row["number"])))
            if "ordinal" not in d: cases.append(("N",row["text"],lang,int(row["number"])))
print(len(cases))
with open("/tmp/np_cases.txt","w") as o:
    for fn,s,l,e in cases:
        assert "\t" not in s
        o.write("\t".join([fn,s.replace("\n","\\n"),l or "",("None" if e is None else str(e))])+"\n")
