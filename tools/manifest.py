"""Writes ../MANIFEST.json and checks that every named theorem exists in lean/Verif."""
import json, os, re, glob
here = os.path.dirname(os.path.abspath(__file__))
C = []
def c(prop, status, theorems, note):
    C.append(dict(property=prop, status=status, theorems=["Verif.Props." + t for t in theorems], note=note))

exec(open(os.path.join(here, "claims.py")).read())
src = "\n".join(open(f).read() for f in glob.glob(os.path.join(here, "../lean/Verif/Props/*.lean")))
names = set(re.findall(r"^theorem (\S+)", src, re.M))
for x in C:
    for t in x["theorems"]:
        if t.split(".")[-1] not in names:
            print("MISSING", x["property"], t)
ids = [json.loads(l)["id"] for l in open(os.path.join(here, "../properties.jsonl"))]
miss = [i for i in ids if i not in {x["property"] for x in C}]
print("unclaimed:", miss)
C.sort(key=lambda x: x["property"])
json.dump({"claims": C}, open(os.path.join(here, "../MANIFEST.json"), "w"), indent=1)
