"""Transcribes /repo/openap/data into lean/Verif/Data/*.lean.

Strings become lists of character codes, numbers exact decimals in units of 10^-16
(as naturals; the WRAP tables, which hold negative numbers, in units of 10^-4 as integers).
"""
import csv, glob, os, re
from decimal import Decimal
here = os.path.dirname(os.path.abspath(__file__))
D = "/repo/openap/data/"
OUT = os.path.join(here, "../lean/Verif/Data/")


def s(x):
    assert all(32 <= ord(c) < 127 for c in x), x
    return "[" + ", ".join(str(ord(c)) for c in x) + "]"


def n(x, scale=16):
    v = Decimal(x) * (Decimal(10) ** scale)
    assert v == v.to_integral_value() and v >= 0, x
    return str(int(v))


def z(x, scale=4):
    v = Decimal(x) * (Decimal(10) ** scale)
    assert v == v.to_integral_value(), x
    return str(int(v)) if v >= 0 else f"({int(v)})"


def opt(x):
    return "none" if x in (None, "", "null") else f"some {n(x)}"


def parse_yaml(f):
    root = {}
    stack = [(-1, root)]
    for line in open(f):
        line = re.sub(r"\s+#.*$", "", line.rstrip("\n")).rstrip()
        if not line.strip() or line.strip().startswith("#"):
            continue
        ind = len(line) - len(line.lstrip())
        t = line.strip()
        while stack[-1][0] >= ind:
            stack.pop()
        top = stack[-1][1]
        if t.startswith("- "):
            top.setdefault("__list__", []).append(t[2:].strip().strip("'\""))
            continue
        k, v = t.split(":", 1)
        v = v.strip().strip("'\"")
        if v == "":
            d = {}
            top[k] = d
            stack.append((ind, d))
        else:
            top[k] = v
    return root


def chunks(name, ty, rows, size=40):
    o, parts = [], []
    for i in range(0, len(rows), size):
        p = f"{name}{i // size}"
        parts.append(p)
        o.append(f"def {p} : List {ty} := [\n" + ",\n".join(rows[i:i + size]) + "]\n")
    return "\n".join(o), " ++ ".join(parts)


def emit(fname, doc, body):
    with open(OUT + fname, "w") as f:
        f.write("import Verif.Model.Tables\n\n/-!\n" + doc +
                "\nGenerated by `tools/gen_data.py`; do not edit.\n-/\n\nnamespace Verif.Data\nopen Verif.Tables\n\n" + body + "\nend Verif.Data\n")


# engines
rows = []
for r in csv.DictReader(open(D + "engine/engines.csv")):
    q = lambda p: "⟨" + ", ".join(n(r[f"{p}_{m}"]) for m in ("idl", "app", "co", "to")) + "⟩"
    rows.append(f"  /- {r['name']} -/ ⟨{s(r['name'])}, {opt(r['bpr'])}, {opt(r['max_thrust'])}, "
                f"{opt(r['cruise_thrust'])}, {opt(r['cruise_mach'])}, {opt(r['cruise_sfc'])}, {opt(r['cruise_alt'])},\n    {q('ff')},\n    {q('ei_nox')},\n    {q('ei_co')},\n    {q('ei_hc')}⟩")
body, parts = chunks("engines", "EngineRow", rows)
body += f"\n/-- All {len(rows)} rows, in file order. -/\ndef engines : List EngineRow := {parts}\n"
emit("Engines.lean", "`/repo/openap/data/engine/engines.csv`.", body)


def synonyms(f):
    return "[\n" + ",\n".join(f"  /- {r['orig']} {r['new']} -/ ({s(r['orig'])}, {s(r['new'])})" for r in csv.DictReader(open(f))) + "]\n"


# aircraft
rows = []
for f in sorted(glob.glob(D + "aircraft/*.yml")):
    code = os.path.basename(f)[:-4]
    assert len(code) == 4
    y = parse_yaml(f)
    o = y["engine"]["options"]
    o = o["__list__"] if "__list__" in o else list(o.values())
    g = lambda d, k: d.get(k)
    w, fl, cr, e = y["wing"], y["flaps"], y["cruise"], y["engine"]
    rows.append(f"  /- {code} -/ ({s(code)}, ⟨{n(y['mtow'])}, {n(y['mlw'])}, {n(y['oew'])}, {n(y['mfc'])},\n"
                f"    {opt(y['vmo'])}, {opt(y['mmo'])}, {opt(y['ceiling'])},\n"
                f"    {n(w['area'])}, {n(w['span'])}, {n(w['sweep'])}, {opt(w.get('t/c'))},\n"
                f"    {n(cr['height'])}, {n(cr['mach'])}, {opt(cr.get('range'))},\n"
                f"    {n(e['number'])}, {'true' if e['mount'] == 'rear' else 'false'}, {s(e['default'])},\n    ["
                + ",\n      ".join(s(x) for x in o) + "]⟩)")
body, parts = chunks("aircraft", "(Str × AircraftRow)", rows)
body += f"\n/-- All {len(rows)} files `data/aircraft/*.yml`, by name. -/\ndef aircraft : List (Str × AircraftRow) := {parts}\n"
body += "\n/-- `data/aircraft/_synonym.csv`. -/\ndef aircraftSyn : List (Str × Str) := " + synonyms(D + "aircraft/_synonym.csv")
emit("Aircraft.lean", "`/repo/openap/data/aircraft`.", body)

# polars
rows = []
for f in sorted(glob.glob(D + "dragpolar/*.yml")):
    code = os.path.basename(f)[:-4]
    assert len(code) == 4
    y = parse_yaml(f)
    rows.append(f"  /- {code} -/ ({s(code)}, ⟨{n(y['clean']['cd0'])}, {n(y['clean']['k'])}, "
                f"{n(y['flaps']['lambda_f'])}, {n(y['flaps']['cf/c'])}, {n(y['flaps']['Sf/S'])}⟩)")
body, parts = chunks("polars", "(Str × PolarRow)", rows)
body += f"\n/-- All {len(rows)} files `data/dragpolar/*.yml`, by name. -/\ndef polars : List (Str × PolarRow) := {parts}\n"
body += "\n/-- `data/dragpolar/_synonym.csv`. -/\ndef polarSyn : List (Str × Str) := " + synonyms(D + "dragpolar/_synonym.csv")
emit("Polars.lean", "`/repo/openap/data/dragpolar`.", body)

# fuel
rows = []
for r in csv.DictReader(open(D + "fuel/fuel_models.csv")):
    rows.append(f"  /- {r['typecode']} {r['engine_type']} -/ ⟨{s(r['typecode'])}, {s(r['engine_type'])}, {n(r['c1'])}, {n(r['c2'])}, {n(r['c3'])}⟩")
body, parts = chunks("fuelModels", "FuelRow", rows)
body = body.replace("fuelModels0", "fuelModels")
emit("FuelModels.lean", "`/repo/openap/data/fuel/fuel_models.csv`.", body)

# wrap (fixed-width file: variable first, then opt min max model parameters last)
rows = []
for f in sorted(glob.glob(D + "wrap/*.txt")):
    code = os.path.basename(f)[:-4]
    assert len(code) == 4
    L = [l for l in open(f).read().split("\n")[1:] if l.strip()]
    ent = []
    for l in L:
        t = l.split()
        ent.append(f"    /- {t[0]} -/ ⟨{s(t[0])}, {z(t[-5])}, {z(t[-4])}, {z(t[-3])}⟩")
    rows.append(f"  /- {code} -/ ({s(code)}, [\n" + ",\n".join(ent) + "])")
body, parts = chunks("wrap", "(Str × List WrapRow)", rows, 3)
body += f"\n/-- All {len(rows)} files `data/wrap/*.txt`, by name. -/\ndef wrap : List (Str × List WrapRow) := {parts}\n"
body += "\n/-- `data/wrap/_synonym.csv`. -/\ndef wrapSyn : List (Str × Str) := " + synonyms(D + "wrap/_synonym.csv")
emit("Wrap.lean", "`/repo/openap/data/wrap`.", body)
