"""Transcribe openap/data/nav/airports.csv into lean/Verif/Data/Airports.lean.

One natural number per row, decimal digits from the left: four times two digits for the
characters of the code, two times two digits for the characters of the country, eight digits for
(lat + 90) * 10^5, eight digits for (lon + 180) * 10^5 and five digits for alt + 2000.
"""
import csv
from decimal import Decimal

SRC = "/repo/openap/data/nav/airports.csv"
OUT = "/verif/lean/Verif/Data/Airports.lean"
CHUNK = 200

rows = list(csv.reader(open(SRC, encoding="utf-8")))
assert rows[0] == ["icao", "lat", "lon", "alt", "country", "name", "location"]
nums = []
for icao, lat, lon, alt, country, _, _ in rows[1:]:
    assert len(icao) == 4 and len(country) == 2
    a = (Decimal(lat) + 90) * 100000
    o = (Decimal(lon) + 180) * 100000
    z = Decimal(alt) + 2000
    assert a == int(a) and o == int(o) and z == int(z)
    assert 0 <= a < 10**8 and 0 <= o < 10**8 and 0 <= z < 10**5
    nums.append("%s%s%08d%08d%05d" % ("".join("%02d" % ord(c) for c in icao),
                "".join("%02d" % ord(c) for c in country), int(a), int(o), int(z)))
with open(OUT, "w") as f:
    f.write("import Mathlib.Data.Nat.Notation\n\n")
    f.write("/-! Generated by tools/gen_airports.py from /repo/openap/data/nav/airports.csv:1-%d (columns\n"
            "`icao`, `country`, `lat`, `lon`, `alt`). Digits from the left: 4 x 2 for the characters of the code,\n"
            "2 x 2 for the characters of the country, 8 for (lat + 90) 10^5, 8 for (lon + 180) 10^5, 5 for\n"
            "alt + 2000. -/\n\nnamespace Verif.Data.Airports\n\n" % len(rows))
    names = []
    for i in range(0, len(nums), CHUNK):
        n = "rows%d" % (i // CHUNK)
        names.append(n)
        f.write("/-- Rows %d to %d. -/\ndef %s : List ℕ := [\n  %s]\n\n" % (
            i + 1, min(i + CHUNK, len(nums)), n, ",\n  ".join(nums[i:i + CHUNK])))
    f.write("/-- All %d rows. -/\ndef rows : List (List ℕ) := [\n  %s]\n\n" % (len(nums), ", ".join(names)))
    f.write("end Verif.Data.Airports\n")
