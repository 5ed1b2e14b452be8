#!/usr/bin/env python3
"""Writes lean/Verif/Model/Stations/*.lean, the tables of database/stations.py and
database/countries.py. Each row is the text of the Python literal; the tables are read as text."""
import ast, os
REPO = "/repo/aeromet_py/database/"
OUT = os.path.join(os.path.dirname(os.path.abspath(__file__)), "..", "lean", "Verif", "Model", "Stations")
BLOCK, FILES = 100, 10

def table(name, var):
    for n in ast.parse(open(REPO + name).read()).body:
        if isinstance(n, ast.AnnAssign) and n.target.id == var:
            return n.value
stations = table("stations.py", "STATIONS").elts
countries = table("countries.py", "COUNTRIES")

def lit(s):
    assert '"' not in s and "\\" not in s
    return '"' + s + '"'
os.makedirs(OUT, exist_ok=True)
blocks = [stations[i:i + BLOCK] for i in range(0, len(stations), BLOCK)]
per = -(-len(blocks) // FILES)
names, files = [], []
for k in range(0, len(blocks), per):
    f = f"Part{k // per}"
    files.append(f)
    with open(os.path.join(OUT, f + ".lean"), "w") as o:
        o.write("import Verif.Model.Stations.Rows\n\n/-\nRows of `STATIONS` (database/stations.py). "
                "Generated by tools/stations2lean.py.\n-/\n\nnamespace Verif\n")
        for i, b in enumerate(blocks[k:k + per], k):
            names.append(f"stations{i:02}")
            o.write(f"\n/-- `STATIONS` (database/stations.py {b[0].lineno}-{b[-1].end_lineno}). -/\n"
                    f"noncomputable def {names[-1]} : List StationRow := rows! [\n")
            o.write(",\n".join("  [" + ", ".join(lit(x.value) for x in r.elts) + "]" for r in b))
            o.write("]\n")
        o.write("\nend Verif\n")
with open(os.path.join(OUT, "Countries.lean"), "w") as o:
    o.write("import Verif.Model.Stations.Rows\n\n/-\n`COUNTRIES` (database/countries.py). "
            "Generated by tools/stations2lean.py.\n-/\n\nnamespace Verif\n\n"
            f"/-- `COUNTRIES` (database/countries.py {countries.keys[0].lineno}-{countries.keys[-1].lineno}). -/\n"
            "noncomputable def countriesTable : List (PyStr × PyStr) := pairs! [\n")
    o.write(",\n".join(f"  [{lit(k.value)}, {lit(v.value)}]" for k, v in zip(countries.keys, countries.values)))
    o.write("]\n\nend Verif\n")
with open(os.path.join(OUT, "All.lean"), "w") as o:
    o.write("".join(f"import Verif.Model.Stations.{f}\n" for f in files) +
            "import Verif.Model.Stations.Countries\n\n/-\nThe tables of the library. "
            "Generated by tools/stations2lean.py.\n-/\n\nnamespace Verif\n\n"
            "/-- `STATIONS` (database/stations.py), in blocks of a hundred rows. -/\n"
            "noncomputable def stationBlocks : List (List StationRow) := [\n")
    for i in range(0, len(names), 8):
        o.write("  " + ", ".join(names[i:i + 8]) + (",\n" if i + 8 < len(names) else "]\n"))
    o.write("\n/-- The tables of the library: `STATIONS` (database/stations.py) and `COUNTRIES`\n(database/countries.py). -/\n"
            "noncomputable def libraryDb : Database := ⟨stationBlocks.flatten, countriesTable⟩\n\nend Verif\n")
