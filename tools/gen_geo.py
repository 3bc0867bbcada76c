#!/usr/bin/env python3
"""Generate lean/Verif/Model/GeoTable.lean from /repo (read as text: literals only)."""
import ast

REPO = "/repo/spec2nexus/"
db = ast.literal_eval(open(REPO + "diffractometer-geometries.dict").read())
tree = ast.parse(open(REPO + "diffractometers.py").read())
default_u = [ast.literal_eval(n.value) for n in tree.body
             if isinstance(n, ast.Assign) and n.targets[0].id == "DEFAULT_U"][0]


def s(t):
    assert '"' not in t and "\\" not in t and t.isascii() and t.isprintable(), t
    return f'p!"{t}"'


def lst(items, indent="      ", width=98, first=16):
    """a list literal, wrapped between items only"""
    lines, cur = [], "["
    n = first
    for k, i in enumerate(items):
        piece = i + ("," if k + 1 < len(items) else "]")
        if n + len(cur) + 1 + len(piece) > width and cur != "[":
            lines.append(cur)
            cur, n = indent + piece, 0
        else:
            cur += ("" if cur == "[" else " ") + piece
    if not items:
        return "[]"
    lines.append(cur)
    return "\n".join(lines)


def keys(kd):
    return lst([s(k) for k, d in kd])


def descs(kd):
    return lst([s(d) for k, d in kd])


out = ['''import Verif.Py.Str
/-
GENERATED by tools/gen_geo.py from /repo/spec2nexus/diffractometer-geometries.dict and
/repo/spec2nexus/diffractometers.py:50-88 (DEFAULT_U).  The pairs (key, description) of the source are
two lists: `G` and `Gd`, `Q` and `Qd`, `U` and `Ud`.
-/
namespace S2N

/-- one entry of `geometry["variations"]` -/
structure Variation where
  name : Str
  motors : List Str
  others : List Str
  deriving DecidableEq, Repr

/-- one geometry of the catalog -/
structure Geometry where
  name : Str
  G : List Str
  Gd : List Str
  Q : List Str
  Qd : List Str
  U : Option (List Str)
  Ud : Option (List Str)
  modes : List Str
  numgeo : Nat
  variations : List Variation
  deriving DecidableEq, Repr

/-- `DEFAULT_U` keys — diffractometers.py:53-90 -/
def defaultU : List Str := ''' + keys(default_u) + '''

/-- `DEFAULT_U` descriptions — diffractometers.py:53-90 -/
def defaultUd : List Str := ''' + descs(default_u) + "\n"]
for n, g in enumerate(db):
    assert set(g) <= {"name", "description", "G", "Q", "U", "modes", "numgeo", "variations"}, g.keys()
    u = g.get("U")
    var = []
    for v in g["variations"]:
        assert set(v) == {"name", "motors", "other-motors"}
        var.append(f"⟨{s(v['name'])}, {lst([s(m) for m in v['motors']])}, "
                   f"{lst([s(m) for m in v['other-motors']])}⟩")
    out.append(f'''/-- geometry {n} of diffractometer-geometries.dict: {g["name"]} -/
def geo{n} : Geometry where
  name := {s(g["name"])}
  G := {keys(g["G"])}
  Gd := {descs(g["G"])}
  Q := {keys(g["Q"])}
  Qd := {descs(g["Q"])}
  U := {"none" if u is None else "some " + keys(u)}
  Ud := {"none" if u is None else "some " + descs(u)}
  modes := {lst([s(m) for m in g["modes"]])}
  numgeo := {g["numgeo"]}
  variations := [{(","+chr(10)+"    ").join(var)}]
''')
out.append(f'''/-- `DiffractometerGeometryCatalog.db` — diffractometers.py:437-438 -/
def geoDb : List Geometry :=
  {lst([f"geo{n}" for n in range(len(db))])}

end S2N
''')
open("/verif/lean/Verif/Model/GeoTable.lean", "w").write("\n".join(out))
