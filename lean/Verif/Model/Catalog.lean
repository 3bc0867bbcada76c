import Verif.Model.Diffractometers
/-
Model of the module variable `_geometry_catalog`, of `get_geometry_catalog`, `reset_geometry_catalog` and of the catalog objects
of /repo/spec2nexus/diffractometers.py: which object is returned, when objects are made, and their cached lists of names.
Simplifications: an object is a number (its place in the list of all objects made so far); the content of the dictionary file at
the time it is read is a parameter (an exception of `open` or `eval`, or the list of geometries); a list that is returned is not
changed by the caller.
-/
namespace S2N
open Py

namespace Catalog

/-- what the module variable refers to: None, the number 0, or an object — diffractometers.py:403-417 -/
inductive Slot
  | none
  | zero
  | object (i : Nat)
  deriving DecidableEq, Repr

/-- a `DiffractometerGeometryCatalog`: `db`, and the two cached lists (they are None, or set, together) — diffractometers.py:432-448 -/
structure Obj where
  db : List Geometry
  cache : Option (List Str × List Str)
  deriving DecidableEq, Repr

/-- the module variable, and all objects that were made -/
structure St where
  slot : Slot
  objects : List Obj
  deriving DecidableEq, Repr

/-- after import of the module -/
def start : St := ⟨.none, []⟩

/-- what reading and evaluating the dictionary file gives -/
abbrev DictFile := Except PyErr (List Geometry)

/-- `DiffractometerGeometryCatalog()` — diffractometers.py:435-448.  `self.db[0]` raises IndexError for an empty list. -/
def construct (f : DictFile) (s : St) : Except PyErr Nat × St :=
  match s.slot with
  | .none => (.error .RuntimeError, s)
  | _ =>
    match f with
    | .error e => (.error e, s)
    | .ok [] => (.error .IndexError, s)
    | .ok (g :: db) => (.ok s.objects.length, { s with objects := s.objects ++ [⟨g :: db, .none⟩] })

/-- `get_geometry_catalog()` — diffractometers.py:407-412 -/
def get (f : DictFile) (s : St) : Except PyErr Slot × St :=
  match s.slot with
  | .none =>
    match construct f { s with slot := .zero } with
    | (.error e, s) => (.error e, s)
    | (.ok i, s) => (.ok (.object i), { s with slot := .object i })
  | x => (.ok x, s)

/-- `reset_geometry_catalog()` — diffractometers.py:415-417 -/
def reset (s : St) : St := { s with slot := .none }

/-- the two lists that `geometries` makes — diffractometers.py:470-477 -/
def lists (db : List Geometry) : List Str × List Str :=
  (db.map (·.name), db.flatMap (fun g => g.variations.map (fun v => dotted g.name v.name)))

/-- the object `x` with its lists made, if they were not — diffractometers.py:464-477 -/
def Obj.cached (x : Obj) : (List Str × List Str) × Obj :=
  match x.cache with
  | .none => (lists x.db, { x with cache := some (lists x.db) })
  | some c => (c, x)

/-- `geometries(variations)` of the object `i` — diffractometers.py:455-482.  (The object exists: a caller has it.) -/
def geometries (i : Nat) (variations : Bool) (s : St) : List Str × St :=
  match s.objects[i]? with
  | .none => ([], s)
  | some x =>
    (if variations then x.cached.1.2 else x.cached.1.1, { s with objects := s.objects.set i x.cached.2 })

/-- the place of the first `n` in a list — `list.index` -/
def place (n : Str) (l : List Str) : Option Nat := l.findIdx? (· == n)

/-- `get(geo_name)` of the object `i` — diffractometers.py:484-492 -/
def lookup (i : Nat) (n : Str) (s : St) : Option Geometry × St :=
  let r := geometries i false s
  match s.objects[i]?, place (splitNameVariation n).1 r.1 with
  | some x, some j => (x.db[j]?, r.2)
  | _, _ => (.none, r.2)

/-- `has_geometry(geo_name)` of the object `i` — diffractometers.py:505-513 -/
def has (i : Nat) (n : Str) (s : St) : Bool × St :=
  match splitNameVariation n with
  | (nm, .none) => ((geometries i false s).1.contains nm, (geometries i false s).2)
  | (_, some _) => ((geometries i true s).1.contains n, (geometries i true s).2)

/-- the first part of `match(scan)`: a geometry that the header states, if the catalog of `get_geometry_catalog()` (not the object
itself) has it; `f`: the dictionary file, if it is read now; the number 0 has no `has_geometry` — diffractometers.py:551-559 -/
def stated (f : DictFile) (sc : DScan) (s : St) : Except PyErr (List Str) × St :=
  match sc.comments with
  | [] => (.ok [], s)
  | c :: _ =>
    match splitWs c with
    | [g, u, _, _] =>
      if u = p!"User" then
        match get f s with
        | (.error e, s) => (.error e, s)
        | (.ok (.object i), s) => (.ok (if (has i g s).1 then [dotted g p!"default"] else []), (has i g s).2)
        | (.ok _, s) => (.error .AttributeError, s)
      else (.ok [], s)
    | _ => (.ok [], s)

/-- the entries of `db` that match — diffractometers.py:582-611 -/
def dbMatches (db : List Geometry) (sc : DScan) (G : Dict Str) : List Str :=
  (db.filter (geometryMatches G)).flatMap (fun g =>
    (g.variations.filter (variantMatches sc)).map (fun v => dotted g.name v.name))

/-- `match(scan)` of the object `i` — diffractometers.py:541-625.  Without attribute `G`, `len(None)` raises TypeError at the first
geometry of the (not empty) list. -/
def «match» (i : Nat) (f : DictFile) (sc : DScan) (s : St) : Except PyErr Str × St :=
  match stated f sc s with
  | (.error e, s) => (.error e, s)
  | (.ok l, s) =>
    match s.objects[i]? with
    | .none => (.error .AttributeError, s)
    | some x =>
      match sc.G with
      | .none => (.error .TypeError, s)
      | some G =>
        match l ++ dbMatches x.db sc G with
        | m :: _ => (.ok m, s)
        | [] =>
          match x.db.head? with
          | some g => (.ok g.name, s)
          | .none => (.error .IndexError, s)

/-- one use of the module by the caller -/
inductive Op
  | get (f : DictFile)
  | reset
  | construct (f : DictFile)
  | geometries (i : Nat) (variations : Bool)
  | lookup (i : Nat) (n : Str)
  | has (i : Nat) (n : Str)
  | «match» (i : Nat) (f : DictFile) (sc : DScan)

/-- what it does to the module -/
def Op.run : Op → St → St
  | .get f, s => (Catalog.get f s).2
  | .reset, s => Catalog.reset s
  | .construct f, s => (Catalog.construct f s).2
  | .geometries i b, s => (Catalog.geometries i b s).2
  | .lookup i n, s => (Catalog.lookup i n s).2
  | .has i n, s => (Catalog.has i n s).2
  | .match i f sc, s => (Catalog.match i f sc s).2

/-- a sequence of uses -/
def run (ops : List Op) (s : St) : St := ops.foldl (fun s o => o.run s) s

/-- the content of the dictionary file that this use may read -/
def Op.file : Op → Option DictFile
  | .get f | .construct f | .match _ f _ => some f
  | _ => .none

end Catalog
end S2N
