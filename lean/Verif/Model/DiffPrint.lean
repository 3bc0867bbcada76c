import Verif.Model.Handlers
/-
Model of the reports of /repo/spec2nexus/diffractometers.py: `str(diffractometer)`, `print_brief`, `print_all`.
Simplifications: how Python writes floats, the dictionary of angles, numpy's matrices and dates is a parameter (`Texts`); `str.upper`
acts on ASCII letters.  `print_all` first interprets the scan: here the scan is one that is interpreted, for which that does nothing
(spec.py:715-716).
-/
namespace S2N
open Py

/-- how Python writes values: `str(float)`, `repr(OrderedDict)`, `str(numpy.ndarray)`, `str(datetime.fromtimestamp(epoch))` -/
structure Texts where
  float : PyFloat → Str
  angles : Dict PyFloat → Str
  matrix : List (List PyFloat) → Str
  date : Num → Except PyErr Str

/-- `str.upper` of one letter -/
def upperC (c : Char) : Char := if 97 ≤ c.toNat ∧ c.toNat ≤ 122 then Char.ofNat (c.toNat - 32) else c

/-- `str.upper` -/
def upper (s : Str) : Str := s.map upperC

/-- `repr` of a namedtuple -/
def tupleText (name : Str) (fields : List (Str × Str)) : Str :=
  name ++ p!"(" ++ join p!", " (fields.map (fun f => f.1 ++ '=' :: f.2)) ++ p!")"

/-- `f"{lattice}"` — diffractometers.py:37-43 -/
def Lattice.text (T : Texts) : Lattice → Str
  | .three a b c al be ga => tupleText p!"LatticeParameters3D"
    [(p!"a", T.float a), (p!"b", T.float b), (p!"c", T.float c), (p!"alpha", T.float al), (p!"beta", T.float be), (p!"gamma", T.float ga)]
  | .two a b ga => tupleText p!"LatticeParameters2D" [(p!"a", T.float a), (p!"b", T.float b), (p!"gamma", T.float ga)]

/-- `f"{reflection}"` — diffractometers.py:45-47 -/
def Reflection.text (T : Texts) : Reflection → Str
  | .three h k l w an => tupleText p!"Reflections3D"
    [(p!"h", T.float h), (p!"k", T.float k), (p!"l", T.float l), (p!"wavelength", T.float w), (p!"angles", T.angles an)]
  | .two h k w an => tupleText p!"Reflections2D" [(p!"h", T.float h), (p!"k", T.float k), (p!"wavelength", T.float w), (p!"angles", T.angles an)]

/-- `f"{value}"` of a geometry parameter -/
def GVal.text (T : Texts) : GVal → Str
  | .str s => s
  | .num x => T.float x
  | .mat m => T.matrix m

/-- `f"{value}"`, None for a value that was not set -/
def orNone {α : Type} (f : α → Str) : Option α → Str
  | some a => f a
  | none => p!"None"

/-- `f"'{s}'"` -/
def quoted (s : Str) : Str := '\'' :: s ++ p!"'"

/-- level of detail of a report -/
inductive Detail
  | str
  | wh
  | pa
  deriving DecidableEq, Repr

/-- `_Q_names`; an unknown geometry is None, which cannot be indexed — diffractometers.py:191-201 -/
def Diff.qNames (d : Diff) : Except PyErr (List Str) :=
  match geoGet d.full with
  | none => .error .TypeError
  | some g => .ok (((g.Q.zip g.Qd).filter (fun q => contains p!"Miller index" q.2)).map (fun q => lower q.1))

/-- `f"{gpars[key.upper()].value}"` — diffractometers.py:161-162 -/
def Diff.infoQ (T : Texts) (d : Diff) : List Str → Dict Str → Except PyErr (Dict Str)
  | [], i => .ok i
  | k :: ks, i =>
    match d.gpar.get? (upper k) with
    | none => .error .KeyError
    | some v => d.infoQ T ks (i.set k (v.text T))

/-- alpha, beta, azimuth, omega — diffractometers.py:166-168 -/
def Diff.infoAngles (T : Texts) (d : Diff) (i : Dict Str) : Dict Str :=
  [p!"alpha", p!"beta", p!"azimuth", p!"omega"].foldl (fun i k =>
    match d.gpar.get? (upper k) with
    | some v => i.set k (v.text T)
    | none => i) i

/-- `_get_info_dict(level)`; `self.UB` without an orientation matrix is AttributeError — diffractometers.py:143-182 -/
def Diff.info (T : Texts) (lv : Detail) (d : Diff) : Except PyErr (Dict Str) :=
  let i : Dict Str := (((Dict.set ([] : Dict Str) p!"geometry" (quoted d.name)).set p!"wavelength" (orNone T.float d.wavelength)).set
    p!"mode" (quoted (orNone id d.mode))).set p!"sector" (orNone intStr d.sector)
  match d.qNames with
  | .error e => .error e
  | .ok qs =>
    match d.infoQ T qs i with
    | .error e => .error e
    | .ok i =>
      let i := if lv = .str then i else d.infoAngles T (i.set p!"lattice" (orNone (Lattice.text T) d.lattice))
      if lv ≠ .pa then .ok i
      else
        let i := i.set p!"full_geometry_name" (quoted d.full)
        let i := match d.lattice with
          | some l => i.set p!"lattice" (l.text T)
          | none => i
        let i := match d.UB with
          | some m => i.set p!"UB" (T.matrix m)
          | none => i
        let i := d.reflections.zipIdx.foldl (fun i r => i.set (p!"reflection " ++ natStr (r.2 + 1)) (r.1.text T)) i
        match d.UB with
        | some m => .ok (i.set p!"UB" (T.matrix m))
        | none => .error .AttributeError

/-- `str(diffractometer)` — diffractometers.py:184-189 -/
def Diff.toStr (T : Texts) (d : Diff) : Except PyErr Str :=
  match d.info T .str with
  | .error e => .error e
  | .ok i => .ok (tupleText p!"Diffractometer" i)

/-- `_positioners_dict(scan)` — diffractometers.py:203-217 -/
def Diff.positioners (d : Diff) (scan : Obj) : Except PyErr (Dict PyFloat) :=
  match geoGet d.full with
  | none => .error .TypeError
  | some g => .ok ((scan.positioner.take g.numgeo).foldl (fun i kv => i.set kv.1 kv.2) [])

/-- `_get_Q_dict(info)` — diffractometers.py:219-228 -/
def Diff.qDict (i : Dict Str) : List Str → Dict Str → Except PyErr (Dict Str)
  | [], q => .ok q
  | k :: ks, q =>
    match i.get? k with
    | none => .error .KeyError
    | some v => Diff.qDict i ks (q.set k v)

/-- `_compose_row_(labels)` — diffractometers.py:385-392 -/
def composeRow (i : Dict Str) (labels : List Str) : Str :=
  join p!"  " (labels.filterMap (fun k => (i.get? k).map (fun v => k ++ '=' :: v)))

/-- `s.strip("'")` -/
def stripQuotes (s : Str) : Str := ((s.dropWhile (· == '\'')).reverse.dropWhile (· == '\'')).reverse

/-- `print_brief(scan)` — diffractometers.py:364-400 -/
def Diff.printBrief (T : Texts) (d : Diff) (scan : Obj) : Except PyErr Str :=
  match d.info T .wh with
  | .error e => .error e
  | .ok i =>
    match d.qNames with
    | .error e => .error e
    | .ok qs =>
      match Diff.qDict i qs [] with
      | .error e => .error e
      | .ok q =>
        match i.get? p!"geometry" with
        | none => .error .KeyError
        | some name =>
          match d.positioners scan with
          | .error e => .error e
          | .ok pos => .ok (join p!"\n" ([stripQuotes name] ++
              (if q.length > 0 then [join p!" " (q.map (·.1)) ++ p!" = " ++ join p!"  " (q.map (·.2))] else []) ++
              [composeRow i [p!"alpha", p!"beta", p!"azimuth"], composeRow i [p!"omega", p!"wavelength"]] ++
              pos.map (fun kv => kv.1 ++ p!" = " ++ T.float kv.2)))

/-- `f"{k:^{width}}"` -/
def centered (w : Nat) (k : Str) : Str :=
  List.replicate ((w - k.length) / 2) ' ' ++ k ++ List.replicate (w - k.length - (w - k.length) / 2) ' '

/-- the date of a scan with an epoch — diffractometers.py:356-357 -/
def withDate (T : Texts) (s : Dict Str) : Option Num → Except PyErr (Dict Str)
  | none => .ok s
  | some e =>
    match T.date e with
    | .error err => .error err
    | .ok t => .ok (s.set p!"date" t)

/-- `print_all(scan)`; `scan.specFile` is the name of the data file (spec.py:672-680) — diffractometers.py:341-362 -/
def Diff.printAll (T : Texts) (d : Diff) (scan : Obj) : Except PyErr Str :=
  let s : Dict Str := ((Dict.set ([] : Dict Str) p!"SPEC file" scan.fileName).set p!"scan #" scan.scanNum).set p!"SPEC scanCmd" scan.scanCmd
  match withDate T s scan.epoch with
  | .error e => .error e
  | .ok s =>
    match d.info T .pa with
    | .error e => .error e
    | .ok i =>
      match d.positioners scan with
      | .error e => .error e
      | .ok pos =>
        let s := i.foldl (fun s kv => s.set kv.1 kv.2) s
        let s := pos.foldl (fun s kv => s.set kv.1 (T.float kv.2)) s
        let w := (s.map (fun kv => kv.1.length)).foldl max 0
        .ok (join p!"\n" (s.map (fun kv => centered w kv.1 ++ p!" = " ++ kv.2)))

end S2N
