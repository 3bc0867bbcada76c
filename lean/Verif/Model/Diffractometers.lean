import Verif.Model.GeoTable
import Verif.Py.Dict
import Verif.Py.Exc
/-
Model of /repo/spec2nexus/diffractometers.py (matching and parsing of #G lines).
Simplifications: printing methods are in Model/DiffPrint; `str.lower` acts on ASCII letters.  The dictionary of
`KeyDescriptionValue`s is two dictionaries, of values and of descriptions.
-/
namespace S2N
open Py

/-- `split_name_variation(geo_name)` — diffractometers.py:93-102 -/
def splitNameVariation (n : Str) : Str × Option Str :=
  match splitC '.' n with
  | [a, b] => (a, some b)
  | _ => (n, none)

/-- `"%s.%s" % (a, b)` -/
def dotted (a b : Str) : Str := a ++ '.' :: b

/-- `geometries()` — diffractometers.py:455-482 -/
def geometriesSimple : List Str := geoDb.map (·.name)

/-- `geometries(True)` — diffractometers.py:455-482 -/
def geometriesFull : List Str :=
  geoDb.flatMap (fun g => g.variations.map (fun v => dotted g.name v.name))

/-- `get(geo_name)`; `none` is the default None — diffractometers.py:484-492 -/
def geoGet (n : Str) : Option Geometry :=
  geoDb.find? (fun g => g.name == (splitNameVariation n).1)

/-- `get_variant(geometry, variant_name)`; `none` is IndexError on an empty list
— diffractometers.py:498-503 -/
def getVariant (g : Geometry) (v : Option Str) : Option Variation :=
  match g.variations.find? (fun x => some x.name == v) with
  | some x => some x
  | none => g.variations.head?

/-- `has_geometry(geo_name)` — diffractometers.py:505-513 -/
def hasGeometry (n : Str) : Bool :=
  match splitNameVariation n with
  | (nm, none) => geometriesSimple.contains nm
  | (_, some _) => geometriesFull.contains n

/-- what `match` and `parse` read from a scan: comments of its header, `header.o`, `header.O`,
the keys of `scan.positioner`, and `scan.G` (None: no attribute) -/
structure DScan where
  comments : List Str
  o : Option (List (List Str))
  O : Option (List (List Str))
  positioner : List Str
  G : Option (Dict Str)

/-- standard name of a positioner — diffractometers.py:528-535 -/
def stdName (k : Str) : Str :=
  if k = p!"2-theta" ∨ k = p!"two theta" ∨ endsWith k p!"tth" = true then p!"tth"
  else if k = p!"theta" then p!"th"
  else if k = p!"delta" then p!"del"
  else if k = p!"gamma" then p!"gam"
  else k

/-- `_get_scan_positioners_(scan)` — diffractometers.py:515-539 -/
def scanPositioners (s : DScan) : List Str :=
  (match s.o with
    | some rows => rows.flatten
    | none =>
      match s.O with
      | some rows => rows.flatten.map lower
      | none => s.positioner.map lower).map stdName

/-- geometry stated in the first header comment — diffractometers.py:551-559 -/
def statedGeometry (s : DScan) : List Str :=
  match s.comments with
  | [] => []
  | c :: _ =>
    match splitWs c with
    | [g, u, _, _] =>
      if u = p!"User" ∧ hasGeometry g = true then [dotted g p!"default"] else []
    | _ => []

/-- words of a row, `["0"]` counting as none — diffractometers.py:564-574 -/
def gWords (row : Str) : List Str :=
  let w := splitWs row
  if w = [p!"0"] then [] else w

/-- test of one variant — diffractometers.py:593-609 -/
def variantMatches (s : DScan) (v : Variation) : Bool :=
  (scanPositioners s).take v.motors.length == v.motors
    && v.others.all (fun m => s.positioner.contains m)

/-- test of one geometry against the numbers of #G0 and #G4 values — diffractometers.py:584-589 -/
def geometryMatches (G : Dict Str) (g : Geometry) : Bool :=
  (gWords ((G.get? p!"G0").getD p!"0")).length == g.G.length
    && match G.get? p!"G4" with
      | none => true
      | some row => (gWords row).length == g.Q.length

/-- all catalog entries that match, in catalog order — diffractometers.py:582-611 -/
def catalogMatches (s : DScan) (G : Dict Str) : List Str :=
  (geoDb.filter (geometryMatches G)).flatMap (fun g =>
    (g.variations.filter (variantMatches s)).map (fun v => dotted g.name v.name))

/-- `match(scan)` — diffractometers.py:541-625.  Without attribute `G`, `len(None)` raises
TypeError. -/
def geoMatch (s : DScan) : Except PyErr Str :=
  match s.G with
  | none => .error .TypeError
  | some G =>
    match statedGeometry s ++ catalogMatches s G with
    | [] => .ok (geo0.name)
    | m :: _ => .ok m

/-- values of geometry parameters -/
inductive GVal
  | str (s : Str)
  | num (x : PyFloat)
  | mat (rows : List (List PyFloat))
  deriving DecidableEq, Repr

/-- `LatticeParameters3D` / `LatticeParameters2D` -/
inductive Lattice
  | three (a b c al be ga : PyFloat)
  | two (a b ga : PyFloat)
  deriving DecidableEq, Repr

/-- `Reflections3D` / `Reflections2D` with their angles -/
inductive Reflection
  | three (h k l wl : PyFloat) (angles : Dict PyFloat)
  | two (h k wl : PyFloat) (angles : Dict PyFloat)
  deriving DecidableEq, Repr

/-- `Diffractometer` — diffractometers.py:105-146 -/
structure Diff where
  full : Str
  name : Str
  variant : Option Str
  gpar : Dict GVal
  gdesc : Dict Str
  lattice : Option Lattice
  mode : Option Str
  reflections : List Reflection
  sector : Option Int
  wavelength : Option PyFloat
  UB : Option (List (List PyFloat))
  deriving DecidableEq, Repr

/-- `Diffractometer(geo_name)` — diffractometers.py:116-146 -/
def Diff.new (n : Str) : Diff :=
  let nv := splitNameVariation n
  { full := n, name := nv.1, variant := nv.2,
    gpar := ((Dict.set (Dict.set ([] : Dict GVal) p!"diffractometer_full" (.str n))
      p!"diffractometer_simple" (.str nv.1))).set p!"diffractometer_variant" (.str (nv.2.getD [])),
    gdesc := [(p!"diffractometer_full", p!"name of diffractometer (and variant), deduced from scan information"),
      (p!"diffractometer_simple", p!"name of diffractometer, deduced from scan information"),
      (p!"diffractometer_variant", p!"name of diffractometer variant, deduced from scan information")],
    lattice := none, mode := none, reflections := [], sector := none, wavelength := none, UB := none }

/-- `{k: v for v, k in zip(values, keys)}` -/
def zipDict (ks : List Str) (vs : List PyFloat) : Dict PyFloat :=
  (ks.zip vs).foldl (fun d kv => d.set kv.1 kv.2) []

/-- `geometry_parameters.update(...)` with numeric values -/
def updNum (d : Dict GVal) (e : Dict PyFloat) : Dict GVal :=
  e.foldl (fun d kv => d.set kv.1 (.num kv.2)) d

/-- the descriptions of the first `n` parameters are updated -/
def updDesc (d : Dict Str) (ks ds : List Str) (n : Nat) : Dict Str :=
  ((ks.zip ds).take n).foldl (fun d kv => d.set kv.1 kv.2) d

/-- `"name of " + description` of the parameter whose name has suffix `_name` — diffractometers.py:258-262 -/
def nameDesc (d : Dict Str) (k : Str) : Str := p!"name of " ++ (d.get? (k.take (k.length - 5))).getD []

/-- loop over the #G0 parameters: sets the sector and collects the mode names; an exception of
`int()` leaves the sector set so far — diffractometers.py:249-263 -/
def g0Loop (modes : List Str) : List (Str × PyFloat) → Option Int → List (Str × Str) →
    Option Int × Except PyErr (List (Str × Str))
  | [], sec, adds => (sec, .ok adds)
  | (k, v) :: r, sec, adds =>
    if startsWith k p!"g_sect" then
      match v.toInt with
      | .error e => (sec, .error e)
      | .ok i => g0Loop modes r (some i) adds
    else if startsWith k p!"g_mode" then
      match v.toInt with
      | .error e => (sec, .error e)
      | .ok i =>
        if 0 ≤ i ∧ i < modes.length then
          g0Loop modes r sec (adds ++ [(k ++ p!"_name", (modes[i.toNat]?).getD [])])
        else g0Loop modes r sec adds
    else g0Loop modes r sec adds

/-- the part of `parse` for #G0 — diffractometers.py:238-269 -/
def parseG0 (gonio : Geometry) (G : Dict Str) (d : Diff) : Res Diff :=
  match G.get? p!"G0" with
  | none => .ok d
  | some row =>
    Res.eval (mapE Py.float (splitWs row)) d fun g0 =>
      if g0.length = gonio.G.length then
        let D := zipDict gonio.G g0
        match g0Loop gonio.modes D d.sector [] with
        | (sec, .error e) => .raise { d with sector := sec } e
        | (sec, .ok adds) =>
          .ok { d with
            sector := sec
            mode := (adds.foldl (fun m a => if a.1 = p!"g_mode_name" then some a.2 else m) d.mode)
            gpar := adds.foldl (fun g a => g.set a.1 (.str a.2)) (updNum d.gpar D)
            gdesc := adds.foldl (fun g a => g.set a.1 (nameDesc g a.1)) (updDesc d.gdesc gonio.G gonio.Gd g0.length) }
      else .ok d

/-- `[U["g_" + k].value for k in ...]` -/
def uGet (U : Dict PyFloat) (k : Str) : Except PyErr PyFloat :=
  match U.get? k with
  | some x => .ok x
  | none => .error .KeyError

/-- lattice parameters — diffractometers.py:285-290 -/
def latticeOf (U : Dict PyFloat) : Except PyErr Lattice :=
  if U.has p!"g_cc" && U.has p!"g_al" && U.has p!"g_be" then do
    let a ← uGet U p!"g_aa"
    let b ← uGet U p!"g_bb"
    let c ← uGet U p!"g_cc"
    let al ← uGet U p!"g_al"
    let be ← uGet U p!"g_be"
    let ga ← uGet U p!"g_ga"
    return .three a b c al be ga
  else do
    let a ← uGet U p!"g_aa"
    let b ← uGet U p!"g_bb"
    let ga ← uGet U p!"g_ga"
    return .two a b ga

/-- angles of one reflection: motors paired with `g_u<ref><i>` — diffractometers.py:296-300 -/
def anglesOf (U : Dict PyFloat) (ref : Nat) (motors : List Str) : Dict PyFloat :=
  motors.zipIdx.foldl (fun d mi =>
    match U.get? (p!"g_u" ++ natStr ref ++ natStr mi.2) with
    | some x => d.set mi.1 x
    | none => d) []

/-- reflection `ref` with three indices — diffractometers.py:302-305 -/
def refl3 (U : Dict PyFloat) (ref : Nat) (angles : Dict PyFloat) : Except PyErr Reflection := do
  let h ← uGet U (p!"g_h" ++ natStr ref)
  let k ← uGet U (p!"g_k" ++ natStr ref)
  let l ← uGet U (p!"g_l" ++ natStr ref)
  let w ← uGet U (p!"g_lambda" ++ natStr ref)
  return .three h k l w angles

/-- the only reflection of twoc — diffractometers.py:309-312 -/
def refl2 (U : Dict PyFloat) (angles : Dict PyFloat) : Except PyErr Reflection := do
  let h ← uGet U p!"g_h0"
  let k ← uGet U p!"g_k0"
  let w ← uGet U p!"g_lambda"
  return .two h k w angles

/-- loop over the reflections — diffractometers.py:292-314 -/
def reflections (gonio : Geometry) (variant : Option Str) (U : Dict PyFloat) (d : Diff) :
    Res Diff :=
  match getVariant gonio variant with
  | none => .raise d .IndexError
  | some v =>
    if U.has p!"g_lambda" then
      Res.eval (refl2 U (anglesOf U 0 v.motors)) d fun r =>
        .ok { d with reflections := d.reflections ++ [r] }
    else
      Res.eval (refl3 U 0 (anglesOf U 0 v.motors)) d fun r0 =>
        let d := { d with reflections := d.reflections ++ [r0] }
        Res.eval (refl3 U 1 (anglesOf U 1 v.motors)) d fun r1 =>
          .ok { d with reflections := d.reflections ++ [r1] }

/-- the part of `parse` for #G1 — diffractometers.py:271-316 -/
def parseG1 (gonio : Geometry) (G : Dict Str) (d : Diff) : Res Diff :=
  match G.get? p!"G1" with
  | none => .ok d
  | some row =>
    Res.eval (mapE Py.float (splitWs row)) d fun g1 =>
      if g1.length > 1 then
        let U := zipDict (gonio.U.getD defaultU) g1
        Res.eval (latticeOf U) d fun l =>
          (reflections gonio d.variant U { d with lattice := some l }).andThen fun d =>
            .ok { d with gpar := updNum d.gpar U
                         gdesc := updDesc d.gdesc (gonio.U.getD defaultU) (gonio.Ud.getD defaultUd) g1.length }
      else .ok d

/-- the part of `parse` for #G3 — diffractometers.py:318-325 -/
def parseG3 (G : Dict Str) (d : Diff) : Res Diff :=
  match G.get? p!"G3" with
  | none => .ok d
  | some row =>
    Res.eval (mapE Py.float (splitWs row)) d fun g3 =>
      match g3 with
      | [a, b, c, e, f, g, h, i, j] =>
        let m := [[a, b, c], [e, f, g], [h, i, j]]
        .ok { d with gpar := d.gpar.set p!"ub_matrix" (.mat m), gdesc := d.gdesc.set p!"ub_matrix" p!"UB[] matrix", UB := some m }
      | _ => .ok d

/-- the part of `parse` for #G4 — diffractometers.py:327-339 -/
def parseG4 (gonio : Geometry) (G : Dict Str) (d : Diff) : Res Diff :=
  match G.get? p!"G4" with
  | none => .ok d
  | some row =>
    Res.eval (mapE Py.float (splitWs row)) d fun g4 =>
      if g4.length = gonio.Q.length then
        let Q := zipDict gonio.Q g4
        .ok { d with
          wavelength := (match Q.get? p!"LAMBDA" with | some w => some w | none => d.wavelength)
          gpar := updNum d.gpar Q
          gdesc := updDesc d.gdesc gonio.Q gonio.Qd g4.length }
      else .ok d

/-- `Diffractometer.parse(scan)` — diffractometers.py:230-339 -/
def Diff.parse (G : Dict Str) (d : Diff) : Res Diff :=
  match geoGet d.full with
  | none => .raise d .RuntimeError
  | some gonio =>
    (parseG0 gonio G d).andThen fun d =>
    (parseG1 gonio G d).andThen fun d =>
    (parseG3 G d).andThen fun d =>
    parseG4 gonio G d

/-- post-processing of #G lines: match, parse, and then attach the object to the scan
— plugins/spec_common.py:330-341 -/
def geoPost (s : DScan) : Except PyErr Diff :=
  match geoMatch s with
  | .error e => .error e
  | .ok n =>
    match (Diff.new n).parse (s.G.getD []) with
    | (d, none) => .ok d
    | (_, some e) => .error e

end S2N
