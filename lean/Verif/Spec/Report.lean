import Verif.Model.DiffPrint
import Verif.Spec.GeometryText
/-
Vocabulary for the properties of the reports on a diffractometer.
-/
namespace S2N.Spec
open S2N S2N.Py

/-- the Miller indices that a geometry has among its #G4 numbers, which they are the first of -/
def millerNames (g : Geometry) : List Str :=
  if g.name = p!"spec" ∨ g.name = p!"oscam" then [] else if g.name = p!"twoc_old" then [p!"h", p!"k"] else [p!"h", p!"k", p!"l"]

/-- the angles that are reported, and their names in the catalog -/
def angleNames : List (Str × Str) := [(p!"alpha", p!"ALPHA"), (p!"beta", p!"BETA"), (p!"azimuth", p!"AZIMUTH"), (p!"omega", p!"OMEGA")]

/-- the number of a #G4 line `xs` at the place of the parameter `k` in the catalog -/
def qNumber (g : Geometry) (xs : List PyFloat) (k : Str) : Option PyFloat := Dict.get? (g.Q.zip xs) k

/-- a value, or None -/
def shown {α : Type} (f : α → Str) (o : Option α) : Str := (o.map f).getD p!"None"

/-- `name(a=1, b=2)` -/
def asTuple (name : Str) (items : List (Str × Str)) : Str :=
  name ++ p!"(" ++ join p!", " (items.map (fun kv => kv.1 ++ p!"=" ++ kv.2)) ++ p!")"

section
variable (T : Texts)

/-- the text of a unit cell -/
def latticeText : Lattice → Str
  | .three a b c al be ga => asTuple p!"LatticeParameters3D"
    ([p!"a", p!"b", p!"c", p!"alpha", p!"beta", p!"gamma"].zip ([a, b, c, al, be, ga].map T.float))
  | .two a b ga => asTuple p!"LatticeParameters2D" ([p!"a", p!"b", p!"gamma"].zip ([a, b, ga].map T.float))

/-- the text of an orientation reflection -/
def reflectionText : Reflection → Str
  | .three h k l w an => asTuple p!"Reflections3D"
    ([p!"h", p!"k", p!"l", p!"wavelength"].zip ([h, k, l, w].map T.float) ++ [(p!"angles", T.angles an)])
  | .two h k w an => asTuple p!"Reflections2D" ([p!"h", p!"k", p!"wavelength"].zip ([h, k, w].map T.float) ++ [(p!"angles", T.angles an)])

/-- name, wavelength, mode and sector -/
def basicItems (g : Geometry) (d : Diff) (xs : List PyFloat) : List (Str × Str) :=
  [(p!"geometry", p!"'" ++ g.name ++ p!"'"), (p!"wavelength", shown T.float (qNumber g xs p!"LAMBDA")),
    (p!"mode", p!"'" ++ shown id d.mode ++ p!"'"), (p!"sector", shown intStr d.sector)]

/-- the Miller indices: the first numbers of the #G4 line -/
def millerItems (g : Geometry) (xs : List PyFloat) : List (Str × Str) := (millerNames g).zip (xs.map T.float)

/-- the angles among the numbers of the #G4 line -/
def angleItems (g : Geometry) (xs : List PyFloat) (names : List (Str × Str)) : List (Str × Str) :=
  names.filterMap (fun n => (qNumber g xs n.2).map (fun x => (n.1, T.float x)))

/-- `str(diffractometer)` -/
def strText (g : Geometry) (d : Diff) (xs : List PyFloat) : Str :=
  asTuple p!"Diffractometer" (basicItems T g d xs ++ millerItems T g xs)

/-- items of one line -/
def row (items : List (Str × Str)) : Str := join p!"  " (items.map (fun kv => kv.1 ++ p!"=" ++ kv.2))

/-- the lines of `print_brief` -/
def briefLines (g : Geometry) (xs : List PyFloat) (positions : List (Str × PyFloat)) : List Str :=
  [g.name] ++
  (if millerNames g = [] then []
    else [join p!" " (millerNames g) ++ p!" = " ++ join p!"  " ((xs.take (millerNames g).length).map T.float)]) ++
  [row (angleItems T g xs (angleNames.take 3)),
    row (angleItems T g xs (angleNames.drop 3) ++ [(p!"wavelength", shown T.float (qNumber g xs p!"LAMBDA"))])] ++
  (positions.take g.numgeo).map (fun kv => kv.1 ++ p!" = " ++ T.float kv.2)

/-- what `print_all` tells, with repetitions: a motor may have the name of another item -/
def allItems (g : Geometry) (n : Str) (d : Diff) (xs : List PyFloat) (m : List (List PyFloat)) (file number command : Str) (date : Option Str)
    (positions : List (Str × PyFloat)) : List (Str × Str) :=
  [(p!"SPEC file", file), (p!"scan #", number), (p!"SPEC scanCmd", command)] ++ (date.map (fun t => (p!"date", t))).toList ++
  basicItems T g d xs ++ millerItems T g xs ++ [(p!"lattice", shown (latticeText T) d.lattice)] ++ angleItems T g xs angleNames ++
  [(p!"full_geometry_name", p!"'" ++ n ++ p!"'"), (p!"UB", T.matrix m)] ++
  d.reflections.zipIdx.map (fun r => (p!"reflection " ++ natStr (r.2 + 1), reflectionText T r.1)) ++
  (positions.take g.numgeo).map (fun kv => (kv.1, T.float kv.2))

end

/-- the numbers of the last #G4 line of a scan, if it has as many as the geometry -/
def G4Numbers [UniDB] (text : Str) (g : Geometry) (xs : List PyFloat) : Prop :=
  (GNumbers p!"G4" text xs ∧ xs.length = g.Q.length) ∨ (xs = [] ∧ ∀ ys, GNumbers p!"G4" text ys → ys.length ≠ g.Q.length)

/-- the date that is told: that of the scan's time, if it has one -/
def DateIs (T : Texts) (epoch : Option Num) (date : Option Str) : Prop :=
  (epoch = none ∧ date = none) ∨ ∃ e t, epoch = some e ∧ T.date e = .ok t ∧ date = some t

/-- `t` is the text `k` in the middle of `w` columns, the odd blank to its right -/
def Middle (w : Nat) (k t : Str) : Prop :=
  ∃ a b, t = List.replicate a ' ' ++ k ++ List.replicate b ' ' ∧ t.length = w ∧ (b = a ∨ b = a + 1)

/-- the lines of a report: each item on a line, its name in a column as wide as the longest name -/
structure Aligned (D : Dict Str) (text : Str) : Prop where
  lines : ∃ w ls, text = join p!"\n" ls ∧ (∀ k ∈ D.keys, k.length ≤ w) ∧ (∃ k ∈ D.keys, k.length = w) ∧
    List.Forall₂ (fun (kv : Str × Str) l => ∃ t, Middle w kv.1 t ∧ l = t ++ p!" = " ++ kv.2) D ls

end S2N.Spec
