import Verif.Spec.Entry
/-
Vocabulary for the statements about the diffractometer and the temperature in an entry.
-/
namespace S2N.Spec
open S2N Py

/-- numbers as a dataset -/
def floatsData (l : List PyFloat) : HData := .nums ⟨l.map .flt, [l.length]⟩

/-- numbers with a unit -/
def inUnits (t : Str) : Dict AVal := [(p!"units", .str t)]

/-- the shape of a matrix -/
def matShape (rows : List (List PyFloat)) : List Nat :=
  match rows with
  | [] => [0]
  | r :: _ => [rows.length, r.length]

/-- a parameter of a diffractometer as a dataset: a text, a number or a matrix -/
def paramValue : GVal → HData
  | .str t => .text [ascii t]
  | .num f => floatsData [f]
  | .mat rows => .nums ⟨rows.flatten.map .flt, matShape rows⟩

/-- the description of a parameter, if there is one that is not empty -/
def describedBy (d : Diff) (k : Str) : Dict AVal :=
  if (d.gdesc.get? k).getD [] = [] then [] else [(p!"description", .str ((d.gdesc.get? k).getD []))]

/-- the group `instrument` of an entry: the name of the diffractometer and its parameters -/
structure DiffractometerAt (s : H5) (E : Str) (d : Diff) : Prop where
  name : datasetAt s [E, p!"instrument", p!"name"] = some (.text [ascii d.full], [])
  group : groupAt s [E, p!"instrument", p!"geometry_parameters"] = some [(p!"NX_class", .str p!"NXnote"),
    (p!"description", .str p!"SPEC geometry arrays, interpreted"), (p!"target", .str (p!"/" ++ E ++ p!"/instrument/diffractometer"))]
  linked : SameObject s [E, p!"instrument", p!"diffractometer"] [E, p!"instrument", p!"geometry_parameters"]
  names : childrenAt s [E, p!"instrument", p!"geometry_parameters"] = d.gpar.keys
  value : ∀ n t, (n, t) ∈ d.gpar →
    datasetAt s [E, p!"instrument", p!"geometry_parameters", n] = some (paramValue t, describedBy d n)

/-- the lattice constants in the group `p` -/
def LatticeAt (s : H5) (p : List Str) : Lattice → Prop
  | .three a b c al be ga =>
    datasetAt s (p ++ [p!"unit_cell_abc"]) = some (floatsData [a, b, c], inUnits p!"angstrom") ∧
    datasetAt s (p ++ [p!"unit_cell_alphabetagamma"]) = some (floatsData [al, be, ga], inUnits p!"degrees") ∧
    datasetAt s (p ++ [p!"unit_cell"]) = some (floatsData [a, b, c, al, be, ga], [])
  | .two a b ga =>
    datasetAt s (p ++ [p!"unit_cell_a"]) = some (floatsData [a], inUnits p!"angstrom") ∧
    datasetAt s (p ++ [p!"unit_cell_b"]) = some (floatsData [b], inUnits p!"angstrom") ∧
    datasetAt s (p ++ [p!"unit_cell_gamma"]) = some (floatsData [ga], inUnits p!"degrees")

/-- the names of its datasets -/
def latticeNames : Lattice → List Str
  | .three .. => [p!"unit_cell_abc", p!"unit_cell_alphabetagamma", p!"unit_cell"]
  | .two .. => [p!"unit_cell_a", p!"unit_cell_b", p!"unit_cell_gamma"]

/-- the group of the orientation reflection number `i` -/
def reflName (i : Nat) : Str := p!"or" ++ natStr i

/-- the Miller indices and the wavelength of a reflection in the group `p`; the other names in it are those of the angles -/
def IndicesAt (s : H5) (p : List Str) : Reflection → Prop
  | .three h k l wl an => isFloat s (p ++ [p!"h"]) h [] ∧ isFloat s (p ++ [p!"k"]) k [] ∧ isFloat s (p ++ [p!"l"]) l [] ∧
    isFloat s (p ++ [p!"wavelength"]) wl (inUnits p!"Angstrom") ∧ childrenAt s p = [p!"h", p!"k", p!"l", p!"wavelength"] ++ an.keys
  | .two h k wl an => isFloat s (p ++ [p!"h"]) h [] ∧ isFloat s (p ++ [p!"k"]) k [] ∧
    isFloat s (p ++ [p!"wavelength"]) wl (inUnits p!"Angstrom") ∧ childrenAt s p = [p!"h", p!"k", p!"wavelength"] ++ an.keys

/-- the orientation reflection `r`, number `i`, in the group `sample` -/
structure ReflectionAt (s : H5) (E : Str) (i : Nat) (r : Reflection) : Prop where
  group : groupAt s [E, p!"sample", reflName i] =
    some [(p!"NX_class", .str p!"NXnote"), (p!"description", .str (reflName i ++ p!": orientation reflection"))]
  indices : IndicesAt s [E, p!"sample", reflName i] r
  angle : ∀ n a, (n, a) ∈ angles r → isFloat s [E, p!"sample", reflName i, n] a
    [(p!"units", .str p!"degrees"), (p!"description", .str p!"diffractometer angle")]

/-- the wavelength in the groups `instrument` and `sample` -/
structure WavelengthAt (s : H5) (E : Str) (wl : PyFloat) : Prop where
  mono : groupAt s [E, p!"instrument", p!"monochromator"] = some [(p!"NX_class", .str p!"NXmonochromator")] ∧
    childrenAt s [E, p!"instrument", p!"monochromator"] = [p!"wavelength"]
  value : isFloat s [E, p!"instrument", p!"monochromator", p!"wavelength"] wl [(p!"units", .str p!"angstrom"),
    (p!"target", .str (p!"/" ++ E ++ p!"/instrument/monochromator/wavelength"))]
  beam : groupAt s [E, p!"sample", p!"beam"] = some [(p!"NX_class", .str p!"NXbeam")] ∧
    childrenAt s [E, p!"sample", p!"beam"] = [p!"incident_wavelength"]
  linked : SameObject s [E, p!"sample", p!"beam", p!"incident_wavelength"] [E, p!"instrument", p!"monochromator", p!"wavelength"]

/-- the names in the group `sample`, apart from that of the temperature -/
def sampleNames (d : Diff) : List Str :=
  (match d.lattice with | none => [] | some l => latticeNames l) ++
  (if d.gpar.get? p!"ub_matrix" = none then [] else [p!"ub_matrix"]) ++
  (if d.mode = none then [] else [p!"diffractometer_mode"]) ++
  (if d.sector = none then [] else [p!"diffractometer_sector"]) ++
  (List.range d.reflections.length).map reflName ++
  (if d.wavelength = none then [] else [p!"beam"])

/-- the group `sample` of an entry: the lattice, the orientation matrix, mode and sector of the diffractometer and the
orientation reflections, and nothing else; `more`: there is also the group of the temperature -/
structure SampleAt (s : H5) (E : Str) (d : Diff) (more : Bool) : Prop where
  group : groupAt s [E, p!"sample"] = some [(p!"NX_class", .str p!"NXsample")]
  names : childrenAt s [E, p!"sample"] = sampleNames d ++ (if more then [p!"temperature"] else [])
  lattice : ∀ l, d.lattice = some l → LatticeAt s [E, p!"sample"] l
  matrix : ∀ m, d.gpar.get? p!"ub_matrix" = some m → datasetAt s [E, p!"sample", p!"ub_matrix"] = some (paramValue m, [])
  mode : ∀ m, d.mode = some m → datasetAt s [E, p!"sample", p!"diffractometer_mode"] = some (.text [ascii m], [])
  sector : ∀ i, d.sector = some i → isInt s [E, p!"sample", p!"diffractometer_sector"] i
  reflections : ∀ (i : Nat) (r : Reflection), d.reflections[i]? = some r → ReflectionAt s E i r

/-- a set point as a dataset: a text, an integer or a float -/
def setPoint : SVal → HData
  | .str t => .text [ascii t]
  | .int i => .nums ⟨[.int i], [1]⟩
  | .flt f => .nums ⟨[.flt f], [1]⟩

/-- the attribute by which a set point refers to the dataset `n` of the group of the temperature -/
def toTemperature (E n : Str) : Dict AVal := [(p!"target", .str (p!"/" ++ E ++ p!"/sample/temperature/" ++ n))]

/-- the set points of the temperature in an entry, which are also in the group `sample` -/
structure TemperatureAt (s : H5) (E : Str) (t c : Option SVal) : Prop where
  temp : ∀ x, t = some x → datasetAt s [E, p!"TEMP_SP"] =
      some (setPoint x, (p!"description", .str p!"temperature set point") :: toTemperature E p!"target_value") ∧
    SameObject s [E, p!"sample", p!"temperature", p!"target_value"] [E, p!"TEMP_SP"]
  degc : ∀ x, c = some x → datasetAt s [E, p!"DEGC_SP"] =
      some (setPoint x, (p!"units", .str p!"C") :: (p!"description", .str p!"temperature set point (C)") :: toTemperature E p!"value") ∧
    SameObject s [E, p!"sample", p!"temperature", p!"value"] [E, p!"DEGC_SP"]
  noTemp : t = none → objAt s [E, p!"TEMP_SP"] = none
  noDegc : c = none → objAt s [E, p!"DEGC_SP"] = none
  group : t ≠ none ∨ c ≠ none → groupAt s [E, p!"sample", p!"temperature"] = some [(p!"NX_class", .str p!"NXlog")] ∧
    childrenAt s [E, p!"sample", p!"temperature"] =
      (if t = none then [] else [p!"target_value"]) ++ (if c = none then [] else [p!"value"])
  noGroup : t = none → c = none → objAt s [E, p!"sample", p!"temperature"] = none

end S2N.Spec
