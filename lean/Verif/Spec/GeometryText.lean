import Verif.Spec.Geometry
import Verif.Spec.Headers
import Verif.Spec.Sample
/-
Vocabulary for the properties of the diffractometer from the text of a SPEC data file to the NeXus file.
-/
namespace S2N.Spec
open S2N S2N.Py

section
variable [UniDB]

/-- the last #G line of a scan with the name `n`, as G0 -/
def gLine (n text : Str) : Option Str := ((ofKind .G (scanLines text)).filter (fun l => gName l == n)).getLast?

/-- the last #G line with the name `n` has the numbers `xs` -/
def GNumbers (n text : Str) (xs : List PyFloat) : Prop :=
  ∃ l, gLine n text = some l ∧ List.Forall₂ (fun w x => parseFloat w = some x) (wordsOf l) xs

/-- the first comment of the header names the geometry, as the standard macros of SPEC write it: `fourc  User = name` -/
def States (head : Str) (n : Str) : Prop :=
  ∃ c cs u v, hTexts .C head = c :: cs ∧ splitWs c = [n, p!"User", u, v]

/-- the motors by the names of the catalog: the mnemonics of the header's #o lines; without such lines, the names of the #O lines -/
def motorsOf (head : Str) : List Str :=
  if hOfKind .o (splitlines head) = [] then (namesTable (hOfKind .O (splitlines head))).flatten.map (fun k => catalogName (lower k))
  else (wordTable .o (splitlines head)).flatten.map catalogName

/-- A variant of the catalog suits the scan: there are as many numbers on its #G0 line as the geometry has, as many on its #G4 line
(if there is one), and the first motors of the header are those of the variant. -/
structure Suits (head text : Str) (p : Geometry × Variation) : Prop where
  G0 : (match gLine p!"G0" text with | none => 0 | some l => valueCount (stripFirstWord l)) = p.1.G.length
  G4 : ∀ l, gLine p!"G4" text = some l → valueCount (stripFirstWord l) = p.1.Q.length
  motors : p.2.motors <+: motorsOf head

/-- The diffractometer of a scan, its name and its geometry: the one that the header states; else the first variant of the catalog
that suits; else the geometry `spec`. -/
inductive GeometryIs (head text : Str) : Str → Geometry → Prop
  | stated (g : Geometry) : g ∈ geoDb → States head g.name → GeometryIs head text (g.name ++ p!".default") g
  | found (g : Geometry) (v : Variation) (pre post : List (Geometry × Variation)) : (∀ g' ∈ geoDb, ¬ States head g'.name) →
    variants = pre ++ (g, v) :: post → Suits head text (g, v) → (∀ p ∈ pre, ¬ Suits head text p) → GeometryIs head text (g.name ++ '.' :: v.name) g
  | unknown (g : Geometry) : (∀ g' ∈ geoDb, ¬ States head g'.name) → (∀ p ∈ variants, ¬ Suits head text p) → geoDb.head? = some g →
    GeometryIs head text g.name g

/-- the attributes of a parameter with the description `t` of the catalog -/
def described (t : Str) : Dict AVal := if t = [] then [] else [(p!"description", .str t)]

/-- a parameter of the diffractometer with one number, described as in the catalog -/
def NumberAt (s : H5) (E : Str) (g : Geometry) (k : Str) (x : PyFloat) : Prop :=
  ∃ t, Described g k t ∧ datasetAt s [E, p!"instrument", p!"geometry_parameters", k] = some (floatsData [x], described t)

/-- The diffractometer `n` of the geometry `g` in an entry is what the #G lines of the text say:  the numbers of #G0, #G1 and #G4 are
the parameters that the catalog has at these places, that of #G3 the orientation matrix, and those of #G1 the unit cell and the
orientation reflections. -/
structure FromText (s : H5) (E text n : Str) (g : Geometry) : Prop where
  name : datasetAt s [E, p!"instrument", p!"name"] = some (.text [ascii n], [])
  sample : ∀ xs, GNumbers p!"G1" text xs → 1 < xs.length → groupAt s [E, p!"sample"] = some [(p!"NX_class", .str p!"NXsample")]
  G0 : ∀ xs, GNumbers p!"G0" text xs → xs.length = g.G.length → ∀ (i : Nat) k x, g.G[i]? = some k → xs[i]? = some x →
    (gLine p!"G1" text = none ∨ k ∉ g.U.getD defaultU) → NumberAt s E g k x
  G1 : ∀ xs, GNumbers p!"G1" text xs → 1 < xs.length → ∀ (i : Nat) k x, (g.U.getD defaultU)[i]? = some k → xs[i]? = some x → NumberAt s E g k x
  G4 : ∀ xs, GNumbers p!"G4" text xs → xs.length = g.Q.length → ∀ (i : Nat) k x, g.Q[i]? = some k → xs[i]? = some x →
    NumberAt s E g k x ∧ (k = p!"LAMBDA" → WavelengthAt s E x)
  noWavelength : (∀ xs, GNumbers p!"G4" text xs → xs.length ≠ g.Q.length) → objAt s [E, p!"instrument", p!"monochromator"] = none
  matrix : ∀ xs, GNumbers p!"G3" text xs → xs.length = 9 →
    datasetAt s [E, p!"sample", p!"ub_matrix"] = some (.nums ⟨xs.map .flt, [3, 3]⟩, []) ∧
    ∃ t, Described g p!"ub_matrix" t ∧
      datasetAt s [E, p!"instrument", p!"geometry_parameters", p!"ub_matrix"] = some (.nums ⟨xs.map .flt, [3, 3]⟩, described t)
  cell : g.U = none → ∀ xs, GNumbers p!"G1" text xs → 1 < xs.length →
    ∃ a b c al be ga h0 k0 l0 w0 h1 k1 l1 w1 v, VariantOf g n v ∧ xs.take 6 = [a, b, c, al, be, ga] ∧
      LatticeAt s [E, p!"sample"] (.three a b c al be ga) ∧
      xs[12]? = some h0 ∧ xs[13]? = some k0 ∧ xs[14]? = some l0 ∧ xs[30]? = some w0 ∧
      xs[15]? = some h1 ∧ xs[16]? = some k1 ∧ xs[17]? = some l1 ∧ xs[31]? = some w1 ∧
      ReflectionAt s E 0 (.three h0 k0 l0 w0 (atPlaces [18, 19, 20, 21, 22, 23, 32] v.motors xs)) ∧
      ReflectionAt s E 1 (.three h1 k1 l1 w1 (atPlaces [24, 25, 26, 27, 28, 29, 33] v.motors xs))
  plane : g.U ≠ none → ∀ xs, GNumbers p!"G1" text xs → 1 < xs.length →
    ∃ a b ga h0 k0 w0 v, VariantOf g n v ∧ xs.take 3 = [a, b, ga] ∧ LatticeAt s [E, p!"sample"] (.two a b ga) ∧
      xs[6]? = some h0 ∧ xs[7]? = some k0 ∧ xs[10]? = some w0 ∧ ReflectionAt s E 0 (.two h0 k0 w0 (atPlaces [8, 9] v.motors xs))
  mode : ∀ xs, GNumbers p!"G0" text xs → xs.length = g.G.length → ∀ (i : Nat) x, g.G[i]? = some p!"g_mode" → xs[i]? = some x →
    ∀ (j : Nat) t, x.toInt = .ok (j : Int) → g.modes[j]? = some t →
      datasetAt s [E, p!"sample", p!"diffractometer_mode"] = some (.text [ascii t], [])
  sector : ∀ xs, GNumbers p!"G0" text xs → xs.length = g.G.length → ∀ (i : Nat) x, g.G[i]? = some p!"g_sect" → xs[i]? = some x →
    ∃ j, x.toInt = .ok j ∧ isInt s [E, p!"sample", p!"diffractometer_sector"] j

end
end S2N.Spec
