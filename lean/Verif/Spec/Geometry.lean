import Verif.Model.Diffractometers
/-
Vocabulary for the statements about the catalog of diffractometers.
-/
namespace S2N.Spec
open S2N Py

/-- the number of values of a #G row: a single 0 stands for none -/
def valueCount (row : Str) : Nat := if splitWs row = [p!"0"] then 0 else (splitWs row).length

/-- the names that the catalog uses for some motors -/
def catalogName (k : Str) : Str :=
  if k ∈ [p!"2-theta", p!"two theta"] ∨ p!"tth" <:+ k then p!"tth"
  else ((Dict.get? [(p!"theta", p!"th"), (p!"delta", p!"del"), (p!"gamma", p!"gam")] k).getD k)

/-- `t` is the description of the parameter `k` of the geometry `g` in the catalog -/
inductive Described (g : Geometry) : Str → Str → Prop
  | full : Described g p!"diffractometer_full" p!"name of diffractometer (and variant), deduced from scan information"
  | simple : Described g p!"diffractometer_simple" p!"name of diffractometer, deduced from scan information"
  | variant : Described g p!"diffractometer_variant" p!"name of diffractometer variant, deduced from scan information"
  | G (i : Nat) {k t : Str} : g.G[i]? = some k → g.Gd[i]? = some t → Described g k t
  | mode (i : Nat) {k t : Str} : g.G[i]? = some k → g.Gd[i]? = some t → Described g (k ++ p!"_name") (p!"name of " ++ t)
  | U (i : Nat) {k t : Str} : (g.U.getD defaultU)[i]? = some k → (g.Ud.getD defaultUd)[i]? = some t → Described g k t
  | UB : Described g p!"ub_matrix" p!"UB[] matrix"
  | Q (i : Nat) {k t : Str} : g.Q[i]? = some k → g.Qd[i]? = some t → Described g k t

/-- the variants of all geometries, in the order of the catalog -/
def variants : List (Geometry × Variation) := geoDb.flatMap (fun g => g.variations.map (fun v => (g, v)))

/-- the variant of the geometry `g` that the name `n` says; if it says none, the first one -/
def VariantOf (g : Geometry) (n : Str) (v : Variation) : Prop :=
  (v ∈ g.variations ∧ n = g.name ++ '.' :: v.name) ∨
    ((∀ w ∈ g.variations, n ≠ g.name ++ '.' :: w.name) ∧ g.variations.head? = some v)

/-- the motors with the numbers at these places, as far as there are any -/
def atPlaces (places : List Nat) (motors : List Str) (xs : List PyFloat) : Dict PyFloat :=
  (motors.zip places).filterMap (fun mp => (xs[mp.2]?).map (fun x => (mp.1, x)))

end S2N.Spec
