import Verif.Model.H5
/-
Model of `read_nexus_field(parent, name, astype=float)` — eznx.py:221-251.  Of the types that can be
given as `astype`, `float` is modelled.
-/
namespace S2N.Eznx
open Py H5

/-- the numbers of texts; ValueError if one is no number -/
def floats : List Str → Except PyErr (List Num)
  | [] => .ok []
  | w :: ws =>
    match parseFloat w with
    | none => .error .ValueError
    | some x =>
      match floats ws with
      | .error e => .error e
      | .ok l => .ok (.flt x :: l)

/-- `dataset[...].astype(float)` for more than one value, `float(v)` for one; None (no such
dataset) has been returned before — eznx.py:229-251.  numpy reads the number in a byte string as
`float` does (simplification: underscores between digits and non-ASCII digits). -/
def asFloat : Field → Except PyErr Field
  | .none => .ok .none
  | .str s =>
    match parseFloat s with
    | some x => .ok (.num (.flt x))
    | none => .error .ValueError
  | .num n => .ok (.num (.flt n.toFlt))
  | .bytes l =>
    match floats l with
    | .ok l => .ok (.nums l)
    | .error e => .error e
  | .nums l => .ok (.nums (l.map fun n => .flt n.toFlt))

/-- `read_nexus_field(parent, dataset_name, astype=float)` — eznx.py:221-251 -/
def readNexusFieldFloat (h : HRef) (name : Str) : HM Field :=
  HM.andThen (readNexusField h name) fun f => HM.lift (asFloat f)

end S2N.Eznx
