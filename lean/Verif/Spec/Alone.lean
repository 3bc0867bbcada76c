import Verif.Spec.Save
import Verif.Spec.H5
/-
The entry of a scan in two NeXus files.
-/
namespace S2N.Spec
open S2N Py

/-- The group `E` is the same in the two files: at every path below it there is the same dataset, or a group with the same
attributes and the same names in it, or nothing; and two paths lead to one object in one of the files, if they do in the other. -/
structure SameEntry (E : Str) (f g : H5) : Prop where
  datasets : ∀ path, datasetAt f (E :: path) = datasetAt g (E :: path)
  groups : ∀ path, groupAt f (E :: path) = groupAt g (E :: path)
  children : ∀ path, childrenAt f (E :: path) = childrenAt g (E :: path)
  links : ∀ p q, H5.walk f 0 (E :: p) = H5.walk f 0 (E :: q) ↔ H5.walk g 0 (E :: p) = H5.walk g 0 (E :: q)

section
variable [UniDB]

/-- What the scan `x` says does not depend on what was read of the others, nor theirs on what was read of it: it has no #O
lines (they are kept in the header, for all scans below it), and the header has a date.  If it is a mesh, no label of its columns starts with "/". -/
structure OnItsOwn (env : Env) (reg : List HKey) (s : Sdf) (x : Obj) : Prop where
  names : ofKind .O (scanLines x.raw) = []
  dated : strip (s.headerOf x).date ≠ []
  labels : (∃ m ∈ meshMacros, macroOf x = some m) → ∀ l ∈ (interpretScan env reg ⟨x, s.headerOf x⟩).1.scan.L.getD [], Relative l

/-- the scans of the list are on their own, and no mesh is twice in it, with different names -/
structure Independent (env : Env) (reg : List HKey) (s : Sdf) (ks : List Ref) : Prop where
  own : ∀ k ∈ ks, ∀ x, s.getScan k = .ok (some x) → OnItsOwn env reg s x
  once : ks.Pairwise fun k k' => ∀ x, s.getScan k = .ok (some x) → s.getScan k' = .ok (some x) → NotBy x meshMacros

end
end S2N.Spec
