import Verif.Spec.Save
import Verif.Spec.H5
/-
What a conversion that raised leaves in the NeXus file.
-/
namespace S2N.Spec
open S2N Py

/-- The file `after`, left behind when the conversion stopped at scan `k`, against the file `before` that has all the
scans before `k`: the attributes of the root are the same; no entry is missing and at most the entry of `k` is more;
and every object in the other entries is the same, with its attributes, contents and links. -/
structure LeftBehind (k : Ref) (before after : H5) : Prop where
  attrs : groupAt after [] = groupAt before []
  entries : childrenAt after [] = childrenAt before [] ∨
    (entryName k ∉ childrenAt before [] ∧ childrenAt after [] = childrenAt before [] ++ [entryName k])
  others : ∀ n path, n ≠ entryName k ∨ n ∈ childrenAt before [] → objAt after (n :: path) = objAt before (n :: path)

end S2N.Spec
