import Verif.Spec.Save
import Verif.Spec.H5
import Verif.Model.Writer
/-
What may have been done with an open data file.
-/
namespace S2N.Spec
open S2N Py

section
variable [UniDB]

/-- The file was opened as `s`; then attributes of scans were read, and scans were saved to NeXus files, in any order, with or without
an exception; now the object is `t`.  The scans that were used can be interpreted, and no mesh was saved. -/
inductive History (env : Env) (reg : List HKey) (s : Sdf) : Sdf → Prop
  | opened : History env reg s s
  | read {t : Sdf} (n attr : Str) (h : History env reg s t)
      (hn : ∀ x, s.scans.get? n = some x → (interpretScan env reg ⟨x, s.headerOf x⟩).2 = none) :
      History env reg s (t.access env reg n attr).1
  | saved {t : Sdf} (v : Writer.Versions) (ks : List Ref) (h : History env reg s t)
      (hk : ∀ k ∈ ks, ∀ x, s.getScan k = .ok (some x) →
        (interpretScan env reg ⟨x, s.headerOf x⟩).2 = none ∧ NotBy x meshMacros) :
      History env reg s (Writer.save env reg v ks t).1.sdf

end
end S2N.Spec
