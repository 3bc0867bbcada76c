import Verif.Lemmas.SpecFile
/-
The latest scan of a file that is being read.
-/
namespace S2N.Props
open S2N S2N.Py S2N.Spec

theorem set_getD_self {α : Type} (l : List α) (i : Nat) (d : α) : l.set i (l.getD i d) = l := by
  by_cases h : i < l.length
  · simp [List.getD_eq_getElem?_getD, h]
  · exact List.set_eq_of_length_le (by omega)

theorem putLatest_self (s : Sdf) (name : Str) (x : Obj) (h : s.latest = some (name, x)) : s.putLatest name ⟨x, s.headerOf x⟩ = s := by
  have e : s.scans.dropLast ++ [(name, x)] = s.scans := by
    unfold Sdf.latest at h
    exact List.dropLast_append_getLast? _ h
  unfold Sdf.putLatest Sdf.headerOf
  simp only [e, set_getD_self]

end S2N.Props
