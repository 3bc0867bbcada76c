import Verif.Model.Charts
import Verif.Spec.Plot
/-
What a picture shows, in words of its reader (C104).
-/
namespace S2N.Spec
open S2N.Charts

/-- the pixel at the position `i` reaches from `lo` to `hi` -/
def Spans (edges : List PyFloat) (i : Nat) (lo hi : Rat) : Prop :=
  edges[i]? = some (.fin lo) ∧ edges[i + 1]? = some (.fin hi)

/-- neighbours of the axis differ by `d` -/
def Equidistant (vs : List Rat) (d : Rat) : Prop :=
  ∀ i a b, vs[i]? = some a → vs[i + 1]? = some b → b = a + d

/-- `p` is the smallest positive finite value of the image -/
def SmallestPositive (vals : List PyFloat) (p : Rat) : Prop :=
  0 < p ∧ .fin p ∈ vals ∧ ∀ q, 0 < q → .fin q ∈ vals → p ≤ q

/-- `p` is the largest positive finite value of the image -/
def LargestPositive (vals : List PyFloat) (p : Rat) : Prop :=
  0 < p ∧ .fin p ∈ vals ∧ ∀ q, 0 < q → .fin q ∈ vals → q ≤ p

/-- a value that is zero or negative -/
def NonPositive (v : PyFloat) : Prop := v = .inf true ∨ ∃ q, v = .fin q ∧ q ≤ 0

/-- a function that behaves like the logarithm: larger arguments give larger values -/
def LikeLog (ln : Rat → Rat) : Prop := ∀ a b, 0 < a → a < b → ln a < ln b

/-- the drawing of a mesh with `n1` intervals on the first axis (the column `l1`) and the second axis `l2`, of the column `last` of a
table: the boundaries of the columns are those of the first `n1 + 1` values of the first axis, the boundaries of the rows those of
every `n1 + 1`-th value of the second axis; each observation with a positive finite value is shown in its pixel; an observation
that is zero or negative is shown as the smallest positive one if every pixel has an observation and none is NaN, and is not shown
if a pixel has no observation -/
def MeshDrawing (names : List Str) (rows : List (List PyFloat)) (l1 l2 last : Str) (n1 : Nat) (d : Drawing) : Prop :=
  ∃ xs ys ex ey vals, d = .pixels ex ey vals ∧
    boundaries xs = .ok ex ∧ xs.length = n1 + 1 ∧ (∀ i, i < n1 + 1 → xs[i]? = some (observed names rows l1 i)) ∧
    boundaries ys = .ok ey ∧ (∀ j : Nat, j < ys.length ↔ j * (n1 + 1) < rows.length) ∧
    (∀ j, j < ys.length → ys[j]? = some (observed names rows l2 (j * (n1 + 1)))) ∧
    vals.length = ys.length * (n1 + 1) ∧
    ∀ k, k < rows.length →
      (∀ q, 0 < q → observed names rows last k = .fin q → vals[k]? = some (some q)) ∧
      (NonPositive (observed names rows last k) → (∀ k', k' < ys.length * (n1 + 1) → observed names rows last k' ≠ .nan) →
        ∀ p, (0 < p ∧ (∃ k', k' < rows.length ∧ observed names rows last k' = .fin p) ∧
            ∀ k' q, k' < rows.length → observed names rows last k' = .fin q → 0 < q → p ≤ q) → vals[k]? = some (some p)) ∧
      (NonPositive (observed names rows last k) → rows.length < ys.length * (n1 + 1) → vals[k]? = some none)

end S2N.Spec
