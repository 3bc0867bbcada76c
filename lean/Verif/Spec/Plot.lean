import Verif.Model.Plot
import Verif.Spec.Save
import Verif.Spec.Utils
/-
Vocabulary for the properties of plots.
-/
namespace S2N.Spec
open S2N S2N.Py S2N.Plot

/-- the rule for a macro without a registered image maker: hklscan has its own image maker, names that
end in "scan" (in small or capital letters) are plotted as lines, names that end in "mesh" as meshes,
and all other names with the default image maker -/
structure Ruled (m : Str) (default v : Maker) : Prop where
  hkl : m = p!"hklscan" → v = .hkl
  scan : m ≠ p!"hklscan" → (∃ a, lower m = a ++ p!"scan") → v = .line
  mesh : (∃ a, lower m = a ++ p!"mesh") → v = .mesh
  other : (¬ ∃ a, lower m = a ++ p!"scan") → (¬ ∃ a, lower m = a ++ p!"mesh") → v = default

/-- this use of the selector can change what is registered under the name `k` -/
def Changes (k : Str) : Use → Prop
  | .call => False
  | .auto _ => False
  | .add _ _ d => d = true ∧ k = p!"__default__"
  | .update key _ d => key = k ∨ (d = true ∧ k = p!"__default__")

/-- the selector that the program has after these uses -/
def selectorAfter (uses : List Use) : Selector := instanceOf (after uses)

/-- the values in the column `i` of a table -/
def columnOf (rows : List (List PyFloat)) (i : Nat) : PVal := .col (.col (rows.map (fun r => r.getD i .nan)))

/-- the texts on a line plot of the scan `x` of a file, with these titles of the axes; no logarithmic
axes -/
def lineTexts (dataFile : Str) (x : Obj) (xTitle yTitle : Str) : Settings where
  title := some dataFile
  subtitle := some (p!"#" ++ x.scanNum ++ p!": " ++ x.scanCmd)
  xTitle := some xTitle
  yTitle := some yTitle
  xLog := some false
  yLog := some false
  zLog := some false
  timestamp := some x.date

/-- the table has a column with this name, and it holds two different values -/
def Moves (names : List Str) (rows : List (List PyFloat)) (axis : Str) : Prop :=
  axis ∈ names ∧ ∃ r ∈ rows, ∃ r' ∈ rows, r.getD (names.idxOf axis) .nan ≠ r'.getD (names.idxOf axis) .nan

/-- the value of the observation `q` in the column `l`; NaN if there are not so many observations -/
def observed (names : List Str) (rows : List (List PyFloat)) (l : Str) (q : Nat) : PyFloat :=
  match rows[q]? with
  | some r => r.getD (names.idxOf l) .nan
  | none => .nan

/-- the element `[j][i]` of a two-dimensional image -/
def pixel (a : NdArray Num) (j i : Nat) : Option Num :=
  match offset a.shape [j, i] with
  | some k => a.flat[k]?
  | none => none

/-- the column that a word of the command names: the column with this name, or else the column at the
position `i` -/
def NamedColumn (names : List Str) (w : Str) (i : Nat) (l : Str) : Prop :=
  (w ∈ names ∧ l = w) ∨ (w ∉ names ∧ names[i]? = some l)

/-- the texts on a mesh plot of the scan `x` -/
def meshTexts (dataFile : Str) (x : Obj) (l1 l2 signal line1 : Str) : Settings where
  title := some dataFile
  subtitle := some (signal ++ p!",  " ++ line1)
  xTitle := some l1
  yTitle := some l2
  xLog := some false
  yLog := some false
  zLog := some false
  timestamp := some x.date

end S2N.Spec
