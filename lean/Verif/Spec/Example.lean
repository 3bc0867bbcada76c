import Verif.Spec.H5
import Verif.Model.Example
/-
Vocabulary for the statements about eznx_example.py.
-/
namespace S2N.Spec
open S2N Py

/-- the lines of the text, without blank ones at its ends, as words -/
def tableLines (text : Str) : List (List Str) := (splitlines (strip text)).map splitWs

/-- each line has exactly two words: the numbers of its row -/
def Table (text : Str) (rows : List (PyFloat × PyFloat)) : Prop :=
  (tableLines text).map (fun ws => ws.map parseFloat) = rows.map (fun r => [some r.1, some r.2])

/-- the first two words of each line are the numbers of its row -/
def TableBegins (text : Str) (rows : List (PyFloat × PyFloat)) : Prop :=
  (tableLines text).map (fun ws => (ws.take 2).map parseFloat) =
    rows.map (fun r => [some r.1, some r.2])

/-- the columns end after the second: a line has two words only, and each of the lines before it
a number as third word -/
def EndsAtTwo (text : Str) : Prop :=
  ∃ before ws after, tableLines text = before ++ ws :: after ∧ ws.length = 2 ∧
    ∀ l ∈ before, ∃ w x, l[2]? = some w ∧ parseFloat w = some x

/-- an array of floats with one dimension -/
def column (l : List PyFloat) : HData := .nums ⟨l.map .flt, [l.length]⟩

/-- what a reader of the field gets: a number if there is one row -/
def readColumn : List PyFloat → Eznx.Field
  | [x] => .num (.flt x)
  | l => .nums (l.map .flt)

end S2N.Spec
