import Verif.Model.H5
/-
Model of /repo/spec2nexus/eznx_example.py: the example file of the package, for every table of
data in place of `I_v_TTH_DATA`.
-/
namespace S2N.Example
open Py H5 Eznx

/-- what one `next` of `zip(*[map(float, row) for row in rows])` does: the first words of all rows
as numbers and the other words; none if a row has no more words (the rows before it have been
asked already, so a word there that is no number raises first) — eznx_example.py:31-33 -/
def zipStep : List (List Str) → Except PyErr (Option (List PyFloat × List (List Str)))
  | [] => .ok (some ([], []))
  | [] :: _ => .ok none
  | (w :: ws) :: rows =>
    match parseFloat w with
    | none => .error .ValueError
    | some x =>
      match zipStep rows with
      | .error e => .error e
      | .ok none => .ok none
      | .ok (some (xs, rest)) => .ok (some (x :: xs, ws :: rest))

/-- `zip(*[map(float, row) for row in rows])`: `n` is the number of words of the first row, with
which `zip` ends at the latest — eznx_example.py:31-33 -/
def zipCols : Nat → List (List Str) → Except PyErr (List (List PyFloat))
  | 0, _ => .ok []
  | n + 1, rows =>
    match zipStep rows with
    | .error e => .error e
    | .ok none => .ok []
    | .ok (some (c, rest)) =>
      match zipCols n rest with
      | .error e => .error e
      | .ok cs => .ok (c :: cs)

/-- `tthData, countsData = zip(*[map(float, _.split()) for _ in text.strip().splitlines()])` —
eznx_example.py:31-33.  Python asks `zip` for three columns at most; the error of a later column
that is no number would be the same ValueError. -/
def twoColumns (text : Str) : Except PyErr (List PyFloat × List PyFloat) :=
  let rows := (splitlines (strip text)).map splitWs
  match zipCols ((rows.head?.getD []).length) rows with
  | .error e => .error e
  | .ok [a, b] => .ok (a, b)
  | .ok _ => .error .ValueError

/-- the lines that write the file, once it is open — eznx_example.py:36-54 -/
def fill (f : HRef) (tthData countsData : List PyFloat) : HM Unit := do
  setAttr f p!"default" (.str p!"entry")
  let nxentry ← makeGroup f p!"entry" p!"NXentry" [(p!"default", .str p!"data")]
  let nxinstrument ← makeGroup nxentry p!"instrument" p!"NXinstrument" []
  let nxdetector ← makeGroup nxinstrument p!"detector" p!"NXdetector" []
  let tth ← makeDataset nxdetector p!"two_theta" (.nums (tthData.map .flt))
    [(p!"units", .str p!"degrees")]
  let counts ← makeDataset nxdetector p!"counts" (.nums (countsData.map .flt))
    [(p!"units", .str p!"counts")]
  let nxdata ← makeGroup nxentry p!"data" p!"NXdata"
    [(p!"signal", .num (.int 1)), (p!"axes", .str p!"two_theta"),
      (p!"two_theta_indices", .num (.int 0))]
  makeLink nxdetector tth (nameOf nxdata ++ p!"/two_theta")
  makeLink nxdetector counts (nameOf nxdata ++ p!"/counts")

/-- the script: the file it leaves (none if it was not made) and what it raises —
eznx_example.py:31-56 -/
def run (text : Str) : Option H5 × Except PyErr Unit :=
  match twoColumns text with
  | .error e => (none, .error e)
  | .ok (a, b) =>
    match makeFile [] with
    | (s, .error e) => (some s, .error e)
    | (s, .ok f) =>
      match fill f a b s with
      | (s', r) => (some s', r)

end S2N.Example
