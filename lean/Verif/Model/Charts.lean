import Verif.Model.Plot
/-
`charts.make_png` and `charts.xy_plot`: what is handed to matplotlib — charts.py:29-126, 129-213.
A finite float is an exact rational.  The logarithm is a parameter `ln` (a function on the rationals).
Not modelled: colours, sizes, the time stamp, the writing of the image file.
-/
namespace S2N.Charts
open S2N.Plot

/-- `a + b` of floats -/
def add : PyFloat → PyFloat → PyFloat
  | .fin a, .fin b => .fin (a + b)
  | .nan, _ => .nan
  | _, .nan => .nan
  | .inf a, .inf b => if a = b then .inf a else .nan
  | .inf a, .fin _ => .inf a
  | .fin _, .inf b => .inf b

/-- `-a` of a float -/
def neg : PyFloat → PyFloat
  | .fin a => .fin (-a)
  | .inf a => .inf (!a)
  | .nan => .nan

/-- `a - b` of floats -/
def sub (a b : PyFloat) : PyFloat := add a (neg b)

/-- `a / 2` of a float -/
def half : PyFloat → PyFloat
  | .fin a => .fin (a / 2)
  | x => x

/-- `shift_to_pixel_boundaries(arr)` — charts.py:78-81; `np_arr[1]` raises IndexError if there are fewer than two values -/
def boundaries : List PyFloat → Except PyErr (List PyFloat)
  | a :: b :: rest =>
    let step := sub b a
    .ok (((a :: b :: rest) ++ [add ((b :: rest).getLastD b) step]).map fun v => sub v (half step))
  | _ => .error .IndexError

/-- the smaller of two floats for `numpy.min`: NaN if one of them is NaN -/
def npMin (a b : PyFloat) : PyFloat :=
  match a, b with
  | .nan, _ => .nan
  | _, .nan => .nan
  | a, b => if b.lt a then b else a

/-- `masked_less_equal(image, 0).min()` as fill value — charts.py:62-63: the smallest of the values that are not masked (NaN if
one of them is NaN); if all are masked the result is `numpy.ma.masked`, which fills with 0 -/
def floor (vals : List PyFloat) : PyFloat :=
  match vals.filter (fun v => !v.le (.fin 0)) with
  | [] => .fin 0
  | v :: vs => vs.foldl npMin v

/-- the masked values are replaced, and what is not finite is masked then — charts.py:62-66; `none` is a masked value -/
def cleaned (vals : List PyFloat) : List (Option Rat) :=
  vals.map fun v =>
    match (if v.le (.fin 0) then floor vals else v) with
    | .fin q => some q
    | _ => none

/-- `image_data.min()` of the values that are not masked -/
def least : List Rat → Option Rat
  | [] => none
  | q :: qs => some (qs.foldl (fun m x => if x < m then x else m) q)

/-- `image_data.max()` of the values that are not masked -/
def greatest : List Rat → Option Rat
  | [] => none
  | q :: qs => some (qs.foldl (fun m x => if m < x then x else m) q)

/-- log scaling — charts.py:68-71, with SCALING_FACTOR = 1.  If all values are masked, `image_data.max() != 0` is not true.  If
all values are the same, the result is 0 times 1/0, which is not a number, and is not drawn. -/
def logScaled (ln : Rat → Rat) (vals : List (Option Rat)) : List (Option Rat) :=
  match greatest (vals.filterMap id) with
  | none => vals
  | some m =>
    if m = 0 then vals
    else
      let logs := vals.map (Option.map ln)
      let low := (least (logs.filterMap id)).getD 0
      let up := logs.map (Option.map (· - low))
      let top := (greatest (up.filterMap id)).getD 0
      if top = 0 then up.map (fun _ => none) else up.map (Option.map (· / top))

/-- what matplotlib is asked to draw -/
inductive Drawing
  /-- `pcolor`: the boundaries of the columns and of the rows, and the values row by row (`none` is not drawn) -/
  | pixels (x y : List PyFloat) (vals : List (Option Rat))
  /-- `imshow`: the shape and the values -/
  | plain (shape : List Nat) (vals : List (Option Rat))
  /-- `plot`: the points -/
  | points (pts : List (PyFloat × PyFloat)) (xlog ylog : Bool)
  deriving DecidableEq, Repr

/-- `numpy.array(value)` of a column; other values have no second element (IndexError) or are not used as axes -/
def values : PVal → Except PyErr (List PyFloat)
  | .col (.col xs) => .ok xs
  | .range n => .ok ((List.range n).map fun (i : Nat) => .fin ((i : Rat) + 1))
  | _ => .error .IndexError

/-- the values of an image -/
def imageValues : PVal → List PyFloat
  | .nd a => a.flat.map Num.toFlt
  | .col (.col xs) => xs
  | .num x => [x]
  | .range n => (List.range n).map fun (i : Nat) => .fin ((i : Rat) + 1)
  | .col (.mca _) => []

/-- make_png — charts.py:29-126.  `pcolor` raises TypeError if the boundaries do not fit the shape of the image. -/
def makePng (ln : Rat → Rat) (image : PVal) (axes : List PVal) (log : Bool) : Except PyErr Drawing :=
  let vals := cleaned (imageValues image)
  let vals := if log then logScaled ln vals else vals
  match axes with
  | [a, b] => do
    let x ← boundaries (← values a)
    let y ← boundaries (← values b)
    if image.shape = [y.length - 1, x.length - 1] then .ok (.pixels x y vals) else .error .TypeError
  | _ => .ok (.plain image.shape vals)

/-- the test before a log scale — charts.py:175-178, 181-184; `max` of nothing is a ValueError too -/
def logTest (log : Bool) (v : List PyFloat) : Except PyErr Unit :=
  if log then do
    let m ← pyMax v
    if m.le (.fin 0) then .error .ValueError else .ok ()
  else .ok ()

/-- xy_plot — charts.py:129-213.  `plot` raises ValueError if the lengths differ. -/
def xyPlot (x y : PVal) (xlog ylog : Bool) : Except PyErr Drawing := do
  let xs ← values x
  let ys ← values y
  logTest xlog xs
  logTest ylog ys
  if xs.length = ys.length then .ok (.points (xs.zip ys) xlog ylog) else .error .ValueError

/-- the call of the drawing routine — specplot.py:503-514, 635-661 -/
def draw (ln : Rat → Rat) : Picture → Except PyErr Drawing
  | .xy x y set => xyPlot x y (set.xLog.getD false) (set.yLog.getD false)
  | .image a axes set => makePng ln a axes (set.zLog.getD false)

end S2N.Charts
