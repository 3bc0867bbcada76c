import Verif.Model.Writer
/-
Model of /repo/spec2nexus/specplot.py: the choice of an image maker (Selector, a singleton, see
/repo/spec2nexus/singletons.py) and what the image makers draw.  The drawing itself
(/repo/spec2nexus/charts.py, matplotlib) is not modelled: `draw` tells whether it raises.
-/
namespace S2N
open Py

namespace Plot

/-! ## Selector -/

/-- the classes that can be registered: those of the module, subclasses of ImageMaker of the user
(`custom`) and classes that are not subclasses of ImageMaker (`alien`) -/
inductive Maker
  | line | hkl | mesh
  | custom (n : Nat)
  | alien (n : Nat)
  deriving DecidableEq, Repr

/-- `issubclass(value, ImageMaker)` -/
def Maker.isImageMaker : Maker → Bool
  | .alien _ => false
  | _ => true

/-- `default_key` — specplot.py:100 -/
def defaultKey : Str := p!"__default__"

/-- an object of the class Selector: the dictionary `db` -/
structure Selector where
  db : Dict Maker := []

namespace Selector

/-- `exists(key)` — specplot.py:188-192 -/
def exists? (s : Selector) (key : Str) : Bool := s.db.has key

/-- `get(key)` — specplot.py:180-186 -/
def get (s : Selector) (key : Str) : Option Maker := s.db.get? key

/-- the assignments at the end of `add` and `update` — specplot.py:153-155, 174-176 -/
def store (s : Selector) (key : Str) (value : Maker) (default : Bool) : Selector :=
  let db := s.db.set key value
  ⟨if default then db.set defaultKey value else db⟩

/-- `add(key, value, default)` — specplot.py:138-157 -/
def add (key : Str) (value : Maker) (default : Bool) (s : Selector) : Res Selector :=
  if s.exists? key then Res.raise s .KeyError
  else if value.isImageMaker = false then Res.raise s .UnexpectedObjectTypeError
  else Res.ok (s.store key value default)

/-- `update(key, value, default)` — specplot.py:159-178 -/
def update (key : Str) (value : Maker) (default : Bool) (s : Selector) : Res Selector :=
  if s.exists? key = false then Res.raise s .KeyError
  else if value.isImageMaker = false then Res.raise s .UnexpectedObjectTypeError
  else Res.ok (s.store key value default)

/-- `Selector()` when there is no object yet — specplot.py:102-104 -/
def new : Selector := (add defaultKey .line true {}).1

/-- the choice for a macro that is not known — specplot.py:125-132.  (`lower()` of other than ASCII
letters gives no letter of "scan" or "mesh".) -/
def choice (s : Selector) (macroName : Str) : Option Maker :=
  if macroName = p!"hklscan" then some .hkl
  else if endsWith (lower macroName) p!"scan" then some .line
  else if endsWith (lower macroName) p!"mesh" then some .mesh
  else s.get defaultKey

/-- `auto(scan)` — specplot.py:106-136; `none` is an argument that is not a scan.  The default image
maker always exists (`C54_default`), TypeError stands for its absence. -/
def auto (scan : Option Obj) (s : Selector) : Selector × Except PyErr Maker :=
  match scan with
  | none => (s, .error .UnexpectedObjectTypeError)
  | some x =>
    match splitWs x.scanCmd with
    | [] => (s, .error .IndexError)
    | m :: _ =>
      match s.get m with
      | some v => (s, .ok v)
      | none =>
        match s.choice m with
        | none => (s, .error .TypeError)
        | some v =>
          match add m v false s with
          | (s, none) => (s, .ok v)
          | (s, some e) => (s, .error e)

end Selector

/-- a use of the class by a program, always through `Selector()` -/
inductive Use
  | call
  | add (key : Str) (value : Maker) (default : Bool)
  | update (key : Str) (value : Maker) (default : Bool)
  | auto (scan : Option Obj)

/-- `Selector()` — singletons.py:20-25: the object is made at the first call -/
def instanceOf : Option Selector → Selector
  | none => Selector.new
  | some s => s

/-- the singleton after one use -/
def Use.run (w : Option Selector) : Use → Option Selector
  | .call => some (instanceOf w)
  | .add k v d => some (Selector.add k v d (instanceOf w)).1
  | .update k v d => some (Selector.update k v d (instanceOf w)).1
  | .auto x => some (Selector.auto x (instanceOf w)).1

/-- the singleton after a program used it -/
def after (uses : List Use) : Option Selector := uses.foldl Use.run none

/-! ## Image makers -/

/-- a value of `self.data`: a column of the scan, a two- or three-dimensional array, a number, the
numbers 1..n -/
inductive PVal
  | col (c : DCol)
  | nd (a : NdArray Num)
  | num (x : PyFloat)
  | range (n : Nat)
  deriving DecidableEq, Repr

/-- `self.settings` — specplot.py:399-417 -/
structure Settings where
  title : Option Str := none
  subtitle : Option Str := none
  xTitle : Option Str := none
  yTitle : Option Str := none
  xLog : Option Bool := none
  yLog : Option Bool := none
  zLog : Option Bool := none
  timestamp : Option Str := none
  deriving DecidableEq, Repr

/-- an image maker at work — specplot.py:260-265, and the scan with its header -/
structure St where
  ctx : ScanCtx
  set : Settings := {}
  signal : Option Str := none
  axes : List Str := []
  data : Dict PVal := []

/-- what is given to `charts.xy_plot` or `charts.make_png` -/
inductive Picture
  | xy (x y : PVal) (set : Settings)
  | image (a : PVal) (axes : List PVal) (set : Settings)
  deriving DecidableEq, Repr

/-- `text or other` for a text that may be None -/
def orElse (t : Option Str) (other : Str) : Option Str :=
  match t with
  | some (c :: cs) => some (c :: cs)
  | _ => some other

/-- `self.x_log() or self.set_x_log(False)` -/
def orFalse : Option Bool → Option Bool
  | some true => some true
  | _ => some false

/-- `len(value)`; a number has no length -/
def PVal.len : PVal → Except PyErr Nat
  | .col (.col xs) => .ok xs.length
  | .col (.mca m) => .ok m.length
  | .nd a => match a.shape with | [] => .error .TypeError | n :: _ => .ok n
  | .num _ => .error .TypeError
  | .range n => .ok n

/-- `numpy.array(value).shape` -/
def PVal.shape : PVal → List Nat
  | .col (.col xs) => [xs.length]
  | .col (.mca _) => []
  | .nd a => a.shape
  | .num _ => []
  | .range n => [n]

/-- attribute that may not exist -/
def attr {α : Type} : Option α → Except PyErr α
  | some a => .ok a
  | none => .error .AttributeError

/-! ### Line plots -/

/-- one entry of the dictionary of the columns, left out if there is no such column —
specplot.py:551-555 -/
def putColumn (x : Obj) (d : Dict PVal) (l : Str) : Dict PVal :=
  match x.data.get? l with
  | some c => d.set l (.col c)
  | none => d

/-- the columns of the labels — specplot.py:551-555 -/
def columns (x : Obj) (labels : List Str) : Dict PVal := labels.foldl (putColumn x) []

/-- LinePlotter.retrieve_plot_data — specplot.py:541-555 after the scan was interpreted -/
def lineData (s : St) : Res St :=
  Res.eval (attr s.ctx.scan.columnLast) s fun last =>
  let s := { s with signal := some last }
  if s.ctx.scan.data.has last = false then Res.raise s .NoDataToPlot
  else
    Res.eval (attr s.ctx.scan.columnFirst) s fun first =>
    let s := { s with axes := [first] }
    Res.eval (attr s.ctx.scan.L) s fun labels =>
    Res.ok { s with data := columns s.ctx.scan labels }

/-- `min(data)` of a list of floats; ValueError if it is empty -/
def pyMin : List PyFloat → Except PyErr PyFloat
  | [] => .error .ValueError
  | x :: xs => .ok (xs.foldl (fun m y => if y.lt m then y else m) x)

/-- `max(data)` -/
def pyMax : List PyFloat → Except PyErr PyFloat
  | [] => .error .ValueError
  | x :: xs => .ok (xs.foldl (fun m y => if m.lt y then y else m) x)

/-- `a == b` of Python floats -/
def pyEq (a b : PyFloat) : Bool := a != .nan && b != .nan && a == b

/-- `min(data) != max(data)` -/
def varies (xs : List PyFloat) : Except PyErr Bool :=
  match pyMin xs, pyMax xs with
  | .ok a, .ok b => .ok (!pyEq a b)
  | .error e, _ => .error e
  | _, .error e => .error e

/-- the loop over the axes — specplot.py:567-577: the value of `data` after it, the value of `axis`,
and whether `self.axes` was set.  The key of the spectra is none of H, K, L (TypeError). -/
def hklLoop (x : Obj) : List Str → Option (List PyFloat) × Str × Bool → Except PyErr (Option (List PyFloat) × Str × Bool)
  | [], r => .ok r
  | axis :: rest, _ =>
    match x.data.get? axis with
    | none => hklLoop x rest (none, axis, false)
    | some (.mca _) => .error .TypeError
    | some (.col xs) =>
      match varies xs with
      | .error e => .error e
      | .ok true => .ok (some xs, axis, true)
      | .ok false => hklLoop x rest (some xs, axis, false)

/-- the label made up when nothing varies — specplot.py:585 -/
def pointNumber : Str := p!"data point number"

/-- HKLScanPlotter.retrieve_plot_data — specplot.py:563-596 after the scan was interpreted.  The range
of point numbers is stored in the scan as a column of numbers. -/
def hklData (s : St) : Res St :=
  Res.eval (hklLoop s.ctx.scan [p!"H", p!"K", p!"L"] (none, [], false)) s fun r =>
  match r with
  | (none, _, _) => Res.raise s .NotPlottable
  | (some xs, axis, found) =>
    let finish (s : St) (axis : Str) (v : PVal) : Res St :=
      let s := { s with ctx := { s.ctx with scan := { s.ctx.scan with columnFirst := some axis } } }
      let s := { s with data := s.data.set axis v }
      Res.eval (attr s.ctx.scan.columnLast) s fun last =>
      let s := { s with signal := some last }
      match s.ctx.scan.data.get? last with
      | none => Res.raise s .KeyError
      | some c => Res.ok { s with data := s.data.set last (.col c) }
    if found then finish { s with axes := [axis] } axis (.col (.col xs))
    else if s.axes ≠ [] then finish s axis (.col (.col xs))
    else
      match s.ctx.scan.data.get? p!"H" with
      | none => Res.raise s .KeyError
      | some c =>
        Res.eval (PVal.len (.col c)) s fun n =>
        let x := s.ctx.scan
        let s := { s with ctx := { s.ctx with scan := { x with
            data := x.data.set pointNumber (.col ((List.range n).map (fun i => .fin (i + 1 : Nat)))) } } }
        let s := { s with set := { s.set with xTitle := some (pointNumber ++ p!" (hkl all held constant)") } }
        finish { s with axes := [pointNumber] } pointNumber (.range n)

/-- LinePlotter.plottable — specplot.py:516-529; HKLScanPlotter has the same -/
def linePlottable (s : St) : Except PyErr Bool :=
  match s.signal with
  | none => .ok false
  | some sig =>
    match s.data.get? sig with
    | none => .ok false
    | some y =>
      match y.len with
      | .error e => .error e
      | .ok n =>
        if 0 < n ∧ s.axes.length = 1 then
          match s.axes with
          | [] => .ok false
          | a :: _ =>
            match s.data.get? a with
            | none => .error .KeyError
            | some x =>
              match x.len with
              | .error e => .error e
              | .ok m => .ok (decide (n = m))
        else .ok false

/-- LinePlotter.plot_options — specplot.py:531-539; `self.axes[0]` is only looked at if there is no
title yet -/
def lineOptions (s : St) : Res St :=
  Res.eval (match s.set.xTitle with
    | some (c :: cs) => .ok (some (c :: cs))
    | _ => match s.axes with
      | [] => .error .IndexError
      | a :: _ => .ok (some a)) s fun xt =>
  Res.ok { s with set := { s.set with
    xTitle := xt
    yTitle := match s.set.yTitle with | some (c :: cs) => some (c :: cs) | _ => s.signal
    xLog := orFalse s.set.xLog, yLog := orFalse s.set.yLog, zLog := some false } }

/-- LinePlotter.make_image — specplot.py:489-514 -/
def lineImage (s : St) : Except PyErr (Option Picture) :=
  match s.signal with
  | none => .error .AssertionError
  | some sig =>
    match s.data.get? sig, s.axes with
    | some y, [a] =>
      match s.data.get? a with
      | some x => .ok (some (.xy x y s.set))
      | none => .error .AssertionError
    | _, _ => .error .AssertionError

/-! ### Mesh plots -/

/-- the scan's labels are changed in place -/
def setLabels (s : St) (l : List Str) : St :=
  { s with ctx := { s.ctx with scan := { s.ctx.scan with L := some l } } }

/-- the axis held constant — specplot.py:740-745 -/
def meshConstant (labels : List Str) (s : St) : Res St :=
  if startsWith s.ctx.scan.scanCmd p!"hkl" then
    match [p!"H", p!"K", p!"L"].filter (fun k => decide (k ∈ labels)) with
    | [] => Res.raise s .IndexError
    | label3 :: _ =>
      match s.ctx.scan.data.get? label3 with
      | none => Res.raise s .TypeError
      | some (.mca _) => Res.raise s .KeyError
      | some (.col []) => Res.raise s .IndexError
      | some (.col (v :: _)) => Res.ok { s with data := s.data.set label3 (.num v) }
  else Res.ok s

/-- one two-dimensional column — specplot.py:749-754.  All labels of a scan with data have a column
(TypeError stands for its absence). -/
def meshColumn (shape : List Nat) (label : Str) (s : St) : Res St :=
  if s.data.has label then Res.ok s
  else
    Res.eval (Writer.axisOf s.ctx.scan label) s fun xs =>
    Res.ok { s with data := s.data.set label (.nd (reshapeData (.flt .nan) (xs.map .flt) shape)) }

/-- the spectra — specplot.py:759-771: `data_shape` grows with every spectrum -/
def meshSpectra (shape : List Nat) : List (Str × List (List Num)) → St → Res St
  | [], s => Res.ok s
  | kv :: rest, s =>
    Res.eval (Writer.channels kv.2) s fun n =>
    let shape := shape ++ [n]
    if kv.2.all (fun r => r.length == n) then
      let ds := p!"_" ++ kv.1 ++ p!"_"
      let s := { s with data := (s.data.set ds
        (.nd (reshapeData (.flt .nan) (unify kv.2.flatten) shape))).set (ds ++ p!"channel_") (.range n) }
      meshSpectra shape rest s
    else Res.raise s .ValueError

/-- `self.scan.data[spec.MCA_DATA_KEY].items()` sorted, nothing if there are none -/
def mcaItems (x : Obj) : Except PyErr (List (Str × List (List Num))) :=
  match x.data.get? p!"_mca_" with
  | none => .ok []
  | some (.mca m) => .ok (sortedItems m)
  | some (.col _) => .error .AttributeError

/-- a stopped scan — specplot.py:717-725: the first axis and the last column -/
def meshLine (label1 : Str) (s : St) : Res St :=
  let s := { s with axes := [label1] }
  Res.eval (attr s.ctx.scan.columnLast) s fun last =>
  let s := { s with signal := some last }
  match s.ctx.scan.data.get? label1 with
  | none => Res.raise s .KeyError
  | some c =>
    let s := { s with data := s.data.set label1 (.col c) }
    match s.ctx.scan.data.get? last with
    | none => Res.raise s .KeyError
    | some c => Res.ok { s with data := s.data.set last (.col c) }

section
variable [UniDB]

/-- the two-dimensional case — specplot.py:727-771 -/
def meshGrid (i1 : Int) (label1 label2 : Str) (axis1 axis2 : List PyFloat) (s : St) : Res St :=
  let axis1 := pySlice axis1 (some 0) (some (i1 + 1))
  let s := { s with data := s.data.set label1 (.col (.col axis1)) }
  Res.eval (Writer.everyNth (i1 + 1) axis2) s fun axis2 =>
  let s := { s with data := s.data.set label2 (.col (.col axis2)) }
  Res.eval (attr s.ctx.scan.L) s fun labels =>
  Res.eval (Writer.pyRemove label1 labels) s fun labels =>
  let s := setLabels s labels
  Res.eval (Writer.pyRemove label2 labels) s fun labels =>
  let s := setLabels s labels
  (meshConstant labels s).andThen fun s =>
  let shape := [axis2.length, axis1.length]
  (forEach (meshColumn shape) labels s).andThen fun s =>
  Res.eval (attr s.ctx.scan.columnLast) s fun last =>
  Res.eval (cleanName last) s fun signal =>
  let s := { s with signal := some signal, axes := [label1, label2] }
  Res.eval (mcaItems s.ctx.scan) s fun items =>
  meshSpectra shape items s

/-- `min(axis2) == max(axis2)` -/
def constant (axis2 : Except PyErr (List PyFloat)) : Except PyErr Bool :=
  match axis2 with
  | .error e => .error e
  | .ok xs => (varies xs).map (!·)

/-- MeshPlotter.retrieve_plot_data — specplot.py:692-771 after the scan was interpreted -/
def meshData (s : St) : Res St :=
  Res.eval (Writer.meshWords s.ctx.scan.scanCmd) s fun w =>
  Res.eval (Writer.meshLabel s.ctx.scan w.1 0) s fun label1 =>
  Res.eval (Writer.meshLabel s.ctx.scan w.2.2.1 1) s fun label2 =>
  Res.eval (Py.int w.2.1) s fun i1 =>
  Res.eval (Py.int w.2.2.2) s fun _ =>
  Res.eval (Writer.axisOf s.ctx.scan label1) s fun axis1 =>
  Res.eval (if (axis1.length : Int) < i1 then constant (Writer.axisOf s.ctx.scan label2) else .ok false) s fun flat =>
  if flat then meshLine label1 s
  else
    Res.eval (Writer.axisOf s.ctx.scan label2) s fun axis2 =>
    meshGrid i1 label1 label2 axis1 axis2 s

/-- the test of the axes — specplot.py:671-673 -/
def meshShapes (data : Dict PVal) : List Str → List Nat → Bool
  | [], _ => true
  | _ :: _, [] => false
  | a :: as, n :: ns =>
    match data.get? a with
    | none => false
    | some v => (match v.len with | .ok m => n == m | .error _ => false) && meshShapes data as ns

/-- MeshPlotter.plottable — specplot.py:663-676: False instead of any exception -/
def meshPlottable (s : St) : Bool :=
  match s.signal with
  | none => false
  | some sig =>
    match s.data.get? sig with
    | none => false
    | some y => (s.axes.length = 0 ∨ s.axes.length = y.shape.length) && meshShapes s.data s.axes.reverse y.shape

/-- MeshPlotter.plot_options — specplot.py:678-690 -/
def meshOptions (s : St) : Res St :=
  let keep (t : Option Str) (other : Option Str) : Option Str :=
    match t with | some (c :: cs) => some (c :: cs) | _ => other
  let set := match s.axes with
    | [a] => { s.set with xTitle := keep s.set.xTitle (some a), yTitle := keep s.set.yTitle s.signal }
    | [a, b] => { s.set with xTitle := keep s.set.xTitle (some b), yTitle := keep s.set.yTitle (some a) }
    | _ => s.set
  Res.ok { s with set := { set with xLog := orFalse set.xLog, yLog := orFalse set.yLog, zLog := orFalse set.zLog } }

/-- MeshPlotter.make_image — specplot.py:621-661 -/
def meshImage (s : St) : Except PyErr (Option Picture) :=
  match s.signal with
  | none => .error .KeyError
  | some sig =>
    match s.axes with
    | [a, b] =>
      match s.data.get? sig, splitlines s.ctx.scan.raw, s.data.get? a, s.data.get? b with
      | some image, first :: _, some x, some y =>
        .ok (some (.image image [x, y] { s.set with
          subtitle := some (sig ++ p!",  " ++ first), xTitle := some a, yTitle := some b }))
      | some _, [], _, _ => .error .IndexError
      | _, _, _, _ => .error .KeyError
    | [a] =>
      match s.data.get? sig, s.data.get? a with
      | some y, some x => .ok (some (.xy x y s.set))
      | _, _ => .error .KeyError
    | _ => .ok none

/-! ### One plot -/

/-- `retrieve_plot_data` of the classes; the base class of the custom ones raises NotImplementedError
(other methods of custom classes are not modelled) -/
def retrieve (m : Maker) (s : St) : Res St :=
  match m with
  | .line => lineData s
  | .hkl => hklData s
  | .mesh => meshData s
  | _ => Res.raise s .NotImplementedError

/-- `plot_options` -/
def options (m : Maker) (s : St) : Res St :=
  match m with
  | .mesh => meshOptions s
  | _ => lineOptions s

/-- `plottable` -/
def plottable (m : Maker) (s : St) : Except PyErr Bool :=
  match m with
  | .mesh => .ok (meshPlottable s)
  | _ => linePlottable s

/-- `make_image` as far as the call of the drawing routine -/
def image (m : Maker) (s : St) : Except PyErr (Option Picture) :=
  match m with
  | .mesh => meshImage s
  | _ => lineImage s

/-- `data_is_newer_than_plot(plotFile)` — specplot.py:347-355, from the times of the data file and of
the plot file, if they exist -/
def newer (data plot : Option Int) : Except PyErr Bool :=
  match data with
  | none => .error .OSError
  | some m => .ok (decide (plot.getD 0 < m))

/-- the text that stops a plot — specplot.py:369 -/
def abortText : Str := p!"Scan aborted after 0 points."

/-- the titles — specplot.py:375-380 -/
def titles (dataFile : Str) (s : St) : St :=
  { s with set := { s.set with
    title := orElse s.set.title dataFile
    subtitle := orElse s.set.subtitle (p!"#" ++ s.ctx.scan.scanNum ++ p!": " ++ s.ctx.scan.scanCmd)
    timestamp := orElse s.set.timestamp s.ctx.scan.date } }

/-- `retrieve_plot_data` with the scan interpreted at the first look at a lazy attribute.  A mesh
plotter looks at the words of the command before. -/
def retrieved (env : Env) (reg : List HKey) (m : Maker) (s : St) : Res St :=
  let run : Res St :=
    let r := readAttr env reg p!"data" s.ctx
    let s := { s with ctx := r.1 }
    match r.2 with
    | none => retrieve m s
    | some e => Res.raise s e
  match m with
  | .line | .hkl => run
  | .mesh =>
    match Writer.meshWords s.ctx.scan.scanCmd with
    | .ok _ => run
    | .error e => Res.raise s e
  | _ => Res.raise s .NotImplementedError

/-- `plot_scan(scan, plotFile)` of a new image maker with the settings `set` — specplot.py:357-395, up
to the drawing: the scan afterwards, and what is drawn.  `data` and `plot` are the times of the data
file and of the plot file. -/
def plotScan (env : Env) (reg : List HKey) (m : Maker) (set : Settings) (dataFile : Str) (data plot : Option Int)
    (c : ScanCtx) : ScanCtx × Except PyErr (Option Picture) :=
  if c.scan.aborted = some abortText then (c, .error .ScanAborted)
  else
    let r := retrieved env reg m (titles dataFile { ctx := c, set := set })
    match r.2 with
    | some .KeyError => (r.1.ctx, .error (if r.1.ctx.scan.aborted.isSome then .ScanAborted else .KeyError))
    | some e => (r.1.ctx, .error e)
    | none =>
      let o := options m r.1
      match o.2 with
      | some e => (o.1.ctx, .error e)
      | none =>
        (o.1.ctx,
          match plottable m o.1 with
          | .error e => .error e
          | .ok false => .ok none
          | .ok true =>
            match newer data plot with
            | .error e => .error e
            | .ok false => .ok none
            | .ok true => image m o.1)

end
end Plot
end S2N
