import Verif.Model.Plot
import Verif.Model.Cli
/-
Model of spec2nexus/specplot_gallery.py: the directories of plots, the cache of file times, the plots
of all scans of a file, and the index page.

The state of the gallery is everything below its base directory.  The data files are outside of it and
do not change during a run.  Every change of the gallery is recorded, so that the state which is left
if the process is killed is one of the recorded states: a file is first created empty (or emptied) and
then filled.  `json` and HTML texts are represented by what is written in them (the text of the page is in
`Model/GalleryPage.lean`, with the command); log messages and the touch of the directory's time are not modelled.
Two different paths are two different files, and the base directory exists (main() checks it).
-/
namespace S2N
namespace Gallery
open Py Plot

/-! ### Names -/

/-- PLOT_TYPE — specplot_gallery.py:68 -/
def plotType : Str := p!".svg"
/-- HTML_INDEX_FILE — specplot_gallery.py:69 -/
def indexName : Str := p!"index.html"
/-- MTIME_CACHE_FILE — specplot_gallery.py:67 -/
def cacheName : Str := p!"mtime_cache.json"

/-- `os.path.join(a, b)` of posixpath -/
def pathJoin (a b : Str) : Str :=
  if startsWith b ['/'] then b
  else if a = [] ∨ endsWith a ['/'] = true then a ++ b
  else a ++ '/' :: b

/-- `os.path.basename(p)` -/
def baseName (p : Str) : Str := p.drop (nameStart p)

/-- `("s%05s" + PLOT_TYPE) % num`, spaces replaced by zeros — specplot_gallery.py:146-150, 158 -/
def plotName (num : Str) : Str :=
  replaceC ' ' ['0'] ('s' :: (List.replicate (5 - num.length) ' ' ++ num) ++ plotType)

/-- `datePath(date)` — specplot_gallery.py:352-363 -/
def datePath (date : Str) : Except PyErr Str :=
  (Sdf.strptime date).map fun tm => pathJoin (four tm.year) (two tm.mon)

/-- `getSpecFileDate(specFile)` — specplot_gallery.py:366-392.  A file which cannot be decoded is
decoded as a whole. -/
def getSpecFileDate (f : FNode) : Except PyErr (Option Str) :=
  if f.exists = false then .ok none
  else
    f.readText.map fun text =>
    match readlines text with
    | l1 :: l2 :: l3 :: _ =>
      if startsWith l1 p!"#F " && startsWith l2 p!"#E " && startsWith l3 p!"#D " then some (strip (l3.drop 2))
      else none
    | _ => none

/-- `getPlotDir(specFile)` — specplot_gallery.py:252-270 -/
def getPlotDir (plotDir specFile : Str) (f : FNode) : Except PyErr (Option Str) :=
  match getSpecFileDate f with
  | .error e => .error e
  | .ok none => .ok none
  | .ok (some date) =>
    match datePath date with
    | .error e => .error e
    | .ok d => .ok (some (pathJoin (pathJoin plotDir d) (splitext (baseName specFile)).1))

/-! ### The disk -/

/-- what an index page tells: the file, the plots (image, text) in their order, the scans that could
not be plotted and why -/
structure Index where
  specFile : Str
  plotted : List (Str × Str)
  problems : List (PyErr × Str)
  deriving DecidableEq, Repr

/-- something in the gallery; a content that is missing was not written yet -/
inductive GNode
  | dir
  | plot (p : Option Picture) (mtime : Int)
  | cache (c : Option (Dict (Int × Int)))
  | index (i : Option Index)
  | copy (text : Option FNode) (mtime : Int)
  | other
  deriving DecidableEq, Repr

/-- the gallery: what is stored under each path -/
abbrev Disk := Dict GNode

/-- `os.path.getmtime` of plots and copies -/
def GNode.mtime : GNode → Int
  | .plot _ m => m
  | .copy _ m => m
  | _ => 0

/-- the name of the thing with path `k`, if it is in the directory whose path with a final slash is `pre` -/
def nameIn (pre k : Str) : Option Str :=
  if startsWith k pre ∧ '/' ∉ k.drop pre.length ∧ k.drop pre.length ≠ [] then some (k.drop pre.length) else none

/-- `os.listdir(path)` (used at specplot_gallery.py:172), in any order -/
def listdir (d : Disk) (path : Str) : List Str := d.keys.filterMap (nameIn (pathJoin path []))

/-- the state of a run: the gallery now, all its states since the beginning of the run, and the
selector of image makers -/
structure GS where
  disk : Disk
  past : List Disk := []
  sel : Selector

/-- one change of the gallery -/
def GS.to (s : GS) (d : Disk) : GS := { s with disk := d, past := s.past ++ [d] }

/-- write a file: it is empty at first -/
def GS.write (s : GS) (path : Str) (empty full : GNode) : GS :=
  (s.to (s.disk.set path empty)).to ((s.disk.set path empty).set path full)

/-- `os.remove(path)` -/
def GS.remove (s : GS) (path : Str) : GS := s.to (s.disk.del path)

/-- what a run is given: the base directory, the order of the index page, the data files, the time now,
and the drawing routines of charts.py, which may fail -/
structure Cfg where
  plotDir : Str
  reversed : Bool := false
  files : Str → FileSt
  now : Int
  draw : Picture → Except PyErr Unit

/-! ### The cache of file times -/

/-- the path of the cache — specplot_gallery.py:297 -/
def cachePath (cfg : Cfg) : Str := pathJoin cfg.plotDir cacheName

/-- `Cache_File_Mtime(base_dir).cache` — specplot_gallery.py:292-306; a JSON error is a ValueError -/
def readCache (cfg : Cfg) (d : Disk) : Except PyErr (Dict (Int × Int)) :=
  match d.get? (cachePath cfg) with
  | none => .ok []
  | some (.cache (some c)) => .ok c
  | some _ => .error .ValueError

/-- `get(fname)` — specplot_gallery.py:313-321: time and size -/
def cacheGet (c : Dict (Int × Int)) (fname : Str) : Int × Int := (c.get? fname).getD (0, 0)

/-- `was_file_updated(fname)` of a new cache object — specplot_gallery.py:323-346; the file exists -/
def wasFileUpdated (cfg : Cfg) (fname : Str) (s : GS) : GS × Except PyErr Bool :=
  match readCache cfg s.disk with
  | .error e => (s, .error e)
  | .ok c =>
    let f := cfg.files fname
    if f.mtime ≠ (cacheGet c fname).1 ∧ f.size ≠ (cacheGet c fname).2 then
      (s.write (cachePath cfg) (.cache none) (.cache (some (c.set fname (f.mtime, f.size)))), .ok true)
    else (s, .ok false)

/-- `specFileUpdated(specFile)` — specplot_gallery.py:110-121: the new entry of the cache -/
def specFileUpdated (cfg : Cfg) (fname : Str) (s : GS) : GS × Except PyErr (Option (Int × Int)) :=
  if (cfg.files fname).node.exists = false then (s, .ok none)
  else
    match wasFileUpdated cfg fname s with
    | (s, .error e) => (s, .error e)
    | (s, .ok false) => (s, .ok none)
    | (s, .ok true) => (s, (readCache cfg s.disk).map fun c => some (cacheGet c fname))

/-! ### The plots of a file -/

/-- an expected plot — specplot_gallery.py:156-163 -/
structure Want where
  key : Str
  base : Str
  alt : Str
  full : Str
  deriving DecidableEq, Repr

/-- the plot expected for one scan — specplot_gallery.py:145-163 -/
def want (path : Str) (s : Sdf) (n : Str) : Except PyErr Want :=
  match s.getScan (.str n) with
  | .error e => .error e
  | .ok none => .error .AttributeError
  | .ok (some x) => .ok
    { key := x.scanNum, base := plotName x.scanNum,
      alt := p!"#" ++ x.scanNum ++ p!": " ++ x.scanCmd, full := pathJoin path (plotName x.scanNum) }

/-- the plots that we expect — specplot_gallery.py:142-163 -/
def wanted (path : Str) (s : Sdf) : Except PyErr (List Want) :=
  match s.getScanNumbers with
  | .error e => .error e
  | .ok l => mapE (want path s) l

/-- the existing plots — specplot_gallery.py:170-174 -/
def plotList (d : Disk) (path : Str) : List Str :=
  (sortBy strLe (listdir d path)).filter (fun k => endsWith k plotType)

/-- the text after the first `size` characters does not begin with a new scan —
specplot_gallery.py:181-189 -/
def continues (f : FNode) (size : Int) : Except PyErr Bool :=
  f.readText.map fun text => !startsWith (lstrip (text.drop size.toNat)) p!"#S "

/-- remove plots that must be made again — specplot_gallery.py:175-196: the remaining plots -/
def removeStale (cfg : Cfg) (fname path : Str) (old new : Int × Int) (s : GS) : GS × Except PyErr (List Str) :=
  let l := plotList s.disk path
  if 0 < l.length ∧ 0 < new.2 ∧ new.2 ≠ old.2 then
    if old.2 < new.2 then
      match continues (cfg.files fname).node old.2 with
      | .error e => (s, .error e)
      | .ok false => (s, .ok l)
      | .ok true =>
        match l.getLast? with
        | none => (s, .error .IndexError)
        | some k => (s.remove (pathJoin path k), .ok l.dropLast)
    else (l.foldl (fun s k => s.remove (pathJoin path k)) s, .ok [])
  else (s, .ok l)

/-- the loop over the scans: the state of the run, the file object, whether the index page is made
again, and the problems -/
structure Loop where
  gs : GS
  sdf : Sdf
  remake : Bool := false
  problems : List (PyErr × Str) := []

section
variable [UniDB]

/-- make one plot — specplot_gallery.py:204-211: the file object afterwards, and whether an exception
was raised.  A plot file that exists has a time. -/
def makePlot (env : Env) (reg : List HKey) (cfg : Cfg) (w : Want) (s : Loop) : Loop × Option PyErr :=
  match s.sdf.scans.get? w.key with
  | none => (s, some .KeyError)
  | some x =>
    let a := Selector.auto (some x) s.gs.sel
    let s := { s with gs := { s.gs with sel := a.1 } }
    match a.2 with
    | .error e => (s, some e)
    | .ok m =>
      let r := plotScan env reg m {} s.sdf.fileName (some (cfg.files s.sdf.fileName).mtime)
        ((s.gs.disk.get? w.full).map GNode.mtime) ⟨x, s.sdf.headerOf x⟩
      let s := { s with sdf := s.sdf.putScan w.key r.1 }
      match r.2 with
      | .error e => (s, some e)
      | .ok none => (s, none)
      | .ok (some pic) =>
        match cfg.draw pic with
        | .error e => (s, some e)
        | .ok () => ({ s with gs := s.gs.write w.full (.plot none cfg.now) (.plot (some pic) cfg.now) }, none)

/-- one round of the loop — specplot_gallery.py:201-219 -/
def plotOne (env : Env) (reg : List HKey) (cfg : Cfg) (existing : List Str) (s : Loop) (w : Want) : Loop :=
  if w.base ∈ existing then s
  else
    match makePlot env reg cfg w s with
    | (s, none) => { s with remake := true }
    | (s, some e) => { s with problems := s.problems ++ [(e, w.key)] }

/-- `a <= b` of Python numbers that are not nan -/
def numLe : Num → Num → Bool
  | .int a, .int b => decide (a ≤ b)
  | .int a, .flt b => PyFloat.le (.fin a) b
  | .flt a, .int b => PyFloat.le a (.fin b)
  | .flt a, .flt b => PyFloat.le a b

/-- a plot with the time of its scan — specplot_gallery.py:227-228 -/
def epochOf (s : Sdf) (w : Want) : Except PyErr (Num × Want) :=
  match s.scans.get? w.key with
  | none => .error .KeyError
  | some x =>
    match x.epoch with
    | none => .error .AttributeError
    | some e => .ok (e, w)

/-- the plots in the order of the index page — specplot_gallery.py:227-236 -/
def ordered (reversed : Bool) (s : Sdf) (ws : List Want) : Except PyErr (List Want) :=
  (mapE (epochOf s) ws).map fun l =>
    (sortBy (fun a b => if reversed then numLe b.1 a.1 else numLe a.1 b.1) l).map (·.2)

/-- the index page — specplot_gallery.py:221-240 -/
def makeIndex (cfg : Cfg) (fname path : Str) (ws : List Want) (s : Loop) : GS × Option PyErr :=
  let page := pathJoin path indexName
  if s.remake = true ∨ s.gs.disk.has page = false then
    match ordered cfg.reversed s.sdf ws with
    | .error e => (s.gs, some e)
    | .ok l =>
      let plotted := (l.filter (fun w => s.gs.disk.has w.full)).map fun w => (w.base, w.alt)
      (s.gs.write page (.index none) (.index (some { specFile := fname, plotted := plotted, problems := s.problems })), none)
  else (s.gs, none)

/-- copy the data file — specplot_gallery.py:242-247 -/
def copyFile (cfg : Cfg) (fname path : Str) (s : GS) : GS :=
  let target := pathJoin path (baseName fname)
  match s.disk.get? target with
  | some n =>
    if n.mtime < (cfg.files fname).mtime then
      s.write target (.copy none cfg.now) (.copy (some (cfg.files fname).node) cfg.now)
    else s
  | none => s.write target (.copy none cfg.now) (.copy (some (cfg.files fname).node) cfg.now)

/-- everything after the file counts as updated — specplot_gallery.py:169-247 -/
def replot (env : Env) (reg : List HKey) (cfg : Cfg) (fname path : Str) (sdf : Sdf) (ws : List Want)
    (old new : Int × Int) (s : GS) : GS × Option PyErr :=
  match removeStale cfg fname path old new s with
  | (s, .error e) => (s, some e)
  | (s, .ok existing) =>
    let l := ws.foldl (plotOne env reg cfg existing) { gs := s, sdf := sdf }
    match makeIndex cfg fname path ws l with
    | (s, some e) => (s, some e)
    | (s, none) => (copyFile cfg fname path s, none)

/-- `if not os.path.exists(plot_path): os.makedirs(plot_path)` — specplot_gallery.py:138-139 -/
def makeDir (path : Str) (s : GS) : GS := if s.disk.has path then s else s.to (s.disk.set path .dir)

/-- `plot_all_scans(specFile)` — specplot_gallery.py:123-250.  `os.path.exists(None)` is a TypeError. -/
def plotAllScans (env : Env) (reg : List HKey) (cfg : Cfg) (fname : Str) (s : GS) : GS × Option PyErr :=
  let f := cfg.files fname
  if isSpecFile f.node = false then (s, some .NotASpecDataFile)
  else
    match Sdf.openFile env reg fname f f with
    | .error e => (s, some e)
    | .ok sdf =>
      if sdf.headers = [] then (s, none)
      else
        match getPlotDir cfg.plotDir fname f.node with
        | .error e => (s, some e)
        | .ok none => (s, some .TypeError)
        | .ok (some path) =>
          let s := makeDir path s
          match wanted path sdf with
          | .error e => (s, some e)
          | .ok ws =>
            match readCache cfg s.disk with
            | .error e => (s, some e)
            | .ok c =>
              match specFileUpdated cfg fname s with
              | (s, .error e) => (s, some e)
              | (s, .ok none) => (s, none)
              | (s, .ok (some new)) => replot env reg cfg fname path sdf ws (cacheGet c fname) new s

/-- `PlotSpecFileScans(filelist, plotDir, reverse_chronological)` — specplot_gallery.py:99-108 -/
def run (env : Env) (reg : List HKey) (cfg : Cfg) : List Str → GS → GS × Option PyErr
  | [], s => (s, none)
  | f :: fs, s =>
    match plotAllScans env reg cfg f s with
    | (s, none) => run env reg cfg fs s
    | (s, some e) => (s, some e)

end
end Gallery
end S2N
