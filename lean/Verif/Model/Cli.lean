import Verif.Model.Writer
/-
Model of the command-line programs `spec2nexus` — /repo/spec2nexus/nexus.py:119-199 — and
`extractSpecScan` — /repo/spec2nexus/extractSpecScan.py:50-83, 183-293.  The parsing of the command
line by argparse is not modelled: a run starts with the parsed options.
-/
namespace S2N
open Py

/-- `--quiet`, nothing, `--verbose` — nexus.py:28-30, extractSpecScan.py:31-33 -/
inductive Level
  | quiet | standard | verbose
  deriving DecidableEq, Repr

/-- `reporting_level in (REPORTING_STANDARD, REPORTING_VERBOSE)` -/
def Level.std : Level → Bool
  | .quiet => false
  | _ => true

/-- `reporting_level in (REPORTING_VERBOSE)`: a test for a substring of "verbose", which neither
"quiet" nor "standard" is -/
def Level.verb : Level → Bool
  | .verbose => true
  | _ => false

/-! ## Names of files -/

/-- where the last component of a path starts -/
def nameStart (p : Str) : Nat :=
  match rfindC '/' p with
  | none => 0
  | some i => i + 1

/-- `os.path.splitext(p)` of posixpath: the extension starts at the last dot of the last component,
leading dots of the component do not count -/
def splitext (p : Str) : Str × Str :=
  match rfindC '.' p with
  | none => (p, [])
  | some d =>
    if nameStart p ≤ d ∧ ((p.take d).drop (nameStart p)).any (fun c => c != '.') then (p.take d, p.drop d)
    else (p, [])

/-- what is stored under a name -/
inductive Stored
  | dir
  | text (content : Option Str) (mtime size : Int)
  | hdf (content : H5)

/-- a file as the SPEC reader sees it.  An HDF5 file begins with the byte 0x89, which is not UTF-8
text. -/
def Stored.file : Option Stored → FileSt
  | none => ⟨.missing, 0, 0⟩
  | some .dir => ⟨.dir, 0, 0⟩
  | some (.text c m s) => ⟨.file c, m, s⟩
  | some (.hdf _) => ⟨.file none, 0, 0⟩

/-- The file system: `real` tells which file a name stands for (relative names, symbolic links),
`writable` where files can be created or replaced.  Both stay the same during a run; other processes
and permissions for reading are not modelled. -/
structure Fs where
  real : Str → Str
  writable : Str → Bool
  files : Dict Stored

namespace Fs
/-- what the name stands for -/
def at? (d : Fs) (name : Str) : Option Stored := d.files.get? (d.real name)
/-- `os.path.exists(name)` -/
def exists? (d : Fs) (name : Str) : Bool := (d.at? name).isSome
/-- the file `name` is created or replaced -/
def put (d : Fs) (name : Str) (x : Stored) : Fs := { d with files := d.files.set (d.real name) x }
/-- `open(name, "w")` fails -/
def refuses (d : Fs) (name : Str) : Bool :=
  !d.writable (d.real name) || (match d.at? name with | some .dir => true | _ => false)
end Fs

/-- files and printed lines -/
structure Con where
  fs : Fs
  printed : List Str := []

/-- `print(line)` if the level allows it -/
def Con.say (yes : Bool) (line : Str) (c : Con) : Con :=
  if yes then { c with printed := c.printed ++ [line] } else c

namespace Nexus

/-- the numbers a part of the `-s` option stands for — nexus.py:126-132.  The `else` branch
concatenates a string with a list, which is a TypeError. -/
def specItem (item : Str) : Except PyErr (List Int) :=
  match splitC '-' item with
  | [a] => (Py.int a).map (fun n => [n])
  | [a, b] =>
    match Py.int a with
    | .error e => .error e
    | .ok n =>
      match Py.int b with
      | .error e => .error e
      | .ok m => .ok ((List.range (m + 1 - n).toNat).map (fun (i : Nat) => n + i))
  | _ => .error .TypeError

/-- `sorted(scan_list)` without repetitions — nexus.py:134-137 -/
def uniq (l : List Int) : List Int :=
  (sortBy (fun a b => decide (a ≤ b)) l).foldl (fun sl i => if i ∈ sl then sl else sl ++ [i]) []

/-- `parse_scan_list_spec([spec])` — nexus.py:119-139 -/
def parseScanListSpec (spec : Str) : Except PyErr (List Int) :=
  match mapE specItem (splitC ',' spec) with
  | .error e => .error e
  | .ok ls => .ok (uniq ls.flatten)

/-- `pick_scans(all_scans, opt_scan_list)` — nexus.py:142-158; `none` stands for "all" -/
def pickScans (all : List Str) : Option (List Int) → List Str
  | none => all
  | some l => (l.map intStr).filter (fun s => decide (s ∈ all))

/-- the parsed options — nexus.py:34-116; `scans` is the argument of `-s`, if given -/
structure Args where
  infile : List Str
  scans : Option Str := none
  ext : Str := p!".hdf5"
  output : Option Str := none
  force : Bool := false
  level : Level := .standard

/-- the extension with its dot — nexus.py:171-172 -/
def dotted (ext : Str) : Str := if startsWith ext ['.'] then ext else '.' :: ext

/-- the name of the output file for an input file — nexus.py:190-194 -/
def outputName (a : Args) (infile : Str) : Str :=
  match a.output with
  | none => (splitext infile).1 ++ dotted a.ext
  | some o => o

section
variable [UniDB]

/-- `Writer(spec_data).save(name, scan_list)`: the file holds what was written, also if an exception
is raised — nexus.py:196-197 -/
def saveAs (env : Env) (reg : List HKey) (v : Writer.Versions) (name : Str) (scans : List Str)
    (sdf : Sdf) (c : Con) : Res Con :=
  if c.fs.refuses name then Res.raise c .OSError
  else
    let r := Writer.save env reg v (scans.map .str) sdf
    ({ c with fs := c.fs.put name (.hdf r.1.h5) }, r.2)

/-- one input file — nexus.py:174-199 -/
def convert (env : Env) (reg : List HKey) (v : Writer.Versions) (a : Args) (scans : Option (List Int))
    (infile : Str) (c : Con) : Res Con :=
  if c.fs.exists? infile = false then Res.ok (c.say true (p!"File not found: " ++ infile))
  else
    let c := c.say a.level.std (p!"reading SPEC data file: " ++ infile)
    let f := Stored.file (c.fs.at? infile)
    Res.eval (Sdf.openFile env reg infile f f) c fun sdf =>
    Res.eval sdf.getScanNumbers c fun all =>
    let list := pickScans all scans
    let c := c.say a.level.verb
      (p!"  discovered " ++ natStr sdf.scans.keys.length ++ p!" scans")
    let c := c.say a.level.verb (p!"  converting scan number(s): " ++ join p!", " list)
    let name := outputName a infile
    if a.force || !c.fs.exists? name then
      (saveAs env reg v name list sdf c).andThen fun c =>
      Res.ok (c.say a.level.std (p!"wrote NeXus HDF5 file: " ++ name))
    else Res.ok c

/-- `main()` — nexus.py:161-199 -/
def main (env : Env) (reg : List HKey) (v : Writer.Versions) (a : Args) (c : Con) : Res Con :=
  Res.eval (match a.scans with
    | none => .ok none
    | some s => (parseScanListSpec s).map some) c fun scans =>
  forEach (convert env reg v a scans) a.infile c

end
end Nexus

namespace Extract

/-- `makeOutputFileName(specFile, scanNum)` — extractSpecScan.py:40-64 -/
def outputName (specFile scanNum : Str) : Str :=
  (splitext specFile).1 ++ ('_' :: replaceC '.' ['_'] scanNum) ++ (splitext specFile).2

/-- the scans a term of the `-s` option stands for — extractSpecScan.py:71-82 -/
def expandTerm (item : Str) : Except PyErr (List Str) :=
  if startsWith item ['-'] then .ok [item]
  else
    match splitC '-' item with
    | [_] => .ok [item]
    | [a, b] =>
      match Py.int a with
      | .error e => .error e
      | .ok n =>
        match Py.int b with
        | .error e => .error e
        | .ok m => .ok ((List.range (m + 1 - n).toNat).map (fun (i : Nat) => intStr (n + i)))
    | _ => .error .ValueError

/-- `expand_scan_range_terms(scans)` — extractSpecScan.py:67-83 -/
def expandTerms (scans : List Str) : Except PyErr (List Str) :=
  (mapE expandTerm scans).map List.flatten

/-- the parsed options — extractSpecScan.py:86-180, before the ranges are expanded -/
structure Args where
  prog : Str := p!"extractSpecScan"
  specFile : Str
  scan : List Str
  column : List Str
  labels : Bool := true
  G : Bool := false
  P : Bool := false
  Q : Bool := false
  V : Bool := false
  level : Level := .standard

/-- `map(str, column)`: the texts of the values of a column.  Iterating over the MCA dictionary gives
its keys. -/
def cells (show_ : PyFloat → Str) : DCol → List Str
  | .col xs => xs.map show_
  | .mca m => m.keys

/-- `zip(*data)`: the rows, as many as the shortest column has values; none for no columns -/
def zipRows : List (List Str) → List (List Str)
  | [] => []
  | [c] => c.map (fun x => [x])
  | c :: cs => (c.zip (zipRows cs)).map (fun p => p.1 :: p.2)

/-- the columns asked for: `scan.data[item]` raises KeyError if there is none -/
def columns (show_ : PyFloat → Str) (data : Dict DCol) (labels : List Str) :
    Except PyErr (List (List Str)) :=
  mapE (fun l => match data.get? l with
    | none => .error .KeyError
    | some d => .ok (cells show_ d)) labels

/-- the lines of data — extractSpecScan.py:225-235 -/
def dataText (show_ : PyFloat → Str) (a : Args) (x : Obj) : Except PyErr (List Str) :=
  let head := if a.labels then [p!"# " ++ join p!"\t" a.column] else []
  if x.data = [] then .ok (head ++ [p!"# <no SPEC data points in this scan>"])
  else
    match columns show_ x.data a.column with
    | .error e => .error e
    | .ok cs => .ok (head ++ (zipRows cs).map (join p!"\t"))

/-- a value of the metadata as text -/
def metaText (show_ : PyFloat → Str) : MVal → Str
  | .num x => show_ x
  | .str s => s

/-- the lines with the scan's heading — extractSpecScan.py:237-259 -/
def headingText (show_ : PyFloat → Str) (a : Args) (x : Obj) : List Str :=
  (if a.G then (sortedItems (x.G.getD [])).map
      (fun kv => p!"#G\t" ++ kv.1 ++ p!"\t" ++ join p!"\t" (splitC ' ' kv.2)) else []) ++
  (if a.P then (sortedItems x.positioner).map
      (fun kv => p!"#P\t" ++ kv.1 ++ p!"\t" ++ show_ kv.2) else []) ++
  (if a.Q then
    match x.Q with
    | none => []
    | some [] => []
    | some q => [p!"#Q\t" ++ join p!"\t" (q.map show_)] else []) ++
  (if a.V then (sortedItems (x.metadata.getD [])).map
      (fun kv => p!"#V\t" ++ kv.1 ++ p!"\t" ++ metaText show_ kv.2) else [])

/-- all lines above the data — extractSpecScan.py:260-269 -/
def topText (show_ : PyFloat → Str) (a : Args) (scanNum : Str) (x : Obj) : List Str :=
  let h := headingText show_ a x
  [p!"# file: " ++ a.specFile, p!"# scan: " ++ scanNum] ++
  (if h = [] then []
   else [p!"#", p!"# data from scan heading"] ++ h ++ [p!"#", p!"# scan data:", p!"#"])

/-- the report of a missing label — extractSpecScan.py:214-219 -/
def notFound (label scanNum : Str) : Str :=
  p!"column label \"" ++ label ++ p!"\" not found in scan #" ++ scanNum ++ p!" ... skipping"

section
variable [UniDB]

/-- an interpreted scan is reported — extractSpecScan.py:203-286.  The time and size of the new file
are not modelled.  `scan.L` is never absent. -/
def report (show_ : PyFloat → Str) (a : Args) (scanNum : Str) (x : Obj) (c : Con) : Res Con :=
  let L := x.L.getD []
  let c := a.column.foldl (fun c l => if l ∈ L then c else c.say a.level.verb (notFound l scanNum)) c
  if (a.column.filter (fun l => decide (l ∈ L))).length = a.column.length then
    Res.eval (dataText show_ a x) c fun txt =>
    let name := outputName a.specFile scanNum
    if c.fs.refuses name then Res.raise c .OSError
    else
      let text := join p!"\n" (topText show_ a scanNum x) ++ p!"\n" ++ join p!"\n" txt
      let c := { c with fs := c.fs.put name (.text (some text) 0 0) }
      let c := c.say a.level.std (p!"wrote: " ++ name)
      Res.ok (x.interpComments.foldl (fun c l => c.say a.level.verb l) c)
  else Res.ok c

/-- the state of the loop: the file object and the console -/
structure St where
  sdf : Sdf
  con : Con

/-- one scan — extractSpecScan.py:197-286; `getScan` gives None for an unknown scan, and
`None.interpret` is an AttributeError -/
def one (env : Env) (reg : List HKey) (show_ : PyFloat → Str) (a : Args) (scanNum : Str) (s : St) :
    Res St :=
  Res.eval (s.sdf.getScan (.str scanNum)) s fun x =>
  match x with
  | none => Res.raise s .AttributeError
  | some x =>
    let r := interpretScan env reg ⟨x, s.sdf.headerOf x⟩
    let s := { s with sdf := s.sdf.putScan x.scanNum r.1 }
    match r.2 with
    | some err => Res.raise s err
    | none =>
      let q := report show_ a scanNum r.1.scan s.con
      ({ s with con := q.1 }, q.2)

/-- `main()` — extractSpecScan.py:183-286 -/
def main (env : Env) (reg : List HKey) (show_ : PyFloat → Str) (a : Args) (c : Con) : Res Con :=
  Res.eval (expandTerms a.scan) c fun scans =>
  let c := c.say a.level.std (p!"program: " ++ a.prog)
  let f := Stored.file (c.fs.at? a.specFile)
  Res.eval (Sdf.openFile env reg a.specFile f f) c fun sdf =>
  let c := c.say a.level.std (p!"read: " ++ a.specFile)
  let r := forEach (one env reg show_ a) scans ⟨sdf, c⟩
  (r.1.con, r.2)

end
end Extract
end S2N
