import Verif.Model.Handlers
import Verif.Py.Sort
import Verif.Py.Time
/-
Model of class SpecDataFile and of the file tests — /repo/spec2nexus/spec.py:144-547 — and of the
handlers that work on the file object — /repo/spec2nexus/plugins/spec_common.py:47-108, 203-297.
-/
namespace S2N
open Py

/-! ## The file -/

/-- what a path refers to; the content of a file is absent if it cannot be decoded as text.
Permission errors are not modelled. -/
inductive FNode
  | missing
  | dir
  | file (content : Option Str)
  deriving DecidableEq, Repr

/-- a path with what `os.path.getmtime` and `os.path.getsize` report (numbers of any unit) -/
structure FileSt where
  node : FNode
  mtime : Int
  size : Int
  deriving DecidableEq, Repr

/-- `os.path.exists` -/
def FNode.exists : FNode → Bool
  | .missing => false
  | _ => true

/-- `os.path.isfile` -/
def FNode.isFile : FNode → Bool
  | .file _ => true
  | _ => false

/-- `open(name, "r").read()`; a directory gives IsADirectoryError (an OSError) -/
def FNode.readText : FNode → Except PyErr Str
  | .missing => .error .OSError
  | .dir => .error .OSError
  | .file none => .error .UnicodeDecodeError
  | .file (some t) => .ok (universalNewlines t)

/-- `is_spec_file_with_header(filename)` — spec.py:166-201 -/
def isSpecFileWithHeader (f : FNode) : Bool :=
  if f.exists = false ∨ f.isFile = false then false
  else
    let expected : List Str := [p!"#F ", p!"#E ", p!"#D ", p!"#C "]
    match f.readText with
    | .error _ => false
    | .ok text =>
      let lines := (readlines text).take expected.length
      if lines.length ≠ expected.length then false
      else (expected.zip lines).all (fun p => startsWith p.2 p.1)

/-- `is_spec_file(filename)` — spec.py:144-163 -/
def isSpecFile (f : FNode) : Bool :=
  if f.exists = false ∨ f.isFile = false then false
  else if isSpecFileWithHeader f then true
  else
    match f.readText with
    | .error _ => false
    | .ok text => (readlines text).any (fun l => startsWith l p!"#S ")

/-- `SpecDataFile._read_file_(name)` — spec.py:375-399.  The final replacement of `\r\n` and `\r`
has nothing left to replace after the newline translation of `open` (see `C01` lemmas). -/
def readFile (f : FNode) : Except PyErr Str :=
  if f.exists = false then .error .SpecDataFileNotFound
  else
    match f.readText with
    | .error .OSError => .error .SpecDataFileCouldNotOpen
    | .error e => .error e
    | .ok buf =>
      if (splitlines buf).any (fun l => startsWith l p!"#S ") = false ∧
          isSpecFileWithHeader f = false then
        .error .NotASpecDataFile
      else .ok (replaceC '\r' ['\n'] (replace2 '\r' '\n' ['\n'] buf))

/-- `is_section_start(text)` — spec.py:417-423 -/
def isSectionStart (text : Str) : Bool :=
  if (strip text).length = 0 then false
  else
    match splitWs text with
    | [] => false
    | f :: _ => if f.length ≠ 2 then false else [p!"#E", p!"#F", p!"#S"].contains f

/-- the list of sections from the lines of the file — spec.py:425-444 -/
def dissectLines (fileLines : List Str) : Except PyErr (List Str) :=
  let boundaries := ((List.range fileLines.length).zip fileLines).filterMap
    (fun p => if isSectionStart p.2 then some p.1 else none)
  if boundaries.length = 0 then .error .NotASpecDataFile
  else
    let boundaries := boundaries ++ [fileLines.length]
    .ok ((boundaries.dropLast.zip boundaries.tail).map
      (fun p => join ['\n'] ((fileLines.take p.2).drop p.1)))

/-- `dissect_file()` — spec.py:401-444 -/
def dissectFile (f : FNode) : Except PyErr (List Str) :=
  match readFile f with
  | .error e => .error e
  | .ok text => dissectLines (splitlines text)

/-! ## The file object -/

/-- a reference to a scan as given by a caller: an integer, a text or a float.  A float is given by the
text that `repr` makes of it, from which `float` makes it again (`FloatText` in Spec/File says what such texts
look like; no model of `repr` is needed). -/
inductive Ref
  | int (i : Int)
  | str (s : Str)
  | flt (repr : Str)
  deriving DecidableEq, Repr

/-- `str(ref)` -/
def Ref.text : Ref → Str
  | .int i => intStr i
  | .str s => s
  | .flt t => t

/-- A SpecDataFile object — spec.py:235-243.  `headers` is a list of header objects, a scan refers
to its header by position; `specFile` is absent (`none`) until set. -/
structure Sdf where
  fileName : Str
  headers : List Obj := []
  scans : Dict Obj := []
  lastScan : Option Ref := none
  specFile : Option Str := none
  mtime : Int := 0
  filesize : Int := 0

/-- `sorted(xs, key=key)`: all keys are computed first, in order -/
def sortedBy {α κ : Type} (key : α → Except PyErr κ) (le : κ → κ → Bool) (xs : List α) :
    Except PyErr (List α) :=
  match mapE key xs with
  | .error e => .error e
  | .ok ks => .ok ((sortBy (fun a b => le a.1 b.1) (ks.zip xs)).map (·.2))

/-- `l[i]` of a Python list -/
def pyGet {α : Type} (l : List α) (i : Int) : Except PyErr α :=
  let j := if i < 0 then i + l.length else i
  if j < 0 then .error .IndexError
  else
    match l[j.toNat]? with
    | some a => .ok a
    | none => .error .IndexError

/-- position denoted by a slice bound: negative ones count from the end, then clamped -/
def pyBound (n : Nat) (i : Int) : Nat :=
  if i < 0 then (i + n).toNat else min i.toNat n

/-- `l[a:b]` of a Python list -/
def pySlice {α : Type} (l : List α) (a b : Option Int) : List α :=
  let i := match a with | none => 0 | some a => pyBound l.length a
  let j := match b with | none => l.length | some b => pyBound l.length b
  (l.take j).drop i

namespace Sdf

/-- `getScanNumbers()` — spec.py:489-496 -/
def getScanNumbers (s : Sdf) : Except PyErr (List Str) :=
  match sortedBy Py.int (fun a b => decide (a ≤ b)) s.scans.keys with
  | .error .ValueError => sortedBy Py.float PyFloat.le s.scans.keys
  | r => r

/-- `time.strptime(text)` -/
def strptime (t : Str) : Except PyErr Tm :=
  match strptimeSpec t with
  | some tm => .ok tm
  | none => .error .ValueError

/-- `getScanNumbersChronological()` — spec.py:498-505 -/
def getScanNumbersChronological (s : Sdf) : Except PyErr (List Str) :=
  match sortedBy (fun x : Obj => strptime x.date) Tm.le s.scans.values with
  | .error e => .error e
  | .ok l => .ok (l.map (·.scanNum))

/-- first of a list of scan numbers, 0 if there is none -/
def firstOr0 (l : Except PyErr (List Str)) : Except PyErr Ref :=
  match l with
  | .error e => .error e
  | .ok [] => .ok (.int 0)
  | .ok (a :: _) => .ok (.str a)

/-- last of a list of scan numbers, 0 if there is none -/
def lastOr0 (l : Except PyErr (List Str)) : Except PyErr Ref :=
  match l with
  | .error e => .error e
  | .ok l => match l.getLast? with
    | none => .ok (.int 0)
    | some a => .ok (.str a)

/-- `getMinScanNumber()` — spec.py:507-512 -/
def getMinScanNumber (s : Sdf) : Except PyErr Ref := firstOr0 s.getScanNumbers
/-- `getMaxScanNumber()` — spec.py:514-519 -/
def getMaxScanNumber (s : Sdf) : Except PyErr Ref := lastOr0 s.getScanNumbers
/-- `getFirstScanNumber()` — spec.py:521-526 -/
def getFirstScanNumber (s : Sdf) : Except PyErr Ref := firstOr0 s.getScanNumbersChronological
/-- `getLastScanNumber()` — spec.py:528-533 -/
def getLastScanNumber (s : Sdf) : Except PyErr Ref := lastOr0 s.getScanNumbersChronological

/-- `int(float(ref))` -/
def refInt : Ref → Except PyErr Int
  | .int i => .ok i
  | .str t =>
    match Py.float t with
    | .error e => .error e
    | .ok f => f.toInt
  | .flt t =>
    match Py.float t with
    | .error e => .error e
    | .ok f => f.toInt

/-- `int(ref)` -/
def refIndex : Ref → Except PyErr Int
  | .int i => .ok i
  | .str t => Py.int t
  | .flt t =>
    match Py.float t with
    | .error e => .error e
    | .ok f => f.toInt

/-- `getScan(scan_number)` — spec.py:476-487 -/
def getScan (s : Sdf) (r : Ref) : Except PyErr (Option Obj) :=
  match refInt r with
  | .error e => .error e
  | .ok n =>
    if n < 1 then
      match s.getScanNumbers with
      | .error e => .error e
      | .ok l =>
        if l.length = 0 then .ok none
        else
          match refIndex r with
          | .error e => .error e
          | .ok i =>
            match pyGet l i with
            | .error e => .error e
            | .ok name => .ok (s.scans.get? name)
    else .ok (s.scans.get? r.text)

/-- `getScanCommands(scan_list)` — spec.py:535-547 -/
def getScanCommands (s : Sdf) (scanList : Option (List Ref)) : Except PyErr (List Str) :=
  let keys : Except PyErr (List Ref) :=
    match scanList with
    | some (r :: rs) => .ok (r :: rs)
    | _ =>
      match s.getScanNumbers with
      | .error e => .error e
      | .ok l => .ok (l.map .str)
  match keys with
  | .error e => .error e
  | .ok keys =>
    match mapE (fun k => match s.getScan k with
        | .error e => .error e
        | .ok none => .ok []
        | .ok (some x) => .ok [p!"#S " ++ k.text ++ [' '] ++ x.scanCmd]) keys with
    | .error e => .error e
    | .ok l => .ok l.flatten

/-! ### Slicing — spec.py:256-315 -/

/-- an argument of `sdf[...]`: an integer, a text, a float, None, a slice of such, a tuple -/
inductive Idx
  | ref (r : Ref)
  | none
  | slice (start stop step : Option Ref)
  | tuple (items : List Idx)

/-- what `sdf[...]` returns: what `getScan` returns, or a list of such -/
inductive Got
  | one (x : Option Obj)
  | many (l : List (Option Obj))

/-- `float(given.start or scanlist[0])` — spec.py:261-262; `i` is the position in the scan list used instead of
a bound that is None, 0, 0.0 or an empty text -/
def boundFloat (scanlist : List Str) (b : Option Ref) (i : Int) : Except PyErr PyFloat :=
  let default :=
    match pyGet scanlist i with
    | .error e => .error e
    | .ok k => Py.float k
  match b with
  | Option.none => default
  | some (.int n) => if n = 0 then default else .ok (.fin n)
  | some (.str t) => if t = [] then default else Py.float t
  | some (.flt t) =>
    match Py.float t with
    | .error e => .error e
    | .ok f => if f = .fin 0 then default else .ok f

/-- `b is None or b < 0` — spec.py:265-266; a text cannot be compared with a number -/
def noneOrNeg : Option Ref → Except PyErr Bool
  | Option.none => .ok true
  | some (.int i) => .ok (decide (i < 0))
  | some (.str _) => .error .TypeError
  | some (.flt t) =>
    match Py.float t with
    | .error e => .error e
    | .ok f => .ok (PyFloat.lt f (.fin 0))

/-- are the bounds relative positions? — spec.py:264-268, `or` and `and` from left to right -/
def relative (a b : Option Ref) (start stop : PyFloat) : Except PyErr Bool :=
  let both := PyFloat.lt start (.fin 0) && PyFloat.lt stop (.fin 0)
  if a.isNone then
    match noneOrNeg b with
    | .error e => .error e
    | .ok r => .ok (r || both)
  else if b.isNone then
    match noneOrNeg a with
    | .error e => .error e
    | .ok r => .ok (r || both)
  else .ok both

/-- a bound of the slice of a Python list: only integers and None are allowed -/
def listBound : Option Ref → Except PyErr (Option Int)
  | Option.none => .ok Option.none
  | some (.int i) => .ok (some i)
  | some _ => .error .TypeError

/-- `scanlist[given.start : given.stop]` — spec.py:270 -/
def sliceList (l : List Str) (a b : Option Ref) : Except PyErr (List Str) :=
  match listBound a with
  | .error e => .error e
  | .ok a =>
    match listBound b with
    | .error e => .error e
    | .ok b => .ok (pySlice l a b)

/-- `if start <= float(k) < stop` for the keys in order — spec.py:276 -/
def keepRange (start stop : PyFloat) : List Str → Except PyErr (List Str)
  | [] => .ok []
  | k :: ks =>
    match Py.float k with
    | .error e => .error e
    | .ok x =>
      match keepRange start stop ks with
      | .error e => .error e
      | .ok r => .ok (if PyFloat.le start x ∧ PyFloat.lt x stop then k :: r else r)

/-- the dictionary of repeated scans — spec.py:285-291 -/
def repeats : List Str → Dict (List Str) → Except PyErr (Dict (List Str))
  | [], kd => .ok kd
  | k :: ks, kd =>
    match splitScanNumberString k with
    | .error e => .error e
    | .ok [s, w] =>
      if w = 0 then repeats ks (kd.set (intStr s) [k])
      else
        match kd.get? (intStr s) with
        | Option.none => .error .KeyError
        | some l => repeats ks (kd.set (intStr s) (l ++ [k]))
    | .ok _ => .error .ValueError

/-- choice by the step — spec.py:281-296 -/
def chooseStep (step : Int) (keys : List Str) : Except PyErr (List Str) :=
  if step < 0 then
    match repeats keys [] with
    | .error e => .error e
    | .ok kd => mapE (fun l => pyGet l step) kd.values
  else
    match mapE splitScanNumberString keys with
    | .error e => .error e
    | .ok ws => .ok (((ws.zip keys).filter (fun p => p.1[1]? == some step)).map (·.2))

/-- the scan numbers selected by a slice — spec.py:258-296 -/
def sliceKeys (s : Sdf) (a b step : Option Ref) : Except PyErr (List Str) :=
  match s.getScanNumbersChronological with
  | .error e => .error e
  | .ok scanlist =>
    match boundFloat scanlist a 0 with
    | .error e => .error e
    | .ok start =>
      match boundFloat scanlist b (-1) with
      | .error e => .error e
      | .ok stop =>
        let zero := PyFloat.fin 0
        let keys : Except PyErr (List Str) :=
          match relative a b start stop with
          | .error e => .error e
          | .ok true => sliceList scanlist a b
          | .ok false =>
            if PyFloat.le zero start ∧ PyFloat.le zero stop then keepRange start stop scanlist
            else .error .IndexError
        match keys with
        | .error e => .error e
        | .ok keys =>
          match step with
          | Option.none => .ok keys
          | some st =>
            match refIndex st with
            | .error e => .error e
            | .ok st => chooseStep st keys

/-- a plain index — spec.py:306-315; a list has no float positions (TypeError) -/
def getPlain (s : Sdf) (r : Ref) : Except PyErr (Option Obj) :=
  match r with
  | .str t => s.getScan (.str t)
  | .flt t =>
    match Py.float t with
    | .error e => .error e
    | .ok f =>
      if PyFloat.le (.fin 0) f then s.getScan (.flt t)
      else
        match s.getScanNumbersChronological with
        | .error e => .error e
        | .ok _ => .error .TypeError
  | .int i =>
    if 0 ≤ i then s.getScan (.int i)
    else
      match s.getScanNumbersChronological with
      | .error e => .error e
      | .ok l =>
        match pyGet l i with
        | .error e => .error e
        | .ok k => s.getScan (.str k)

mutual
/-- `sdf[given]` — spec.py:256-315 -/
def getItem (s : Sdf) : Idx → Except PyErr Got
  | .none => .error .TypeError
  | .ref r =>
    match s.getPlain r with
    | .error e => .error e
    | .ok x => .ok (.one x)
  | .slice a b step =>
    match s.sliceKeys a b step with
    | .error e => .error e
    | .ok keys =>
      match mapE (fun k => s.getScan (.str k)) keys with
      | .error e => .error e
      | .ok l => .ok (.many l)
  | .tuple items =>
    match getItems s items with
    | .error e => .error e
    | .ok l => .ok (.many l)
/-- the items of a tuple — spec.py:298-305; adding None to a list is a TypeError -/
def getItems (s : Sdf) : List Idx → Except PyErr (List (Option Obj))
  | [] => .ok []
  | i :: is =>
    match getItem s i with
    | .error e => .error e
    | .ok (.one Option.none) => .error .TypeError
    | .ok (.one (some x)) =>
      match getItems s is with
      | .error e => .error e
      | .ok r => .ok (some x :: r)
    | .ok (.many l) =>
      match getItems s is with
      | .error e => .error e
      | .ok r => .ok (l ++ r)
end

/-! ## Reading -/

/-- the header object of a scan -/
def headerOf (s : Sdf) (x : Obj) : Obj := s.headers.getD x.hdrIdx (Obj.newHeader s.fileName [])

/-- the last scan of the file (insertion order) with its name -/
def latest (s : Sdf) : Option (Str × Obj) := s.scans.getLast?

/-- the last scan, named `name`, and its header as objects were changed -/
def putLatest (s : Sdf) (name : Str) (c : ScanCtx) : Sdf :=
  { s with scans := s.scans.dropLast ++ [(name, c.scan)],
           headers := s.headers.set c.scan.hdrIdx c.hdr }

/-- SPEC_File.process — spec_common.py:67-71 -/
def procF (text : Str) (s : Sdf) : Sdf :=
  match s.specFile with
  | Option.none => { s with specFile := some (stripFirstWord text) }
  | some [] => { s with specFile := some (stripFirstWord text) }
  | some _ => s

/-- first line of a block; IndexError if there is none -/
def firstLine (buf : Str) : Except PyErr Str :=
  match splitlines buf with
  | [] => .error .IndexError
  | l :: _ => .ok l

/-- the epoch on the first line of a header — spec_common.py:102-106 -/
def epochOf (line : Str) : Except PyErr Num :=
  if line.contains '.' then
    match Py.float (stripFirstWord line) with
    | .error e => .error e
    | .ok f => .ok (.flt f)
  else
    match Py.int (stripFirstWord line) with
    | .error e => .error e
    | .ok i => .ok (.int i)

section
variable [UniDB]

/-- SPEC_Epoch.process — spec_common.py:94-108.  The interpretation of the header can change the
latest scan of the file and that scan's header (#P lines). -/
def procE (env : Env) (reg : List HKey) (buf : Str) (s : Sdf) : Res Sdf :=
  if s.headers.any (fun h => strip h.raw == strip buf) then Res.ok s
  else
    Res.eval (firstLine buf) s fun l =>
    Res.eval (epochOf (strip l)) s fun e =>
    let header := { Obj.newHeader s.fileName buf with epoch := some e }
    let n := s.headers.length
    let s := { s with headers := s.headers ++ [header] }
    match s.latest with
    | Option.none =>
      let r := interpretHeader env reg ⟨header, Option.none⟩
      ({ s with headers := s.headers.set n r.1.hdr }, r.2)
    | some (name, x) =>
      let r := interpretHeader env reg ⟨header, some ⟨x, s.headerOf x⟩⟩
      let s := match r.1.latest with
        | some c => s.putLatest name c
        | Option.none => s
      ({ s with headers := s.headers.set n r.1.hdr }, r.2)

end

/-- `beginning(buf)` — spec_common.py:260-268 -/
def beginning (buf : Str) : Str :=
  join ['\n'] (((splitlines (strip buf)).take 5).filter (fun l => startsWith l ['#']))

/-- `sdf.getScan(sdf.last_scan).raw` — AttributeError if there is no such scan -/
def rawOf (s : Sdf) (r : Ref) : Except PyErr Str :=
  match s.getScan r with
  | .error e => .error e
  | .ok Option.none => .error .AttributeError
  | .ok (some x) => .ok x.raw

/-- the name for a new scan — spec_common.py:281-293 -/
def freeName {α : Type} (scans : Dict α) (num : Str) : Str :=
  if scans.has num then
    match ((List.range scans.length).map (fun i => num ++ ['.'] ++ natStr (i + 1))).find?
        (fun n => !scans.has n) with
    | some n => n
    | Option.none => num
  else num

/-- the new scan object is named and stored — spec_common.py:276-297 -/
def addScan (part : Str) (idx : Nat) (s : Sdf) : Res Sdf :=
  Res.eval (firstLine part) s fun l =>
  let S := stripFirstWord (strip l)
  match splitWs S with
  | [] => Res.raise s .IndexError
  | num :: _ =>
    let name := freeName s.scans num
    if s.scans.has name then Res.raise s .DuplicateSpecScanNumber
    else
      let scan := { Obj.newScan s.fileName idx part with
        S := S, scanNum := name, scanCmd := stripFirstWord S }
      Res.ok { s with scans := s.scans.set name scan }

/-- remove the last scan if the section starts like it — spec_common.py:253-274 -/
def dropLastScan (part : Str) (s : Sdf) : Res Sdf :=
  match s.lastScan with
  | Option.none => Res.ok s
  | some r =>
    Res.eval (s.rawOf r) s fun raw =>
    if beginning part = beginning raw then
      if s.scans.has r.text then
        Res.ok { s with scans := s.scans.del r.text, lastScan := Option.none }
      else Res.raise s .KeyError
    else Res.ok s

/-- SPEC_Scan.process — spec_common.py:233-297 -/
def procS (part : Str) (s : Sdf) : Res Sdf :=
  let s : Sdf := if s.headers = [] then { s with headers := [Obj.newHeader s.fileName []] } else s
  let idx := s.headers.length - 1
  let add := (dropLastScan part s).andThen (addScan part idx)
  if s.scans.any (fun p => strip p.2.raw == strip part) then
    match s.lastScan with
    | Option.none => add
    | some r =>
      Res.eval (s.rawOf r) s fun raw => if raw ≠ part then Res.ok s else add
  else add

/-- the first #D line of a scan — spec.py:459-465.  IndexError for a line of white space. -/
def findDate : List Str → Except PyErr (Option Str)
  | [] => .ok Option.none
  | l :: ls =>
    if l.length = 0 then findDate ls
    else
      match splitWs l with
      | [] => .error .IndexError
      | w :: _ => if w = p!"#D" then .ok (some l) else findDate ls

/-- date the last scan of the file — spec.py:457-465 -/
def dateLatest (env : Env) (s : Sdf) : Res Sdf :=
  match s.latest with
  | Option.none => Res.raise s .IndexError
  | some (name, x) =>
    Res.eval (findDate (splitlines x.raw).tail) s fun d =>
    match d with
    | Option.none => Res.ok s
    | some line =>
      let r := procScan env .D line ⟨x, s.headerOf x⟩
      (s.putLatest name r.1, r.2)

section
variable [UniDB]

/-- `key` does not start with `#` (the handlers of data, MCA data, unrecognized lines) -/
def notControl (k : HKey) : Bool := !startsWith k.keyText ['#']

/-- one section of the file — spec.py:451-465.  Sections whose key is neither #E, #F nor #S would
go to another handler; `block_key` (Lemmas/SpecFile.lean) shows that there are none. -/
def readBlock (env : Env) (reg : List HKey) (block : Str) (s : Sdf) : Res Sdf :=
  if block.length = 0 then Res.ok s
  else
    Res.eval (firstLine block) s fun l =>
    Res.eval (getControlKey reg l) s fun k =>
    match k with
    | Option.none => Res.raise s .AttributeError
    | some .E => procE env reg block s
    | some .F => Res.ok (procF block s)
    | some .S => (procS block s).andThen (dateLatest env)
    | some _ => Res.ok s

/-- end of `read()` — spec.py:467-474 -/
def finish (stat : FileSt) (s : Sdf) : Res Sdf :=
  let s := { s with specFile := some (s.specFile.getD s.fileName) }
  Res.eval s.getLastScanNumber s fun r =>
  let s := { s with lastScan := some r }
  match stat.node with
  | .missing => Res.raise s .OSError
  | _ => Res.ok { s with filesize := stat.size, mtime := stat.mtime }

/-- `read()` — spec.py:446-474.  `f` is the file when its text is read, `stat` when its size and
time are taken at the end. -/
def read (env : Env) (reg : List HKey) (f stat : FileSt) (s : Sdf) : Res Sdf :=
  Res.eval (dissectFile f.node) s fun sections =>
  (forEach (readBlock env reg) sections s).andThen (finish stat)

/-- `SpecDataFile(filename)` — spec.py:235-251: the object is only returned if nothing is raised -/
def openFile (env : Env) (reg : List HKey) (fileName : Str) (f stat : FileSt) : Except PyErr Sdf :=
  if f.node.exists = false then .error .SpecDataFileNotFound
  else if isSpecFile f.node = false then .error .NotASpecDataFile
  else
    match read env reg f stat { fileName := fileName } with
    | (s, Option.none) => .ok s
    | (_, some e) => .error e

/-- `update_available` — spec.py:317-346; a missing file raises FileNotFoundError -/
def updateAvailable (f : FileSt) (s : Sdf) : Except PyErr Bool :=
  match f.node with
  | .missing => .error .OSError
  | _ => .ok (!(s.mtime == f.mtime && s.filesize == f.size))

/-- `refresh()` — spec.py:348-373: the file `f` when the decision is made and the text is read,
`stat` at the end.  The second component is the returned value. -/
def refresh (env : Env) (reg : List HKey) (f stat : FileSt) (s : Sdf) :
    Res Sdf × Option Ref :=
  match s.updateAvailable f with
  | .error e => (Res.raise s e, Option.none)
  | .ok false => (Res.ok s, Option.none)
  | .ok true =>
    let r := s.read env reg f stat
    match r.2 with
    | Option.none => (r, s.lastScan)
    | some _ => (r, Option.none)

/-- reading the attribute `attr` of the scan named `n` (`sdf.scans[n].attr`) — spec.py:697-703: the
scan and its header may be interpreted -/
def access (env : Env) (reg : List HKey) (n attr : Str) (s : Sdf) : Res Sdf :=
  match s.scans.get? n with
  | Option.none => Res.raise s .KeyError
  | some x =>
    let r := readAttr env reg attr ⟨x, s.headerOf x⟩
    ({ s with scans := s.scans.set n r.1.scan, headers := s.headers.set x.hdrIdx r.1.hdr }, r.2)

end
end Sdf
end S2N
