import Verif.Model.Utils
import Verif.Model.Registry
import Verif.Model.Scanf
import Verif.Model.Diffractometers
/-
Model of the control-line handlers (/repo/spec2nexus/plugins/*.py) and of the
interpretation of header and scan sections (/repo/spec2nexus/spec.py:549-800).
HDF5 writers of the handlers are modelled in Model/Writer.lean.
-/
namespace S2N
open Py

/-! ## Objects -/

/-- an XML element as used by plugins/uxml.py: tag, attributes, text, children.  Comments and
processing instructions are elements whose tag is not a tag of the schema. -/
inductive XmlNode
  | mk (tag : Str) (attrib : Dict Str) (text : Option Str) (children : List XmlNode)

/-- What the interpreter calls outside Python's string handling: local time and lxml. -/
structure Env where
  /-- `datetime.fromtimestamp(x).strftime("%c")` -/
  fromTimestamp : PyFloat → Except PyErr Str
  /-- `time.mktime(t)` -/
  mktime : Tm → Except PyErr Num
  /-- `etree.fromstring` of the UXML text within the default root tag -/
  xmlParse : Str → Except PyErr XmlNode
  /-- `xml_schema.validate(root)` -/
  xmlValid : XmlNode → Bool

/-- SpecDataFileHeader or SpecDataFileScan -/
inductive Kind
  | header | scan
  deriving DecidableEq, Repr

/-- post-processing functions of the handlers -/
inductive PostFn
  | counterJ | counterj | positionerXref | geometry | positions | scanData | unicat | uxml
  deriving DecidableEq, Repr

/-- HDF5 writers of the handlers -/
inductive H5Fn
  | date | comments | geometry | counterJ | counterj | positionerXref | monitor | positioners
  | hkl | userResults | countTime | userReserved | temperature | calib | chann | ctime
  | scanData | metadata | VA | VD | VE | XPCS | CCD | MD | unrec | uxml
  deriving DecidableEq, Repr

/-- `scan.N`: attribute missing, the initial -1, or the numbers of the #N line -/
inductive NVal
  | absent | minusOne | nums (l : List Int)
  deriving DecidableEq, Repr

/-- `scan.N[0]` -/
def NVal.first : NVal → Except PyErr Int
  | .absent => .error .AttributeError
  | .minusOne => .error .TypeError
  | .nums [] => .error .IndexError
  | .nums (n :: _) => .ok n

/-- a value of the dictionary `scan.data`: a column, or the MCA spectra by name -/
inductive DCol
  | col (xs : List PyFloat)
  | mca (m : Dict (List (List Num)))
  deriving DecidableEq, Repr

/-- the dictionary `scan.MCA` -/
structure McaInfo where
  calib : Option (PyFloat × PyFloat × PyFloat) := none
  chann : Option (Int × Int × Int × PyFloat) := none
  ctime : Option (PyFloat × PyFloat × PyFloat) := none
  roi : Dict (Int × Int) := []
  deriving DecidableEq, Repr

/-- a value of `scan.metadata` -/
inductive MVal
  | num (x : PyFloat)
  | str (s : Str)
  deriving DecidableEq, Repr

/-- The attributes of a header or scan object (spec.py:562-576, 648-692); `none` means that
the attribute does not exist. -/
structure Obj where
  kind : Kind
  raw : Str
  fileName : Str := []
  comments : List Str := []
  date : Str := []
  epoch : Option Num := none
  aborted : Option Str := none
  G : Option (Dict Str) := none
  diff : Option Diff := none
  I : Option PyFloat := none
  J : Option (List (List Str)) := none
  j : Option (List (List Str)) := none
  o : Option (List (List Str)) := none
  counterXref : Option (Dict Str) := none
  positionerXref : Option (Dict Str) := none
  L : Option (List Str) := none
  columnFirst : Option Str := none
  columnLast : Option Str := none
  M : Option Str := none
  monitorName : Option Str := none
  T : Option Str := none
  timeName : Option Str := none
  N : NVal := .absent
  O : Option (List (List Str)) := none
  H : Option (List (List Str)) := none
  P : Option (List (List Str)) := none
  positioner : Dict PyFloat := []
  Q : Option (List PyFloat) := none
  R : Option (List Str) := none
  U : Option (List Str) := none
  UIM : Option (List Str) := none
  unrecognized : Option (List Str) := none
  UXML : Option (List Str) := none
  uxmlRoot : Option XmlNode := none
  tempSP : Option SVal := none
  degcSP : Option SVal := none
  data : Dict DCol := []
  dataLines : Option (List Str) := none
  mca : Option McaInfo := none
  metadata : Option (Dict MVal) := none
  V : Option (List (List Str)) := none
  VA : Option (Dict Str) := none
  VD : Option (Dict Str) := none
  VE : Option (Dict Str) := none
  XPCS : Option (Dict (List Str)) := none
  CCD : Option (Dict (List Str)) := none
  MD : Option (Dict Str) := none
  S : Str := []
  scanNum : Str := []
  scanCmd : Str := []
  interpComments : List Str := []
  post : Dict PostFn := []
  h5 : Dict H5Fn := []
  lazy : Bool := false
  interpreted : Bool := false
  hdrIdx : Nat := 0

/-- `SpecDataFileHeader(buf, parent)` — spec.py:562-576 -/
def Obj.newHeader (fileName raw : Str) : Obj :=
  { kind := .header, raw := raw, fileName := fileName, epoch := some (.int 0),
    H := some [], O := some [] }

/-- `SpecDataFileScan(header, buf, parent)` — spec.py:648-692.  `Q`, `M`, `T` start as "",
`column_first` and `column_last` as "". -/
def Obj.newScan (fileName : Str) (hdrIdx : Nat) (raw : Str) : Obj :=
  { kind := .scan, raw := raw, fileName := fileName, hdrIdx := hdrIdx, G := some [], L := some [],
    M := some [], N := .minusOne, P := some [], T := some [], V := some [], columnFirst := some [],
    columnLast := some [], dataLines := some [], lazy := true }

/-- `addPostProcessor(label, func)` — spec.py:602-612, 757-767 -/
def Obj.addPost (x : Obj) (label : Str) (f : PostFn) : Obj :=
  { x with post := x.post.setDefault label f }

/-- `addH5writer(label, func)` — spec.py:614-624, 769-779 -/
def Obj.addH5 (x : Obj) (label : Str) (f : H5Fn) : Obj :=
  { x with h5 := x.h5.setDefault label f }

/-! ## Handlers of one line that only change the object -/

/-- `int(x)` of a number -/
def Num.toIntE : Num → Except PyErr Int
  | .int i => .ok i
  | .flt f => f.toInt

/-- a number as argument of `fromtimestamp` -/
def Num.toFlt : Num → PyFloat
  | .int i => .fin i
  | .flt f => f

/-- first word of a line; IndexError if there is none -/
def firstWord (text : Str) : Except PyErr Str :=
  match splitWs text with
  | [] => .error .IndexError
  | w :: _ => .ok w

/-- `.lstrip(c)` -/
def lstripC (c : Char) (s : Str) : Str := s.dropWhile (· == c)

/-- first part of SPEC_Date.process: sets date and epoch — spec_common.py:128-140 -/
def procDate (env : Env) (text : Str) (x : Obj) : Res Obj :=
  let t := stripFirstWord text
  if (splitC ' ' t).length = 1 then
    Res.eval (Py.float t) x fun f =>
    Res.eval f.toInt x fun n =>
    Res.eval (env.fromTimestamp f) { x with epoch := some (.int n) } fun s =>
    Res.ok { x with epoch := some (.int n), date := s }
  else
    match x.epoch with
    | some _ => Res.ok { x with date := t }
    | none =>
      match strptimeSpec t with
      | none => Res.raise { x with date := t } .ValueError
      | some tm =>
        Res.eval (env.mktime tm) { x with date := t } fun e =>
        Res.ok { x with date := t, epoch := some e }

/-- SPEC_Comment.process — spec_common.py:183-189 -/
def procC (text : Str) (x : Obj) : Res Obj :=
  let x := { x with comments := x.comments ++ [stripFirstWord text] }
  let x : Obj := match findS p!"Scan aborted after " text with
    | some (pos + 1) => { x with aborted := some (text.drop (pos + 1)) }
    | _ => x
  Res.ok (if x.kind = .scan then x.addH5 p!"#C" .comments else x)

/-- SPEC_Geometry.process — spec_common.py:325-328 -/
def procG (text : Str) (x : Obj) : Res Obj :=
  Res.eval (firstWord text) x fun w =>
  match x.G with
  | none => Res.raise x .AttributeError
  | some g =>
    Res.ok ({ x with G := some (g.set (lstripC '#' w) (stripFirstWord text)) }.addPost
      p!"diffractometer geometry" .geometry)

/-- SPEC_NormalizingFactor.process — spec_common.py:491-492 -/
def procI (text : Str) (x : Obj) : Res Obj :=
  Res.eval (Py.float (stripFirstWord text)) x fun f => Res.ok { x with I := some f }

/-- SPEC_CounterNames.process — spec_common.py:520-526 -/
def procJ (text : Str) (x : Obj) : Res Obj :=
  Res.ok ({ x with J := some (x.J.getD [] ++ [splitWs (stripFirstWord text)]) }.addPost
    p!"counter cross-referencing" .counterJ)

/-- SPEC_CounterMnemonics.process — spec_common.py:572-578 -/
def procj (text : Str) (x : Obj) : Res Obj :=
  Res.ok ({ x with j := some (x.j.getD [] ++ [splitWs (stripFirstWord text)]) }.addPost
    p!"counter cross-referencing" .counterj)

/-- choice of the labels of a #L line — spec_common.py:638-646 -/
def labelsOf (N : NVal) (text : Str) : Except PyErr (List Str) :=
  let L := splitColumnLabels (stripFirstWord text)
  if L.length = 1 ∧ N ≠ .absent then
    match N.first with
    | .error e => .error e
    | .ok n =>
      let labels := splitWs (stripFirstWord text)
      .ok (if n > 1 ∧ (labels.length : Int) = n then labels else L)
  else .ok L

/-- SPEC_Labels.process — spec_common.py:636-649.  `scan.L` is assigned before `scan.N[0]`
is looked at, and stays on an exception. -/
def procL (text : Str) (x : Obj) : Res Obj :=
  Res.eval (labelsOf x.N text)
    { x with L := some (splitColumnLabels (stripFirstWord text)) } fun L =>
  match L.head?, L.getLast? with
  | some a, some b => Res.ok { x with L := some L, columnFirst := some a, columnLast := some b }
  | _, _ => Res.raise { x with L := some L } .IndexError

/-- value of a `#T value  (name)` or `#M value  (name)` line -/
def tmValue (text : Str) : Str :=
  let t := stripFirstWord text
  sliceTo (findC ' ' t) t

/-- name of a `#T value  (name)` or `#M value  (name)` line -/
def tmName (text : Str) : Str :=
  let t := stripFirstWord text
  rstripP (· == ')') (lstripC '(' (strip (sliceFrom (findC ' ' t) t)))

/-- SPEC_Monitor.process — spec_common.py:672-678 -/
def procM (text : Str) (x : Obj) : Res Obj :=
  Res.ok ({ x with M := some (tmValue text), monitorName := some (tmName text) }.addH5
    p!"#M" .monitor)

/-- SPEC_NumColumns.process — spec_common.py:707-708 -/
def procN (text : Str) (x : Obj) : Res Obj :=
  Res.eval (mapE Py.int (splitWs (stripFirstWord text))) x fun l => Res.ok { x with N := .nums l }

/-- names on a #O line — spec_common.py:742-746 -/
def namesO (text : Str) : List Str :=
  let content := strip (stripFirstWord text)
  if content = [] then [] else splitColumnLabels content

/-- SPEC_PositionerNames.process on the header object — spec_common.py:736-747 -/
def procO (text : Str) (h : Obj) : Res Obj :=
  Res.eval (firstWord text) h fun w =>
  let h := if w = p!"#O0" then { h with O := some [] } else h
  match h.O with
  | none => Res.raise h .AttributeError
  | some rows => Res.ok { h with O := some (rows ++ [namesO text]) }

/-- SPEC_PositionerMnemonics.process — spec_common.py:770-781 -/
def proco (text : Str) (x : Obj) : Res Obj :=
  let content := strip (stripFirstWord text)
  let ws := if content = [] then [] else splitWs content
  Res.ok ({ x with o := some (x.o.getD [] ++ [ws]) }.addPost
    p!"positioner cross-referencing" .positionerXref)

/-- SPEC_Positioners.process on the scan object — spec_common.py:840-849 -/
def procP (text : Str) (x : Obj) : Res Obj :=
  match x.P with
  | none => Res.raise x .AttributeError
  | some rows =>
    Res.ok ({ x with P := some (rows ++ [splitWs (stripFirstWord text)]) }.addPost
      p!"motor_positions" .positions)

/-- SPEC_HKL.process — spec_common.py:917-921 -/
def procQ (text : Str) (x : Obj) : Res Obj :=
  let s := stripFirstWord text
  if s.length > 0 then
    Res.eval (mapE Py.float (splitWs s)) x fun q =>
      Res.ok ({ x with Q := some q }.addH5 p!"#Q" .hkl)
  else Res.ok x

/-- SPEC_UserResults.process — spec_common.py:950-956 -/
def procR (text : Str) (x : Obj) : Res Obj :=
  Res.ok ({ x with R := some (x.R.getD [] ++ [strip (stripFirstWord text)]) }.addH5
    p!"#R" .userResults)

/-- SPEC_CountTime.process — spec_common.py:995-1001 -/
def procT (text : Str) (x : Obj) : Res Obj :=
  Res.ok ({ x with T := some (tmValue text), timeName := some (tmName text) }.addH5
    p!"#T" .countTime)

/-- SPEC_UserReserved.process — spec_common.py:1033-1039 -/
def procU (text : Str) (x : Obj) : Res Obj :=
  Res.ok ({ x with U := some (x.U.getD [] ++ [strip (stripFirstWord text)]) }.addH5
    p!"#U" .userReserved)

/-- formats of #X lines — spec_common.py:1092-1100 -/
def tempFormats : List Str :=
  [p!"#X %fKohm (%fC)", p!"#X %f %f", p!"#X Control: %fK  Sample: %fK"]

/-- first format that matches: the values -/
def tempScan : List Str → Str → Except PyErr (Option (List SVal))
  | [], _ => .ok none
  | f :: fs, text =>
    match scanfFresh f text with
    | .error e => .error e
    | .ok (some r) => .ok (some r)
    | .ok none => tempScan fs text

/-- SPEC_TemperatureSetPoint.process — spec_common.py:1090-1107 -/
def procX (text : Str) (x : Obj) : Res Obj :=
  Res.eval (tempScan tempFormats text) x fun r =>
  match r with
  | none => Res.ok x
  | some [a, b] => Res.ok ({ x with tempSP := some a, degcSP := some b }.addH5 p!"#X" .temperature)
  | some _ => Res.raise x .ValueError

/-- SPEC_DataLine.process and SPEC_MCA_Array.process — spec_common.py:1170-1175, 1257-1260 -/
def procData (text : Str) (x : Obj) : Res Obj :=
  match x.dataLines with
  | none => Res.raise x .AttributeError
  | some ls => Res.ok ({ x with dataLines := some (ls ++ [text]) }.addPost p!"scan_data" .scanData)

/-- SPEC_MCA_Calibration.process — spec_common.py:1294-1308 -/
def procCalib (text : Str) (x : Obj) : Res Obj :=
  Res.eval (mapE Py.float ((splitWs (stripFirstWord text)).take 3)) x fun l =>
  match l with
  | [a, b, c] =>
    Res.ok ({ x with mca := some { x.mca.getD {} with calib := some (a, b, c) } }.addH5
      p!"#@[cC][aA][lL][iI][bB]" .calib)
  | _ => Res.raise x .ValueError

/-- SPEC_MCA_ChannelInformation.process — spec_common.py:1350-1363 -/
def procChann (text : Str) (x : Obj) : Res Obj :=
  let s := splitWs (stripFirstWord text)
  Res.eval (mapE Py.int (s.take 3)) x fun l =>
  match l with
  | [a, b, c] =>
    Res.eval (Py.float (s.getLastD [])) x fun r =>
    Res.ok ({ x with mca := some { x.mca.getD {} with chann := some (a, b, c, r) } }.addH5
      p!"#@CHANN" .chann)
  | _ => Res.raise x .ValueError

/-- SPEC_MCA_CountTime.process — spec_common.py:1413-1425 -/
def procCtime (text : Str) (x : Obj) : Res Obj :=
  Res.eval (mapE Py.float (splitWs (stripFirstWord text))) x fun l =>
  match l with
  | [a, b, c] =>
    Res.ok ({ x with mca := some { x.mca.getD {} with ctime := some (a, b, c) } }.addH5
      p!"#@CTIME" .ctime)
  | _ => Res.raise x .ValueError

/-- SPEC_MCA_RegionOfInterest.process — spec_common.py:1474-1492. Unlike the other MCA lines it does not register its
writer (1494-1524), which therefore never runs. -/
def procRoi (text : Str) (x : Obj) : Res Obj :=
  let t := stripFirstWord text
  let pos := rfindC ' ' t
  Res.eval (Py.int (sliceFrom pos t)) x fun last =>
  let t := sliceTo pos t
  let pos := rfindC ' ' t
  Res.eval (Py.int (sliceFrom pos t)) x fun first =>
  let m := x.mca.getD {}
  Res.ok { x with mca := some { m with roi := m.roi.set (strip (sliceTo pos t)) (first, last) } }

/-- fallback.UnrecognizedControlLine.process — fallback.py:20-26 -/
def procUnrec (text : Str) (x : Obj) : Res Obj :=
  Res.ok ({ x with unrecognized := some (x.unrecognized.getD [] ++ [text]) }.addH5
    p!"unrecognized_control_line" .unrec)

/-- key and value of a #MD line when `scan.MD` has `n` items — apstools_specwriter.py:38-46 -/
def mdItem (n : Nat) (text : Str) : Except PyErr (Str × Str) :=
  match findS ['='] text with
  | some p =>
    if p > 5 then
      match splitWs text with
      | _ :: k :: _ => .ok (k, strip (text.drop (p + 1)))
      | _ => .error .IndexError
    else .ok (p!"MD_line_" ++ natStr (n + 1), strip text)
  | none => .ok (p!"MD_line_" ++ natStr (n + 1), strip text)

/-- MD_apstools.process — apstools_specwriter.py:33-48 -/
def procMD (text : Str) (x : Obj) : Res Obj :=
  let md := x.MD.getD []
  Res.eval (mdItem md.length text) { x with MD := some md } fun kv =>
  Res.ok ({ x with MD := some (md.set kv.1 kv.2) }.addH5 p!"#MD\\w*" .MD)

/-- UIM_generic.process — uim.py:44-48 -/
def procUIM (text : Str) (x : Obj) : Res Obj :=
  Res.ok { x with UIM := some (x.UIM.getD [] ++ [text]) }

/-- UNICAT_MetadataMnemonics.process — unicat.py:45-48 -/
def procH (text : Str) (x : Obj) : Res Obj :=
  match x.H with
  | none => Res.raise x .AttributeError
  | some rows => Res.ok { x with H := some (rows ++ [splitDbl false (stripFirstWord text)]) }

/-- XPCS_VA.process — XPCS.py:25-31 -/
def procVA (text : Str) (x : Obj) : Res Obj :=
  Res.eval (firstWord text) x fun w =>
  let x := { x with VA := some ((x.VA.getD []).set (lstripC '#' w) (stripFirstWord text)) }
  Res.ok (if x.kind = .header then x.addH5 p!"#VA\\d+" .VA else x)

/-- XPCS_VD.process — XPCS.py:49-56 -/
def procVD (text : Str) (x : Obj) : Res Obj :=
  Res.eval (firstWord text) x fun w =>
  let x := { x with VD := some ((x.VD.getD []).set (lstripC '#' w) (stripFirstWord text)) }
  Res.ok (if x.kind = .header then x.addH5 p!"#VD\\d+" .VD else x)

/-- XPCS_VE.process — XPCS.py:74-81 -/
def procVE (text : Str) (x : Obj) : Res Obj :=
  Res.eval (firstWord text) x fun w =>
  let x := { x with VE := some ((x.VE.getD []).set (lstripC '#' w) (stripFirstWord text)) }
  Res.ok (if x.kind = .header then x.addH5 p!"#VE\\d+" .VE else x)

/-- XPCS_XPCS.process — XPCS.py:99-105 -/
def procXPCS (text : Str) (x : Obj) : Res Obj :=
  let d := x.XPCS.getD []
  match splitWs (stripFirstWord text) with
  | [] => Res.raise { x with XPCS := some d } .IndexError
  | w :: ws =>
    let x := { x with XPCS := some (d.set w ws) }
    Res.ok (if x.kind = .scan then x.addH5 p!"#XPCS" .XPCS else x)

/-- XPCS_CCD.process — XPCS.py:117-123 -/
def procCCD (text : Str) (x : Obj) : Res Obj :=
  let d := x.CCD.getD []
  match splitWs (stripFirstWord text) with
  | [] => Res.raise { x with CCD := some d } .IndexError
  | w :: ws =>
    let x := { x with CCD := some (d.set w ws) }
    Res.ok (if x.kind = .scan then x.addH5 p!"#CCD" .CCD else x)

/-- UXML_metadata.process — uxml.py:68-75 -/
def procUXML (text : Str) (x : Obj) : Res Obj :=
  Res.ok ({ x with UXML := some (x.UXML.getD [] ++ [stripFirstWord text]) }.addPost
    p!"UXML_metadata" .uxml)

/-- The handlers that read and write only the object they are given.  `#F`, `#E` and `#S` start
sections, so no line of a section after the first reaches their handlers; `#D`, `#O`, `#P`, `#V`
on a scan also touch its header and are treated in `procScan` and `procHdr`. -/
def procObj (env : Env) (k : HKey) (text : Str) (x : Obj) : Res Obj :=
  match k with
  | .F => Res.ok x
  | .E => Res.raise x .AttributeError
  | .S => Res.raise x .AttributeError
  | .D => procDate env text x
  | .C => procC text x
  | .G => procG text x
  | .I => procI text x
  | .J => procJ text x
  | .j => procj text x
  | .L => procL text x
  | .M => procM text x
  | .N => procN text x
  | .O => procO text x
  | .o => proco text x
  | .P => procP text x
  | .Q => procQ text x
  | .R => procR text x
  | .T => procT text x
  | .U => procU text x
  | .X => procX text x
  | .data => procData text x
  | .MCA => Res.ok x
  | .A => procData text x
  | .CALIB => procCalib text x
  | .CHANN => procChann text x
  | .CTIME => procCtime text x
  | .ROI => procRoi text x
  | .unrec => procUnrec text x
  | .MD => procMD text x
  | .UIM => procUIM text x
  | .H => procH text x
  | .V => Res.raise x .AttributeError
  | .VA => procVA text x
  | .VD => procVD text x
  | .VE => procVE text x
  | .XPCS => procXPCS text x
  | .CCD => procCCD text x
  | .UXML => procUXML text x

/-! ## Scans together with their header -/

/-- a scan object and the header object it refers to -/
structure ScanCtx where
  scan : Obj
  hdr : Obj

/-- run a step on the scan object -/
def onScan (f : Obj → Res Obj) (c : ScanCtx) : Res ScanCtx :=
  ({ c with scan := (f c.scan).1 }, (f c.scan).2)

/-- run a step on the header object -/
def onHdr (f : Obj → Res Obj) (c : ScanCtx) : Res ScanCtx :=
  ({ c with hdr := (f c.hdr).1 }, (f c.hdr).2)

/-- second part of SPEC_Date.process for a scan — spec_common.py:141-154.  The log message is
not modelled, the conversions in its arguments are. -/
def dateHdr (env : Env) (c : ScanCtx) : Res ScanCtx :=
  let c := { c with scan := c.scan.addH5 p!"#D" .date }
  if (strip c.hdr.date).length = 0 then
    Res.ok { c with hdr := { c.hdr with date := c.scan.date, epoch := c.scan.epoch } }
  else
    match c.hdr.epoch, c.scan.epoch with
    | some he, some se =>
      Res.eval he.toIntE c fun a =>
      Res.eval se.toIntE c fun b =>
      if a = b then
        Res.eval (env.fromTimestamp he.toFlt) c fun _ =>
        Res.eval (env.fromTimestamp se.toFlt) c fun _ => Res.ok c
      else Res.ok c
    | _, _ => Res.raise c .AttributeError

/-- `re.split("  ", s)`: exactly two spaces -/
def splitTwo : Str → List Str
  | [] => [[]]
  | [c] => [[c]]
  | c :: d :: ds =>
    if c = ' ' ∧ d = ' ' then [] :: splitTwo ds else consHead c (splitTwo (d :: ds))

/-- values of a #V line: the first of the two delimiters that gives as many values as there
are labels, else the second — unicat.py:85-89 -/
def valuesV (labels : List Str) (text : Str) : List Str :=
  let t := stripFirstWord text
  if labels.length = (splitTwo t).length then splitTwo t else splitC ' ' t

/-- UNICAT_MetadataValues.process — unicat.py:83-92 -/
def procV (text : Str) (c : ScanCtx) : Res ScanCtx :=
  match c.scan.V with
  | none => Res.raise c .AttributeError
  | some rows =>
    match c.hdr.H with
    | none => Res.raise c .AttributeError
    | some hs =>
      match hs[rows.length]? with
      | none => Res.raise c .IndexError
      | some labels =>
        let x := { c.scan with V := some (rows ++ [valuesV labels text]) }
        Res.ok { c with scan := x.addPost p!"unicat_metadata" .unicat }

/-- `control_line_registry.process(key, line, scan)` for a scan — control_lines.py:85-89 -/
def procScan (env : Env) (k : HKey) (text : Str) (c : ScanCtx) : Res ScanCtx :=
  match k with
  | .D => (onScan (procDate env text) c).andThen (dateHdr env)
  | .O => onHdr (procO text) c
  | .V => procV text c
  | k => onScan (procObj env k text) c

/-! ## Post-processing -/

/-- pair the words of two tables: mnemonics `ms` and names `ns`; IndexError if a row or a name
is missing — spec_common.py:608-611, 813-816 -/
def xrefRow : List Str → List Str → Dict Str → Res (Dict Str)
  | [], _, d => Res.ok d
  | _ :: _, [], d => Res.raise d .IndexError
  | m :: ms, n :: ns, d => xrefRow ms ns (d.set m n)

/-- rows of mnemonics and names -/
def xrefRows : List (List Str) → List (List Str) → Dict Str → Res (Dict Str)
  | [], _, d => Res.ok d
  | _ :: _, [], d => Res.raise d .IndexError
  | m :: ms, n :: ns, d => (xrefRow m n d).andThen (xrefRows ms ns)

/-- counter_xref_postprocessing — spec_common.py:603-611 -/
def counterXref (x : Obj) : Res Obj :=
  match x.j, x.J with
  | some j, some J =>
    let r := xrefRows j J (x.counterXref.getD [])
    ({ x with counterXref := some r.1 }, r.2)
  | _, _ => Res.ok x

/-- positioner_xref_postprocessing — spec_common.py:808-816.  On a scan the names `O` are never
set, see `procScan`. -/
def positionerXref (x : Obj) : Res Obj :=
  match x.o, x.O with
  | some o, some O =>
    let r := xrefRows o O (x.positionerXref.getD [])
    ({ x with positionerXref := some r.1 }, r.2)
  | _, _ => Res.ok x

/-- values of one #P row against the names of the same #O row; the interpreter comments
accumulate — spec_common.py:863-872 -/
def positionRow (row : Nat) (names : List Str) :
    Nat → List Str → Dict PyFloat × List Str → Res (Dict PyFloat × List Str)
  | _, [], s => Res.ok s
  | col, v :: vs, s =>
    match names[col]? with
    | none => positionRow row names (col + 1) vs
        (s.1, s.2 ++ [p!"extra value in #P" ++ natStr row ++ p!" position " ++ natStr (col + 1) ++
          p!", no matching label in #O" ++ natStr row])
    | some mne =>
      Res.eval (Py.float v) s fun f => positionRow row names (col + 1) vs (s.1.set mne f, s.2)

/-- rows of #P values — spec_common.py:858-872 -/
def positionRows (O : List (List Str)) :
    Nat → List (List Str) → Dict PyFloat × List Str → Res (Dict PyFloat × List Str)
  | _, [], s => Res.ok s
  | row, vs :: rows, s =>
    match O[row]? with
    | none => positionRows O (row + 1) rows
        (s.1, s.2 ++ [p!"#P" ++ natStr row ++ p!" found without #O" ++ natStr row])
    | some names => (positionRow row names 0 vs s).andThen (positionRows O (row + 1) rows)

/-- SPEC_Positioners.postprocess — spec_common.py:851-875 -/
def postPositions (c : ScanCtx) : Res ScanCtx :=
  let r := positionRows (c.hdr.O.getD []) 0 (c.scan.P.getD []) ([], c.scan.interpComments)
  let x := { c.scan with positioner := r.1.1, interpComments := r.1.2 }
  match r.2 with
  | some e => Res.raise { c with scan := x } e
  | none =>
    Res.ok { c with scan := if x.positioner.length > 0 then x.addH5 p!"#P\\d+" .positioners else x }

/-- `float(val)` if possible, else the text — unicat.py:118-121 -/
def metaVal (v : Str) : MVal :=
  match parseFloat v with
  | some f => .num f
  | none => .str v

/-- values of one #V row; the error message formats a text with %d, hence TypeError
— unicat.py:110-121 -/
def metaRow (labels : List Str) : Nat → List Str → Dict MVal → Res (Dict MVal)
  | _, [], d => Res.ok d
  | col, v :: vs, d =>
    match labels[col]? with
    | none => Res.raise d .TypeError
    | some l => metaRow labels (col + 1) vs (d.set l (metaVal v))

/-- rows of #V values — unicat.py:103-121 -/
def metaRows (H : List (List Str)) : Nat → List (List Str) → Dict MVal → Res (Dict MVal)
  | _, [], d => Res.ok d
  | row, vs :: rows, d =>
    match H[row]? with
    | none => Res.raise d .TypeError
    | some labels => (metaRow labels 0 vs d).andThen (metaRows H (row + 1) rows)

/-- UNICAT_MetadataValues.postprocess — unicat.py:94-122 -/
def postUnicat (c : ScanCtx) : Res ScanCtx :=
  match c.hdr.H with
  | none => Res.raise { c with scan := { c.scan with metadata := some [] } } .TypeError
  | some H =>
    let r := metaRows H 0 (c.scan.V.getD []) []
    let x := { c.scan with metadata := some r.1 }
    match r.2 with
    | some e => Res.raise { c with scan := x } e
    | none => Res.ok { c with scan := x.addH5 p!"#V\\d+" .metadata }

/-- SPEC_Geometry.postprocess — spec_common.py:330-341 -/
def postGeometry (c : ScanCtx) : Res ScanCtx :=
  let x := if (c.scan.G.getD []).length > 0
    then c.scan.addH5 p!"diffractometer geometry" .geometry else c.scan
  Res.eval (geoPost ⟨c.hdr.comments, c.hdr.o, c.hdr.O, x.positioner.keys, x.G⟩)
    { c with scan := x } fun d => Res.ok { c with scan := { x with diff := some d } }

/-- UXML_metadata.postprocess — uxml.py:77-109; DocumentInvalid counts as XMLSyntaxError -/
def postUXML (env : Env) (x : Obj) : Res Obj :=
  Res.eval (env.xmlParse (join ['\n'] (x.UXML.getD []))) x fun root =>
  let x := { x with uxmlRoot := some root }
  if env.xmlValid root then Res.ok (x.addH5 p!"UXML_metadata" .uxml)
  else Res.raise x .XMLSyntaxError

/-! ### Data lines -/

/-- `_unique_key(label, keylist)` — spec.py:787-799: the candidates are tried in order and the
1000th renaming raises. -/
def uniqueKey (label : Str) (keys : List Str) : Except PyErr Str :=
  match (label :: (List.range 999).map (fun i => label ++ '_' :: natStr (i + 1))).find?
      (fun k => !keys.contains k) with
  | some k => .ok k
  | none => .error .RuntimeError

/-- make the labels unique, and the empty columns — spec_common.py:1591-1599.
`done` are the labels already renamed. -/
def renameCols : List Str → List Str → Dict DCol → Res (List Str × Dict DCol)
  | [], done, d => Res.ok (done, d)
  | l :: ls, done, d =>
    Res.eval (uniqueKey l d.keys) (done ++ l :: ls, d) fun k =>
    renameCols ls (done ++ [k]) (d.set k (.col []))

/-- `buf` of combine_split_NM_lines: a text, or a list after an @A line -/
inductive NMBuf
  | str (s : Str)
  | list
  deriving DecidableEq, Repr

/-- loop of combine_split_NM_lines — spec_common.py:1545-1560 -/
def combineLoop (N : Int) : List Str → NMBuf → List Str → Except PyErr (List Str)
  | [], _, dl => .ok dl
  | line :: ls, buf, dl =>
    if startsWith line p!"@A" then
      match buf with
      | .str (c :: cs) => combineLoop N ls .list (dl ++ [c :: cs, line])
      | _ => combineLoop N ls .list (dl ++ [line])
    else
      match buf with
      | .list => .error .AttributeError
      | .str b =>
        let b := if b.length > 0 ∧ b.getLast? ≠ some ' ' then b ++ [' '] else b
        let b := b ++ line
        if ((splitWs b).length : Int) = N then combineLoop N ls (.str []) (dl ++ [b])
        else combineLoop N ls (.str b) dl

/-- combine_split_NM_lines(nm, data_lines) — spec_common.py:1530-1560 -/
def combineSplit (nm : List Int) (lines : List Str) : Except PyErr (List Str) :=
  match nm with
  | [_] => .ok lines
  | [N, _] => combineLoop N lines (.str []) []
  | _ => .error .ValueError

/-- `_interpret_data_row(row_text)` — spec.py:781-785, on the words of the row.  The value is
converted before the label is looked up. -/
def interpRow : List Str → List Str → Dict PyFloat → Except PyErr (Dict PyFloat)
  | _, [], d => .ok d
  | L, v :: vs, d =>
    match Py.float v with
    | .error e => .error e
    | .ok f =>
      match L with
      | [] => .error .IndexError
      | l :: L => interpRow L vs (d.set l f)

/-- `scan.data[label].append(val)` for the items of a row — spec_common.py:1634-1635 -/
def appendRow : Dict PyFloat → Dict DCol → Res (Dict DCol)
  | [], d => Res.ok d
  | (l, v) :: r, d =>
    match d.get? l with
    | none => Res.raise d .KeyError
    | some (.mca _) => Res.raise d .AttributeError
    | some (.col xs) => appendRow r (d.set l (.col (xs ++ [v])))

/-- numbers of a spectrum: floats if there is a dot in the line — spec_common.py:1623-1627 -/
def mcaNums (line : Str) (ws : List Str) : Except PyErr (List Num) :=
  if line.contains '.' then mapE (fun w => (Py.float w).map .flt) ws
  else mapE (fun w => (Py.int w).map .int) ws

/-- name of the spectrum of an @A line — spec_common.py:1615-1619 -/
def mcaKey (w : Str) : Str := p!"mca" ++ w.drop 2

/-- one @A line — spec_common.py:1613-1628 -/
def mcaLine (line : Str) (d : Dict DCol) : Res (Dict DCol) :=
  match splitWs line with
  | [] => Res.raise d .IndexError
  | w :: ws =>
    let key := mcaKey w
    match d.get? p!"_mca_" with
    | none => Res.raise d .KeyError
    | some (.col _) => Res.raise d .TypeError
    | some (.mca m) =>
      let m := m.setDefault key []
      let d := d.set p!"_mca_" (.mca m)
      Res.eval (mcaNums line ws) d fun nums =>
      Res.ok (d.set p!"_mca_" (.mca (m.modify key (· ++ [nums]))))

/-- one line of the (combined) data lines — spec_common.py:1612-1637 -/
def dataLine (L : List Str) (ncols : Nat) (line : Str) (d : Dict DCol) : Res (Dict DCol) :=
  if startsWith line p!"@A" then mcaLine line d
  else
    match interpRow L (splitWs line) [] with
    | .error .ValueError => Res.ok d
    | .error e => Res.raise d e
    | .ok row => if row.length = ncols then appendRow row d else Res.ok d

/-- repeat a step over a list, stopping at an exception -/
def forEach {α σ : Type} (f : α → σ → Res σ) : List α → σ → Res σ
  | [], s => Res.ok s
  | a :: as, s => (f a s).andThen (forEach f as)

/-- is there an @A line? — spec_common.py:1602-1606 -/
def hasMca (lines : List Str) : Bool :=
  lines.any (fun l => l.length > 2 && l.take 2 == p!"@A")

/-- data_lines_postprocessing(scan) — spec_common.py:1563-1638.  The warning about the number
of labels is not modelled, the look-up of `scan.N[0]` for it is. -/
def postData (x : Obj) : Res Obj :=
  let L := x.L.getD []
  if L.length = 1 ∧ splitC ' ' (L.headD []) ≠ splitTwo (L.headD []) then
    Res.raise x .ValueError
  else
    Res.eval x.N.first x fun _ =>
    let r := renameCols L [] []
    let x := { x with L := some r.1.1, data := r.1.2 }
    match r.2 with
    | some e => Res.raise x e
    | none =>
      let ncols := x.data.length
      let lines := x.dataLines.getD []
      let x := if hasMca lines then { x with data := x.data.set p!"_mca_" (.mca []) } else x
      Res.eval (combineSplit (match x.N with | .nums l => l | _ => []) lines) x fun lines =>
      let r := forEach (dataLine (x.L.getD []) ncols) lines x.data
      let x := { x with data := r.1 }
      match r.2 with
      | some e => Res.raise x e
      | none => Res.ok (x.addH5 p!"scan_data" .scanData)

/-- run one post-processor of a scan -/
def runPost (env : Env) (f : PostFn) (c : ScanCtx) : Res ScanCtx :=
  match f with
  | .counterJ => onScan (fun x => (counterXref x).andThen
      (fun x => Res.ok (x.addH5 p!"counter cross-referencing" .counterJ))) c
  | .counterj => onScan (fun x => (counterXref x).andThen
      (fun x => Res.ok (x.addH5 p!"counter cross-referencing" .counterj))) c
  | .positionerXref => onScan (fun x => (positionerXref x).andThen
      (fun x => Res.ok (x.addH5 p!"positioner cross-referencing" .positionerXref))) c
  | .geometry => postGeometry c
  | .positions => postPositions c
  | .scanData => onScan postData c
  | .unicat => postUnicat c
  | .uxml => onScan (postUXML env) c

/-! ## Interpretation -/

section
variable [UniDB]

/-- one line of a scan — spec.py:719-734 -/
def scanLine (env : Env) (reg : List HKey) (line : Str) (c : ScanCtx) : Res ScanCtx :=
  if line = [] then Res.ok c
  else
    Res.eval (getControlKey reg (lstrip line)) c fun k =>
    match k with
    | none => procScan env .unrec line c
    | some .S => Res.ok c
    | some k => procScan env k line c

/-- the lines of a scan section: a backslash at the end of a line joins it with the next
— spec.py:718 -/
def scanLines (raw : Str) : List Str := splitlines (replace2 '\\' '\n' [' '] raw)

/-- `SpecDataFileScan.interpret()` — spec.py:711-739 -/
def interpretScan (env : Env) (reg : List HKey) (c : ScanCtx) : Res ScanCtx :=
  if c.scan.interpreted then Res.ok c
  else
    let c := { c with scan := { c.scan with lazy := false } }
    (forEach (scanLine env reg) (scanLines c.scan.raw) c).andThen fun c =>
    (forEach (runPost env) c.scan.post.values c).andThen fun c =>
    Res.ok { c with scan := { c.scan with interpreted := true } }

/-- the lazy attributes of the packaged handlers — plugin_core.py:90-97 -/
def lazyAttributes : List Str :=
  (HKey.all.flatMap HKey.attrs).foldl (fun l a => if a ∈ l then l else l ++ [a]) []

/-- reading an attribute of a scan — spec.py:697-703 (before the value is returned) -/
def readAttr (env : Env) (reg : List HKey) (attr : Str) (c : ScanCtx) : Res ScanCtx :=
  if attr ∈ lazyAttributes ∧ c.scan.lazy = true then interpretScan env reg c else Res.ok c

/-- a header being interpreted, and the latest scan of the file with its own header -/
structure HCtx where
  hdr : Obj
  latest : Option ScanCtx

/-- run a step on the header -/
def HCtx.onHdr (f : Obj → Res Obj) (c : HCtx) : Res HCtx :=
  ({ c with hdr := (f c.hdr).1 }, (f c.hdr).2)

/-- `control_line_registry.process(key, line, header)` for a header; #P lines go to the latest
scan (spec.py:626-627, spec_common.py:841-842), reading `scan.P` interprets it. -/
def procHdr (env : Env) (reg : List HKey) (k : HKey) (text : Str) (c : HCtx) : Res HCtx :=
  match k with
  | .P =>
    match c.latest with
    | none => Res.raise c .IndexError
    | some s =>
      let r := (readAttr env reg p!"P" s).andThen (onScan (procP text))
      ({ c with latest := some r.1 }, r.2)
  | k => c.onHdr (procObj env k text)

/-- one line of a header — spec.py:582-596 -/
def hdrLine (env : Env) (reg : List HKey) (line : Str) (c : HCtx) : Res HCtx :=
  if line = [] then Res.ok c
  else
    Res.eval (getControlKey reg line) c fun k =>
    match k with
    | none => procHdr env reg .unrec line c
    | some .E => Res.ok c
    | some k => procHdr env reg k line c

/-- run one post-processor of a header; the others are never registered on a header -/
def runPostHdr (env : Env) (f : PostFn) (x : Obj) : Res Obj :=
  match f with
  | .counterJ => (counterXref x).andThen
      (fun x => Res.ok (x.addH5 p!"counter cross-referencing" .counterJ))
  | .counterj => (counterXref x).andThen
      (fun x => Res.ok (x.addH5 p!"counter cross-referencing" .counterj))
  | .positionerXref => (positionerXref x).andThen
      (fun x => Res.ok (x.addH5 p!"positioner cross-referencing" .positionerXref))
  | .uxml => postUXML env x
  | _ => Res.raise x .AttributeError

/-- `SpecDataFileHeader.interpret()` — spec.py:578-600 -/
def interpretHeader (env : Env) (reg : List HKey) (c : HCtx) : Res HCtx :=
  (forEach (hdrLine env reg) (splitlines c.hdr.raw) c).andThen fun c =>
  forEach (fun f => HCtx.onHdr (runPostHdr env f)) c.hdr.post.values c

end
end S2N
