import Verif.Spec.Save
import Verif.Model.Writer
import Verif.Spec.Uxml
/-
When a scan can be saved: what the writers of an interpreted scan and of its header need.
-/
namespace S2N.Spec
open S2N S2N.Py

/-- the text reads as a number -/
def Numeric (t : Str) : Prop := ∃ v, Py.float t = .ok v

/-- the text reads as a date of SPEC -/
def DatedText (t : Str) : Prop := ∃ d, iso8601 t = .ok d

/-- the rows are not none, and are of the same length -/
def SameLengths (rows : List (List Num)) : Prop := ∃ r rs, rows = r :: rs ∧ ∀ r' ∈ rs, r'.length = r.length

/-- Every label names a column; the first and the last column have names; the spectra of a detector have
the same number of channels. -/
structure ColumnsOk (x : Obj) : Prop where
  columns : ∀ l ∈ x.L.getD [], l ≠ [] ∧ ∃ xs, x.data.get? l = some (.col xs)
  first : ∃ l, x.columnFirst = some l ∧ l ≠ []
  last : ∃ l, x.columnLast = some l ∧ l ≠ []
  spectra : x.data.get? p!"_mca_" = none ∨ ∃ m, x.data.get? p!"_mca_" = some (.mca m) ∧ ∀ kv ∈ m, SameLengths kv.2

/-- the label of the axis number `i` of a mesh: the word of the command, if there are data of that label, or the label of that column -/
def meshAxis (x : Obj) (word : Str) (i : Nat) : Option Str := if x.data.has word then some word else (x.L.getD [])[i]?

/-- The data of a mesh with the axes `l1` (with `n1` intervals and the data `ys`) and `l2` can be written.  Either there are not even
`n1` points, and no spectra; or the two axes are different columns, and in reciprocal space there is a value of the third one. -/
structure PlaneOk (x : Obj) (n1 : Int) (l1 l2 : Str) (ys : List PyFloat) : Prop where
  first : x.data.get? l1 = some (.col ys)
  second : ∃ zs, x.data.get? l2 = some (.col zs)
  short : (ys.length : Int) < n1 → mcaOf x = []
  columns : n1 ≤ ys.length → n1 ≠ -1 ∧ l1 ∈ x.L.getD [] ∧ l2 ∈ x.L.getD [] ∧ l1 ≠ l2
  third : n1 ≤ ys.length → startsWith x.scanCmd p!"hkl" = true →
    ∀ k ∈ [p!"H", p!"K", p!"L"], k ≠ l1 → k ≠ l2 → ∃ v vs, x.data.get? k = some (.col (v :: vs))

/-- The command of a mesh has the two axes, each with its start, end and number of intervals, and the counting time; its data
can be written. -/
def MeshOk (x : Obj) : Prop :=
  ∃ m w1 s1 e1 n1 w2 s2 e2 n2 t i1 i2 l1 l2 ys, splitWs x.scanCmd = [m, w1, s1, e1, n1, w2, s2, e2, n2, t] ∧ Py.int n1 = .ok i1 ∧
    Py.int n2 = .ok i2 ∧ meshAxis x w1 0 = some l1 ∧ meshAxis x w2 1 = some l2 ∧ PlaneOk x i1 l1 l2 ys

/-- The data of a scan can be written: a mesh has its axes, and a scan in reciprocal space has the start and end of h, k and l in its command. -/
structure DataOk (x : Obj) : Prop where
  columns : ColumnsOk x
  command : splitWs x.scanCmd ≠ []
  mesh : (∃ m ∈ meshMacros, macroOf x = some m) → MeshOk x
  hkl : (∃ m ∈ hklMacros, macroOf x = some m) → 7 ≤ (splitWs x.scanCmd).length

/-- The #G lines have numbers only, and a geometry was found for them. -/
structure GeometryOk (x : Obj) : Prop where
  lines : ∃ G, x.G = some G ∧ ∀ kv ∈ G, kv.1 ≠ [] ∧ ∀ w ∈ splitWs kv.2, Numeric w
  diff : x.diff ≠ none

/-- the sample is described by the #G lines: there is a unit cell, an orientation, a mode or a wavelength -/
def HasSample (x : Obj) : Prop :=
  ∃ d, x.diff = some d ∧ (d.lattice ≠ none ∨ d.gpar.get? p!"ub_matrix" ≠ none ∨ d.mode ≠ none ∨ d.sector ≠ none ∨
    d.reflections ≠ [] ∨ d.wavelength ≠ none)

/-- An element of a UXML document can be written: it has a simple name; a dataset has a value of its type, a group has a class, and
there are no other elements than these and hard links. -/
def ElementFits (n : XmlNode) : Prop :=
  NodeOk n ∧ (tagOf n = p!"dataset" ∧ (∃ v, XmlValue n v) ∨ tagOf n = p!"group" ∧ attrOf n p!"NX_class" ≠ none ∨ tagOf n = p!"hardlink")

/-- A UXML document can be written: its elements can, and no two of them have the same place. -/
def DocumentFits (d : Option XmlNode) : Prop :=
  ∃ root, d = some root ∧ (∀ e ∈ elements root, ElementFits e.2) ∧ ((elements root).map (·.1)).Nodup

/-- What a writer needs of the header or scan `x` (with the header `hdr`) in order not to raise. -/
def CanWrite (hdr x : Obj) : H5Fn → Prop
  | .date => DatedText x.date
  | .geometry => GeometryOk x
  | .counterJ => ∀ m ∈ (x.counterXref.getD []).keys, NoSlash m
  | .counterj => ∀ m ∈ (x.counterXref.getD []).keys, NoSlash m
  | .positionerXref => ∀ m ∈ (x.positionerXref.getD []).keys, NoSlash m
  | .monitor => ∃ t, x.M = some t ∧ Numeric t
  | .countTime => ∃ t, x.T = some t ∧ Numeric t
  | .positioners => (∀ n ∈ x.positioner.keys, n ≠ []) ∧ ∀ d, hdr.positionerXref = some d → x.positioner.length ≤ d.length
  | .scanData => DataOk x
  | .metadata => ∀ k ∈ (x.metadata.getD []).keys, k ≠ []
  | .MD => ∀ k ∈ (x.MD.getD []).keys, k ≠ []
  | .VA => ∀ k ∈ (x.VA.getD []).keys, k ≠ []
  | .VD => ∀ k ∈ (x.VD.getD []).keys, k ≠ []
  | .VE => ∀ k ∈ (x.VE.getD []).keys, k ≠ []
  | .uxml => DocumentFits x.uxmlRoot
  | _ => True

/-- the writers that make a group of their own, which must not be there already -/
def groupWriters : List H5Fn := [.geometry, .counterJ, .counterj, .positionerXref, .positioners, .scanData, .metadata, .VA, .VD, .VE,
  .MD, .uxml]

/-- A scan and its header, both interpreted, can be saved: each writer has what it needs, no group is to be written for both of
them, and there is a sample if there is a temperature. -/
structure CanSave (hdr x : Obj) : Prop where
  number : ∃ l, splitScanNumberString x.scanNum = .ok l
  header : ∀ f ∈ hdr.h5.values, CanWrite hdr hdr f
  scan : ∀ f ∈ x.h5.values, CanWrite hdr x f
  apart : ∀ f ∈ hdr.h5.values, ∀ g ∈ x.h5.values, labelOf f = labelOf g → f ∉ groupWriters
  sample : .temperature ∈ hdr.h5.values ∨ .temperature ∈ x.h5.values → .geometry ∈ x.h5.values ∧ HasSample x

section
variable [UniDB]

/-- The scans can be saved, one after the other: each is found, is interpreted without an exception, and can be saved; then
it is the interpreted one (a mesh loses the labels of its axes) with which the next one is saved. -/
def CanSaveAll (env : Env) (reg : List HKey) : List Ref → Sdf → Prop
  | [], _ => True
  | k :: ks, s => ∃ x0 x hdr, s.getScan k = .ok (some x0) ∧ interpretScan env reg ⟨x0, s.headerOf x0⟩ = (⟨x, hdr⟩, none) ∧ CanSave hdr x ∧
    ∀ L, (NotBy x meshMacros → L = x.L) → CanSaveAll env reg ks (s.putScan x0.scanNum ⟨{ x with L := L }, hdr⟩)

end

/-- the file has a name and a header with an epoch and a date -/
structure Headed (s : Sdf) : Prop where
  name : s.specFile ≠ none
  first : ∃ h hs, s.headers = h :: hs ∧ h.epoch ≠ none ∧ DatedText h.date

end S2N.Spec
