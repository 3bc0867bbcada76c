import Verif.Spec.H5
import Verif.Spec.Scan
import Verif.Spec.File
/-
Vocabulary for the properties of `Writer.save`.
-/
namespace S2N.Spec
open S2N S2N.Py

section
variable [UniDB]

/-- No mnemonic of a scan starts with "/": neither one on a line of its text, nor one of the
attributes that it has now.  (A name that starts with "/" is a place counted from the root of the
HDF5 file, wherever it is written.) -/
structure SafeScan (x : Obj) : Prop where
  names : RelNames x
  counters : ∀ row ∈ x.j.getD [], ∀ w ∈ row, Relative w
  positioners : ∀ row ∈ x.o.getD [], ∀ w ∈ row, Relative w
  lines : ∀ l ∈ scanLines x.raw, isKind .j l = true ∨ isKind .o l = true →
    ∀ w ∈ splitWs (stripFirstWord l), Relative w

/-- The HDF5 writer of the geometry is registered, by the processing of the #G lines, only if the scan has #G lines, and
then, if the scan has been interpreted.  (It is so in a scan that was not looked at, which has none.) -/
structure GeoScan (x : Obj) : Prop where
  only : ∀ f, x.post.get? p!"diffractometer geometry" = some f → f = .geometry
  lines : x.h5.get? p!"diffractometer geometry" ≠ none → x.G.getD [] ≠ []
  post : x.G.getD [] ≠ [] → x.post.get? p!"diffractometer geometry" ≠ none
  done : x.interpreted = true → x.G.getD [] ≠ [] → x.h5.get? p!"diffractometer geometry" ≠ none

/-- The HDF5 writer of the columns is the only one registered under "scan_data", and it is registered
if the scan has columns; it is registered, or the data are to be processed, only if there are data lines.  (It is so in
a scan that was not looked at, which has none.) -/
structure DataScan (x : Obj) : Prop where
  only : ∀ f, x.h5.get? p!"scan_data" = some f → f = .scanData
  data : x.data ≠ [] → x.h5.get? p!"scan_data" = some .scanData
  lines : x.h5.get? p!"scan_data" ≠ none → x.dataLines.getD [] ≠ []
  post : .scanData ∈ x.post.values → x.dataLines.getD [] ≠ []
  geo : GeoScan x

/-- the label under which a writer registers itself -/
def labelOf : H5Fn → Str
  | .date => p!"#D"
  | .comments => p!"#C"
  | .geometry => p!"diffractometer geometry"
  | .counterJ => p!"counter cross-referencing"
  | .counterj => p!"counter cross-referencing"
  | .positionerXref => p!"positioner cross-referencing"
  | .monitor => p!"#M"
  | .positioners => p!"#P\\d+"
  | .hkl => p!"#Q"
  | .userResults => p!"#R"
  | .countTime => p!"#T"
  | .userReserved => p!"#U"
  | .temperature => p!"#X"
  | .calib => p!"#@[cC][aA][lL][iI][bB]"
  | .chann => p!"#@CHANN"
  | .ctime => p!"#@CTIME"
  | .scanData => p!"scan_data"
  | .metadata => p!"#V\\d+"
  | .VA => p!"#VA\\d+"
  | .VD => p!"#VD\\d+"
  | .VE => p!"#VE\\d+"
  | .XPCS => p!"#XPCS"
  | .CCD => p!"#CCD"
  | .MD => p!"#MD\\w*"
  | .unrec => p!"unrecognized_control_line"
  | .uxml => p!"UXML_metadata"

/-- the dictionaries have no key twice -/
def MoreDicts (x : Obj) : Prop :=
  (x.VA.getD []).keys.Nodup ∧ (x.VD.getD []).keys.Nodup ∧ (x.VE.getD []).keys.Nodup ∧
    (x.metadata.getD []).keys.Nodup ∧ x.positioner.keys.Nodup ∧ (x.G.getD []).keys.Nodup

/-- The writers of UXML, the metadata of #V lines, the positioners, the MCA lines, the lines of XPCS and
the temperature are registered, if there is something to write; dictionaries have no key twice. -/
def MoreWriters (x : Obj) : Prop :=
  (H5Fn.uxml ∈ x.h5.values ↔ x.uxmlRoot ≠ none) ∧
  (x.metadata.getD [] ≠ [] → H5Fn.metadata ∈ x.h5.values) ∧
  (x.positioner ≠ [] → H5Fn.positioners ∈ x.h5.values) ∧
  (x.mca.bind (·.calib) ≠ none → H5Fn.calib ∈ x.h5.values) ∧
  (x.mca.bind (·.chann) ≠ none → H5Fn.chann ∈ x.h5.values) ∧
  (x.mca.bind (·.ctime) ≠ none → H5Fn.ctime ∈ x.h5.values) ∧
  (H5Fn.VA ∈ x.h5.values ↔ x.kind = .header ∧ x.VA ≠ none) ∧
  (H5Fn.VD ∈ x.h5.values ↔ x.kind = .header ∧ x.VD ≠ none) ∧
  (H5Fn.VE ∈ x.h5.values ↔ x.kind = .header ∧ x.VE ≠ none) ∧
  (x.tempSP ≠ none ∨ x.degcSP ≠ none → H5Fn.temperature ∈ x.h5.values) ∧ MoreDicts x

/-- A header or a scan has registered a writer for what it has: each writer has its label, those of
#C, #Q, #R, #U, #MD and of unrecognized lines are there if and only if the attribute has been set,
that of #D if a scan that has been read has a #D line, those of #D and #G only for scans, and those of #M and #T and of the cross
references if there is something to write; dictionaries have no key twice.  (It is so in a scan that was not looked at, which has no writers and none of the attributes,
and interpretation keeps it so.) -/
structure Writers (k : Kind) (x : Obj) : Prop where
  kind : x.kind = k
  keys : x.h5.keys.Nodup
  label : ∀ p ∈ x.h5, p.1 = labelOf p.2
  comments : .comments ∈ x.h5.values ↔ k = .scan ∧ x.comments ≠ []
  date : .date ∈ x.h5.values ∨ .geometry ∈ x.h5.values → k = .scan
  hkl : .hkl ∈ x.h5.values ↔ x.Q ≠ none
  monitor : x.M.getD [] ≠ [] → .monitor ∈ x.h5.values
  countTime : x.T.getD [] ≠ [] → .countTime ∈ x.h5.values
  userResults : .userResults ∈ x.h5.values ↔ x.R ≠ none
  userReserved : .userReserved ∈ x.h5.values ↔ x.U ≠ none
  unrec : .unrec ∈ x.h5.values ↔ x.unrecognized ≠ none
  md : .MD ∈ x.h5.values ↔ x.MD.getD [] ≠ []
  counters : x.counterXref ≠ none → labelOf .counterJ ∈ x.h5.keys
  positioners : x.positionerXref ≠ none → labelOf .positionerXref ∈ x.h5.keys
  dated : x.interpreted = true → (∃ l ∈ scanLines x.raw, isKind .D l = true) → .date ∈ x.h5.values
  dicts : (x.counterXref.getD []).keys.Nodup ∧ (x.positionerXref.getD []).keys.Nodup ∧ (x.MD.getD []).keys.Nodup
  more : MoreWriters x

/-- the same for all headers and scans of a file; a header has no data -/
structure SafeFile (s : Sdf) : Prop where
  headers : ∀ h ∈ s.headers, RelNames h
  noData : ∀ h ∈ s.headers, .scanData ∉ h.h5.values
  scans : ∀ p ∈ s.scans, SafeScan p.2
  data : ∀ p ∈ s.scans, DataScan p.2
  hdrWriters : ∀ h ∈ s.headers, Writers .header h
  writers : ∀ p ∈ s.scans, Writers .scan p.2

/-- what a user knows of the SPEC data file when it is saved: no mnemonic starts with "/", the names of
the scans differ and every scan has its own name -/
structure Savable (s : Sdf) : Prop where
  safe : SafeFile s
  named : WellNamed s

end

/-- the name of the entry of a scan -/
def entryName (k : Ref) : Str := p!"S" ++ k.text

/-- an ASCII text without "/" -/
def PlainText (t : Str) : Prop := ∀ c ∈ t, c ≠ '/' ∧ c.toNat < 128

/-- the macro of a scan: the first word of its command -/
def macroOf (x : Obj) : Option Str := (splitWs x.scanCmd).head?

/-- the macros of two-dimensional scans -/
def meshMacros : List Str := [p!"mesh", p!"hklmesh"]

/-- the macros of scans in reciprocal space -/
def hklMacros : List Str := [p!"hscan", p!"kscan", p!"lscan", p!"hklscan"]

/-- the scan is not made by one of these macros -/
def NotBy (x : Obj) (macros : List Str) : Prop := ∀ m ∈ macros, macroOf x ≠ some m

/-- the spectra of a scan by the names of their detectors -/
def mcaOf (x : Obj) : Dict (List (List Num)) :=
  match x.data.get? p!"_mca_" with
  | some (.mca m) => m
  | _ => []

/-- the labels of the datasets of the spectra of one detector -/
def mcaLabels (key : Str) : List Str :=
  [p!"_" ++ key ++ p!"_", p!"_" ++ key ++ p!"_channel_", p!"_" ++ key ++ p!"_channel_scaled_x"]

section
variable [UniDB]

/-- No other column and no spectrum of the scan has a label with the same cleaned name. -/
structure OwnName (x : Obj) (label : Str) : Prop where
  columns : ∀ l ∈ x.L.getD [], cleanName l = cleanName label → l = label
  spectra : ∀ key ∈ (mcaOf x).keys, ∀ l ∈ mcaLabels key, cleanName l ≠ cleanName label

/-- The labels of all spectra of the scan have different cleaned names, which no column has. -/
structure OwnSpectra (x : Obj) : Prop where
  columns : ∀ key ∈ (mcaOf x).keys, ∀ l ∈ mcaLabels key, ∀ l' ∈ x.L.getD [], cleanName l' ≠ cleanName l
  spectra : (((mcaOf x).keys.flatMap mcaLabels).map cleanName).Nodup
  keys : (mcaOf x).keys.Nodup

end

/-- the attribute `axes` for some names -/
def axesAttr : List Str → AVal
  | [] => .str []
  | [a] => .str a
  | names => .strs names

/-- the names whose start and end (texts of a command) differ -/
def moving (l : List (Str × Str × Str)) : List Str := (l.filter (fun p => p.2.1 ≠ p.2.2)).map (·.1)

/-- what the XML schema demands of the names in a document (`xs:NCName`): no "/" -/
def SchemaNames (env : Env) : Prop :=
  ∀ t a v ch, env.xmlValid (.mk t a v ch) = true → XmlsOk ch

end S2N.Spec
