import Verif.Spec.Uxml
/-
Vocabulary for the statements about the groups of an entry.
-/
namespace S2N.Spec
open S2N Py

/-- the numbered lines of the header (`header_1`, `header_2`, ...) and of the scan (`item_1`, ...) are
the datasets of the group `G` of the entry `E`, in this order, and nothing else is in the group -/
structure Noted (s : H5) (E G desc key : Str) (hl sl : List Str) : Prop where
  group : groupAt s [E, G] = some [(p!"NX_class", .str p!"NXnote"), (p!"description", .str desc)]
  names : childrenAt s [E, G] = (List.range hl.length).map (fun i => p!"header_" ++ natStr (i + 1)) ++
    (List.range sl.length).map (fun i => p!"item_" ++ natStr (i + 1))
  header : ∀ i t, hl[i]? = some t → datasetAt s [E, G, p!"header_" ++ natStr (i + 1)] =
    some (.text [ascii t], [(p!"description", .str (p!"#" ++ key ++ p!" line " ++ natStr (i + 1)))])
  item : ∀ i t, sl[i]? = some t → datasetAt s [E, G, p!"item_" ++ natStr (i + 1)] =
    some (.text [ascii t], [(p!"description", .str (p!"#" ++ key ++ p!" line " ++ natStr (i + 1)))])

/-- the group `unrecognized_i` of an entry has the lines `l` as `u0`, `u1`, ... and nothing else -/
structure UnrecAt (s : H5) (E : Str) (i : Nat) (l : List Str) : Prop where
  group : groupAt s [E, p!"unrecognized_" ++ natStr i] = some [(p!"NX_class", .str p!"NXnote"),
    (p!"description", .str p!"SPEC data file control lines not otherwise recognized")]
  names : childrenAt s [E, p!"unrecognized_" ++ natStr i] = (List.range l.length).map (fun j => p!"u" ++ natStr j)
  line : ∀ j t, l[j]? = some t → datasetAt s [E, p!"unrecognized_" ++ natStr i, p!"u" ++ natStr j] =
    some (.text [ascii t], [(p!"spec_name", .str (p!"u" ++ natStr j))])

/-- the group `G` of an entry says the same as the dictionary: one text for each key -/
structure TableAt (s : H5) (E G : Str) (A : Dict AVal) (d : Dict Str) : Prop where
  group : groupAt s [E, G] = some A
  names : ∀ n, n ∈ childrenAt s [E, G] ↔ n ∈ d.keys
  once : (childrenAt s [E, G]).Nodup
  value : ∀ n t, d.get? n = some t → datasetAt s [E, G, n] = some (.text [ascii t], [])

/-- no name in the table could be taken for a path -/
def OneName (d : Dict Str) : Prop := ∀ k ∈ d.keys, k ≠ [] ∧ k ≠ p!"." ∧ '/' ∉ k

/-- the group of the metadata -/
def mdAttrs : Dict AVal := [(p!"NX_class", .str p!"NXcollection"),
  (p!"description", .str p!"Bluesky metadata (as written by apstools.SpecWriterCallback)")]

/-- the metadata of the #MD lines `d` are datasets named by the cleaned keys -/
structure MetaAt [UniDB] (s : H5) (E : Str) (d : Dict Str) : Prop where
  group : groupAt s [E, p!"bluesky_metadata"] = some mdAttrs
  value : ∀ key t, (key, t) ∈ d → (∀ key' ∈ d.keys, cleanName key' = cleanName key → key' = key) →
    ∃ n, cleanName key = .ok n ∧ datasetAt s [E, p!"bluesky_metadata", n] = some (.text [ascii t], [(p!"spec_name", .str key)])
  names : ∀ n ∈ childrenAt s [E, p!"bluesky_metadata"], ∃ key ∈ d.keys, cleanName key = .ok n

/-- the items of `d` are datasets of the group `N` named by the cleaned keys -/
structure DictAt [UniDB] {α : Type} (s : H5) (E N : Str) (A : Dict AVal) (val : α → HData) (d : Dict α) : Prop where
  group : groupAt s [E, N] = some A
  value : ∀ key x, (key, x) ∈ d → (∀ key' ∈ d.keys, cleanName key' = cleanName key → key' = key) →
    ∃ n, cleanName key = .ok n ∧ datasetAt s [E, N, n] = some (val x, [(p!"spec_name", .str key)])
  names : ∀ n ∈ childrenAt s [E, N], ∃ key ∈ d.keys, cleanName key = .ok n

/-- the words of a text as a dataset: no word at all makes an empty list of numbers -/
def wordsData (t : Str) : HData := if splitWs t = [] then .nums ⟨[], [0]⟩ else .text ((splitWs t).map ascii)

/-- the lines of XPCS parameters -/
inductive Xpcs
  | VA | VD | VE
deriving DecidableEq

/-- the name of their group -/
def Xpcs.name : Xpcs → Str
  | .VA => p!"VA"
  | .VD => p!"VD"
  | .VE => p!"VE"

/-- the parameters of a header or scan -/
def Xpcs.of : Xpcs → Obj → Option (Dict Str)
  | .VA => Obj.VA
  | .VD => Obj.VD
  | .VE => Obj.VE

/-- the attributes of their group -/
def Xpcs.attrs (i : Xpcs) : Dict AVal :=
  [(p!"NX_class", .str p!"NXnote"), (p!"description", .str (p!"XPCS " ++ i.name ++ p!" parameters"))]

/-- the text of the scan, or else of its header -/
def ownOr (scan header : Option Str) : Str := if scan.getD [] = [] then header.getD [] else scan.getD []

/-- the dataset `N` of an entry is the number written as `t`, with the attribute `target` if it is the
preset of the monitor -/
def PresetAt (s : H5) (E N units desc t : Str) (target : Bool) : Prop :=
  ∃ v, Py.float t = .ok v ∧ datasetAt s [E, N] = some (.nums ⟨[.flt v], [1]⟩,
    [(p!"units", .str units), (p!"description", .str desc)] ++
      if target then [(p!"target", .str (p!"/" ++ E ++ p!"/monitor/preset"))] else [])

/-- the monitor of an entry has one member, `preset`, which shows the same as the dataset `N` -/
structure MonitorAt (s : H5) (E N : Str) : Prop where
  group : groupAt s [E, p!"monitor"] = some [(p!"NX_class", .str p!"NXmonitor")]
  names : childrenAt s [E, p!"monitor"] = [p!"preset"]
  preset : datasetAt s [E, p!"monitor", p!"preset"] = datasetAt s [E, N]

/-- the mnemonic of the positioner number `i`, if the header has a cross reference -/
def mneOf (xref : Option (Dict Str)) (i : Nat) : Dict AVal :=
  match xref with
  | none => []
  | some d => [(p!"spec_mne", .str (d.keys.getD i []))]

/-- The positioners `l` are groups of the group `positioners` of an entry, named by the cleaned names: each has
its cleaned name and its value, with the SPEC name and mnemonic as attributes.  (Of positioners with the same
cleaned name the last one is there.)  The same group is `positioners` of the group `instrument`. -/
structure PositionersAt [UniDB] (s : H5) (E : Str) (xref : Option (Dict Str)) (l : Dict PyFloat) : Prop where
  group : groupAt s [E, p!"positioners"] = some [(p!"NX_class", .str p!"NXnote"),
    (p!"description", .str p!"SPEC positioners (#P & #O lines)"), (p!"target", .str (p!"/" ++ E ++ p!"/instrument/positioners"))]
  linked : SameObject s [E, p!"instrument", p!"positioners"] [E, p!"positioners"]
  names : ∀ n, n ∈ childrenAt s [E, p!"positioners"] ↔ ∃ key ∈ l.keys, cleanName key = .ok n
  once : (childrenAt s [E, p!"positioners"]).Nodup
  known : ∀ d, xref = some d → l.length ≤ d.length
  value : ∀ i key v, l[i]? = some (key, v) → (∀ j key' v', i < j → l[j]? = some (key', v') → cleanName key' ≠ cleanName key) →
    ∃ n, cleanName key = .ok n ∧
      groupAt s [E, p!"positioners", n] = some [(p!"NX_class", .str p!"NXpositioner")] ∧
      childrenAt s [E, p!"positioners", n] = [p!"name", p!"value"] ∧
      datasetAt s [E, p!"positioners", n, p!"name"] = some (.text [ascii n], (p!"spec_name", .str key) :: mneOf xref i) ∧
      datasetAt s [E, p!"positioners", n, p!"value"] =
        some (.nums ⟨[.flt v], [1]⟩, (p!"spec_name", .str key) :: mneOf xref i)

/-- a value of the #H and #V lines in a file -/
def metaData : MVal → HData
  | .num f => .nums ⟨[.flt f], [1]⟩
  | .str t => .text [ascii t]

/-- the values `d` of the #H and #V lines are datasets named by the cleaned keys, in the group `metadata` of the entry,
which is also `metadata` of the group `instrument` -/
structure ValuesAt [UniDB] (s : H5) (E : Str) (d : Dict MVal) : Prop where
  group : groupAt s [E, p!"metadata"] = some [(p!"NX_class", .str p!"NXnote"),
    (p!"description", .str p!"SPEC metadata (UNICAT-style #H & #V lines)"), (p!"target", .str (p!"/" ++ E ++ p!"/metadata"))]
  linked : SameObject s [E, p!"instrument", p!"metadata"] [E, p!"metadata"]
  value : ∀ key x, (key, x) ∈ d → (∀ key' ∈ d.keys, cleanName key' = cleanName key → key' = key) →
    ∃ n, cleanName key = .ok n ∧ datasetAt s [E, p!"metadata", n] = some (metaData x, [(p!"spec_name", .str key)])
  names : ∀ n ∈ childrenAt s [E, p!"metadata"], ∃ key ∈ d.keys, cleanName key = .ok n

/-- one number as a dataset -/
def isFloat (s : H5) (path : List Str) (f : PyFloat) (a : Dict AVal) : Prop := datasetAt s path = some (.nums ⟨[.flt f], [1]⟩, a)
def isInt (s : H5) (path : List Str) (i : Int) : Prop := datasetAt s path = some (.nums ⟨[.int i], [1]⟩, [])

/-- the group `MCA` of an entry: the calibration, the channels and the times of the MCA, and nothing else; with channels or
times, it is also the `MCA` of the group `instrument` -/
structure McaAt (s : H5) (E : Str) (calib : Option (PyFloat × PyFloat × PyFloat)) (chann : Option (Int × Int × Int × PyFloat))
    (ctime : Option (PyFloat × PyFloat × PyFloat)) : Prop where
  group : ∃ a, groupAt s [E, p!"MCA"] = some a ∧ a.get? p!"NX_class" = some (.str p!"NXnote") ∧
    a.get? p!"description" = some (.str p!"MCA metadata") ∧
    (chann ≠ none → a.get? p!"target" = some (.str (p!"/" ++ E ++ p!"/instrument/MCA")))
  linked : chann ≠ none ∨ ctime ≠ none → SameObject s [E, p!"instrument", p!"MCA"] [E, p!"MCA"]
  calibration : ∀ a b c, calib = some (a, b, c) → isFloat s [E, p!"MCA", p!"calib_a"] a [] ∧
    isFloat s [E, p!"MCA", p!"calib_b"] b [] ∧ isFloat s [E, p!"MCA", p!"calib_c"] c []
  channels : ∀ n f l q, chann = some (n, f, l, q) → isInt s [E, p!"MCA", p!"number_saved"] n ∧
    isInt s [E, p!"MCA", p!"first_saved"] f ∧ isInt s [E, p!"MCA", p!"last_saved"] l ∧
    isFloat s [E, p!"MCA", p!"reduction_coef"] q []
  times : ∀ p l r, ctime = some (p, l, r) → isFloat s [E, p!"MCA", p!"preset_time"] p [(p!"units", .str p!"s")] ∧
    isFloat s [E, p!"MCA", p!"elapsed_live_time"] l [(p!"units", .str p!"s")] ∧
    isFloat s [E, p!"MCA", p!"elapsed_real_time"] r [(p!"units", .str p!"s")]
  names : ∀ n ∈ childrenAt s [E, p!"MCA"],
    (calib ≠ none ∧ n ∈ [p!"calib_a", p!"calib_b", p!"calib_c"]) ∨
    (chann ≠ none ∧ n ∈ [p!"number_saved", p!"first_saved", p!"last_saved", p!"reduction_coef"]) ∨
    (ctime ≠ none ∧ n ∈ [p!"preset_time", p!"elapsed_live_time", p!"elapsed_real_time"])

/-- every name that the parts of an entry may have, besides `unrecognized_1`, `unrecognized_2`, ... -/
def entryNames : List Str :=
  [p!"title", p!"scan_number", p!"command", p!"experiment_description", p!"data", p!"date", p!"comments", p!"Q", p!"G",
   p!"instrument", p!"sample", p!"positioners", p!"counter_cross_reference", p!"positioner_cross_reference",
   p!"counting_basis", p!"M", p!"T", p!"monitor", p!"UserResults", p!"UserReserved", p!"TEMP_SP", p!"DEGC_SP", p!"MCA",
   p!"metadata", p!"bluesky_metadata", p!"VA", p!"VD", p!"VE", p!"UXML"]

/-- every name that the parts of the group `instrument` may have -/
def instrumentNames : List Str :=
  [p!"name", p!"geometry_parameters", p!"diffractometer", p!"monochromator", p!"positioners", p!"MCA", p!"metadata"]

end S2N.Spec
