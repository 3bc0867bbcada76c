import Verif.Model.H5
import Verif.Model.SpecFile
/-
Model of /repo/spec2nexus/writer.py and of the HDF5 writers of the control-line handlers
(/repo/spec2nexus/plugins/*.py).

Simplifications: the file is changed up to an exception, the scan object is not
(only `mesh` changes a scan: it removes labels from `scan.L`); names that the XML schema requires are
present (TypeError otherwise).
-/
namespace S2N
open Py

/-! ## Numbers -/

/-- `x + y` of floats, without rounding -/
def PyFloat.add : PyFloat → PyFloat → PyFloat
  | .fin a, .fin b => .fin (a + b)
  | .nan, _ => .nan
  | _, .nan => .nan
  | .inf a, .inf b => if a = b then .inf a else .nan
  | .inf a, .fin _ => .inf a
  | .fin _, .inf b => .inf b

/-- `x * y` of floats, without rounding; `inf true` is the negative one -/
def PyFloat.mul : PyFloat → PyFloat → PyFloat
  | .fin a, .fin b => .fin (a * b)
  | .nan, _ => .nan
  | _, .nan => .nan
  | .inf a, .inf b => .inf (xor a b)
  | .inf a, .fin b => if b = 0 then .nan else .inf (xor a (decide (b < 0)))
  | .fin a, .inf b => if a = 0 then .nan else .inf (xor b (decide (a < 0)))

/-- `a + k * (b + k * c)` -/
def PyFloat.poly (a b c : PyFloat) (k : Nat) : PyFloat :=
  PyFloat.add a (PyFloat.mul (.fin k) (PyFloat.add b (PyFloat.mul (.fin k) c)))

/-- order of texts: by code points -/
def strLe : Str → Str → Bool
  | [], _ => true
  | _ :: _, [] => false
  | a :: as, b :: bs => if a.toNat < b.toNat then true else if b.toNat < a.toNat then false else strLe as bs

/-- `sorted(d.items())` (the keys of a dict differ) -/
def sortedItems {α : Type} (d : Dict α) : List (Str × α) := sortBy (fun a b => strLe a.1 b.1) d

/-- a value with the attribute missing -/
def need {α : Type} : Option α → HM α
  | some a => HM.ret a
  | none => HM.raise .AttributeError

/-- one text attribute -/
def attr1 (k v : Str) : Dict AVal := [(k, .str v)]

namespace Writer
open H5 Eznx

/-- `CONTAINER_CLASS` — writer.py:23 -/
def containerClass : Str := p!"NXnote"

/-- floats as numbers to be stored -/
def flts (l : List PyFloat) : PData := .nums (l.map .flt)

section
variable [UniDB]

/-- `write_ds(group, label, data, **attr)` — writer.py:390-395 -/
def writeDs (g : HRef) (label : Str) (data : PData) (attr : Dict AVal) : HM Unit := do
  let n ← HM.lift (cleanName label)
  let _ ← writeDataset g n data ((p!"spec_name", AVal.str label) :: attr)
  pure ()

/-- `save_dict(group, data)` — writer.py:182-185 -/
def saveDict (g : HRef) (d : Dict PData) : HM Unit := HM.each (fun kv => writeDs g kv.1 kv.2 []) d

/-! ## Data — writer.py:187-388 -/

/-- a column of `scan.data` as data of a dataset; the dictionary of spectra cannot be stored -/
def colData : DCol → Except PyErr PData
  | .col xs => .ok (flts xs)
  | .mca _ => .error .TypeError

/-- the calibration used for the scaled channels — writer.py:260-268: without calibration, or if
all coefficients are 0, the constant 1 (an integer) -/
def calibration (x : Obj) : Option (PyFloat × PyFloat × PyFloat) :=
  match x.mca with
  | some m =>
    match m.calib with
    | some (a, b, c) => if a = b ∧ b = c ∧ a = .fin 0 then none else some (a, b, c)
    | none => none
  | none => none

/-- `_mca_x_` — writer.py:285-286 -/
def scaledX (x : Obj) (n : Nat) : List Num :=
  match calibration x with
  | some (a, b, c) => (List.range n).map (fun i => .flt (PyFloat.poly a b c (i + 1)))
  | none => List.replicate n (.int 1)

/-- `scan.data[MCA_DATA_KEY]`, if the key is present; a column with that label is a list of
numbers, which has no `items` -/
def mcaItems (x : Obj) : HM (List (Str × List (List Num))) :=
  match x.data.get? p!"_mca_" with
  | none => HM.ret []
  | some (.mca m) => HM.ret (sortedItems m)
  | some (.col _) => HM.raise .AttributeError

/-- `len(spectrum[0])` -/
def channels (sp : List (List Num)) : Except PyErr Nat :=
  match sp with
  | [] => .error .IndexError
  | r :: _ => .ok r.length

/-- one spectrum — writer.py:274-292 -/
def spectrum (g : HRef) (x : Obj) (axis : Str) (kv : Str × List (List Num)) : HM Unit := do
  let ds := p!"_" ++ kv.1 ++ p!"_"
  writeDs g ds (.rows kv.2)
    [(p!"axes", .str (axis ++ p!":" ++ ds ++ p!"channel_")), (p!"units", .str p!"counts")]
  let n ← HM.lift (channels kv.2)
  writeDs g (ds ++ p!"channel_") (.nums (upTo n)) (attr1 p!"units" p!"channel")
  writeDs g (ds ++ p!"channel_scaled_x") (.nums (scaledX x n)) (attr1 p!"units" [])

/-- `mca_spectra(nxdata, scan, primary_axis_label)` — writer.py:256-292 -/
def mcaSpectra (g : HRef) (x : Obj) (axis : Str) : HM Unit := do
  let items ← mcaItems x
  HM.each (spectrum g x axis) items

/-- one column — writer.py:249 -/
def column (g : HRef) (x : Obj) (label : Str) : HM Unit :=
  match x.data.get? label with
  | none => HM.raise .KeyError
  | some c => do
    let d ← HM.lift (colData c)
    writeDs g label d []

/-- `oneD(nxdata, scan)` — writer.py:246-254: signal and axis -/
def oneD (g : HRef) (x : Obj) : HM (Str × Str) := do
  HM.each (column g x) (x.L.getD [])
  let cl ← need x.columnLast
  let signal ← HM.lift (cleanName cl)
  let cf ← need x.columnFirst
  let axis ← HM.lift (cleanName cf)
  mcaSpectra g x axis
  pure (signal, axis)

/-- the nine words after the macro name — writer.py:305-315 -/
def meshWords (cmd : Str) : Except PyErr (Str × Str × Str × Str) :=
  match splitWs cmd with
  | [_, l1, _, _, n1, l2, _, _, n2, _] => .ok (l1, n1, l2, n2)
  | _ => .error .ValueError

/-- `scan.data.get(label)` used as a list -/
def axisOf (x : Obj) (label : Str) : Except PyErr (List PyFloat) :=
  match x.data.get? label with
  | some (.col xs) => .ok xs
  | _ => .error .TypeError

/-- `if label not in scan.data: label = scan.L[i]` — writer.py:316-319 -/
def meshLabel (x : Obj) (label : Str) (i : Nat) : Except PyErr Str :=
  if x.data.has label then .ok label
  else
    match (x.L.getD [])[i]? with
    | some l => .ok l
    | none => .error .IndexError

/-- `list.remove(label)` -/
def pyRemove (label : Str) (l : List Str) : Except PyErr (List Str) :=
  if label ∈ l then .ok (l.erase label) else .error .ValueError

/-- `[axis2[row] for row in range(len(axis2)) if row % n == 0]` — writer.py:330-334 -/
def everyNth (n : Int) (l : List PyFloat) : Except PyErr (List PyFloat) :=
  if n = 0 ∧ l ≠ [] then .error .ZeroDivisionError
  else .ok (((List.range l.length).zip l).filterMap
    (fun p => if (p.1 : Int) % n = 0 then some p.2 else none))

/-- the axis held constant in an hklmesh — writer.py:339-347 -/
def constantAxis (g : HRef) (x : Obj) (label1 label2 : Str) : HM Unit :=
  if startsWith x.scanCmd p!"hkl" then
    match [p!"H", p!"K", p!"L"].filter (fun k => !(k == label1 || k == label2)) with
    | [] => HM.raise .IndexError
    | label3 :: _ =>
      match x.data.get? label3 with
      | none => HM.raise .TypeError
      | some (.mca _) => HM.raise .KeyError
      | some (.col []) => HM.raise .IndexError
      | some (.col (v :: _)) => writeDs g label3 (.num (.flt v)) []
  else HM.ret ()

/-- one 2-D column — writer.py:354-359 -/
def meshColumn (g : HRef) (x : Obj) (shape : List Nat) (label : Str) : HM Unit := do
  if ← contains g label then pure ()
  else
    let xs ← HM.lift (axisOf x label)
    writeDs g label (.nd (reshapeData (.flt .nan) (xs.map .flt) shape)) []

/-- the spectra of a mesh — writer.py:366-386: `data_shape` grows with every spectrum and has no
value (`none`) after the fallback -/
def meshSpectra (g : HRef) (axes : Str) : Option (List Nat) → List (Str × List (List Num)) → HM Unit
  | _, [] => HM.ret ()
  | shape, kv :: rest => do
    let n ← HM.lift (channels kv.2)
    match shape with
    | none => HM.raise .UnboundLocalError
    | some shape =>
      let shape := shape ++ [n]
      if kv.2.all (fun r => r.length == n) then
        let data := reshapeData (.flt .nan) (unify kv.2.flatten) shape
        let ds := p!"_" ++ kv.1 ++ p!"_"
        writeDs g ds (.nd data)
          [(p!"axes", .str (axes ++ p!":" ++ ds ++ p!"channel_")), (p!"units", .str p!"counts")]
        writeDs g (ds ++ p!"channel_") (.range n) (attr1 p!"units" p!"channel")
        meshSpectra g axes (some shape) rest
      else HM.raise .ValueError

/-- `mesh(nxdata, scan)` — writer.py:294-388: signal, axes and the scan with the labels that are
left in `scan.L` -/
def mesh (g : HRef) (x : Obj) : HM (Str × Str × Obj) := do
  let (w1, n1, w2, n2) ← HM.lift (meshWords x.scanCmd)
  let label1 ← HM.lift (meshLabel x w1 0)
  let label2 ← HM.lift (meshLabel x w2 1)
  let i1 ← HM.lift (Py.int n1)
  let _ ← HM.lift (Py.int n2)
  let axis1 ← HM.lift (axisOf x label1)
  if (axis1.length : Int) < i1 then
    let (signal, axes) ← oneD g x
    let items ← mcaItems x
    meshSpectra g axes none items
    pure (signal, axes, x)
  else
    let axis1 := pySlice axis1 (some 0) (some (i1 + 1))
    let axis2 ← HM.lift (axisOf x label2)
    let axis2 ← HM.lift (everyNth (i1 + 1) axis2)
    let labels ← HM.lift (pyRemove label1 (x.L.getD []))
    let labels ← HM.lift (pyRemove label2 labels)
    constantAxis g x label1 label2
    writeDs g label1 (flts axis1) []
    writeDs g label2 (flts axis2) []
    let shape := [axis1.length, axis2.length]
    HM.each (meshColumn g x shape) labels
    let cl ← need x.columnLast
    let signal ← HM.lift (cleanName cl)
    let axes := label1 ++ p!":" ++ label2
    let items ← mcaItems x
    meshSpectra g axes (some shape) items
    pure (signal, axes, { x with L := some labels })

/-- the axes of hscan, kscan, lscan, hklscan — writer.py:197-205: those of H, K, L whose start and
end differ as texts -/
def hklAxes (cmd : Str) : Except PyErr Str :=
  match ((splitWs cmd).drop 1).take 6 with
  | [h0, hN, k0, kN, l0, lN] =>
    .ok (join p!":" ((if h0 ≠ hN then [p!"H"] else []) ++ (if k0 ≠ kN then [p!"K"] else []) ++
      (if l0 ≠ lN then [p!"L"] else [])))
  | _ => .error .ValueError

/-- the attributes `signal`, `axes` and `*_indices` — writer.py:213-244 -/
def dataAttributes (g : HRef) (signal axes : Str) : HM Unit :=
  if axes.contains ':' then do
    let names := (splitC ':' axes).map ascii
    addAttributes g [(p!"signal", .str signal), (p!"axes", .strs names)]
    HM.each (fun n => addAttributes g [(n ++ p!"_indices", .nums [.int 0])]) names
  else do
    addAttributes g [(p!"signal", .str signal), (p!"axes", .str axes)]
    addAttributes g [(axes ++ p!"_indices", .nums [.int 0])]

/-- `save_data(nxdata, scan)` — writer.py:187-244: the scan afterwards -/
def saveData (g : HRef) (x : Obj) : HM Obj :=
  match splitWs x.scanCmd with
  | [] => HM.raise .IndexError
  | macroName :: _ =>
    if macroName ∈ [p!"mesh", p!"hklmesh"] then do
      let (signal, axes, x) ← mesh g x
      dataAttributes g signal axes
      pure x
    else if macroName ∈ [p!"hscan", p!"kscan", p!"lscan", p!"hklscan"] then do
      let (signal, _) ← oneD g x
      let axes ← HM.lift (hklAxes x.scanCmd)
      dataAttributes g signal axes
      pure x
    else do
      let (signal, axes) ← oneD g x
      dataAttributes g signal axes
      pure x

/-! ## Writers of the handlers -/

/-- SPEC_Date.writer — spec_common.py:156-158 -/
def wDate (e : HRef) (x : Obj) : HM Unit := do
  let d ← HM.lift (iso8601 x.date)
  let _ ← writeDataset e p!"date" (.str d) []
  pure ()

/-- SPEC_Comment.writer — spec_common.py:191-195 -/
def wComments (e : HRef) (x : Obj) : HM Unit := do
  let _ ← writeDataset e p!"comments" (.str (join p!"\n" x.comments)) []
  pure ()

/-- a geometry parameter as data -/
def gData : GVal → PData
  | .str s => .str s
  | .num f => .num (.flt f)
  | .mat rows => .rows (rows.map (·.map .flt))

/-- lattice of the geometry writer — spec_common.py:364-392 -/
def wLattice (e : HRef) (l : Lattice) : HM Unit := do
  let sample ← openGroup e p!"sample" p!"NXsample" []
  match l with
  | .three a b c al be ga =>
    let _ ← writeDataset sample p!"unit_cell_abc" (flts [a, b, c]) (attr1 p!"units" p!"angstrom")
    let _ ← writeDataset sample p!"unit_cell_alphabetagamma" (flts [al, be, ga])
      (attr1 p!"units" p!"degrees")
    let _ ← writeDataset sample p!"unit_cell" (flts [a, b, c, al, be, ga]) []
    pure ()
  | .two a b ga =>
    let _ ← writeDataset sample p!"unit_cell_a" (flts [a]) (attr1 p!"units" p!"angstrom")
    let _ ← writeDataset sample p!"unit_cell_b" (flts [b]) (attr1 p!"units" p!"angstrom")
    let _ ← writeDataset sample p!"unit_cell_gamma" (flts [ga]) (attr1 p!"units" p!"degrees")
    pure ()

/-- one value written as `[value]` -/
def one (f : PyFloat) : PData := .num (.flt f)

/-- the fields of an orientation reflection — spec_common.py:421-438 -/
def wReflectionFields (note : HRef) (h k : PyFloat) (l : Option PyFloat) (wl : PyFloat)
    (angles : Dict PyFloat) : HM Unit := do
  let _ ← writeDataset note p!"h" (one h) []
  let _ ← writeDataset note p!"k" (one k) []
  HM.ifSome l fun l => do
    let _ ← writeDataset note p!"l" (one l) []
    pure ()
  let _ ← writeDataset note p!"wavelength" (one wl) (attr1 p!"units" p!"Angstrom")
  HM.each (fun ka => do
    let _ ← writeDataset note ka.1 (one ka.2)
      [(p!"units", .str p!"degrees"), (p!"description", .str p!"diffractometer angle")]
    pure ()) angles

/-- one orientation reflection — spec_common.py:413-438 -/
def wReflection (sample : HRef) (ir : Nat × Reflection) : HM Unit := do
  let nm := p!"or" ++ natStr ir.1
  let note ← openGroup sample nm p!"NXnote" (attr1 p!"description" (nm ++ p!": orientation reflection"))
  match ir.2 with
  | .three h k l wl angles => wReflectionFields note h k (some l) wl angles
  | .two h k wl angles => wReflectionFields note h k none wl angles

/-- a dataset in group sample — spec_common.py:393-410 -/
def wSample (e : HRef) (name : Str) (d : Option PData) : HM Unit :=
  match d with
  | none => HM.ret ()
  | some d => do
    let sample ← openGroup e p!"sample" p!"NXsample" []
    let _ ← writeDataset sample name d []
    pure ()

/-- wavelength of the geometry writer — spec_common.py:439-456 -/
def wWavelength (e instrument : HRef) (wl : PyFloat) : HM Unit := do
  let mono ← openGroup instrument p!"monochromator" p!"NXmonochromator" []
  let ds ← writeDataset mono p!"wavelength" (one wl) (attr1 p!"units" p!"angstrom")
  let sample ← openGroup e p!"sample" p!"NXsample" []
  let beam ← openGroup sample p!"beam" p!"NXbeam" []
  makeLink sample ds (nameOf beam ++ p!"/incident_wavelength")

/-- the values of the #G lines — spec_common.py:349-351 -/
def gValues (G : Dict Str) : Except PyErr (Dict PData) :=
  mapE (fun kv => match mapE Py.float (splitWs kv.2) with
    | .error e => .error e
    | .ok xs => .ok (kv.1, flts xs)) G

/-- the description of a parameter, unless it is empty — spec_common.py:464-471 -/
def descAttr (d : Diff) (k : Str) : Dict AVal :=
  match d.gdesc.get? k with
  | none => []
  | some [] => []
  | some t => attr1 p!"description" t

/-- SPEC_Geometry.writer — spec_common.py:343-471 -/
def wGeometry (e : HRef) (x : Obj) : HM Unit := do
  let g ← makeGroup e p!"G" containerClass (attr1 p!"description"
    p!"SPEC geometry arrays, meanings defined by SPEC diffractometer support")
  let G ← need x.G
  let dd ← HM.lift (gValues G)
  saveDict g dd
  let diff ← need x.diff
  if diff.gpar = [] then pure ()
  else
    let instrument ← openGroup e p!"instrument" p!"NXinstrument" []
    let _ ← writeDataset instrument p!"name" (.str diff.full) []
    HM.ifSome diff.lattice (wLattice e)
    wSample e p!"ub_matrix" ((diff.gpar.get? p!"ub_matrix").map gData)
    wSample e p!"diffractometer_mode" (diff.mode.map .str)
    wSample e p!"diffractometer_sector" (diff.sector.map (fun i => .num (.int i)))
    HM.onlyIf (!diff.reflections.isEmpty) do
      let sample ← openGroup e p!"sample" p!"NXsample" []
      HM.each (wReflection sample) ((List.range diff.reflections.length).zip diff.reflections)
    HM.ifSome diff.wavelength (wWavelength e instrument)
    let note ← openGroup instrument p!"geometry_parameters" containerClass
      (attr1 p!"description" p!"SPEC geometry arrays, interpreted")
    HM.each (fun kv => do
      let _ ← writeDataset note kv.1 (gData kv.2) (descAttr diff kv.1)
      pure ()) diff.gpar

/-- a cross reference as a group of texts — spec_common.py:541-549, 592-600, 796-804 -/
def wXref (e : HRef) (name desc comment : Str) (d : Dict Str) : HM Unit := do
  let g ← makeGroup e name containerClass
    [(p!"description", .str desc), (p!"comment", .str comment)]
  HM.each (fun kv => do
    let _ ← writeDataset g kv.1 (.str kv.2) []
    pure ()) (sortedItems d)

/-- SPEC_CounterNames.writer — spec_common.py:532-549; SPEC_CounterMnemonics.writer (584-600) also
writes an empty group -/
def wCounterXref (always : Bool) (e : HRef) (x : Obj) : HM Unit :=
  let d := x.counterXref.getD []
  if always = false ∧ d = [] then HM.ret ()
  else wXref e p!"counter_cross_reference" p!"cross-reference SPEC counter mnemonics and names"
    p!"keys are SPEC counter mnemonics, values are SPEC counter names" d

/-- SPEC_PositionerMnemonics.writer — spec_common.py:787-804 -/
def wPositionerXref (e : HRef) (x : Obj) : HM Unit :=
  let d := x.positionerXref.getD []
  if d = [] then HM.ret ()
  else wXref e p!"positioner_cross_reference" p!"cross-reference SPEC positioner mnemonics and names"
    p!"keys are SPEC positioner mnemonics, values are SPEC positioner names" d

/-- `float(text)` of #M or #T, with the counting basis — spec_common.py:680-686, 1003-1009 -/
def wPreset (e : HRef) (name units desc : Str) (t : Option Str) : HM Unit := do
  let _ ← writeDataset e p!"counting_basis" (.str desc) []
  let t ← need t
  let v ← HM.lift (Py.float t)
  let _ ← writeDataset e name (one v) [(p!"units", .str units), (p!"description", .str desc)]
  pure ()

/-- SPEC_Monitor.writer — spec_common.py:680-686 -/
def wMonitor (e : HRef) (x : Obj) : HM Unit :=
  wPreset e p!"M" p!"counts" p!"SPEC scan with constant monitor count" x.M

/-- SPEC_CountTime.writer — spec_common.py:1003-1009 -/
def wCountTime (e : HRef) (x : Obj) : HM Unit :=
  wPreset e p!"T" p!"s" p!"SPEC scan with constant counting time" x.T

/-- the attribute `spec_mne` of the positioner number `i` — spec_common.py:889-892 -/
def mneAttr (xref : Option (Dict Str)) (i : Nat) : Except PyErr (Dict AVal) :=
  match xref with
  | none => .ok []
  | some d =>
    match d.keys[i]? with
    | some m => .ok (attr1 p!"spec_mne" m)
    | none => .error .IndexError

/-- one positioner — spec_common.py:883-895 -/
def wPositioner (g : HRef) (xref : Option (Dict Str)) (p : Nat × Str × PyFloat) : HM Unit := do
  let name ← HM.lift (cleanName p.2.1)
  let pg ← openGroup g name p!"NXpositioner" []
  let mne ← HM.lift (mneAttr xref p.1)
  let attrs := (p!"spec_name", AVal.str p.2.1) :: mne
  let _ ← writeDataset pg p!"name" (.str name) attrs
  let _ ← writeDataset pg p!"value" (one p.2.2) attrs
  pure ()

/-- SPEC_Positioners.writer — spec_common.py:876-897 -/
def wPositioners (e : HRef) (hdr x : Obj) : HM Unit := do
  let g ← makeGroup e p!"positioners" containerClass
    (attr1 p!"description" p!"SPEC positioners (#P & #O lines)")
  HM.each (wPositioner g hdr.positionerXref) ((List.range x.positioner.length).zip x.positioner)
  let instrument ← openGroup e p!"instrument" p!"NXinstrument" []
  makeLink e g (nameOf instrument ++ p!"/positioners")

/-- SPEC_HKL.writer — spec_common.py:923-926 -/
def wHkl (e : HRef) (x : Obj) : HM Unit := do
  let q ← need x.Q
  let _ ← writeDataset e p!"Q" (flts q) (attr1 p!"description" p!"hkl at start of scan")
  pure ()

/-- numbered texts — spec_common.py:958-972, 1041-1055 -/
def wLines (e : HRef) (group desc tag key : Str) (kind : Kind) (lines : Option (List Str)) :
    HM Unit := do
  let g ← openGroup e group p!"NXnote" (attr1 p!"description" desc)
  let l ← need lines
  let tag := if kind = .header then p!"header" else tag
  HM.each (fun p => do
    let _ ← writeDataset g (tag ++ p!"_" ++ natStr (p.1 + 1)) (.str p.2)
      (attr1 p!"description" (p!"#" ++ key ++ p!" line " ++ natStr (p.1 + 1)))
    pure ()) ((List.range l.length).zip l)

/-- SPEC_UserResults.writer — spec_common.py:958-972 -/
def wUserResults (e : HRef) (x : Obj) : HM Unit :=
  wLines e p!"UserResults" p!"SPEC control line \"#R: Reserved for user results\"" p!"item" p!"R"
    x.kind x.R

/-- SPEC_UserReserved.writer — spec_common.py:1041-1055 -/
def wUserReserved (e : HRef) (x : Obj) : HM Unit :=
  wLines e p!"UserReserved" p!"SPEC control line \"#U: Reserved for user\"" p!"item" p!"U"
    x.kind x.U

/-- a value of scanf as data -/
def sData : SVal → PData
  | .str s => .str s
  | .int i => .num (.int i)
  | .flt f => .num (.flt f)

/-- SPEC_TemperatureSetPoint.writer — spec_common.py:1109-1126 -/
def wTemperature (e : HRef) (x : Obj) : HM Unit := do
  HM.ifSome x.tempSP fun v => do
    let _ ← writeDataset e p!"TEMP_SP" (sData v) (attr1 p!"description" p!"temperature set point")
    pure ()
  HM.ifSome x.degcSP fun v => do
    let _ ← writeDataset e p!"DEGC_SP" (sData v)
      [(p!"units", .str p!"C"), (p!"description", .str p!"temperature set point (C)")]
    pure ()

/-- group MCA — spec_common.py:1314, 1368, 1430 -/
def mcaGroup (e : HRef) : HM HRef :=
  openGroup e p!"MCA" containerClass (attr1 p!"description" p!"MCA metadata")

/-- link the MCA group in the instrument group — spec_common.py:1379-1383, 1443-1447 -/
def linkMca (e g : HRef) : HM HRef := do
  let instrument ← openGroup e p!"instrument" p!"NXinstrument" []
  HM.andThen (contains instrument p!"MCA") fun b =>
    HM.onlyIf (!b) (makeLink e g (nameOf instrument ++ p!"/MCA"))
  pure instrument

/-- SPEC_MCA_Calibration.writer — spec_common.py:1310-1322 -/
def wCalib (e : HRef) (x : Obj) : HM Unit :=
  match x.mca with
  | some { calib := some (a, b, c), .. } => do
    let g ← mcaGroup e
    let _ ← writeDataset g p!"calib_a" (one a) []
    let _ ← writeDataset g p!"calib_b" (one b) []
    let _ ← writeDataset g p!"calib_c" (one c) []
    pure ()
  | _ => HM.ret ()

/-- SPEC_MCA_ChannelInformation.writer — spec_common.py:1365-1386 -/
def wChann (e : HRef) (x : Obj) : HM Unit :=
  match x.mca with
  | none => HM.ret ()
  | some m => do
    let g ← mcaGroup e
    HM.ifSome m.chann fun c => do
      let _ ← writeDataset g p!"number_saved" (.num (.int c.1)) []
      let _ ← writeDataset g p!"first_saved" (.num (.int c.2.1)) []
      let _ ← writeDataset g p!"last_saved" (.num (.int c.2.2.1)) []
      let _ ← writeDataset g p!"reduction_coef" (one c.2.2.2) []
      pure ()
    let instrument ← linkMca e g
    let target ← get instrument p!"MCA"
    setAttr target p!"target" (.str (nameOf target))

/-- SPEC_MCA_CountTime.writer — spec_common.py:1427-1447 -/
def wCtime (e : HRef) (x : Obj) : HM Unit :=
  match x.mca with
  | none => HM.ret ()
  | some m => do
    let g ← mcaGroup e
    HM.ifSome m.ctime fun c => do
      let _ ← writeDataset g p!"preset_time" (one c.1) (attr1 p!"units" p!"s")
      let _ ← writeDataset g p!"elapsed_live_time" (one c.2.1) (attr1 p!"units" p!"s")
      let _ ← writeDataset g p!"elapsed_real_time" (one c.2.2) (attr1 p!"units" p!"s")
      pure ()
    let _ ← linkMca e g
    pure ()

/-- data_lines_writer — spec_common.py:1641-1645 -/
def wScanData (e : HRef) (x : Obj) : HM Obj := do
  let g ← makeGroup e p!"data" p!"NXdata" (attr1 p!"description" p!"SPEC scan data")
  saveData g x

/-- a value of `scan.metadata` as data -/
def mData : MVal → PData
  | .num f => one f
  | .str s => .str s

/-- UNICAT_MetadataValues.writer — unicat.py:126-139 -/
def wMetadata (e : HRef) (x : Obj) : HM Unit :=
  match x.metadata with
  | none => HM.ret ()
  | some [] => HM.ret ()
  | some d => do
    let g ← makeGroup e p!"metadata" containerClass
      (attr1 p!"description" p!"SPEC metadata (UNICAT-style #H & #V lines)")
    saveDict g (d.map (fun kv => (kv.1, mData kv.2)))
    let instrument ← openGroup e p!"instrument" p!"NXinstrument" []
    makeLink e g (nameOf instrument ++ p!"/metadata")

/-- writers of #VA, #VD, #VE — XPCS.py:33-40, 58-65, 83-90 -/
def wV (e : HRef) (name : Str) (d : Option (Dict Str)) : HM Unit := do
  let g ← makeGroup e name containerClass (attr1 p!"description" (p!"XPCS " ++ name ++ p!" parameters"))
  let d ← need d
  saveDict g (d.map (fun kv => (kv.1, .strs (splitWs kv.2))))

/-- MD_apstools.writer — apstools_specwriter.py:50-58 -/
def wMD (e : HRef) (x : Obj) : HM Unit :=
  match x.MD with
  | none => HM.ret ()
  | some [] => HM.ret ()
  | some d => do
    let g ← makeGroup e p!"bluesky_metadata" p!"NXcollection" (attr1 p!"description"
      p!"Bluesky metadata (as written by apstools.SpecWriterCallback)")
    saveDict g (d.map (fun kv => (kv.1, .str kv.2)))

/-- the first name `unrecognized_i`, i ≥ 1, that is free; `n` bounds the search (a group with m
children has a free name among the first m + 1) — fallback.py:32-38 -/
def freeUnrec (taken : Str → Bool) : Nat → Nat → Str
  | 0, i => p!"unrecognized_" ++ natStr i
  | n + 1, i => if taken (p!"unrecognized_" ++ natStr i) then freeUnrec taken n (i + 1)
    else p!"unrecognized_" ++ natStr i

/-- number of children of a group -/
def childCount (s : H5) (i : Nat) : Nat :=
  match s[i]? with
  | some (.group ch _) => ch.length
  | _ => 0

/-- UnrecognizedControlLine.writer — fallback.py:28-41 -/
def wUnrec (e : HRef) (x : Obj) : HM Unit := do
  let name ← HM.look fun s =>
    freeUnrec (fun n => (walk s e.id (comps n)).isSome) (childCount s e.id) 1
  let g ← makeGroup e name p!"NXnote"
    (attr1 p!"description" p!"SPEC data file control lines not otherwise recognized")
  let l ← need x.unrecognized
  saveDict g (((List.range l.length).zip l).map (fun p => (p!"u" ++ natStr p.1, .str p.2)))

/-! ### UXML — plugins/uxml.py:111-192 -/

/-- the dictionaries `unique_id` and `target_id` -/
structure UState where
  unique : Dict HRef := []
  target : Dict (HRef × Str) := []

/-- the value of a dataset by its type — uxml.py:154-159 -/
def uxmlValue (ty : Str) (text : Option Str) : Except PyErr PData :=
  if ty = p!"int" then
    match text with
    | none => .error .TypeError
    | some t => match Py.int t with
      | .ok i => .ok (.num (.int i))
      | .error e => .error e
  else if ty = p!"float" then
    match text with
    | none => .error .TypeError
    | some t => match Py.float t with
      | .ok f => .ok (.num (.flt f))
      | .error e => .error e
  else if ty = p!"str" then .ok (.str (text.getD p!"None"))
  else .error .UXMLError

/-- `prune_dict(d, keys)` — uxml.py:142-144 -/
def prune (d : Dict Str) (keys : List Str) : Dict AVal :=
  (d.filter (fun kv => !keys.contains kv.1)).map (fun kv => (kv.1, AVal.str kv.2))

/-- `if unique_id is not None: self.unique_id[unique_id] = obj` -/
def remember (uid : Option Str) (h : HRef) (u : UState) : UState :=
  match uid with
  | none => u
  | some k => { u with unique := u.unique.set k h }

/-- an attribute of an element that has to be there -/
def needAttr (k : Str) (attrib : Dict Str) : HM Str :=
  match attrib.get? k with
  | some n => HM.ret n
  | none => HM.raise .TypeError

/-- the name of an element -/
def nameAttr (attrib : Dict Str) : HM Str := needAttr p!"name" attrib

mutual
/-- one element — uxml.py:131-132, 146-192; an unknown tag is a KeyError -/
def uxmlNode (h : HRef) : XmlNode → UState → HM UState
  | .mk tag attrib text children, u =>
    if tag = p!"dataset" then do
      let nm ← nameAttr attrib
      let v ← HM.lift (uxmlValue ((attrib.get? p!"type").getD p!"str") text)
      let ds ← makeDataset h nm v (prune attrib [p!"name", p!"type", p!"unique_id"])
      pure (remember (attrib.get? p!"unique_id") ds u)
    else if tag = p!"group" then do
      let nm ← nameAttr attrib
      let g ← createGroup h nm
      let cls ← needAttr p!"NX_class" attrib
      setAttr g p!"NX_class" (.str cls)
      addAttributes g (prune attrib [p!"name", p!"NX_class", p!"unique_id"])
      uxmlNodes g children (remember (attrib.get? p!"unique_id") g u)
    else if tag = p!"hardlink" then
      match attrib.get? p!"target_id" with
      | none => HM.ret u
      | some t => HM.andThen (nameAttr attrib) fun nm =>
        HM.ret { u with target := u.target.set t (h, nm) }
    else HM.raise .KeyError
/-- `walk_xml_tree(h5parent, xml_node)` — uxml.py:128-132 -/
def uxmlNodes (h : HRef) : List XmlNode → UState → HM UState
  | [], u => HM.ret u
  | n :: ns, u => HM.andThen (uxmlNode h n u) fun u => uxmlNodes h ns u
end

/-- `make_NeXus_links()` — uxml.py:134-140 -/
def uxmlLinks (u : UState) : HM Unit :=
  HM.each (fun t : Str × HRef × Str =>
    match u.unique.get? t.1 with
    | some src => makeLink t.2.1 src t.2.2
    | none => HM.ret ()) u.target

/-- UXML_metadata.writer — uxml.py:111-126 -/
def wUxml (e : HRef) (x : Obj) : HM Unit := do
  let g ← makeGroup e p!"UXML" p!"NXnote" (attr1 p!"desc" p!"UXML metadata")
  match x.uxmlRoot with
  | none => HM.raise .AttributeError
  | some (.mk _ _ _ children) =>
    let u ← uxmlNodes g children {}
    uxmlLinks u

/-- call of one writer for `x`, a header or a scan with header `hdr`; the object afterwards -/
def runWriter (f : H5Fn) (e : HRef) (hdr x : Obj) : HM Obj :=
  let k (m : HM Unit) : HM Obj := HM.andThen m fun _ => HM.ret x
  match f with
  | .date => k (wDate e x)
  | .comments => k (wComments e x)
  | .geometry => k (wGeometry e x)
  | .counterJ => k (wCounterXref false e x)
  | .counterj => k (wCounterXref true e x)
  | .positionerXref => k (wPositionerXref e x)
  | .monitor => k (wMonitor e x)
  | .positioners => k (wPositioners e hdr x)
  | .hkl => k (wHkl e x)
  | .userResults => k (wUserResults e x)
  | .countTime => k (wCountTime e x)
  | .userReserved => k (wUserReserved e x)
  | .temperature => k (wTemperature e x)
  | .calib => k (wCalib e x)
  | .chann => k (wChann e x)
  | .ctime => k (wCtime e x)
  | .scanData => wScanData e x
  | .metadata => k (wMetadata e x)
  | .VA => k (wV e p!"VA" x.VA)
  | .VD => k (wV e p!"VD" x.VD)
  | .VE => k (wV e p!"VE" x.VE)
  | .XPCS => HM.ret x
  | .CCD => HM.ret x
  | .MD => k (wMD e x)
  | .unrec => k (wUnrec e x)
  | .uxml => k (wUxml e x)

/-- `for func in obj.h5writers.values(): func(...)` — writer.py:141-146 -/
def runWriters (e : HRef) (hdr : Obj) : List H5Fn → Obj → HM Obj
  | [], x => HM.ret x
  | f :: fs, x => HM.andThen (runWriter f e hdr x) fun x => runWriters e hdr fs x

/-- `target.attrs["target"] = target.name` -/
def setTarget (obj named : HRef) : HM Unit := setAttr obj p!"target" (.str (nameOf named))

/-- the links added by `save_scan` — writer.py:148-180 -/
def additions (e : HRef) : HM Unit := do
  HM.andThen (contains e p!"instrument/geometry_parameters") fun b => HM.onlyIf b do
    let instrument ← get e p!"instrument"
    let gp ← get instrument p!"geometry_parameters"
    setLink instrument p!"diffractometer" gp
    let target ← get instrument p!"diffractometer"
    setTarget target target
  HM.andThen (contains e p!"positioners") fun b => HM.onlyIf b do
    HM.andThen (contains e p!"instrument/positioners") fun b => HM.onlyIf b do
      let target ← get e p!"instrument/positioners"
      setTarget target target
  let hasM ← contains e p!"M"
  let hasT ← contains e p!"T"
  HM.onlyIf (hasM || hasT) do
    let target ← get e (if hasM then p!"M" else p!"T")
    let monitor ← makeGroup e p!"monitor" p!"NXmonitor" []
    setLink monitor p!"preset" target
    let preset ← get monitor p!"preset"
    setTarget target preset
  let hasTemp ← contains e p!"TEMP_SP"
  let hasDegc ← contains e p!"DEGC_SP"
  HM.onlyIf (hasTemp || hasDegc) do
    let sample ← get e p!"sample"
    let temperature ← makeGroup sample p!"temperature" p!"NXlog" []
    HM.onlyIf hasTemp do
      let target ← get e p!"TEMP_SP"
      setLink temperature p!"target_value" target
      let v ← get temperature p!"target_value"
      setTarget target v
    HM.onlyIf hasDegc do
      let target ← get e p!"DEGC_SP"
      setLink temperature p!"value" target
      let v ← get temperature p!"value"
      setTarget target v

/-- `save_scan(nxentry, scan)` after the interpretation — writer.py:133-180: the scan afterwards -/
def saveScan (e : HRef) (hdr x : Obj) : HM Obj := do
  addAttributes e (attr1 p!"default" p!"data")
  let _ ← writeDataset e p!"title" (.str x.S) []
  let nums ← HM.lift (splitScanNumberString x.scanNum)
  let ds ← writeDataset e p!"scan_number" (.num (.int (nums.getD 0 0))) []
  addAttributes ds (attr1 p!"spec_name" p!"SCAN_N")
  HM.onlyIf (decide (0 < nums.getD 1 0)) (addAttributes ds [(p!"repeat", .num (.int (nums.getD 1 0)))])
  let _ ← writeDataset e p!"command" (.str x.scanCmd) []
  let _ ← runWriters e hdr hdr.h5.values hdr
  let x ← runWriters e hdr x.h5.values x
  additions e
  pure x

/-- versions of the software -/
structure Versions where
  spec2nexus : Str
  h5py : Str
  hdf5 : Str
  numpy : Str

/-- the user named in the first comment — writer.py:122-127 -/
def specUser (comments : List Str) : Option Str :=
  match comments with
  | [] => none
  | c :: _ => ((splitC '=' (sliceFrom (findS p!"User = " c) c))[1]?).map strip

/-- `root_attributes()` — writer.py:106-128 -/
def rootAttributes (v : Versions) (s : Sdf) : Except PyErr (Dict AVal) :=
  match s.headers with
  | [] => .error .IndexError
  | h0 :: _ =>
    match s.specFile, h0.epoch with
    | some f, some ep =>
      match iso8601 h0.date with
      | .error e => .error e
      | .ok d =>
        .ok ([(p!"spec2nexus_version", .str v.spec2nexus), (p!"SPEC_file", .str f),
          (p!"SPEC_epoch", .num ep), (p!"SPEC_date", .str d),
          (p!"SPEC_comments", .str (join p!"\n" h0.comments)),
          (p!"SPEC_num_headers", .num (.int s.headers.length)), (p!"h5py_version", .str v.h5py),
          (p!"HDF5_Version", .str v.hdf5), (p!"numpy_version", .str v.numpy)] ++
          (match specUser h0.comments with
            | some u => [(p!"SPEC_user", .str u)]
            | none => []))
    | _, _ => .error .AttributeError

/-- the group written if the scan has no data — writer.py:81-104 -/
def noData (e : HRef) : HM Unit := do
  let g ← makeGroup e p!"data" p!"NXdata" [(p!"signal", .str p!"no_y_data"),
    (p!"axes", .str p!"no_x_data"), (p!"no_x_data_indices", .nums [.int 0])]
  let a : Dict AVal := [(p!"units", .str p!"none"),
    (p!"long_name", .str p!"no data points in this scan")]
  let _ ← makeDataset g p!"no_x_data" (.nums [.int 0, .int 1]) a
  let _ ← makeDataset g p!"no_y_data" (.nums [.int 0, .int 1]) a
  pure ()

/-- the entry for one scan before the scan is looked up — writer.py:70-76 -/
def openEntry (key : Ref) : HM HRef := do
  let e ← makeGroup root (p!"S" ++ key.text) p!"NXentry" []
  let _ ← makeDataset e p!"experiment_description" (.str p!"SPEC scan")
    (attr1 p!"description" p!"SPEC data file scan")
  pure e

/-- the end of the loop body — writer.py:78-104 -/
def closeEntry (first : Bool) (key : Ref) (e : HRef) : HM Unit := do
  HM.onlyIf first (addAttributes root (attr1 p!"default" (p!"S" ++ key.text)))
  HM.andThen (contains e p!"data") fun b => HM.onlyIf (!b) (noData e)

/-- the state of a save: the SPEC data file object and the HDF5 file -/
structure SState where
  sdf : Sdf
  h5 : H5

/-- continue after a computation on the file -/
def SState.run {α : Type} (m : HM α) (s : SState) (f : α → SState → Res SState) : Res SState :=
  match m s.h5 with
  | (h, .ok a) => f a { s with h5 := h }
  | (h, .error e) => Res.raise { s with h5 := h } e

/-- the scan `name` and its header as objects were changed -/
def _root_.S2N.Sdf.putScan (s : Sdf) (name : Str) (c : ScanCtx) : Sdf :=
  { s with scans := s.scans.set name c.scan, headers := s.headers.set c.scan.hdrIdx c.hdr }

/-- one scan of the list — writer.py:70-104.  `scan.interpret()` of None is an AttributeError. -/
def saveKey (env : Env) (reg : List HKey) (first : Bool) (key : Ref) (s : SState) : Res SState :=
  s.run (openEntry key) fun e s =>
  Res.eval (s.sdf.getScan key) s fun x =>
  match x with
  | none => Res.raise s .AttributeError
  | some x =>
    let r := interpretScan env reg ⟨x, s.sdf.headerOf x⟩
    let s := { s with sdf := s.sdf.putScan x.scanNum r.1 }
    match r.2 with
    | some err => Res.raise s err
    | none =>
      s.run (saveScan e r.1.hdr r.1.scan) fun x s =>
      let s := { s with sdf := s.sdf.putScan x.scanNum ⟨x, r.1.hdr⟩ }
      s.run (closeEntry first key e) fun _ s => Res.ok s

/-- the loop over the scan list; the first scan names the default entry — writer.py:68-104 -/
def saveKeys (env : Env) (reg : List HKey) : Bool → List Ref → SState → Res SState
  | _, [], s => Res.ok s
  | first, k :: ks, s => (saveKey env reg first k s).andThen (saveKeys env reg false ks)

/-- `save(hdf_file, scan_list)` — writer.py:54-104: the SPEC data file object and the content of
the HDF5 file afterwards, also if an exception is raised -/
def save (env : Env) (reg : List HKey) (v : Versions) (scanList : List Ref) (s : Sdf) :
    Res SState :=
  Res.eval (rootAttributes v s) ⟨s, H5.empty⟩ fun attrs =>
  SState.run (addAttributes root attrs) ⟨s, H5.empty⟩ fun _ s =>
  saveKeys env reg true scanList s

end
end Writer
end S2N
