import Verif.Lemmas.LiveFile
import Verif.Props.EntrySampleDemo
import Verif.Props.Mesh
import Verif.Props.UxmlDemo
/-
C89: saving does not raise.
-/
namespace S2N.Props
open S2N S2N.Py S2N.Writer S2N.Spec S2N.H5

section
variable [UniDB]

/-- C89: the scans of a list are saved without an exception, if the file has a header with a date and an epoch, the names of the
entries differ, and each scan is found, interpreted, and has what its writers need. -/
theorem C89_save_does_not_raise {env : Env} {reg : List HKey} (hr : reg.Perm HKey.all) (hx : SchemaNames env) (v : Versions) {ks : List Ref} {s : Sdf}
    (hs : Savable s) (hk : ∀ k ∈ ks, PlainText k.text) (hd : (ks.map entryName).Nodup) (hh : Headed s) (hc : CanSaveAll env reg ks s) :
    ∃ r, save env reg v ks s = (r, none) :=
  save_runs hr hx v (Savable.ok hs) (fun k h => plain_entry (hk k h)) hd hh hc

/-! ## The hypotheses are met by a file -/

/-- the value is one, not an exception -/
def okB {α : Type} : Except PyErr α → Bool
  | .ok _ => true
  | .error _ => false

omit [UniDB] in
theorem ok_of_b {α : Type} {e : Except PyErr α} (h : okB e = true) : ∃ v, e = .ok v := by
  cases e with
  | error => cases h
  | ok v => exact ⟨v, rfl⟩

/-- the data of this label are a column -/
def colB (x : Obj) (l : Str) : Bool :=
  match x.data.get? l with
  | some (.col _) => true
  | _ => false

omit [UniDB] in
theorem col_of_b {x : Obj} {l : Str} (h : colB x l = true) : ∃ xs, x.data.get? l = some (.col xs) := by
  unfold colB at h
  split at h
  · exact ⟨_, by assumption⟩
  · cases h

/-- rows of the same length -/
def sameLengthsB : List (List Num) → Bool
  | [] => false
  | r :: rs => rs.all (fun r' => decide (r'.length = r.length))

/-- a label that is there and is not empty -/
def labelB : Option Str → Bool
  | some (_ :: _) => true
  | _ => false

omit [UniDB] in
theorem label_of_b {o : Option Str} (h : labelB o = true) : ∃ l, o = some l ∧ l ≠ [] := by
  unfold labelB at h
  split at h
  · exact ⟨_, rfl, by simp⟩
  · cases h

/-- a check of `ColumnsOk` -/
def columnsB (x : Obj) : Bool :=
  (x.L.getD []).all (fun l => decide (l ≠ []) && colB x l) && labelB x.columnFirst && labelB x.columnLast &&
  (match x.data.get? p!"_mca_" with
  | none => true
  | some (.mca m) => m.all (fun kv => sameLengthsB kv.2)
  | _ => false)

omit [UniDB] in
theorem columns_of_b {x : Obj} (h : columnsB x = true) : ColumnsOk x := by
  unfold columnsB at h
  simp only [Bool.and_eq_true, List.all_eq_true, decide_eq_true_eq] at h
  obtain ⟨⟨⟨h1, h2⟩, h3⟩, h4⟩ := h
  refine ⟨fun l hl => ⟨(h1 l hl).1, col_of_b (h1 l hl).2⟩, label_of_b h2, label_of_b h3, ?_⟩
  split at h4
  · left; assumption
  · rename_i m hm
    right
    refine ⟨m, hm, fun kv hkv => ?_⟩
    have := List.all_eq_true.1 h4 kv hkv
    unfold sameLengthsB at this
    split at this
    · cases this
    · rename_i r rs e
      exact ⟨r, rs, e, fun r' hr' => by simpa using List.all_eq_true.1 this r' hr'⟩
  · cases h4

/-- a check of `PlaneOk`, for a mesh with its points -/
def planeB (x : Obj) (n1 : Int) (l1 l2 : Str) : Bool :=
  match x.data.get? l1 with
  | some (.col ys) =>
    colB x l2 && decide (n1 ≤ ys.length) && decide (n1 ≠ -1 ∧ l1 ∈ x.L.getD [] ∧ l2 ∈ x.L.getD [] ∧ l1 ≠ l2) &&
    !(startsWith x.scanCmd p!"hkl")
  | _ => false

omit [UniDB] in
theorem plane_of_b {x : Obj} {n1 : Int} {l1 l2 : Str} (h : planeB x n1 l1 l2 = true) : ∃ ys, PlaneOk x n1 l1 l2 ys := by
  unfold planeB at h
  split at h
  · rename_i ys hy
    simp only [Bool.and_eq_true, decide_eq_true_eq, Bool.not_eq_true'] at h
    obtain ⟨⟨⟨h1, h2⟩, h3⟩, h4⟩ := h
    exact ⟨ys, hy, col_of_b h1, fun q => absurd q (by omega), fun _ => h3, fun _ q => by rw [h4] at q; cases q⟩
  · cases h

/-- a check of `MeshOk` -/
def meshB (x : Obj) : Bool :=
  match splitWs x.scanCmd with
  | [_, w1, _, _, n1, w2, _, _, n2, _] =>
    match Py.int n1, Py.int n2, meshAxis x w1 0, meshAxis x w2 1 with
    | .ok i1, .ok _, some l1, some l2 => planeB x i1 l1 l2
    | _, _, _, _ => false
  | _ => false

theorem mesh_of_b {x : Obj} (h : meshB x = true) : MeshOk x := by
  unfold meshB at h
  split at h
  · rename_i e
    split at h
    · rename_i a b c d
      obtain ⟨ys, hp⟩ := plane_of_b h
      exact ⟨_, _, _, _, _, _, _, _, _, _, _, _, _, _, ys, e, a, b, c, d, hp⟩
    · cases h
  · cases h

/-- a check of `DataOk` -/
def dataB (x : Obj) : Bool :=
  columnsB x && decide (splitWs x.scanCmd ≠ []) && (meshMacros.all (fun m => decide (macroOf x ≠ some m)) || meshB x) &&
  (hklMacros.all (fun m => decide (macroOf x ≠ some m)) || decide (7 ≤ (splitWs x.scanCmd).length))

theorem data_of_b {x : Obj} (h : dataB x = true) : DataOk x := by
  unfold dataB at h
  simp only [Bool.and_eq_true, Bool.or_eq_true, List.all_eq_true, decide_eq_true_eq] at h
  obtain ⟨⟨⟨h1, h2⟩, h3⟩, h4⟩ := h
  refine ⟨columns_of_b h1, h2, fun ⟨m, hm, e⟩ => ?_, fun ⟨m, hm, e⟩ => ?_⟩
  · rcases h3 with h3 | h3
    · exact absurd e (h3 m hm)
    · exact mesh_of_b h3
  · rcases h4 with h4 | h4
    · exact absurd e (h4 m hm)
    · exact h4

/-- a check of `ElementFits` -/
def elementB (n : XmlNode) : Bool :=
  nodeB n && (decide (tagOf n = p!"dataset") && okB (uxmlValue ((attrOf n p!"type").getD p!"str") (textOf n)) ||
    decide (tagOf n = p!"group") && (attrOf n p!"NX_class").isSome || decide (tagOf n = p!"hardlink"))

omit [UniDB] in
theorem element_of_b {n : XmlNode} (h : elementB n = true) : ElementFits n := by
  unfold elementB at h
  simp only [Bool.and_eq_true, Bool.or_eq_true, decide_eq_true_eq] at h
  refine ⟨node_of_b h.1, ?_⟩
  rcases h.2 with (⟨h1, h2⟩ | ⟨h1, h2⟩) | h1
  · obtain ⟨v, hv⟩ := ok_of_b h2
    obtain ⟨y, -, hy, -⟩ := uxmlValue_value hv
    exact .inl ⟨h1, y, hy⟩
  · exact .inr (.inl ⟨h1, by rw [← Option.isSome_iff_ne_none]; exact h2⟩)
  · exact .inr (.inr h1)

/-- a check of `CanWrite` -/
def canWriteB (hdr x : Obj) : H5Fn → Bool
  | .date => okB (iso8601 x.date)
  | .geometry => (match x.G with
    | some G => G.all (fun kv => decide (kv.1 ≠ []) && (splitWs kv.2).all (fun w => okB (Py.float w)))
    | none => false) && x.diff.isSome
  | .counterJ => (x.counterXref.getD []).keys.all (fun m => decide (NoSlash m))
  | .counterj => (x.counterXref.getD []).keys.all (fun m => decide (NoSlash m))
  | .positionerXref => (x.positionerXref.getD []).keys.all (fun m => decide (NoSlash m))
  | .monitor => match x.M with
    | some t => okB (Py.float t)
    | none => false
  | .countTime => match x.T with
    | some t => okB (Py.float t)
    | none => false
  | .positioners => x.positioner.keys.all (fun n => decide (n ≠ [])) && (match hdr.positionerXref with
    | some d => decide (x.positioner.length ≤ d.length)
    | none => true)
  | .scanData => dataB x
  | .metadata => (x.metadata.getD []).keys.all (fun n => decide (n ≠ []))
  | .MD => (x.MD.getD []).keys.all (fun n => decide (n ≠ []))
  | .VA => (x.VA.getD []).keys.all (fun n => decide (n ≠ []))
  | .VD => (x.VD.getD []).keys.all (fun n => decide (n ≠ []))
  | .VE => (x.VE.getD []).keys.all (fun n => decide (n ≠ []))
  | .uxml => match x.uxmlRoot with
    | some root => (elements root).all (fun e => elementB e.2) && decide ((elements root).map (·.1)).Nodup
    | none => false
  | _ => true

theorem canWrite_of_b {hdr x : Obj} {f : H5Fn} (h : canWriteB hdr x f = true) : CanWrite hdr x f := by
  cases f <;> simp only [canWriteB, CanWrite, List.all_eq_true, Bool.and_eq_true, decide_eq_true_eq] at h ⊢
  case date => exact ok_of_b h
  case geometry =>
    obtain ⟨h1, h2⟩ := h
    refine ⟨?_, by rw [← Option.isSome_iff_ne_none]; exact h2⟩
    split at h1
    · rename_i G e
      refine ⟨G, e, fun kv hkv => ?_⟩
      have := List.all_eq_true.1 h1 kv hkv
      simp only [Bool.and_eq_true, decide_eq_true_eq, List.all_eq_true] at this
      exact ⟨this.1, fun w hw => ok_of_b (this.2 w hw)⟩
    · cases h1
  case monitor =>
    split at h
    · exact ⟨_, by assumption, ok_of_b h⟩
    · cases h
  case countTime =>
    split at h
    · exact ⟨_, by assumption, ok_of_b h⟩
    · cases h
  case positioners =>
    refine ⟨h.1, fun d hd => ?_⟩
    have h2 := h.2
    rw [hd] at h2
    simpa using h2
  case scanData => exact data_of_b h
  case uxml =>
    split at h
    · rename_i root e
      simp only [Bool.and_eq_true, List.all_eq_true, decide_eq_true_eq] at h
      exact ⟨root, e, fun x hx => element_of_b (h.1 x hx), h.2⟩
    · cases h
  all_goals first | exact h | cases h

/-- a check of `CanSave` -/
def canSaveB (hdr x : Obj) : Bool :=
  okB (splitScanNumberString x.scanNum) && hdr.h5.values.all (canWriteB hdr hdr) && x.h5.values.all (canWriteB hdr x) &&
  hdr.h5.values.all (fun f => x.h5.values.all (fun g => decide (labelOf f = labelOf g → f ∉ groupWriters))) &&
  (decide (.temperature ∉ hdr.h5.values ∧ .temperature ∉ x.h5.values) ||
    decide (.geometry ∈ x.h5.values) && (match x.diff with
    | some d => d.lattice.isSome
    | none => false))

theorem canSave_of_b {hdr x : Obj} (h : canSaveB hdr x = true) : CanSave hdr x := by
  unfold canSaveB at h
  simp only [Bool.and_eq_true, Bool.or_eq_true, List.all_eq_true, decide_eq_true_eq] at h
  obtain ⟨⟨⟨⟨h1, h2⟩, h3⟩, h4⟩, h5⟩ := h
  refine ⟨ok_of_b h1, fun f hf => canWrite_of_b (h2 f hf), fun f hf => canWrite_of_b (h3 f hf), h4, fun ht => ?_⟩
  rcases h5 with h5 | ⟨h5, h6⟩
  · rcases ht with ht | ht
    · exact absurd ht h5.1
    · exact absurd ht h5.2
  · refine ⟨h5, ?_⟩
    split at h6
    · rename_i d e
      exact ⟨d, e, Or.inl (by rw [← Option.isSome_iff_ne_none]; exact h6)⟩
    · cases h6

/-- a check of `CanSaveAll`; a mesh must be the last one here -/
def canSaveAllB (env : Env) (reg : List HKey) : List Ref → Sdf → Bool
  | [], _ => true
  | k :: ks, s =>
    match s.getScan k with
    | .ok (some x0) =>
      match interpretScan env reg ⟨x0, s.headerOf x0⟩ with
      | (⟨x, hdr⟩, none) => canSaveB hdr x && (ks.isEmpty || meshMacros.all (fun m => decide (macroOf x ≠ some m)) &&
          canSaveAllB env reg ks (s.putScan x0.scanNum ⟨x, hdr⟩))
      | _ => false
    | _ => false

theorem canSaveAll_of_b {env : Env} {reg : List HKey} : ∀ (ks : List Ref) (s : Sdf), canSaveAllB env reg ks s = true → CanSaveAll env reg ks s
  | [], _, _ => trivial
  | k :: ks, s, h => by
    unfold canSaveAllB at h
    split at h
    · rename_i x0 e1
      split at h
      · rename_i x hdr e2
        simp only [Bool.and_eq_true, Bool.or_eq_true, List.all_eq_true, decide_eq_true_eq] at h
        refine ⟨x0, x, hdr, e1, e2, canSave_of_b h.1, fun L hL => ?_⟩
        rcases h.2 with h2 | ⟨h2, h3⟩
        · cases ks with
          | nil => trivial
          | cons => cases h2
        · rw [hL h2]
          exact canSaveAll_of_b ks _ h3
      · cases h
    · cases h

/-- a check of `Headed` -/
def headedB (s : Sdf) : Bool :=
  s.specFile.isSome && (match s.headers with
  | h :: _ => h.epoch.isSome && okB (iso8601 h.date)
  | [] => false)

omit [UniDB] in
theorem headed_of_b {s : Sdf} (h : headedB s = true) : Headed s := by
  unfold headedB at h
  rw [Bool.and_eq_true] at h
  refine ⟨by rw [← Option.isSome_iff_ne_none]; exact h.1, ?_⟩
  have h2 := h.2
  split at h2
  · rename_i x hs e
    rw [Bool.and_eq_true] at h2
    exact ⟨x, hs, e, by rw [← Option.isSome_iff_ne_none]; exact h2.1, ok_of_b h2.2⟩
  · cases h2

/-- the hypotheses of C89 about a file and a list of scans -/
def Meets (env : Env) (e : Except PyErr Sdf) (ks : List Ref) : Prop :=
  ∃ s, e = .ok s ∧ Savable s ∧ (∀ k ∈ ks, PlainText k.text) ∧ (ks.map entryName).Nodup ∧ Headed s ∧ CanSaveAll env HKey.all ks s

/-- a check of `Meets` -/
def meetsB (env : Env) (e : Except PyErr Sdf) (ks : List Ref) : Bool :=
  match e with
  | .error _ => false
  | .ok s => savableB s && ks.all (fun k => decide (∀ c ∈ k.text, c ≠ '/' ∧ c.toNat < 128)) && decide (ks.map entryName).Nodup && headedB s &&
      canSaveAllB env HKey.all ks s

theorem meets_of_b {env : Env} {e : Except PyErr Sdf} {ks : List Ref} (h : meetsB env e ks = true) : Meets env e ks := by
  unfold meetsB at h
  split at h
  · cases h
  · rename_i s
    simp only [Bool.and_eq_true, List.all_eq_true, decide_eq_true_eq] at h
    obtain ⟨⟨⟨⟨h1, h2⟩, h3⟩, h4⟩, h5⟩ := h
    exact ⟨s, rfl, savable_of_b h1, h2, h3, headed_of_b h4, canSaveAll_of_b _ _ h5⟩

end

/-- C89: the hypotheses are met by a file with an ordinary scan with spectra, one without data and one in reciprocal space; by a file
of a four circle diffractometer with temperatures; by one with a mesh; and by one with a UXML document. -/
theorem C89_nonvacuous : letI : UniDB := asciiDB
    SchemaNames saveEnv ∧ Meets saveEnv savedFile [.str p!"1", .int 3, .str p!"2"] ∧ Meets saveEnv tempFile [.int 1, .int 2] ∧
    Meets saveEnv meshFile [.int 1] ∧ SchemaNames (uxmlEnv []) ∧ Meets (uxmlEnv []) (uxmlFile []) [.int 1] := by
  letI : UniDB := asciiDB
  refine ⟨saveEnv_schema, meets_of_b ?_, meets_of_b ?_, meets_of_b ?_, uxmlEnv_schema [], meets_of_b ?_⟩ <;> decide +kernel

/-- the exception of the save of the first scan of a file with these lines in the header and in the scan -/
def raisedBy (hd ls : List Str) : Option (Option PyErr) :=
  let t := join p!"\n" ([p!"#F demo.dat", p!"#E 1276730676", p!"#D Wed Jun 16 18:24:36 2010"] ++ hd ++
    [[], p!"#S 1 ascan  th 0 1 2 1", p!"#D Wed Jun 16 18:24:36 2010"] ++ ls ++ [p!"#N 2", p!"#L th  I0", p!"0.5 1", p!"1.5 3", []])
  match @Sdf.openFile asciiDB saveEnv HKey.all p!"demo.dat" (fileAt t 1) (fileAt t 1) with
  | .error _ => none
  | .ok s => some (@save asciiDB saveEnv HKey.all saveVersions [.int 1] s).2

/-- C89: hypotheses that are needed.  A scan with a temperature but no geometry cannot be saved (in the header or in the scan), nor one with
more positioners than mnemonics, with metadata both in the header and in the scan, or with a monitor count or a geometry that is not
a number. -/
theorem C89_needed : raisedBy [] [] = some none ∧ raisedBy [] [p!"#X 1.5 2.5"] = some (some .KeyError) ∧
    raisedBy [p!"#X 1.5 2.5"] [] = some (some .KeyError) ∧
    raisedBy [p!"#O0 tth  th", p!"#o0 t1"] [p!"#P0 1 2"] = some (some .IndexError) ∧
    raisedBy [p!"#O0 tth  th", p!"#o0 t1 t2"] [p!"#P0 1 2"] = some none ∧
    raisedBy [p!"#MD a = 1"] [p!"#MD a = 1"] = some (some .ValueError) ∧
    raisedBy [] [p!"#M 100x (1)"] = some (some .ValueError) ∧ raisedBy [] [p!"#G0 1 x"] = some (some .ValueError) := by decide +kernel

end S2N.Props
