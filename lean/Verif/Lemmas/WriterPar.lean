import Verif.Lemmas.Par
/-
Every writer of a control line does the same in two files that have the same entry at different
places.
-/
namespace S2N
open Py H5 Eznx Writer Spec

namespace Moved

theorem rel_plain {name : Str} (h : Plain name) : absolute name = false := absolute_single h.single

/-- the labels of the columns of a mesh do not start at the root of the file -/
def RelLabels (x : Obj) : Prop :=
  ∀ m ws, splitWs x.scanCmd = m :: ws → m ∈ [p!"mesh", p!"hklmesh"] → ∀ l ∈ x.L.getD [], Relative l

/-- the same scan, of which only labels may have been removed -/
def SS (x y z : Obj) : Prop := y = z ∧ (RelLabels x → RelLabels y) ∧ ∃ L, y = { x with L := L }

theorem SS.same (x : Obj) : SS x x x := ⟨rfl, id, x.L, rfl⟩

section
variable [UniDB]

theorem par_writeDs {c : Two} {a b : HRef} (h : RR c a b) (label : Str) (d : PData) (at' : Dict AVal) :
    Par c (writeDs a label d at') (writeDs b label d at') VV := by
  unfold writeDs
  refine Par.bind' (Par.liftQ (cleanName label) (P := fun n => Single n) fun n hn => clean_single hn) ?_
  rintro n _ ⟨rfl, hn⟩
  exact Par.bind' (par_writeDataset h (absolute_single hn) _ _) fun _ _ _ => Par.pure' rfl

theorem par_saveDict {c : Two} {a b : HRef} (h : RR c a b) (d : Dict PData) :
    Par c (saveDict a d) (saveDict b d) VV :=
  Par.each _ fun kv _ => par_writeDs h kv.1 kv.2 []

/-- one step of a proof that two programs do the same -/
macro "par1" : tactic => `(tactic| first
  | exact Par.pure' rfl
  | exact Par.ret rfl
  | exact Par.raise
  | exact Par.lift _
  | exact Par.need _
  | exact Par.pure' (by assumption)
  | exact par_setAttr (by assumption) _ _
  | exact par_addAttributes (by assumption) _
  | exact par_writeDs (by assumption) _ _ _
  | exact par_saveDict (by assumption) _
  | exact par_makeLink_abs _ _ (by assumption) (by assumption) _
  | exact par_setLink (by assumption) (by rfl) (by assumption)
  | exact par_target (by assumption) (by assumption)
  | exact par_openGroup (by assumption) (by rfl) _ _
  | refine Par.bindv (Par.lift _) fun _ => ?_
  | refine Par.bindv (Par.need _) fun _ => ?_
  | refine Par.bindv (par_writeDs (by assumption) _ _ _) fun _ => ?_
  | refine Par.bindv (par_saveDict (by assumption) _) fun _ => ?_
  | refine Par.bindv (par_setAttr (by assumption) _ _) fun _ => ?_
  | refine Par.bindv (par_target (by assumption) (by assumption)) fun _ => ?_
  | refine Par.bindv (par_addAttributes (by assumption) _) fun _ => ?_
  | refine Par.bindv (par_setLink (by assumption) (by rfl) (by assumption)) fun _ => ?_
  | refine Par.bindv (par_makeLink_abs _ _ (by assumption) (by assumption) _) fun _ => ?_
  | refine Par.bindv (par_contains (by assumption) (by rfl)) fun _ => ?_
  | refine Par.thenv (par_contains (by assumption) (by rfl)) fun _ => ?_
  | refine Par.bind' (par_writeDataset (by assumption) (by rfl) _ _) fun _ _ _ => ?_
  | refine Par.bind' (par_makeDataset (by assumption) (by rfl) _ _) fun _ _ _ => ?_
  | refine Par.bind' (par_openGroup (by assumption) (by rfl) _ _) fun _ _ _ => ?_
  | refine Par.bind' (par_makeGroup (by assumption) (by rfl) _ _) fun _ _ _ => ?_
  | refine Par.bind' (par_get (by assumption) (by rfl)) fun _ _ _ => ?_
  | refine Par.bindv (Par.onlyIf ?_) fun _ => ?_
  | refine Par.bindv (Par.ifSome fun _ _ => ?_) fun _ => ?_
  | refine Par.bindv (Par.each _ fun _ _ => ?_) fun _ => ?_
  | refine Par.onlyIf ?_
  | refine Par.ifSome fun _ _ => ?_
  | refine Par.each _ fun _ _ => ?_
  | refine Par.bindv (Par.thenv (par_contains (by assumption) (by rfl)) fun _ => ?_) fun _ => ?_)

/-- as many steps as possible -/
macro "par" : tactic => `(tactic| repeat' par1)

theorem par_mcaItems {c : Two} (x : Obj) : Par c (mcaItems x) (mcaItems x) VV := by
  unfold mcaItems
  split <;> par

theorem par_mcaSpectra {c : Two} {a b : HRef} (h : RR c a b) (x : Obj) (axis : Str) :
    Par c (mcaSpectra a x axis) (mcaSpectra b x axis) VV := by
  unfold mcaSpectra
  refine Par.bindv (par_mcaItems x) fun items => Par.each _ fun kv _ => ?_
  unfold spectrum
  par

theorem par_column {c : Two} {a b : HRef} (h : RR c a b) (x : Obj) (label : Str) :
    Par c (column a x label) (column b x label) VV := by
  unfold column
  split <;> par

theorem par_oneD {c : Two} {a b : HRef} (h : RR c a b) (x : Obj) : Par c (oneD a x) (oneD b x) VV := by
  unfold oneD
  refine Par.bindv (Par.each _ fun l _ => par_column h x l) fun _ => ?_
  par
  refine Par.bindv (par_mcaSpectra h x _) fun _ => ?_
  par

theorem par_constantAxis {c : Two} {a b : HRef} (h : RR c a b) (x : Obj) (l1 l2 : Str) :
    Par c (constantAxis a x l1 l2) (constantAxis b x l1 l2) VV := by
  unfold constantAxis
  split
  · split
    · par
    · split <;> par
  · par

theorem par_meshColumn {c : Two} {a b : HRef} (h : RR c a b) (x : Obj) (shape : List Nat) {label : Str}
    (hl : Relative label) : Par c (meshColumn a x shape label) (meshColumn b x shape label) VV := by
  unfold meshColumn
  refine Par.bindv (par_contains h hl) fun b => ?_
  cases b with
  | true => exact Par.pure' rfl
  | false => exact Par.bindv (Par.lift _) fun _ => par_writeDs h _ _ _

theorem par_meshSpectra {c : Two} {a b : HRef} (h : RR c a b) (axes : Str)
    (items : List (Str × List (List Num))) :
    ∀ shape, Par c (meshSpectra a axes shape items) (meshSpectra b axes shape items) VV := by
  induction items with
  | nil => intro shape; rw [meshSpectra, meshSpectra]; exact Par.ret rfl
  | cons kv rest ih =>
    intro shape
    rw [meshSpectra, meshSpectra]
    refine Par.bindv (Par.lift _) fun n => ?_
    cases shape with
    | none => exact Par.raise
    | some shape =>
      show Par c (if _ then _ else _) (if _ then _ else _) _
      split
      · refine Par.bindv (par_writeDs h _ _ _) fun _ => ?_
        refine Par.bindv (par_writeDs h _ _ _) fun _ => ?_
        exact ih _
      · exact Par.raise

theorem mem_remove {l a : Str} {ls ls' : List Str} (h : pyRemove l ls = .ok ls') (ha : a ∈ ls') : a ∈ ls := by
  unfold pyRemove at h
  split at h
  · injection h with h
    subst h
    exact List.mem_of_mem_erase ha
  · cases h

theorem par_mesh {c : Two} {a b : HRef} (h : RR c a b) (x : Obj) (hl : ∀ l ∈ x.L.getD [], Relative l) :
    Par c (mesh a x) (mesh b x) (fun r s => r = s ∧ SS x r.2.2 s.2.2) := by
  unfold mesh
  refine Par.bindv (Par.lift _) fun p => ?_
  obtain ⟨w1, n1, w2, n2⟩ := p
  refine Par.bindv (Par.lift _) fun label1 => ?_
  refine Par.bindv (Par.lift _) fun label2 => ?_
  refine Par.bindv (Par.lift _) fun _ => ?_
  refine Par.bindv (Par.lift _) fun _ => ?_
  refine Par.bindv (Par.lift _) fun _ => ?_
  split
  · refine Par.bindv (par_oneD h x) fun p => ?_
    refine Par.bindv (par_mcaItems x) fun _ => ?_
    refine Par.bindv (par_meshSpectra h _ _ _) fun _ => ?_
    exact Par.pure' ⟨rfl, SS.same x⟩
  · refine Par.bindv (Par.lift _) fun _ => ?_
    refine Par.bindv (Par.lift _) fun _ => ?_
    refine Par.bind' (Par.liftQ _ (P := fun ls => ∀ y ∈ ls, y ∈ x.L.getD []) fun ls h y hy => mem_remove h hy) ?_
    rintro ls _ ⟨rfl, hls⟩
    refine Par.bind' (Par.liftQ _ (P := fun ls => ∀ y ∈ ls, y ∈ x.L.getD []) fun ls h y hy => hls y (mem_remove h hy)) ?_
    rintro ls2 _ ⟨rfl, hls2⟩
    refine Par.bindv (par_constantAxis h x _ _) fun _ => ?_
    refine Par.bindv (par_writeDs h _ _ _) fun _ => ?_
    refine Par.bindv (par_writeDs h _ _ _) fun _ => ?_
    refine Par.bindv (Par.each _ fun l hm => par_meshColumn h x _ (hl l (hls2 l hm))) fun _ => ?_
    refine Par.bindv (Par.need _) fun _ => ?_
    refine Par.bindv (Par.lift _) fun _ => ?_
    refine Par.bindv (par_mcaItems x) fun _ => ?_
    refine Par.bindv (par_meshSpectra h _ _ _) fun _ => ?_
    exact Par.pure' ⟨rfl, rfl, fun hl m ws h1 h2 l hm => hl m ws h1 h2 l (hls2 l hm), _, rfl⟩

omit [UniDB] in
theorem par_dataAttributes {c : Two} {a b : HRef} (h : RR c a b) (signal axes : Str) :
    Par c (dataAttributes a signal axes) (dataAttributes b signal axes) VV := by
  unfold dataAttributes
  split
  · refine Par.bindv (par_addAttributes h _) fun _ => ?_
    exact Par.each _ fun _ _ => par_addAttributes h _
  · refine Par.bindv (par_addAttributes h _) fun _ => ?_
    exact par_addAttributes h _

theorem par_saveData {c : Two} {a b : HRef} (h : RR c a b) (x : Obj) (hl : RelLabels x) :
    Par c (saveData a x) (saveData b x) (SS x) := by
  unfold saveData
  split
  · exact Par.raise
  · rename_i m ws hw
    split
    · rename_i hm
      refine Par.bind' (par_mesh h x (hl m ws hw hm)) ?_
      rintro p _ ⟨rfl, hp⟩
      refine Par.bindv (par_dataAttributes h _ _) fun _ => ?_
      exact Par.pure' hp
    · split
      · refine Par.bindv (par_oneD h x) fun p => ?_
        refine Par.bindv (Par.lift _) fun _ => ?_
        refine Par.bindv (par_dataAttributes h _ _) fun _ => ?_
        exact Par.pure' (SS.same x)
      · refine Par.bindv (par_oneD h x) fun p => ?_
        refine Par.bindv (par_dataAttributes h _ _) fun _ => ?_
        exact Par.pure' (SS.same x)

/-! ### writers of the handlers -/

theorem par_wDate {c : Two} {a b : HRef} (h : RR c a b) (x : Obj) : Par c (wDate a x) (wDate b x) VV := by
  unfold wDate; par

theorem par_wComments {c : Two} {a b : HRef} (h : RR c a b) (x : Obj) :
    Par c (wComments a x) (wComments b x) VV := by
  unfold wComments; par

theorem par_wLattice {c : Two} {a b : HRef} (h : RR c a b) (l : Lattice) :
    Par c (wLattice a l) (wLattice b l) VV := by
  unfold wLattice
  par1
  cases l <;> par

theorem par_wReflectionFields {c : Two} {a b : HRef} (ho : RR c a b)
    (h k : PyFloat) (l : Option PyFloat) (wl : PyFloat) (an : Dict PyFloat)
    (hr : ∀ k ∈ an.keys, Relative k) :
    Par c (wReflectionFields a h k l wl an) (wReflectionFields b h k l wl an) VV := by
  unfold wReflectionFields
  refine Par.bind' (par_writeDataset ho (by rfl) _ _) fun _ _ _ => ?_
  refine Par.bind' (par_writeDataset ho (by rfl) _ _) fun _ _ _ => ?_
  refine Par.bindv (Par.ifSome fun l _ => ?_) fun _ => ?_
  · par
  refine Par.bind' (par_writeDataset ho (by rfl) _ _) fun _ _ _ => ?_
  refine Par.each _ fun ka hka => ?_
  exact Par.bind' (par_writeDataset ho (hr ka.1 (List.mem_map_of_mem hka)) _ _) fun _ _ _ => Par.pure' rfl

theorem par_wReflection {c : Two} {a b : HRef} (ho : RR c a b) (ir : Nat × Reflection)
    (hr : ∀ k ∈ (angles ir.2).keys, Relative k) : Par c (wReflection a ir) (wReflection b ir) VV := by
  unfold wReflection
  refine Par.bind' (par_openGroup ho (rel_plain (plain_num (by decide) (by decide) _)) _ _) fun r r' hrr => ?_
  obtain ⟨i, ref⟩ := ir
  cases ref with
  | three h k l wl an => exact par_wReflectionFields hrr _ _ _ _ _ hr
  | two h k wl an => exact par_wReflectionFields hrr _ _ _ _ _ hr

theorem par_wSample {c : Two} {a b : HRef} (ho : RR c a b) {name : Str} (hp : absolute name = false)
    (d : Option PData) : Par c (wSample a name d) (wSample b name d) VV := by
  unfold wSample
  cases d with
  | none => exact Par.ret rfl
  | some d =>
    refine Par.bind' (par_openGroup ho (by rfl) _ _) fun g g' hg => ?_
    exact Par.bind' (par_writeDataset hg hp _ _) fun _ _ _ => Par.pure' rfl

theorem par_wWavelength {c : Two} {a b : HRef} (ho : RR c a b) {i i' : HRef} (hi : RR c i i') (wl : PyFloat) :
    Par c (wWavelength a i wl) (wWavelength b i' wl) VV := by
  unfold wWavelength
  par

theorem par_geoRest {c : Two} {a b : HRef} (ho : RR c a b) (x : Obj)
    (hr : RelNames x) {diff : Diff} (hdiff : x.diff = some diff) :
    Par c (geoRest a diff) (geoRest b diff) VV := by
  unfold geoRest
  obtain ⟨hg1, hg2⟩ := hr.geometry diff hdiff
  split
  · exact Par.pure' rfl
  · refine Par.bind' (par_openGroup ho (by rfl) _ _) fun ins ins' hins => ?_
    refine Par.bind' (par_writeDataset hins (by rfl) _ _) fun _ _ _ => ?_
    refine Par.bindv (Par.ifSome fun l _ => par_wLattice ho l) fun _ => ?_
    refine Par.bindv (par_wSample ho (by rfl) _) fun _ => ?_
    refine Par.bindv (par_wSample ho (by rfl) _) fun _ => ?_
    refine Par.bindv (par_wSample ho (by rfl) _) fun _ => ?_
    refine Par.bindv (Par.onlyIf ?_) fun _ => ?_
    · refine Par.bind' (par_openGroup ho (by rfl) _ _) fun sa sa' hsa => ?_
      exact Par.each _ fun ir hir => par_wReflection hsa ir (hg2 _ (List.of_mem_zip hir).2)
    refine Par.bindv (Par.ifSome fun wl _ => par_wWavelength ho hins wl) fun _ => ?_
    refine Par.bind' (par_openGroup hins (by rfl) _ _) fun no no' hno => ?_
    refine Par.each _ fun kv hkv => ?_
    exact Par.bind' (par_writeDataset hno (hg1 kv.1 (List.mem_map_of_mem hkv)) _ _) fun _ _ _ => Par.pure' rfl

theorem par_wGeometry {c : Two} {a b : HRef} (ho : RR c a b) (x : Obj) (hr : RelNames x) :
    Par c (wGeometry a x) (wGeometry b x) VV := by
  unfold wGeometry
  refine Par.bind' (par_makeGroup ho (by rfl) _ _) fun g g' hg => ?_
  refine Par.bindv (Par.need _) fun G => ?_
  refine Par.bindv (Par.lift _) fun dd => ?_
  refine Par.bindv (par_saveDict hg _) fun _ => ?_
  have hneed : Par c (need x.diff) (need x.diff) (fun d d' => d = d' ∧ x.diff = some d) := by
    cases hd : x.diff with
    | none => exact Par.raise
    | some d => exact Par.ret ⟨rfl, rfl⟩
  refine Par.bind' hneed ?_
  rintro diff _ ⟨rfl, hdiff⟩
  exact par_geoRest ho x hr hdiff

theorem par_wXref {c : Two} {a b : HRef} (ho : RR c a b) {name : Str} (hp : absolute name = false)
    (desc comment : Str) (d : Dict Str) (hd : ∀ k ∈ d.keys, Relative k) :
    Par c (wXref a name desc comment d) (wXref b name desc comment d) VV := by
  unfold wXref
  refine Par.bind' (par_makeGroup ho hp _ _) fun g g' hg => ?_
  refine Par.each _ fun kv hkv => ?_
  have hm : kv ∈ d := (sortBy_perm _ d).mem_iff.1 hkv
  exact Par.bind' (par_writeDataset hg (hd kv.1 (List.mem_map_of_mem hm)) _ _) fun _ _ _ => Par.pure' rfl

theorem par_wCounterXref {c : Two} {a b : HRef} (ho : RR c a b) (bb : Bool) (x : Obj) (hr : RelNames x) :
    Par c (wCounterXref bb a x) (wCounterXref bb b x) VV := by
  unfold wCounterXref
  simp only
  split
  · exact Par.ret rfl
  · exact par_wXref ho (by rfl) _ _ _ hr.counters

theorem par_wPositionerXref {c : Two} {a b : HRef} (ho : RR c a b) (x : Obj) (hr : RelNames x) :
    Par c (wPositionerXref a x) (wPositionerXref b x) VV := by
  unfold wPositionerXref
  simp only
  split
  · exact Par.ret rfl
  · exact par_wXref ho (by rfl) _ _ _ hr.positioners

theorem par_wPreset {c : Two} {a b : HRef} (ho : RR c a b) {name : Str} (hp : absolute name = false)
    (u d : Str) (t : Option Str) : Par c (wPreset a name u d t) (wPreset b name u d t) VV := by
  unfold wPreset
  par
  exact Par.bind' (par_writeDataset ho hp _ _) fun _ _ _ => Par.pure' rfl

theorem par_wPositioner {c : Two} {a b : HRef} (ho : RR c a b) (xr : Option (Dict Str)) (p : Nat × Str × PyFloat) :
    Par c (wPositioner a xr p) (wPositioner b xr p) VV := by
  unfold wPositioner
  refine Par.bind' (Par.liftQ _ (P := fun n => Single n) fun n hn => clean_single hn) ?_
  rintro n _ ⟨rfl, hn⟩
  refine Par.bind' (par_openGroup ho (absolute_single hn) _ _) fun pg pg' hpg => ?_
  par

theorem par_wPositioners {c : Two} {a b : HRef} (ho : RR c a b) (hdr x : Obj) :
    Par c (wPositioners a hdr x) (wPositioners b hdr x) VV := by
  unfold wPositioners
  refine Par.bind' (par_makeGroup ho (by rfl) _ _) fun g g' hg => ?_
  refine Par.bindv (Par.each _ fun p _ => par_wPositioner hg _ p) fun _ => ?_
  par

theorem par_wHkl {c : Two} {a b : HRef} (ho : RR c a b) (x : Obj) : Par c (wHkl a x) (wHkl b x) VV := by
  unfold wHkl; par

theorem par_wLines {c : Two} {a b : HRef} (ho : RR c a b) {name : Str} (hp : absolute name = false)
    (desc key : Str) (k : Kind) (l : Option (List Str)) :
    Par c (wLines a name desc p!"item" key k l) (wLines b name desc p!"item" key k l) VV := by
  unfold wLines
  refine Par.bind' (par_openGroup ho hp _ _) fun g g' hg => ?_
  refine Par.bindv (Par.need _) fun _ => ?_
  refine Par.each _ fun p _ => ?_
  refine Par.bind' (par_writeDataset hg ?_ _ _) fun _ _ _ => Par.pure' rfl
  cases k
  · exact rel_plain (plain_num (t := p!"header_") (by decide) (by decide) _)
  · exact rel_plain (plain_num (t := p!"item_") (by decide) (by decide) _)

theorem par_wTemperature {c : Two} {a b : HRef} (ho : RR c a b) (x : Obj) :
    Par c (wTemperature a x) (wTemperature b x) VV := by
  unfold wTemperature; par

theorem par_mcaGroup {c : Two} {a b : HRef} (ho : RR c a b) : Par c (mcaGroup a) (mcaGroup b) (RR c) :=
  par_openGroup ho (by rfl) _ _

theorem par_linkMca {c : Two} {a b : HRef} (ho : RR c a b) {g g' : HRef} (hg : RR c g g') :
    Par c (linkMca a g) (linkMca b g') (RR c) := by
  unfold linkMca
  par

theorem par_wCalib {c : Two} {a b : HRef} (ho : RR c a b) (x : Obj) : Par c (wCalib a x) (wCalib b x) VV := by
  unfold wCalib
  split
  · refine Par.bind' (par_mcaGroup ho) fun g g' hg => ?_
    par
  · exact Par.ret rfl

theorem par_wChann {c : Two} {a b : HRef} (ho : RR c a b) (x : Obj) : Par c (wChann a x) (wChann b x) VV := by
  unfold wChann
  split
  · exact Par.ret rfl
  · refine Par.bind' (par_mcaGroup ho) fun g g' hg => ?_
    refine Par.bindv (Par.ifSome fun _ _ => ?_) fun _ => ?_
    · par
    refine Par.bind' (par_linkMca ho hg) fun i i' hi => ?_
    par

theorem par_wCtime {c : Two} {a b : HRef} (ho : RR c a b) (x : Obj) : Par c (wCtime a x) (wCtime b x) VV := by
  unfold wCtime
  split
  · exact Par.ret rfl
  · refine Par.bind' (par_mcaGroup ho) fun g g' hg => ?_
    refine Par.bindv (Par.ifSome fun _ _ => ?_) fun _ => ?_
    · par
    exact Par.bind' (par_linkMca ho hg) fun _ _ _ => Par.pure' rfl

theorem par_wScanData {c : Two} {a b : HRef} (ho : RR c a b) (x : Obj) (hl : RelLabels x) :
    Par c (wScanData a x) (wScanData b x) (SS x) := by
  unfold wScanData
  refine Par.bind' (par_makeGroup ho (by rfl) _ _) fun g g' hg => ?_
  exact par_saveData hg x hl

theorem par_wMetadata {c : Two} {a b : HRef} (ho : RR c a b) (x : Obj) :
    Par c (wMetadata a x) (wMetadata b x) VV := by
  unfold wMetadata
  split
  · exact Par.ret rfl
  · exact Par.ret rfl
  · par

theorem par_wV {c : Two} {a b : HRef} (ho : RR c a b) {name : Str} (hp : absolute name = false)
    (d : Option (Dict Str)) : Par c (wV a name d) (wV b name d) VV := by
  unfold wV
  refine Par.bind' (par_makeGroup ho hp _ _) fun g g' hg => ?_
  par

theorem par_wMD {c : Two} {a b : HRef} (ho : RR c a b) (x : Obj) : Par c (wMD a x) (wMD b x) VV := by
  unfold wMD
  split
  · exact Par.ret rfl
  · exact Par.ret rfl
  · par

theorem childCount_up (p l : H5) (i : Nat) : childCount (up p l) (p.length + i) = childCount l i := by
  unfold childCount
  rw [get_up]
  cases l[i]? with
  | none => rfl
  | some x =>
    cases x with
    | dset d a => rfl
    | group ch a => simp [sh, shD]

theorem par_wUnrec {c : Two} {a b : HRef} (ho : RR c a b) (x : Obj) : Par c (wUnrec a x) (wUnrec b x) VV := by
  unfold wUnrec
  refine Par.bind' (Q := fun n m => n = m ∧ ∃ i, n = p!"unrecognized_" ++ natStr i) ?_ ?_
  · obtain ⟨h, rfl, rfl⟩ := ho
    intro l
    refine ⟨l, rfl, rfl, ?_⟩
    have k : ∀ p : H5, (fun n => (walk (up p l) (p.length + h.id) (comps n)).isSome) =
        (fun n => (walk l h.id (comps n)).isSome) := by
      intro p
      funext n
      rw [walk_up]
      cases walk l h.id (comps n) <;> rfl
    unfold HM.look
    simp only [upH, k, childCount_up]
    obtain ⟨j, _, hj⟩ := freeUnrec_form (fun n => (walk l h.id (comps n)).isSome) (childCount l h.id) 1
    exact .ok ⟨rfl, j, hj⟩
  · rintro n _ ⟨rfl, i, rfl⟩
    refine Par.bind' (par_makeGroup ho (rel_plain (plain_num (by decide) (by decide) _)) _ _) fun g g' hg => ?_
    par

end

/-! ### UXML -/

theorem get?_mapD {α β : Type} (f : α → β) (d : Dict α) (k : Str) :
    Dict.get? (d.map fun kv => (kv.1, f kv.2)) k = (d.get? k).map f := by
  induction d with
  | nil => rfl
  | cons kv d ih =>
    obtain ⟨a, b⟩ := kv
    show List.lookup k ((a, f b) :: _) = Option.map f (List.lookup k ((a, b) :: d))
    rw [List.lookup_cons, List.lookup_cons]
    cases (k == a) with
    | true => rfl
    | false => exact ih

theorem set_mapD {α β : Type} (f : α → β) (d : Dict α) (k : Str) (v : α) :
    Dict.set (d.map fun kv => (kv.1, f kv.2)) k (f v) = (d.set k v).map fun kv => (kv.1, f kv.2) := by
  induction d with
  | nil => rfl
  | cons kv d ih =>
    obtain ⟨a, b⟩ := kv
    show Dict.set ((a, f b) :: _) k (f v) = List.map _ (Dict.set ((a, b) :: d) k v)
    rw [Dict.set, Dict.set]
    split
    · rfl
    · rw [ih]; rfl

/-- the remembered objects in the file -/
def upU (p : H5) (E : Str) (u : UState) : UState :=
  { unique := u.unique.map fun kv => (kv.1, upH p E kv.2)
    target := u.target.map fun kv => (kv.1, (upH p E kv.2.1, kv.2.2)) }

/-- the same remembered objects -/
def UU (c : Two) (a b : UState) : Prop :=
  ∃ u, a = upU c.p1 c.E u ∧ b = upU c.p2 c.E u ∧ ∀ p ∈ u.target, '/' ∉ p.2.2

theorem UU.remember {c : Two} {u v : UState} (hu : UU c u v) {a b : HRef} (h : RR c a b) (uid : Option Str) :
    UU c (remember uid a u) (remember uid b v) := by
  cases uid with
  | none => exact hu
  | some k =>
    obtain ⟨w, rfl, rfl, hw⟩ := hu
    obtain ⟨h, rfl, rfl⟩ := h
    refine ⟨{ w with unique := w.unique.set k h }, ?_, ?_, hw⟩
    · show UState.mk _ _ = UState.mk _ _
      congr 1
      exact set_mapD (upH c.p1 c.E) w.unique k h
    · show UState.mk _ _ = UState.mk _ _
      congr 1
      exact set_mapD (upH c.p2 c.E) w.unique k h

theorem UU.target {c : Two} {u v : UState} (hu : UU c u v) {a b : HRef} (h : RR c a b) (t : Str) {nm : Str}
    (hn : '/' ∉ nm) : UU c { u with target := u.target.set t (a, nm) } { v with target := v.target.set t (b, nm) } := by
  obtain ⟨w, rfl, rfl, hw⟩ := hu
  obtain ⟨h, rfl, rfl⟩ := h
  refine ⟨{ w with target := w.target.set t (h, nm) }, ?_, ?_, ?_⟩
  · show UState.mk _ _ = UState.mk _ _
    congr 1
    exact set_mapD (fun q : HRef × Str => (upH c.p1 c.E q.1, q.2)) w.target t (h, nm)
  · show UState.mk _ _ = UState.mk _ _
    congr 1
    exact set_mapD (fun q : HRef × Str => (upH c.p2 c.E q.1, q.2)) w.target t (h, nm)
  · intro p hp
    rcases Dict.mem_set hp with rfl | hp
    · exact hn
    · exact hw p hp

theorem par_needAttr {c : Two} (k : Str) (a : Dict Str) :
    Par c (needAttr k a) (needAttr k a) (fun n m => n = m ∧ a.get? k = some n) := by
  unfold needAttr
  cases h : a.get? k with
  | none => exact Par.raise
  | some n => exact Par.ret ⟨rfl, rfl⟩

section
variable [UniDB]

mutual
theorem par_uxmlNode {c : Two} : ∀ (n : XmlNode) {a b : HRef} (u v : UState), RR c a b →
    XmlOk n → UU c u v → Par c (uxmlNode a n u) (uxmlNode b n v) (UU c)
  | .mk tag attrib text children, a, b, u, v, ho, hx, hu => by
    rw [uxmlNode, uxmlNode]
    rw [XmlOk] at hx
    split
    · refine Par.bind' (par_needAttr _ _) ?_
      rintro nm _ ⟨rfl, hnm⟩
      refine Par.bindv (Par.lift _) fun v => ?_
      refine Par.bind' (par_makeDataset ho (relative_of (hx.1 nm hnm)) _ _) fun ds ds' hds => ?_
      exact Par.pure' (hu.remember hds _)
    · split
      · refine Par.bind' (par_needAttr _ _) ?_
        rintro nm _ ⟨rfl, hnm⟩
        refine Par.bind' (par_create ho (relative_of (hx.1 nm hnm)) _ fun _ => rfl) fun g g' hg => ?_
        refine Par.bind' (par_needAttr _ _) ?_
        rintro cls _ ⟨rfl, _⟩
        refine Par.bindv (par_setAttr hg _ _) fun _ => ?_
        refine Par.bindv (par_addAttributes hg _) fun _ => ?_
        exact par_uxmlNodes children _ _ hg hx.2 (hu.remember hg _)
      · split
        · split
          · exact Par.ret hu
          · rename_i t ht
            refine Par.andThen (par_needAttr _ _) ?_
            rintro nm _ ⟨rfl, hnm⟩
            exact Par.ret (hu.target ho t (hx.1 nm hnm))
        · exact Par.raise
theorem par_uxmlNodes {c : Two} : ∀ (ns : List XmlNode) {a b : HRef} (u v : UState), RR c a b →
    XmlsOk ns → UU c u v → Par c (uxmlNodes a ns u) (uxmlNodes b ns v) (UU c)
  | [], a, b, u, v, _, _, hu => by rw [uxmlNodes, uxmlNodes]; exact Par.ret hu
  | n :: ns, a, b, u, v, ho, hx, hu => by
    rw [uxmlNodes, uxmlNodes]
    rw [XmlsOk] at hx
    exact Par.andThen (par_uxmlNode n u v ho hx.1 hu) fun u v hu => par_uxmlNodes ns u v ho hx.2 hu
end

theorem each_map {α β : Type} (f : β → HM Unit) (g : α → β) (l : List α) :
    HM.each f (l.map g) = HM.each (fun a => f (g a)) l := by
  induction l with
  | nil => rfl
  | cons a l ih => rw [List.map_cons, HM.each, HM.each, ih]

theorem par_uxmlLinks {c : Two} (u v : UState) (hu : UU c u v) : Par c (uxmlLinks u) (uxmlLinks v) VV := by
  obtain ⟨w, rfl, rfl, hw⟩ := hu
  unfold uxmlLinks upU
  simp only [each_map, get?_mapD]
  refine Par.each _ fun t ht => ?_
  cases hs : w.unique.get? t.1 with
  | none => exact Par.ret rfl
  | some src =>
    refine par_makeLink_rel ⟨t.2.1, rfl, rfl⟩ ⟨src, rfl, rfl⟩ (relative_of ?_)
    exact fun hm => hw t ht (List.mem_filter.1 hm).1

theorem par_wUxml {c : Two} {a b : HRef} (ho : RR c a b) (x : Obj) (hr : RelNames x) :
    Par c (wUxml a x) (wUxml b x) VV := by
  unfold wUxml
  refine Par.bind' (par_makeGroup ho (by rfl) _ _) fun g g' hg => ?_
  cases hx : x.uxmlRoot with
  | none => exact Par.raise
  | some n =>
    obtain ⟨t, at', v, ch⟩ := n
    refine Par.bind' (par_uxmlNodes ch {} {} hg (hr.xml t at' v ch hx)
      ⟨{}, rfl, rfl, by intro p hp; simp at hp⟩) fun u v hu => ?_
    exact par_uxmlLinks u v hu

/-! ### all writers -/

theorem par_runWriter {c : Two} {a b : HRef} (ho : RR c a b) (hdr x : Obj)
    (hr : RelNames x) (f : H5Fn) (hl : f = .scanData → RelLabels x) :
    Par c (runWriter f a hdr x) (runWriter f b hdr x) (SS x) := by
  have k : ∀ {m n : HM Unit}, Par c m n VV →
      Par c (HM.andThen m fun _ => HM.ret x) (HM.andThen n fun _ => HM.ret x) (SS x) :=
    fun h => Par.thenv h fun _ => Par.ret (SS.same x)
  cases f with
  | date => exact k (par_wDate ho x)
  | comments => exact k (par_wComments ho x)
  | geometry => exact k (par_wGeometry ho x hr)
  | counterJ => exact k (par_wCounterXref ho _ x hr)
  | counterj => exact k (par_wCounterXref ho _ x hr)
  | positionerXref => exact k (par_wPositionerXref ho x hr)
  | monitor => exact k (par_wPreset ho (by rfl) _ _ _)
  | positioners => exact k (par_wPositioners ho hdr x)
  | hkl => exact k (par_wHkl ho x)
  | userResults => exact k (par_wLines ho (by rfl) _ _ _ _)
  | countTime => exact k (par_wPreset ho (by rfl) _ _ _)
  | userReserved => exact k (par_wLines ho (by rfl) _ _ _ _)
  | temperature => exact k (par_wTemperature ho x)
  | calib => exact k (par_wCalib ho x)
  | chann => exact k (par_wChann ho x)
  | ctime => exact k (par_wCtime ho x)
  | scanData => exact par_wScanData ho x (hl rfl)
  | metadata => exact k (par_wMetadata ho x)
  | VA => exact k (par_wV ho (by rfl) _)
  | VD => exact k (par_wV ho (by rfl) _)
  | VE => exact k (par_wV ho (by rfl) _)
  | XPCS => exact Par.ret (SS.same x)
  | CCD => exact Par.ret (SS.same x)
  | MD => exact k (par_wMD ho x)
  | unrec => exact k (par_wUnrec ho x)
  | uxml => exact k (par_wUxml ho x hr)

theorem par_runWriters {c : Two} {a b : HRef} (ho : RR c a b) (hdr : Obj)
    (fs : List H5Fn) : ∀ x, RelNames x → (.scanData ∈ fs → RelLabels x) →
    Par c (runWriters a hdr fs x) (runWriters b hdr fs x) (SS x) := by
  induction fs with
  | nil => intro x _ _; exact Par.ret (SS.same x)
  | cons f fs ih =>
    intro x hr hl
    rw [runWriters, runWriters]
    refine Par.andThen (par_runWriter ho hdr x hr f fun e => hl (by rw [e]; exact List.mem_cons_self ..)) ?_
    rintro y _ ⟨rfl, hy, L, rfl⟩
    refine (ih _ (hr.withL L) fun hf => hy (hl (List.mem_cons_of_mem _ hf))).mono ?_
    rintro z _ ⟨rfl, hz, L', rfl⟩
    exact ⟨rfl, fun h => hz (hy h), L', rfl⟩

omit [UniDB] in
set_option maxHeartbeats 1000000 in
theorem par_additions {c : Two} {a b : HRef} (ho : RR c a b) : Par c (additions a) (additions b) VV := by
  unfold additions setTarget
  refine Par.bindv ?_ fun _ => ?_
  · par
  refine Par.bindv ?_ fun _ => ?_
  · refine Par.thenv (par_contains ho (by rfl)) fun _ => Par.onlyIf ?_
    par
  refine Par.bindv (par_contains ho (by rfl)) fun hasM => ?_
  refine Par.bindv (par_contains ho (by rfl)) fun hasT => ?_
  refine Par.bindv (Par.onlyIf ?_) fun _ => ?_
  · refine Par.bind' (Q := RR c) ?_ fun t t' ht => ?_
    · cases hasM with
      | true => exact par_get ho (by rfl)
      | false => exact par_get ho (by rfl)
    par
  par

theorem par_saveScan {c : Two} {a b : HRef} (ho : RR c a b) (hdr x : Obj) (hh : RelNames hdr) (hr : RelNames x)
    (hlh : .scanData ∈ hdr.h5.values → RelLabels hdr) (hl : .scanData ∈ x.h5.values → RelLabels x) :
    Par c (saveScan a hdr x) (saveScan b hdr x) (SS x) := by
  unfold saveScan
  refine Par.bindv (par_addAttributes ho _) fun _ => ?_
  refine Par.bind' (par_writeDataset ho (by rfl) _ _) fun _ _ _ => ?_
  refine Par.bindv (Par.lift _) fun nums => ?_
  refine Par.bind' (par_writeDataset ho (by rfl) _ _) fun ds ds' hds => ?_
  refine Par.bindv (par_addAttributes hds _) fun _ => ?_
  refine Par.bindv (Par.onlyIf (par_addAttributes hds _)) fun _ => ?_
  refine Par.bind' (par_writeDataset ho (by rfl) _ _) fun _ _ _ => ?_
  refine Par.bind' (par_runWriters ho hdr _ _ hh hlh) fun _ _ _ => ?_
  refine Par.bind' (par_runWriters ho hdr _ _ hr hl) fun y y' hy => ?_
  refine Par.bindv (par_additions ho) fun _ => ?_
  exact Par.pure' hy

omit [UniDB] in
theorem par_noData {c : Two} {a b : HRef} (ho : RR c a b) : Par c (noData a) (noData b) VV := by
  unfold noData
  par

end
end Moved
end S2N
