import Verif.Spec.Plotted
import Verif.Props.PlotAgain
import Verif.Props.HistoryDemo
/-
C114: line plots do not show in what is saved or read.
-/
namespace S2N.Props
open S2N S2N.Py S2N.Spec S2N.Plot S2N.Writer

section
variable [UniDB]

/-- a line plot reads the data of the scan, and does no more to it -/
theorem line_ctx {env : Env} {reg : List HKey} (dataFile : Str) (data plot : Option Int) (c : ScanCtx) (o : Plot.St) :
    (plotOn env reg .line dataFile data plot c o).1.ctx = (if c.scan.aborted = some abortText then c else (readAttr env reg p!"data" c).1) := by
  unfold plotOn
  by_cases ha : c.scan.aborted = some abortText
  · rw [if_pos ha, if_pos ha]
  rw [if_neg ha, if_neg ha]
  rw [retrieved_line, show (titles dataFile { o with ctx := c }).ctx = c from rfl]
  have hd : ∀ r : Res Plot.St, (drawn .line data plot r).1.ctx = r.1.ctx := by
    intro r
    have ho : (lineOptions r.1).1.ctx = r.1.ctx := by
      unfold lineOptions
      split
      · rfl
      · split <;> rfl
    unfold drawn
    split
    · rfl
    · rfl
    · simp only [options]
      split
      · exact ho
      · split
        · exact ho
        · exact ho
        · split
          · exact ho
          · exact ho
          · exact ho
  rw [hd]
  generalize readAttr env reg p!"data" c = rd
  cases rd.2 with
  | some e => rfl
  | none => exact (lineData_two _ _ rfl).2.1

theorem date_read {env : Env} {reg : List HKey} (c : ScanCtx) : readAttr env reg p!"date" c = (c, none) := by
  have hd : p!"date" ∉ lazyAttributes := by decide +kernel
  unfold readAttr
  rw [if_neg (fun h => hd h.1)]
  rfl

/-- so that it leaves the file as the reading of an attribute does -/
theorem plotIn_access {env : Env} {reg : List HKey} (o : Plot.St) (data plot : Option Int) (n : Str) (s : Sdf) :
    ∃ attr, (plotIn env reg .line o data plot n s).1 = (s.access env reg n attr).1 := by
  unfold plotIn Sdf.access
  cases s.scans.get? n with
  | none => exact ⟨[], rfl⟩
  | some x =>
    simp only [line_ctx]
    by_cases ha : x.aborted = some abortText
    · refine ⟨p!"date", ?_⟩
      rw [if_pos ha]
      rw [date_read]
    · refine ⟨p!"data", ?_⟩
      rw [if_neg ha]

theorem uses_history {env : Env} {reg : List HKey} {s t : Sdf} (h : Uses env reg s t) : History env reg s t := by
  induction h with
  | opened => exact .opened
  | read n attr _ hn ih => exact .read n attr ih hn
  | saved v ks _ hk ih => exact .saved v ks ih hk
  | plotted n o data plot _ hn ih =>
    rename_i u _
    obtain ⟨attr, e⟩ := plotIn_access (env := env) (reg := reg) o data plot n u
    rw [e]
    exact .read n attr ih hn

/-- **C114**: whatever was read, saved and plotted (by line plotters) after the file was opened, a save then writes the same HDF5
content, or raises the same exception, as right after opening. -/
theorem C114_save {env : Env} {reg : List HKey} (hr : reg.Perm HKey.all) {name : Str} {f stat : FileSt} {s : Sdf}
    (ho : Sdf.openFile env reg name f stat = .ok s) {texts : List Str} (ht : dissectFile f.node = .ok texts)
    (hP : ∀ t ∈ texts, isHeaderText t = true → ∀ l ∈ splitlines t, hKind .P l = false)
    (hO : ∀ t ∈ texts, isScanText t = true → ofKind .O (scanLines t) = [])
    {t : Sdf} (h : Uses env reg s t) (v : Versions) (ks : List Ref) :
    (save env reg v ks t).1.h5 = (save env reg v ks s).1.h5 ∧ (save env reg v ks t).2 = (save env reg v ks s).2 :=
  C110_save hr ho ht hP hO (uses_history h) v ks

/-- **C114**: and reading an attribute gives the same scan. -/
theorem C114_read {env : Env} {reg : List HKey} (hr : reg.Perm HKey.all) {name : Str} {f stat : FileSt} {s : Sdf}
    (ho : Sdf.openFile env reg name f stat = .ok s) {texts : List Str} (ht : dissectFile f.node = .ok texts)
    (hP : ∀ t ∈ texts, isHeaderText t = true → ∀ l ∈ splitlines t, hKind .P l = false)
    (hO : ∀ t ∈ texts, isScanText t = true → ofKind .O (scanLines t) = [])
    {t : Sdf} (h : Uses env reg s t) {n : Str} {attr : Str} (ha : attr ∈ lazyAttributes) :
    (t.access env reg n attr).1.scans.get? n = (s.access env reg n attr).1.scans.get? n ∧
      (t.access env reg n attr).2 = (s.access env reg n attr).2 ∧ t.headers = s.headers :=
  C110_read hr ho ht hP hO (uses_history h) ha

/-- the scan that an image maker is given: what the plot depends on -/
theorem plotOn_read {env : Env} {reg : List HKey} {c c' : ScanCtx} (o o' : Plot.St) (dataFile : Str) (data plot : Option Int)
    (ha : c.scan.aborted ≠ some abortText) (ha' : c'.scan.aborted ≠ some abortText)
    (h : readAttr env reg p!"data" c = readAttr env reg p!"data" c') :
    SameCurve (plotOn env reg .line dataFile data plot c o).2 (plotOn env reg .line dataFile data plot c' o').2 ∧
      (plotOn env reg .line dataFile data plot c o).1.ctx = (plotOn env reg .line dataFile data plot c' o').1.ctx := by
  unfold plotOn
  rw [if_neg ha, if_neg ha', retrieved_line, retrieved_line, show (titles dataFile { o with ctx := c }).ctx = c from rfl,
    show (titles dataFile { o' with ctx := c' }).ctx = c' from rfl, h]
  generalize readAttr env reg p!"data" c' = rd
  cases rd.2 with
  | some e => exact drawn_two (.inl rfl) rfl rfl (fun h => by cases h)
  | none =>
    obtain ⟨h1, h2, h3, _, _, h6⟩ := lineData_two { titles dataFile { o with ctx := c } with ctx := rd.1 }
      { titles dataFile { o' with ctx := c' } with ctx := rd.1 } rfl
    refine drawn_two (.inl rfl) h1 (h2.trans h3.symm) (fun h => ?_)
    obtain ⟨q1, q2, q3, q4⟩ := h6 h
    exact ⟨q1, q2, fun k _ => by rw [q3], q4⟩

/-- **C114**: and the curve that a line plotter draws of a scan (not one that was aborted before its first point) is the same as right
after opening, or the same exception is raised. -/
theorem C114_plot {env : Env} {reg : List HKey} (hr : reg.Perm HKey.all) {name : Str} {f stat : FileSt} {s : Sdf}
    (ho : Sdf.openFile env reg name f stat = .ok s) {texts : List Str} (ht : dissectFile f.node = .ok texts)
    (hP : ∀ t ∈ texts, isHeaderText t = true → ∀ l ∈ splitlines t, hKind .P l = false)
    (hO : ∀ t ∈ texts, isScanText t = true → ofKind .O (scanLines t) = [])
    {t : Sdf} (h : Uses env reg s t) {n : Str}
    (ha : ∀ x, s.scans.get? n = some x → (interpretScan env reg ⟨x, s.headerOf x⟩).1.scan.aborted ≠ some p!"Scan aborted after 0 points.")
    (o o' : Plot.St) (data plot : Option Int) :
    SameCurve (plotIn env reg .line o data plot n t).2.2 (plotIn env reg .line o' data plot n s).2.2 := by
  obtain ⟨hu, hnm⟩ := unshared_of_open hr ho ht hP hO
  have hp := past_history hr hu hnm (uses_history h)
  cases hx : s.scans.get? n with
  | none =>
    have ht' : t.scans.get? n = none := by
      cases hy : t.scans.get? n with
      | none => rfl
      | some y =>
        obtain ⟨x, hx'⟩ := get_of_keys hp.keys hy
        rw [hx] at hx'; cases hx'
    unfold plotIn
    rw [hx, ht']
    rfl
  | some x =>
    obtain ⟨y, hy, hyx⟩ := hp.scan n x hx
    have hf : Fresh x := C70_untouched env reg hr name f stat s ho texts ht hP (n, x) (Dict.mem_of_get? hx)
    unfold plotIn
    rw [hx, hy]
    simp only
    rw [hp.headerOf, hp.name]
    have hlz : x.lazy = true := by obtain ⟨_, _, _, _, _, _, _, _, _, e⟩ := hf; rw [e]; rfl
    have hab : x.aborted = none := by obtain ⟨_, _, _, _, _, _, _, _, _, e⟩ := hf; rw [e]; rfl
    have e1 : readAttr env reg p!"data" ⟨x, s.headerOf x⟩ = interpretScan env reg ⟨x, s.headerOf x⟩ := by
      unfold readAttr
      rw [if_pos ⟨by decide +kernel, hlz⟩]
    rcases hyx with rfl | hi
    · exact (plotOn_line _ _ _ _ _ _).1
    · have hm := interpret_marks env reg ⟨x, s.headerOf x⟩ (fresh_interpreted hf) (by rw [hi])
      have ha := ha x hx
      rw [hi] at hm ha
      have hid := interp_ident env reg ⟨x, s.headerOf x⟩
      rw [hi] at hid
      have e : s.headerOf y = s.headerOf x := headerOf_idx (congrArg Ident.hdrIdx hid)
      have e2 : readAttr env reg p!"data" ⟨y, s.headerOf x⟩ = (⟨y, s.headerOf x⟩, none) := by
        unfold readAttr
        rw [if_neg (by rintro ⟨_, h⟩; simp only at h hm; rw [hm.2] at h; cases h)]
        rfl
      rw [e]
      refine (plotOn_read o o' _ _ _ ha (fun h => ?_) (e2.trans (hi.symm.trans e1.symm))).1
      simp only [hab] at h
      cases h

end

/-! ### what the plotters change in the scan -/

/-- at the end of a step, whether it raised or not -/
theorem ends_eval {α : Type} {I : Plot.St → Prop} {s : Plot.St} (h : I s) {a : Except PyErr α} {f : α → Res Plot.St}
    (k : ∀ b, a = .ok b → I (f b).1) : I (Res.eval a s f).1 := by
  cases a with
  | error e => exact h
  | ok b => exact k b rfl

theorem ends_andThen {I : Plot.St → Prop} {r : Res Plot.St} (h : I r.1) {f : Plot.St → Res Plot.St}
    (k : I (f r.1).1) : I (r.andThen f).1 := by
  cases e : r.2 with
  | none => rw [Res.andThen_of_none e]; exact k
  | some e' => rw [Res.andThen_of_some e]; exact h

/-- labels were taken from the list, and nothing else was done -/
def Shortened (c c' : ScanCtx) : Prop :=
  c' = c ∨ ∃ L L', c.scan.L = some L ∧ L'.Sublist L ∧ c' = { c with scan := { c.scan with L := some L' } }

section
variable [UniDB]

theorem mesh_shortens (s : Plot.St) : Shortened s.ctx (meshData s).1.ctx := by
  generalize hc : s.ctx = c
  let I : Plot.St → Prop := fun u => Shortened c u.ctx
  have h0 : ∀ u : Plot.St, u.ctx = c → I u := fun u hu => .inl hu
  unfold meshData
  iterate 7 refine ends_eval (I := I) (h0 s hc) (fun _ _ => ?_)
  split
  · unfold meshLine
    simp only
    refine ends_eval (I := I) (h0 _ (by exact hc)) (fun _ _ => ?_)
    split
    · exact h0 _ (by exact hc)
    · split
      · exact h0 _ (by exact hc)
      · exact h0 _ (by exact hc)
  · refine ends_eval (I := I) (h0 s hc) (fun _ _ => ?_)
    unfold meshGrid
    simp only
    refine ends_eval (I := I) (h0 _ (by exact hc)) (fun _ _ => ?_)
    refine ends_eval (I := I) (h0 _ (by exact hc)) (fun L hL => ?_)
    have hL : c.scan.L = some L := by
      have hL : attr s.ctx.scan.L = .ok L := hL
      rw [hc] at hL
      cases e : c.scan.L with
      | none => rw [e] at hL; cases hL
      | some l => rw [e] at hL; injection hL with hL; rw [hL]
    have hrem : ∀ (l : Str) (a b : List Str), Writer.pyRemove l a = .ok b → b.Sublist a := by
      intro l a b hr
      unfold Writer.pyRemove at hr
      split at hr
      · injection hr with hr; subst hr; exact List.erase_sublist
      · cases hr
    refine ends_eval (I := I) (h0 _ (by exact hc)) (fun L1 h1 => ?_)
    have h1 := hrem _ _ _ h1
    have hI1 : ∀ (u : Plot.St) (L' : List Str), L'.Sublist L → (u.ctx = { c with scan := { c.scan with L := some L' } }) → I u :=
      fun u L' hs hu => .inr ⟨L, L', hL, hs, hu⟩
    refine ends_eval (I := I) (hI1 _ L1 h1 (by rw [← hc]; rfl)) (fun L2 h2 => ?_)
    have h2 := (hrem _ _ _ h2).trans h1
    generalize hu : setLabels _ L2 = u
    have hu : u.ctx = { c with scan := { c.scan with L := some L2 } } := by rw [← hu, ← hc]; rfl
    have hcon : (meshConstant L2 u).1.ctx = u.ctx := by
      unfold meshConstant
      split
      · split
        · rfl
        · split <;> rfl
      · rfl
    refine ends_andThen (I := I) (hI1 _ L2 h2 (hcon.trans hu)) ?_
    have hcol : ∀ (shape : List Nat) (labels : List Str) (w : Plot.St), (forEach (Plot.meshColumn shape) labels w).1.ctx = w.ctx := by
      intro shape labels
      induction labels with
      | nil => intro w; rfl
      | cons a as ih =>
        intro w
        have ha : (Plot.meshColumn shape a w).1.ctx = w.ctx := by
          unfold Plot.meshColumn
          split
          · rfl
          · cases Writer.axisOf w.ctx.scan a <;> rfl
        rw [forEach]
        cases hn : (Plot.meshColumn shape a w).2 with
        | none => rw [Res.andThen_of_none hn]; exact (ih _).trans ha
        | some e => rw [Res.andThen_of_some hn]; exact ha
    refine ends_andThen (I := I) (hI1 _ L2 h2 ((hcol _ _ _).trans (hcon.trans hu))) ?_
    generalize [_, _] = shape
    have hw := (hcol shape L2 (meshConstant L2 u).1).trans (hcon.trans hu)
    generalize (forEach (Plot.meshColumn shape) L2 _).1 = w at hw ⊢
    refine ends_eval (I := I) (hI1 w L2 h2 hw) (fun _ _ => ends_eval (I := I) (hI1 w L2 h2 hw) (fun sig _ => ?_))
    refine ends_eval (I := I) (hI1 _ L2 h2 (by exact hw)) (fun items _ => ?_)
    have hsp : ∀ (items : List (Str × List (List Num))) (shape : List Nat) (v : Plot.St), (meshSpectra shape items v).1.ctx = v.ctx := by
      intro items
      induction items with
      | nil => intro _ v; rfl
      | cons kv rest ih =>
        intro shape v
        rw [Plot.meshSpectra]
        cases Writer.channels kv.2 with
        | error e => rfl
        | ok n =>
          simp only [Res.eval_ok]
          split
          · exact ih _ _
          · rfl
    exact hI1 _ L2 h2 ((hsp _ _ _).trans (by exact hw))

/-- the first column is another one, and the point numbers may be a new column, and nothing else was done -/
def FirstSet (c c' : ScanCtx) : Prop :=
  c' = c ∨ ∃ (axis : Str) (d : Dict DCol), (∀ k, k ≠ p!"data point number" → d.get? k = c.scan.data.get? k) ∧
    (axis ∈ [p!"H", p!"K", p!"L"] ∧ d = c.scan.data ∨ axis = p!"data point number") ∧
    (c' = { c with scan := { c.scan with data := d, columnFirst := some axis } })

omit [UniDB] in
theorem hklLoop_axis (x : Obj) : ∀ (l : List Str) (r : Option (List PyFloat) × Str × Bool) {xs : List PyFloat} {a : Str} {b : Bool},
    hklLoop x l r = .ok (some xs, a, b) → (∃ b', r = (some xs, a, b') ∧ l = []) ∨ a ∈ l := by
  intro l
  induction l with
  | nil => intro r xs a b h; rw [hklLoop] at h; injection h with h; exact .inl ⟨b, h, rfl⟩
  | cons k l ih =>
    intro r xs a b h
    rw [hklLoop] at h
    right
    split at h
    · rcases ih _ h with ⟨b', e, _⟩ | h
      · injection e with e; cases e
      · simp [h]
    · cases h
    · split at h
      · cases h
      · injection h with h; injection h with _ h; injection h with h _; simp [h]
      · rcases ih _ h with ⟨b', e, _⟩ | h
        · injection e with _ e; injection e with e _; simp [e]
        · simp [h]

omit [UniDB] in
theorem hkl_first (s : Plot.St) : FirstSet s.ctx (hklData s).1.ctx := by
  generalize hc : s.ctx = c
  let I : Plot.St → Prop := fun u => FirstSet c u.ctx
  have h0 : ∀ u : Plot.St, u.ctx = c → I u := fun u hu => .inl hu
  unfold hklData
  refine ends_eval (I := I) (h0 s hc) (fun r hr => ?_)
  obtain ⟨o, axis, found⟩ := r
  cases o with
  | none => exact h0 s hc
  | some xs =>
    have hax : axis ∈ [p!"H", p!"K", p!"L"] := by
      rcases hklLoop_axis _ _ _ hr with ⟨_, _, h⟩ | h
      · cases h
      · exact h
    have hdone : ∀ u : Plot.St, u.ctx = { c with scan := { c.scan with columnFirst := some axis } } → I u := fun u hu =>
      .inr ⟨axis, c.scan.data, fun _ _ => rfl, .inl ⟨hax, rfl⟩, hu⟩
    simp only
    split
    · refine ends_eval (I := I) (hdone _ (by rw [← hc])) (fun _ _ => ?_)
      split
      · exact hdone _ (by rw [← hc]; rfl)
      · exact hdone _ (by rw [← hc]; rfl)
    · split
      · refine ends_eval (I := I) (hdone _ (by rw [← hc])) (fun _ _ => ?_)
        split
        · exact hdone _ (by rw [← hc]; rfl)
        · exact hdone _ (by rw [← hc]; rfl)
      · split
        · exact h0 s hc
        · refine ends_eval (I := I) (h0 s hc) (fun n _ => ?_)
          have hpt : ∀ u : Plot.St, u.ctx = { c with scan := { c.scan with
              data := c.scan.data.set pointNumber (.col ((List.range n).map (fun i => .fin (i + 1 : Nat)))),
              columnFirst := some pointNumber } } → I u := fun u hu =>
            .inr ⟨pointNumber, _, fun k hk => Dict.get?_set_ne _ _ (Ne.symm hk), .inr rfl, hu⟩
          refine ends_eval (I := I) (hpt _ (by rw [← hc])) (fun _ _ => ?_)
          split
          · exact hpt _ (by rw [← hc]; rfl)
          · exact hpt _ (by rw [← hc]; rfl)

/-- **C114**: what a plot, of any image maker in any state, with or without an exception, changes in the scan, aside from its
interpretation: a line plot nothing; a plot of an hklscan the first column (which becomes H, K or L, or the new column of the point
numbers); a mesh plot takes labels from the list of labels. -/
theorem C114_changes {env : Env} {reg : List HKey} (dataFile : Str) (data plot : Option Int) (c : ScanCtx) (o : Plot.St) (m : Maker)
    (hm : m = .line ∨ m = .hkl ∨ m = .mesh) :
    (plotOn env reg m dataFile data plot c o).1.ctx = c ∨
    match m with
    | .hkl => FirstSet (readAttr env reg p!"data" c).1 (plotOn env reg m dataFile data plot c o).1.ctx
    | .mesh => Shortened (readAttr env reg p!"data" c).1 (plotOn env reg m dataFile data plot c o).1.ctx
    | _ => (plotOn env reg m dataFile data plot c o).1.ctx = (readAttr env reg p!"data" c).1 := by
  by_cases ha : c.scan.aborted = some abortText
  · left
    unfold plotOn
    rw [if_pos ha]
  have hd : ∀ r : Res Plot.St, (drawn m data plot r).1.ctx = r.1.ctx := by
    intro r
    have ho : (options m r.1).1.ctx = r.1.ctx := by
      have hl : (lineOptions r.1).1.ctx = r.1.ctx := by
        unfold lineOptions
        split
        · rfl
        · split <;> rfl
      rcases hm with rfl | rfl | rfl
      · exact hl
      · exact hl
      · rfl
    unfold drawn
    split
    · rfl
    · rfl
    · simp only
      split
      · exact ho
      · split
        · exact ho
        · exact ho
        · split
          · exact ho
          · exact ho
          · exact (imaged_ctx _ _).trans ho
  have hp : (plotOn env reg m dataFile data plot c o).1.ctx = (retrieved env reg m (titles dataFile { o with ctx := c })).1.ctx := by
    unfold plotOn
    rw [if_neg ha]
    exact hd _
  rw [hp]
  rcases hm with rfl | rfl | rfl
  · right
    have h := line_ctx (env := env) (reg := reg) dataFile data plot c o
    rw [if_neg ha] at h
    exact hp.symm.trans h
  · right
    rw [retrieved_hkl, show (titles dataFile { o with ctx := c }).ctx = c from rfl]
    generalize readAttr env reg p!"data" c = rd
    cases rd.2 with
    | some e => exact .inl rfl
    | none => exact hkl_first { titles dataFile { o with ctx := c } with ctx := rd.1 }
  · unfold retrieved
    rw [show (titles dataFile { o with ctx := c }).ctx = c from rfl]
    simp only
    generalize readAttr env reg p!"data" c = rd
    cases Writer.meshWords c.scan.scanCmd with
    | error e => exact .inl rfl
    | ok w =>
      right
      cases rd.2 with
      | some e => exact .inl rfl
      | none => exact mesh_shortens { titles dataFile { o with ctx := c } with ctx := rd.1 }

end

/-! ### examples -/

/-- an image maker that was not used yet (the scan and the header stand for none) -/
def newMaker : Plot.St := { ctx := ⟨.newScan [] 0 [], .newHeader [] []⟩ }

/-- C114: the hypotheses are met: after scan 1 and the mesh 2 were plotted as lines, and scan 1 was saved and plotted again, the mesh is
saved as right after opening; and the second plot of scan 1 shows its data. -/
theorem C114_nonvacuous : letI : UniDB := asciiDB
    ∃ s t, Sdf.openFile saveEnv HKey.all p!"demo.dat" (fileAt (aloneText p!"I") 1) (fileAt (aloneText p!"I") 1) = .ok s ∧
      dissectFile (fileAt (aloneText p!"I") 1).node = .ok aloneTexts ∧
      (∀ t ∈ aloneTexts, isHeaderText t = true → ∀ l ∈ splitlines t, hKind .P l = false) ∧
      (∀ t ∈ aloneTexts, isScanText t = true → ofKind .O (scanLines t) = []) ∧
      Uses saveEnv HKey.all s t ∧ s.scans.map (fun p => (p.1, p.2.interpreted)) = [(p!"1", false), (p!"2", false), (p!"3", false)] ∧
      t.scans.map (fun p => (p.1, p.2.interpreted)) = [(p!"1", true), (p!"2", true), (p!"3", false)] ∧
      (save saveEnv HKey.all saveVersions [.int 2] t).2 = none ∧
      (∀ x, s.scans.get? p!"1" = some x →
        (interpretScan saveEnv HKey.all ⟨x, s.headerOf x⟩).1.scan.aborted ≠ some p!"Scan aborted after 0 points.") ∧
      (match (plotIn saveEnv HKey.all .line newMaker (some 5) none p!"1" t).2.2 with
        | .ok (some (.xy x y _)) => x = .col (.col [.fin (1/2), .fin (3/2)]) ∧ y = .col (.col [.fin 1, .fin 3])
        | _ => False) := by
  letI : UniDB := asciiDB
  have ht : dissectFile (.file (some (aloneText p!"I"))) = .ok aloneTexts ∧ calmB aloneTexts = true ∧
    (∀ t ∈ aloneTexts, isScanText t = true → ofKind .O (scanLines t) = []) := by decide +kernel
  have hd : (match openText (aloneText p!"I") with
    | .error _ => false
    | .ok s =>
      let t1 := (plotIn saveEnv HKey.all .line newMaker (some 5) none p!"1" s).1
      let t2 := (plotIn saveEnv HKey.all .line newMaker (some 5) none p!"2" t1).1
      let t3 := (save saveEnv HKey.all saveVersions [.int 1] t2).1.sdf
      decide (s.scans.map (fun p => (p.1, p.2.interpreted)) = [(p!"1", false), (p!"2", false), (p!"3", false)]) &&
      decide (t3.scans.map (fun p => (p.1, p.2.interpreted)) = [(p!"1", true), (p!"2", true), (p!"3", false)]) &&
      decide ((save saveEnv HKey.all saveVersions [.int 2] t3).2 = none) &&
      (match s.scans.get? p!"1" with
        | some x => decide ((interpretScan saveEnv HKey.all ⟨x, s.headerOf x⟩).2 = none) &&
          decide ((interpretScan saveEnv HKey.all ⟨x, s.headerOf x⟩).1.scan.aborted ≠ some p!"Scan aborted after 0 points.")
        | none => false) &&
      (match s.scans.get? p!"2" with
        | some x => decide ((interpretScan saveEnv HKey.all ⟨x, s.headerOf x⟩).2 = none)
        | none => false) &&
      (match s.getScan (.int 1) with
        | .ok (some x) => decide ((interpretScan saveEnv HKey.all ⟨x, s.headerOf x⟩).2 = none) && decide (macroOf x = some p!"ascan")
        | _ => false) &&
      (match (plotIn saveEnv HKey.all .line newMaker (some 5) none p!"1" t3).2.2 with
        | .ok (some (.xy x y _)) => decide (x = .col (.col [.fin (1/2), .fin (3/2)]) ∧ y = .col (.col [.fin 1, .fin 3]))
        | _ => false)) = true := by decide +kernel
  cases hs : openText (aloneText p!"I") with
  | error e => rw [hs] at hd; cases hd
  | ok s =>
    rw [hs] at hd
    simp only [Bool.and_eq_true, decide_eq_true_eq] at hd
    obtain ⟨⟨⟨⟨⟨⟨c1, c2⟩, c3⟩, c4⟩, c5⟩, c6⟩, c7⟩ := hd
    refine ⟨s, _, hs, ht.1, (plain_of_b ht.2.1).noP, ht.2.2, ?_, c1, c2, c3, ?_, ?_⟩
    · refine .saved _ _ (.plotted _ _ _ _ (.plotted _ _ _ _ .opened ?_) ?_) ?_
      · intro x hx
        rw [hx] at c4
        simp only [Bool.and_eq_true, decide_eq_true_eq] at c4
        exact c4.1
      · intro x hx
        rw [hx] at c5
        simpa using c5
      · intro k hk x hx
        simp only [List.mem_cons, List.not_mem_nil, or_false] at hk
        subst hk
        rw [hx] at c6
        simp only [Bool.and_eq_true, decide_eq_true_eq] at c6
        refine ⟨c6.1, ?_⟩
        intro m hm e
        rw [c6.2] at e
        injection e with e
        subst e
        revert hm; decide
    · intro x hx
      rw [hx] at c4
      simp only [Bool.and_eq_true, decide_eq_true_eq] at c4
      exact c4.2
    · generalize (plotIn saveEnv HKey.all .line newMaker (some 5) none p!"1" _).2.2 = r at c7 ⊢
      split at c7
      · exact of_decide_eq_true c7
      · cases c7

/-- C114 (a defect): only line plots are like that.  A mesh that was plotted as a mesh cannot be saved afterwards (ValueError), and it could
be saved before. -/
theorem C114_mesh_matters : letI : UniDB := asciiDB
    (match openText (aloneText p!"I") with
    | .error _ => false
    | .ok s =>
      let r := plotIn saveEnv HKey.all .mesh newMaker (some 5) none p!"2" s
      (match r.2.2 with | .ok (some (.image ..)) => true | _ => false) &&
      decide ((save saveEnv HKey.all saveVersions [.int 2] s).2 = none) &&
      decide ((save saveEnv HKey.all saveVersions [.int 2] r.1).2 = some .ValueError)) = true := by decide +kernel

/-- an hklscan along L with a spectrum at each point -/
def hklSpectraText : Str := demoHead ++ join p!"\n" [[], p!"#S 1 hklscan  1 1 0 0 0 1 1 1", p!"#D Wed Jun 16 18:28:36 2010", p!"#N 4",
  p!"#L H  K  L  I", p!"1 0 0 5", p!"@A 1 2 3", p!"1 0 1 6", p!"@A 4 5 6", []]

/-- the attributes `axes` of the datasets of a file -/
def axesOfFile (h : H5) : List AVal := h.filterMap fun
  | .dset _ attrs => attrs.get? p!"axes"
  | .group _ _ => none

/-- C114 (a defect): a plot of an hklscan shows in what is saved afterwards: the axis of its spectra is then L, before it was H. -/
theorem C114_hkl_matters : letI : UniDB := asciiDB
    (match openText hklSpectraText with
    | .error _ => false
    | .ok s =>
      let r := plotIn saveEnv HKey.all .hkl newMaker (some 5) none p!"1" s
      let before := save saveEnv HKey.all saveVersions [.int 1] s
      let after := save saveEnv HKey.all saveVersions [.int 1] r.1
      (match r.2.2 with | .ok (some (.xy ..)) => true | _ => false) && decide (before.2 = none) && decide (after.2 = none) &&
      decide (axesOfFile before.1.h5 = [.str p!"H:_mca_channel_"]) && decide (axesOfFile after.1.h5 = [.str p!"L:_mca_channel_"])) = true := by
  decide +kernel

end S2N.Props
