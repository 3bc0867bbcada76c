import Verif.Props.PlotAgain
namespace S2N.Props
open S2N S2N.Py S2N.Plot

/-
C113, continued: a plotter of meshes that is used again.
-/

/-- two objects at work on the same scan, whose data agree at the names `P` -/
structure Twin (P : Str → Prop) (last : Option Str) (s t : Plot.St) : Prop where
  ctx : s.ctx = t.ctx
  last : s.ctx.scan.columnLast = last
  data : ∀ k, P k → s.data.get? k = t.data.get? k

/-- the same outcome, and the same to draw -/
def TwinEnd (r1 r2 : Res Plot.St) : Prop :=
  r1.2 = r2.2 ∧ r1.1.ctx = r2.1.ctx ∧ (r1.2 = none → r1.1.signal = r2.1.signal ∧ r1.1.axes = r2.1.axes ∧
    ∀ k, k ∈ r1.1.axes ∨ r1.1.signal = some k → r1.1.data.get? k = r2.1.data.get? k)

theorem TwinEnd.eval {α : Type} {x : Except PyErr α} {s t : Plot.St} (h : s.ctx = t.ctx) {f g : α → Res Plot.St}
    (k : ∀ a, x = .ok a → TwinEnd (f a) (g a)) : TwinEnd (Res.eval x s f) (Res.eval x t g) := by
  cases x with
  | error e => exact ⟨rfl, h, fun h => by cases h⟩
  | ok a => exact k a rfl

theorem TwinEnd.andThen {P : Str → Prop} {last : Option Str} {r1 r2 : Res Plot.St} (h1 : r1.2 = r2.2) (h2 : Twin P last r1.1 r2.1)
    {f g : Plot.St → Res Plot.St} (k : Twin P last r1.1 r2.1 → TwinEnd (f r1.1) (g r2.1)) : TwinEnd (r1.andThen f) (r2.andThen g) := by
  cases h : r1.2 with
  | none => rw [Res.andThen_of_none h, Res.andThen_of_none (h1.symm.trans h)]; exact k h2
  | some e =>
    rw [Res.andThen_of_some h, Res.andThen_of_some (h1.symm.trans h)]
    exact ⟨h1, h2.ctx, fun h' => by rw [h] at h'; cases h'⟩

theorem Twin.put {P : Str → Prop} {last : Option Str} {s t : Plot.St} (h : Twin P last s t) (k : Str) (v : PVal) :
    Twin P last { s with data := s.data.set k v } { t with data := t.data.set k v } := by
  refine ⟨h.ctx, h.last, fun k' hk => ?_⟩
  show Dict.get? (s.data.set k v) k' = Dict.get? (t.data.set k v) k'
  rw [Dict.get?_set, Dict.get?_set, h.data k' hk]

theorem Twin.labels {P : Str → Prop} {last : Option Str} {s t : Plot.St} (h : Twin P last s t) (l : List Str) :
    Twin P last (setLabels s l) (setLabels t l) := by
  refine ⟨?_, h.last, h.data⟩
  unfold setLabels
  simp only
  rw [h.ctx]

theorem twin_constant {P : Str → Prop} {last : Option Str} {s t : Plot.St} (h : Twin P last s t) (labels : List Str) :
    (meshConstant labels s).2 = (meshConstant labels t).2 ∧ Twin P last (meshConstant labels s).1 (meshConstant labels t).1 := by
  have hc := h.ctx
  obtain ⟨c, set1, sg1, ax1, d1⟩ := s
  obtain ⟨c', set2, sg2, ax2, d2⟩ := t
  simp only at hc
  subst hc
  unfold meshConstant
  simp only
  by_cases hs : startsWith c.scan.scanCmd p!"hkl"
  · rw [if_pos hs, if_pos hs]
    split
    · exact ⟨rfl, h⟩
    · split
      · exact ⟨rfl, h⟩
      · exact ⟨rfl, h⟩
      · exact ⟨rfl, h⟩
      · exact ⟨rfl, h.put _ _⟩
  · rw [if_neg hs, if_neg hs]; exact ⟨rfl, h⟩

theorem twin_columns {P : Str → Prop} {last : Option Str} (shape : List Nat) : ∀ (labels : List Str), (∀ k ∈ labels, P k) →
    ∀ {s t : Plot.St}, Twin P last s t → (forEach (meshColumn shape) labels s).2 = (forEach (meshColumn shape) labels t).2 ∧
      Twin P last (forEach (meshColumn shape) labels s).1 (forEach (meshColumn shape) labels t).1 := by
  intro labels
  induction labels with
  | nil => intro _ s t h; exact ⟨rfl, h⟩
  | cons a as ih =>
    intro hP s t h
    have ha : (meshColumn shape a s).2 = (meshColumn shape a t).2 ∧ Twin P last (meshColumn shape a s).1 (meshColumn shape a t).1 := by
      clear ih
      have hc := h.ctx
      have e : s.data.has a = t.data.has a := by unfold Dict.has; rw [h.data a (hP a (by simp))]
      obtain ⟨c, set1, sg1, ax1, d1⟩ := s
      obtain ⟨c', set2, sg2, ax2, d2⟩ := t
      simp only at hc
      subst hc
      unfold meshColumn
      rw [e]
      by_cases hh : d2.has a
      · rw [if_pos hh, if_pos hh]; exact ⟨rfl, h⟩
      · rw [if_neg hh, if_neg hh]
        cases Writer.axisOf c.scan a with
        | error e => exact ⟨rfl, h⟩
        | ok xs => exact ⟨rfl, h.put _ _⟩
    rw [forEach, forEach]
    cases hn : (meshColumn shape a s).2 with
    | none =>
      rw [Res.andThen_of_none hn, Res.andThen_of_none (ha.1.symm.trans hn)]
      exact ih (fun k hk => hP k (List.mem_cons_of_mem _ hk)) ha.2
    | some e =>
      rw [Res.andThen_of_some hn, Res.andThen_of_some (ha.1.symm.trans hn)]
      exact ha

theorem twin_spectra {P : Str → Prop} {last : Option Str} : ∀ (items : List (Str × List (List Num))) (shape : List Nat) {s t : Plot.St},
    Twin P last s t → s.signal = t.signal → s.axes = t.axes → (∀ k, k ∈ s.axes ∨ s.signal = some k → P k) →
    TwinEnd (meshSpectra shape items s) (meshSpectra shape items t) := by
  intro items
  induction items with
  | nil => intro shape s t h h1 h2 h3; exact ⟨rfl, h.ctx, fun _ => ⟨h1, h2, fun k hk => h.data k (h3 k hk)⟩⟩
  | cons kv rest ih =>
    intro shape s t h h1 h2 h3
    rw [meshSpectra, meshSpectra]
    refine TwinEnd.eval h.ctx (fun n _ => ?_)
    simp only
    by_cases hr : kv.2.all (fun r => r.length == n)
    · rw [if_pos hr, if_pos hr]
      exact ih _ ((h.put _ _).put _ _) h1 h2 h3
    · rw [if_neg hr, if_neg hr]
      exact ⟨rfl, h.ctx, fun h => by cases h⟩

theorem twin_line {s t : Plot.St} (h : s.ctx = t.ctx) (label1 : Str) : TwinEnd (meshLine label1 s) (meshLine label1 t) := by
  obtain ⟨c, set1, sg1, ax1, d1⟩ := s
  obtain ⟨c', set2, sg2, ax2, d2⟩ := t
  simp only at h
  subst h
  have h : c = c := rfl
  unfold meshLine
  simp only
  refine TwinEnd.eval (by rfl) (fun last _ => ?_)
  cases c.scan.data.get? label1 with
  | none => exact ⟨rfl, h, fun h => by cases h⟩
  | some c' =>
    simp only
    cases c.scan.data.get? last with
    | none => exact ⟨rfl, h, fun h => by cases h⟩
    | some d =>
      refine ⟨rfl, h, fun _ => ⟨rfl, rfl, fun k hk => ?_⟩⟩
      have hk : k ∈ [label1] ∨ some last = some k := hk
      show Dict.get? ((d1.set label1 _).set last _) k = Dict.get? ((d2.set label1 _).set last _) k
      simp only [Dict.get?_set]
      rcases hk with hk | hk
      · simp only [List.mem_singleton] at hk
        rw [if_pos hk.symm, if_pos hk.symm]
      · injection hk with hk
        rw [if_pos hk, if_pos hk]

section
variable [UniDB]

/-- the names under which a mesh plotter puts the columns of a scan, and the name of the one that it draws -/
def MeshName (x : Obj) (k : Str) : Prop :=
  (∃ L, x.L = some L ∧ k ∈ L) ∨ (∃ last, x.columnLast = some last ∧ cleanName last = .ok k)

theorem twin_grid (x : Obj) {s t : Plot.St} (h : Twin (MeshName x) x.columnLast s t) (hL : s.ctx.scan.L = x.L) (i1 : Int) (label1 label2 : Str)
    (axis1 axis2 : List PyFloat) : TwinEnd (meshGrid i1 label1 label2 axis1 axis2 s) (meshGrid i1 label1 label2 axis1 axis2 t) := by
  have hc := h.ctx
  obtain ⟨c, set1, sg1, ax1, d1⟩ := s
  obtain ⟨c', set2, sg2, ax2, d2⟩ := t
  simp only at hc
  subst hc
  unfold meshGrid
  simp only
  refine TwinEnd.eval (by rfl) (fun axis2 _ => ?_)
  have h0 := (h.put label1 (.col (.col (pySlice axis1 (some 0) (some (i1 + 1)))))).put label2 (.col (.col axis2))
  refine TwinEnd.eval (by rfl) (fun labels hl => ?_)
  have hl : x.L = some labels := by
    have hL : c.scan.L = x.L := hL
    rw [hL] at hl
    cases e : x.L with
    | none => rw [e] at hl; cases hl
    | some l => rw [e] at hl; injection hl with hl; rw [hl]
  refine TwinEnd.eval (by rfl) (fun labels1 hr1 => ?_)
  have hr1 : label1 ∈ labels ∧ labels1 = labels.erase label1 := by
    unfold Writer.pyRemove at hr1
    split at hr1
    · injection hr1 with e; exact ⟨‹_›, e.symm⟩
    · cases hr1
  have h1 := h0.labels labels1
  refine TwinEnd.eval (by rfl) (fun labels2 hr2 => ?_)
  have hr2 : label2 ∈ labels1 ∧ labels2 = labels1.erase label2 := by
    unfold Writer.pyRemove at hr2
    split at hr2
    · injection hr2 with e; exact ⟨‹_›, e.symm⟩
    · cases hr2
  have hm1 : ∀ k ∈ labels1, k ∈ labels := fun k hk => List.mem_of_mem_erase (by rw [← hr1.2]; exact hk)
  have hm2 : ∀ k ∈ labels2, MeshName x k := fun k hk => .inl ⟨labels, hl, hm1 k (List.mem_of_mem_erase (by rw [← hr2.2]; exact hk))⟩
  have h2 := h1.labels labels2
  obtain ⟨c1, c2⟩ := twin_constant h2 labels2
  refine TwinEnd.andThen c1 c2 (fun c2 => ?_)
  obtain ⟨d1, d2⟩ := twin_columns [axis2.length, (pySlice axis1 (some 0) (some (i1 + 1))).length] labels2 hm2 c2
  refine TwinEnd.andThen d1 d2 (fun d2 => ?_)
  generalize (forEach (meshColumn _) labels2 _).1 = u at d2 ⊢
  generalize (forEach (meshColumn _) labels2 _).1 = v at d2 ⊢
  have hc := d2.ctx
  obtain ⟨c', set1', sg1', ax1', dd1⟩ := u
  obtain ⟨c'', set2', sg2', ax2', dd2⟩ := v
  simp only at hc
  subst hc
  refine TwinEnd.eval (by rfl) (fun last hlast => ?_)
  have hlast : x.columnLast = some last := by
    have hd : c'.scan.columnLast = x.columnLast := d2.last
    rw [hd] at hlast
    cases e : x.columnLast with
    | none => rw [e] at hlast; cases hlast
    | some l => rw [e] at hlast; injection hlast with hl; rw [hl]
  refine TwinEnd.eval (by rfl) (fun sig hsig => ?_)
  refine TwinEnd.eval (by rfl) (fun items _ => ?_)
  refine twin_spectra items _ (P := MeshName x) (last := x.columnLast) ⟨rfl, d2.last, d2.data⟩ rfl rfl (fun k hk => ?_)
  have hk : k ∈ [label1, label2] ∨ some sig = some k := hk
  rcases hk with hk | hk
  · simp only [List.mem_cons, List.not_mem_nil, or_false] at hk
    rcases hk with rfl | rfl
    · exact .inl ⟨labels, hl, hr1.1⟩
    · exact .inl ⟨labels, hl, hm1 _ hr2.1⟩
  · injection hk with hk
    subst hk
    exact .inr ⟨last, hlast, hsig⟩

theorem twin_mesh {s t : Plot.St} (h : s.ctx = t.ctx) (hd : ∀ k, MeshName t.ctx.scan k → s.data.get? k = t.data.get? k) :
    TwinEnd (meshData s) (meshData t) := by
  unfold meshData
  rw [h]
  iterate 7 refine TwinEnd.eval h (fun _ _ => ?_)
  split
  · exact twin_line h _
  · refine TwinEnd.eval h (fun _ _ => ?_)
    exact twin_grid t.ctx.scan ⟨h, by rw [h], hd⟩ (by rw [h]) _ _ _ _ _

theorem drawn_mesh_two {data plot : Option Int} {r1 r2 : Res Plot.St} (h : TwinEnd r1 r2) :
    SameCurve (drawn .mesh data plot r1).2 (drawn .mesh data plot r2).2 ∧
      (drawn .mesh data plot r1).1.ctx = (drawn .mesh data plot r2).1.ctx := by
  obtain ⟨s1, e1⟩ := r1
  obtain ⟨s2, e2⟩ := r2
  obtain ⟨h1, hc, h6⟩ := h
  simp only at h1 hc h6
  subst h1
  unfold drawn
  cases e1 with
  | some e =>
    cases e <;> simp only <;> refine ⟨?_, hc⟩ <;> first | rfl | (rw [hc]; exact SameCurve.refl _)
  | none =>
    obtain ⟨k1, k2, k3⟩ := h6 rfl
    simp only [options]
    have hopt : ∀ u : Plot.St, ∃ set, meshOptions u = ({ u with set := set }, none) := by
      intro u
      exact ⟨_, rfl⟩
    obtain ⟨set1, o1⟩ := hopt s1
    obtain ⟨set2, o2⟩ := hopt s2
    rw [o1, o2]
    simp only [plottable]
    have hsh : ∀ (l : List Str) (ns : List Nat), (∀ k ∈ l, k ∈ s1.axes) → meshShapes s1.data l ns = meshShapes s2.data l ns := by
      intro l
      induction l with
      | nil => intro ns _; rw [meshShapes, meshShapes]
      | cons a l ih =>
        intro ns hl
        cases ns with
        | nil => rw [meshShapes, meshShapes]
        | cons n ns =>
          rw [meshShapes, meshShapes, k3 a (.inl (hl a (by simp)))]
          rw [ih ns (fun k hk => hl k (by simp [hk]))]
    have hp : meshPlottable { s1 with set := set1 } = meshPlottable { s2 with set := set2 } := by
      unfold meshPlottable
      simp only [k1]
      cases hs : s2.signal with
      | none => rfl
      | some sig =>
        simp only
        rw [k3 sig (.inr (k1.trans hs))]
        cases s2.data.get? sig with
        | none => rfl
        | some y =>
          simp only
          rw [hsh _ _ (fun k hk => by simpa using hk), k2]
    rw [hp]
    cases meshPlottable { s2 with set := set2 } with
    | false => exact ⟨trivial, hc⟩
    | true =>
      cases newer data plot with
      | error e => exact ⟨rfl, hc⟩
      | ok b =>
        cases b with
        | false => exact ⟨trivial, hc⟩
        | true =>
          refine ⟨?_, by simp only [imaged_ctx]; exact hc⟩
          simp only [image]
          unfold meshImage
          simp only [k1, k2, hc]
          cases hs : s2.signal with
          | none => rfl
          | some sig =>
            simp only
            rw [k3 sig (.inr (k1.trans hs))]
            have hax : ∀ a ∈ s2.axes, s1.data.get? a = s2.data.get? a := fun a ha => k3 a (.inl (by rw [k2]; exact ha))
            cases ha : s2.axes with
            | nil => exact SameCurve.refl _
            | cons a l =>
              cases l with
              | nil =>
                simp only
                rw [hax a (by rw [ha]; simp)]
                cases s2.data.get? sig with
                | none => exact SameCurve.refl _
                | some y =>
                  cases s2.data.get? a with
                  | none => rfl
                  | some x => exact ⟨rfl, rfl⟩
              | cons b l =>
                cases l with
                | cons c l => trivial
                | nil =>
                  simp only
                  rw [hax a (by rw [ha]; simp), hax b (by rw [ha]; simp)]
                  cases s2.data.get? sig with
                  | none => exact SameCurve.refl _
                  | some y =>
                    cases splitlines s2.ctx.scan.raw with
                    | nil => rfl
                    | cons first rest =>
                      cases s2.data.get? a with
                      | none => rfl
                      | some x =>
                        cases s2.data.get? b with
                        | none => rfl
                        | some z => exact ⟨rfl, rfl⟩

/-- **C113**: the same for the plotter of meshes, as far as the object has no data under the labels of the scan (and under the name of the
column that is drawn) from the scans before. -/
theorem C113_mesh {env : Env} {reg : List HKey} (jobs : List Job) (j : Job) (new : Plot.St)
    (hnew : ∀ k, MeshName (readAttr env reg p!"data" j.ctx).1.scan k → (afterJobs env reg .mesh jobs new).data.get? k = none) :
    SameCurve (plotOn env reg .mesh j.dataFile j.data j.plot j.ctx (afterJobs env reg .mesh jobs new)).2
      (plotScan env reg .mesh {} j.dataFile j.data j.plot j.ctx).2 ∧
    (plotOn env reg .mesh j.dataFile j.data j.plot j.ctx (afterJobs env reg .mesh jobs new)).1.ctx =
      (plotScan env reg .mesh {} j.dataFile j.data j.plot j.ctx).1 := by
  rw [C113_new .mesh {} j.dataFile j.data j.plot j.ctx j.ctx]
  generalize afterJobs env reg .mesh jobs new = s at hnew
  simp only
  unfold plotOn
  by_cases ha : j.ctx.scan.aborted = some abortText
  · rw [if_pos ha, if_pos ha]; exact ⟨rfl, rfl⟩
  rw [if_neg ha, if_neg ha]
  refine drawn_mesh_two ?_
  unfold retrieved
  have key : ∀ u : Plot.St, (titles j.dataFile { u with ctx := j.ctx }).ctx = j.ctx := fun _ => rfl
  simp only [key]
  have key2 : (titles j.dataFile { ctx := j.ctx, set := ({} : Settings) }).ctx = j.ctx := rfl
  simp only [key2]
  cases Writer.meshWords j.ctx.scan.scanCmd with
  | error e => exact ⟨rfl, rfl, fun h => by cases h⟩
  | ok w =>
    simp only
    generalize readAttr env reg p!"data" j.ctx = rd at hnew ⊢
    cases rd.2 with
    | some e => exact ⟨rfl, rfl, fun h => by cases h⟩
    | none => exact twin_mesh rfl (fun k hk => (hnew k hk).trans rfl)

/-! ### what stays in the object -/

omit [UniDB] in
theorem eval_none {α : Type} {x : Except PyErr α} {s : Plot.St} {f : α → Res Plot.St} (h : (Res.eval x s f).2 = none) :
    ∃ a, x = .ok a ∧ Res.eval x s f = f a ∧ (f a).2 = none := by
  cases x with
  | error e => cases h
  | ok a => exact ⟨a, rfl, rfl, h⟩

omit [UniDB] in
theorem keep_columns (shape : List Nat) (sig : Str) (v : PVal) : ∀ (labels : List Str) (s : Plot.St), s.data.get? sig = some v →
    (forEach (meshColumn shape) labels s).1.data.get? sig = some v ∧ (forEach (meshColumn shape) labels s).1.ctx = s.ctx := by
  intro labels
  induction labels with
  | nil => intro s h; exact ⟨h, rfl⟩
  | cons a as ih =>
    intro s h
    have ha : (meshColumn shape a s).1.data.get? sig = some v ∧ (meshColumn shape a s).1.ctx = s.ctx := by
      unfold meshColumn
      split
      · exact ⟨h, rfl⟩
      · rename_i hh
        cases Writer.axisOf s.ctx.scan a with
        | error e => exact ⟨h, rfl⟩
        | ok xs =>
          refine ⟨?_, rfl⟩
          show Dict.get? (s.data.set a _) sig = some v
          rw [Dict.get?_set_ne]
          · exact h
          · rintro rfl
            exact hh (by unfold Dict.has; rw [h]; rfl)
    rw [forEach]
    cases hn : (meshColumn shape a s).2 with
    | none =>
      rw [Res.andThen_of_none hn]
      obtain ⟨i1, i2⟩ := ih _ ha.1
      exact ⟨i1, i2.trans ha.2⟩
    | some e => rw [Res.andThen_of_some hn]; exact ha

theorem keep_grid {i1 : Int} {l1 l2 : Str} {axis1 axis2 : List PyFloat} {s : Plot.St} {last sig : Str} {v : PVal}
    (h : (meshGrid i1 l1 l2 axis1 axis2 s).2 = none) (hl : s.ctx.scan.columnLast = some last) (hc : cleanName last = .ok sig)
    (hv : s.data.get? sig = some v) (hk : startsWith s.ctx.scan.scanCmd p!"hkl" = false) (hm : s.ctx.scan.data.get? p!"_mca_" = none) :
    (meshGrid i1 l1 l2 axis1 axis2 s).1.signal = some sig ∧ (meshGrid i1 l1 l2 axis1 axis2 s).1.axes = [l1, l2] ∧
      (l1 ≠ sig → l2 ≠ sig → (meshGrid i1 l1 l2 axis1 axis2 s).1.data.get? sig = some v) := by
  unfold meshGrid at h ⊢
  simp only at h ⊢
  obtain ⟨a2, _, e, h⟩ := eval_none h
  rw [e]; clear e
  obtain ⟨labels, _, e, h⟩ := eval_none h
  rw [e]; clear e
  obtain ⟨labels1, _, e, h⟩ := eval_none h
  rw [e]; clear e
  obtain ⟨labels2, _, e, h⟩ := eval_none h
  rw [e]; clear e
  have hcon : ∀ u : Plot.St, u.ctx.scan.scanCmd = s.ctx.scan.scanCmd → meshConstant labels2 u = Res.ok u := by
    intro u hu
    unfold meshConstant
    rw [hu, hk]
    rfl
  generalize hu : (setLabels _ labels2 : Plot.St) = u at h ⊢
  rw [hcon u (by rw [← hu]; rfl)] at h ⊢
  rw [Res.ok_andThen] at h ⊢
  generalize [a2.length, _] = shape at h ⊢
  have huc : u.ctx.scan.columnLast = some last ∧ u.ctx.scan.data = s.ctx.scan.data := by rw [← hu]; exact ⟨hl, rfl⟩
  have hud : l1 ≠ sig → l2 ≠ sig → u.data.get? sig = some v := by
    intro h1 h2
    rw [← hu]
    show Dict.get? ((s.data.set l1 _).set l2 _) sig = some v
    rw [Dict.get?_set_ne _ _ h2, Dict.get?_set_ne _ _ h1]
    exact hv
  have hn : (forEach (meshColumn shape) labels2 u).2 = none := by
    cases e : (forEach (meshColumn shape) labels2 u).2 with
    | none => rfl
    | some e' => rw [Res.andThen_of_some e, e] at h; cases h
  rw [Res.andThen_of_none hn] at h ⊢
  have hctx : ∀ (labels : List Str) (w : Plot.St), (forEach (meshColumn shape) labels w).1.ctx = w.ctx := by
    intro labels
    induction labels with
    | nil => intro w; rfl
    | cons a as ih =>
      intro w
      have ha : (meshColumn shape a w).1.ctx = w.ctx := by
        unfold meshColumn
        split
        · rfl
        · cases Writer.axisOf w.ctx.scan a <;> rfl
      rw [forEach]
      cases hn : (meshColumn shape a w).2 with
      | none => rw [Res.andThen_of_none hn]; exact (ih _).trans ha
      | some e => rw [Res.andThen_of_some hn]; exact ha
  have hwc := hctx labels2 u
  have hkeep := fun hv' => keep_columns shape sig v labels2 u hv'
  generalize (forEach (meshColumn shape) labels2 u).1 = w at h hwc hkeep ⊢
  obtain ⟨last', hl', e, h⟩ := eval_none h
  rw [e]; clear e
  rw [hwc, huc.1] at hl'
  injection hl' with hl'
  subst hl'
  obtain ⟨sig', hs', e, h⟩ := eval_none h
  rw [e]; clear e
  rw [hc] at hs'
  injection hs' with hs'
  subst hs'
  obtain ⟨items, hi, e, h⟩ := eval_none h
  rw [e]; clear e
  have hi' : items = [] := by
    unfold mcaItems at hi
    simp only [hwc, huc.2, hm] at hi
    injection hi with hi
    exact hi.symm
  subst hi'
  exact ⟨rfl, rfl, fun h1 h2 => (hkeep (hud h1 h2)).1⟩

/-- C113 (a defect): the image of a mesh that is drawn with an object which has data under the name of the column already, is of these
data, whatever the scan is. -/
theorem C113_mesh_stale {env : Env} {reg : List HKey} {dataFile : Str} {data plot : Option Int} {c : ScanCtx} {s : Plot.St}
    {a v : PVal} {l : List PVal} {set : Settings} {last sig : Str}
    (h : (plotOn env reg .mesh dataFile data plot c s).2 = .ok (some (.image a l set)))
    (hl : (readAttr env reg p!"data" c).1.scan.columnLast = some last) (hc : cleanName last = .ok sig) (hv : s.data.get? sig = some v)
    (hk : startsWith (readAttr env reg p!"data" c).1.scan.scanCmd p!"hkl" = false)
    (hm : (readAttr env reg p!"data" c).1.scan.data.get? p!"_mca_" = none)
    (hx : set.xTitle ≠ some sig) (hy : set.yTitle ≠ some sig) : a = v := by
  unfold plotOn at h
  by_cases ha : c.scan.aborted = some abortText
  · rw [if_pos ha] at h; cases h
  rw [if_neg ha] at h
  -- the picture
  have hpic : ∀ r : Res Plot.St, (drawn .mesh data plot r).2 = .ok (some (.image a l set)) → r.2 = none ∧
      ∃ sg a1 a2, r.1.signal = some sg ∧ r.1.axes = [a1, a2] ∧ r.1.data.get? sg = some a ∧ set.xTitle = some a1 ∧ set.yTitle = some a2 := by
    intro r h
    unfold drawn at h
    split at h
    · cases h
    · cases h
    · rename_i hn
      refine ⟨hn, ?_⟩
      simp only [options] at h
      have hopt : ∃ st, meshOptions r.1 = ({ r.1 with set := st }, none) := ⟨_, rfl⟩
      obtain ⟨st, o⟩ := hopt
      rw [o] at h
      simp only at h
      split at h
      · cases h
      · cases h
      · split at h
        · cases h
        · cases h
        · simp only [image, meshImage] at h
          cases hs : r.1.signal with
          | none => rw [hs] at h; cases h
          | some sg =>
            rw [hs] at h
            simp only at h
            split at h
            · rename_i a1 a2 hax
              split at h
              · rename_i im first rest x y e1 e2 e3 e4
                injection h with h
                injection h with h
                injection h with h1 h2 h3
                subst h1
                exact ⟨sg, a1, a2, rfl, hax, e1, by rw [← h3], by rw [← h3]⟩
              · cases h
              · cases h
            · split at h <;> cases h
            · cases h
  obtain ⟨hn, sg, a1, a2, p1, p2, p3, p4, p5⟩ := hpic _ h
  -- the data
  have hr : ∃ w : Plot.St, w.ctx = (readAttr env reg p!"data" c).1 ∧ w.data = s.data ∧
      retrieved env reg .mesh (titles dataFile { s with ctx := c }) = meshData w := by
    have hn' := hn
    unfold retrieved at hn' ⊢
    have key : (titles dataFile { s with ctx := c }).ctx = c := rfl
    simp only [key] at hn' ⊢
    generalize readAttr env reg p!"data" c = rd at hn' ⊢
    cases hw : Writer.meshWords c.scan.scanCmd with
    | error e => rw [hw] at hn'; cases hn'
    | ok w =>
      rw [hw] at hn'
      simp only at hn' ⊢
      cases he : rd.2 with
      | some e => rw [he] at hn'; cases hn'
      | none => exact ⟨{ titles dataFile { s with ctx := c } with ctx := rd.1 }, rfl, rfl, rfl⟩
  obtain ⟨w, w1, w2, w3⟩ := hr
  rw [w3] at hn p1 p2 p3
  rw [← w1] at hl hk hm
  rw [← w2] at hv
  unfold meshData at hn p1 p2 p3
  obtain ⟨_, _, e, hn⟩ := eval_none hn; rw [e] at p1 p2 p3; clear e
  obtain ⟨_, _, e, hn⟩ := eval_none hn; rw [e] at p1 p2 p3; clear e
  obtain ⟨_, _, e, hn⟩ := eval_none hn; rw [e] at p1 p2 p3; clear e
  obtain ⟨_, _, e, hn⟩ := eval_none hn; rw [e] at p1 p2 p3; clear e
  obtain ⟨_, _, e, hn⟩ := eval_none hn; rw [e] at p1 p2 p3; clear e
  obtain ⟨_, _, e, hn⟩ := eval_none hn; rw [e] at p1 p2 p3; clear e
  obtain ⟨flat, _, e, hn⟩ := eval_none hn; rw [e] at p1 p2 p3; clear e
  cases flat with
  | true =>
    rw [if_pos rfl] at hn p2
    unfold meshLine at hn p2
    obtain ⟨_, _, e, hn⟩ := eval_none hn
    rw [e] at p2
    simp only at hn p2
    split at p2
    · cases p2
    · split at p2 <;> cases p2
  | false =>
    rw [if_neg (by simp)] at hn p1 p2 p3
    obtain ⟨_, _, e, hn⟩ := eval_none hn; rw [e] at p1 p2 p3; clear e
    obtain ⟨g1, g2, g3⟩ := keep_grid hn hl hc hv hk hm
    rw [g1] at p1
    injection p1 with p1
    subst p1
    rw [g2] at p2
    injection p2 with p2 p2'
    injection p2' with p2' _
    subst p2 p2'
    rw [g3 (fun e => hx (by rw [p4, e])) (fun e => hy (by rw [p5, e]))] at p3
    injection p3 with p3
    exact p3.symm

/-- **C113**: an image of a mesh has the subtitle and the axis titles of its own scan, and these are the settings of the object
afterwards. -/
theorem C113_mesh_titles {env : Env} {reg : List HKey} {dataFile : Str} {data plot : Option Int} {c : ScanCtx} {s : Plot.St}
    {a : PVal} {l : List PVal} {set : Settings} (h : (plotOn env reg .mesh dataFile data plot c s).2 = .ok (some (.image a l set))) :
    (plotOn env reg .mesh dataFile data plot c s).1.set = set ∧
    ∃ sig first rest, (plotOn env reg .mesh dataFile data plot c s).1.signal = some sig ∧
      splitlines (plotOn env reg .mesh dataFile data plot c s).1.ctx.scan.raw = first :: rest ∧
      set.subtitle = some (sig ++ p!",  " ++ first) ∧
      ∃ x y, (plotOn env reg .mesh dataFile data plot c s).1.axes = [x, y] ∧ set.xTitle = some x ∧ set.yTitle = some y := by
  unfold plotOn at h ⊢
  by_cases ha : c.scan.aborted = some abortText
  · rw [if_pos ha] at h; cases h
  rw [if_neg ha] at h ⊢
  generalize retrieved env reg .mesh _ = r at h ⊢
  unfold drawn at h ⊢
  split at h
  · cases h
  · cases h
  · rename_i hn
    simp only [options] at h ⊢
    have hopt : ∃ st, meshOptions r.1 = ({ r.1 with set := st }, none) := ⟨_, rfl⟩
    obtain ⟨st, o⟩ := hopt
    rw [o] at h ⊢
    simp only at h ⊢
    cases hp : plottable .mesh { r.1 with set := st } with
    | error e => rw [hp] at h; cases h
    | ok b =>
      cases b with
      | false => rw [hp] at h; cases h
      | true =>
        rw [hp] at h
        simp only at h ⊢
        cases hw : newer data plot with
        | error e => rw [hw] at h; cases h
        | ok b =>
          cases b with
          | false => rw [hw] at h; cases h
          | true =>
            rw [hw] at h
            simp only at h ⊢
            have hset : imaged .mesh { r.1 with set := st } = { r.1 with set := set } := by
              unfold imaged
              rw [h]
            rw [hset]
            refine ⟨rfl, ?_⟩
            simp only [image, meshImage] at h
            cases hs : r.1.signal with
            | none => rw [hs] at h; cases h
            | some sg =>
              rw [hs] at h
              simp only at h
              split at h
              · rename_i a1 a2 hax
                split at h
                · rename_i im first rest x y e1 e2 e3 e4
                  injection h with h
                  injection h with h
                  injection h with h1 h2 h3
                  exact ⟨sg, first, rest, rfl, e2, by rw [← h3], a1, a2, hax, by rw [← h3], by rw [← h3]⟩
                · cases h
                · cases h
              · split at h <;> cases h
              · cases h

end

/-! ### labels of their own -/

/-- the names that a scan gives to data: its columns, its labels, and its spectra with their channels -/
def Named (x : Obj) (k : Str) : Prop :=
  x.data.has k = true ∨ k ∈ x.L.getD [] ∨
    ∃ m, x.data.get? p!"_mca_" = some (.mca m) ∧ ∃ kv ∈ m, k = p!"_" ++ kv.1 ++ p!"_" ∨ k = p!"_" ++ kv.1 ++ p!"_" ++ p!"channel_"

/-- an object at work on the scan `x`, with data under the names `P` only -/
structure Under (x : Obj) (P : Str → Prop) (s : Plot.St) : Prop where
  scan : s.ctx.scan.data = x.data
  keys : ∀ k, s.data.get? k ≠ none → P k

theorem Under.put {x : Obj} {P : Str → Prop} {s : Plot.St} (h : Under x P s) {k : Str} (hk : P k) (v : PVal) :
    Under x P { s with data := s.data.set k v } := by
  refine ⟨h.scan, fun k' hk' => ?_⟩
  have hk' : Dict.get? (s.data.set k v) k' ≠ none := hk'
  by_cases e : k = k'
  · exact e ▸ hk
  · rw [Dict.get?_set_ne _ _ e] at hk'
    exact h.keys k' hk'

theorem under_eval {α : Type} {x : Obj} {P : Str → Prop} {s : Plot.St} (h : Under x P s) {a : Except PyErr α} {f : α → Res Plot.St}
    (k : ∀ b, a = .ok b → Under x P (f b).1) : Under x P (Res.eval a s f).1 := by
  cases a with
  | error e => exact h
  | ok b => exact k b rfl

theorem under_andThen {x : Obj} {P : Str → Prop} {r : Res Plot.St} (h : Under x P r.1) {f : Plot.St → Res Plot.St}
    (k : Under x P (f r.1).1) : Under x P (r.andThen f).1 := by
  cases e : r.2 with
  | none => rw [Res.andThen_of_none e]; exact k
  | some e' => rw [Res.andThen_of_some e]; exact h

theorem under_constant {x : Obj} {P : Str → Prop} {s : Plot.St} (h : Under x P s) (labels : List Str) (hl : ∀ k ∈ labels, P k) :
    Under x P (meshConstant labels s).1 := by
  unfold meshConstant
  split
  · split
    · exact h
    · rename_i l _ e
      have hm : l ∈ [p!"H", p!"K", p!"L"].filter (fun k => decide (k ∈ labels)) := by rw [e]; simp
      have hm : l ∈ labels := by simpa using (List.mem_filter.1 hm).2
      split
      · exact h
      · exact h
      · exact h
      · exact h.put (hl _ hm) _
  · exact h

theorem under_columns {x : Obj} {P : Str → Prop} (shape : List Nat) : ∀ (labels : List Str), (∀ k ∈ labels, P k) → ∀ {s : Plot.St}, Under x P s →
    Under x P (forEach (meshColumn shape) labels s).1 := by
  intro labels
  induction labels with
  | nil => intro _ s h; exact h
  | cons a as ih =>
    intro hl s h
    have ha : Under x P (meshColumn shape a s).1 := by
      unfold meshColumn
      split
      · exact h
      · exact under_eval h (fun _ _ => h.put (hl a (by simp)) _)
    exact under_andThen ha (ih (fun k hk => hl k (by simp [hk])) ha)

theorem under_spectra {x : Obj} {P : Str → Prop} : ∀ (items : List (Str × List (List Num))) (shape : List Nat) {s : Plot.St}, Under x P s →
    (∀ kv ∈ items, P (p!"_" ++ kv.1 ++ p!"_") ∧ P (p!"_" ++ kv.1 ++ p!"_" ++ p!"channel_")) → Under x P (meshSpectra shape items s).1 := by
  intro items
  induction items with
  | nil => intro _ s h _; exact h
  | cons kv rest ih =>
    intro shape s h hi
    rw [meshSpectra]
    refine under_eval h (fun n _ => ?_)
    simp only
    split
    · exact ih _ ((h.put (hi kv (by simp)).1 _).put (hi kv (by simp)).2 _) (fun k hk => hi k (by simp [hk]))
    · exact h

section
variable [UniDB]

omit [UniDB] in
theorem label_named {x : Obj} {w l : Str} {i : Nat} (h : Writer.meshLabel x w i = .ok l) : Named x l := by
  unfold Writer.meshLabel at h
  split at h
  · injection h with h; subst h; exact .inl ‹_›
  · split at h
    · rename_i e
      injection h with h; subst h
      exact .inr (.inl (List.mem_of_getElem? e))
    · cases h

theorem under_mesh {P : Str → Prop} {s : Plot.St} (h : ∀ k, s.data.get? k ≠ none → P k) (hP : ∀ k, Named s.ctx.scan k → P k) :
    Under s.ctx.scan P (meshData s).1 := by
  have h : Under s.ctx.scan P s := ⟨rfl, h⟩
  generalize hx : s.ctx.scan = x at h hP
  unfold meshData
  rw [hx]
  refine under_eval h (fun w _ => under_eval h (fun label1 hl1 => under_eval h (fun label2 hl2 => under_eval h (fun i1 _ =>
    under_eval h (fun _ _ => under_eval h (fun axis1 _ => under_eval h (fun flat _ => ?_)))))))
  have n1 := hP _ (label_named hl1)
  have n2 := hP _ (label_named hl2)
  split
  · unfold meshLine
    simp only
    refine under_eval (s := { s with axes := [label1] }) ⟨h.scan, h.keys⟩ (fun last _ => ?_)
    have h1 : Under x P { s with axes := [label1], signal := some last } := ⟨h.scan, h.keys⟩
    split
    · exact h1
    · split
      · exact h1.put n1 _
      · rename_i e
        refine (h1.put n1 _).put (hP _ (.inl ?_)) _
        have e : s.ctx.scan.data.get? last = some _ := e
        rw [← hx]
        unfold Dict.has
        rw [e]
        rfl
  · refine under_eval h (fun axis2 _ => ?_)
    unfold meshGrid
    simp only
    have h1 := h.put n1 (.col (.col (pySlice axis1 (some 0) (some (i1 + 1)))))
    refine under_eval h1 (fun a2 _ => ?_)
    have h2 := h1.put n2 (.col (.col a2))
    refine under_eval h2 (fun labels hl => ?_)
    have hL : ∀ k ∈ labels, P k := by
      intro k hk
      refine hP k (.inr (.inl ?_))
      have hl : attr s.ctx.scan.L = .ok labels := hl
      rw [hx] at hl
      cases e : x.L with
      | none => rw [e] at hl; cases hl
      | some l => rw [e] at hl; injection hl with hl; subst hl; exact hk
    have hrem : ∀ (l : Str) (a b : List Str), Writer.pyRemove l a = .ok b → (∀ k ∈ a, P k) → ∀ k ∈ b, P k := by
      intro l a b hr ha k hk
      unfold Writer.pyRemove at hr
      split at hr
      · injection hr with hr; subst hr; exact ha k (List.mem_of_mem_erase hk)
      · cases hr
    refine under_eval h2 (fun labels1 hr1 => ?_)
    have hL1 := hrem _ _ _ hr1 hL
    have hlab : ∀ {u : Plot.St} (l : List Str), Under x P u → Under x P (setLabels u l) := fun l hu => ⟨hu.scan, hu.keys⟩
    refine under_eval (hlab labels1 h2) (fun labels2 hr2 => ?_)
    have hL2 := hrem _ _ _ hr2 hL1
    have h3 := under_constant (hlab labels2 (hlab labels1 h2)) labels2 hL2
    refine under_andThen h3 ?_
    have h4 := under_columns [a2.length, (pySlice axis1 (some 0) (some (i1 + 1))).length] labels2 hL2 h3
    refine under_andThen h4 ?_
    generalize (forEach (meshColumn _) labels2 _).1 = u at h4 ⊢
    refine under_eval h4 (fun last _ => under_eval h4 (fun sig _ => ?_))
    have h5 : Under x P { u with signal := some sig, axes := [label1, label2] } := ⟨h4.scan, h4.keys⟩
    refine under_eval h5 (fun items hi => ?_)
    refine under_spectra items _ h5 (fun kv hkv => ?_)
    have hi : mcaItems u.ctx.scan = .ok items := hi
    unfold mcaItems at hi
    rw [h4.scan] at hi
    cases e : x.data.get? p!"_mca_" with
    | none => rw [e] at hi; injection hi with hi; subst hi; cases hkv
    | some c =>
      cases c with
      | col _ => rw [e] at hi; cases hi
      | mca m =>
        rw [e] at hi
        injection hi with hi
        subst hi
        have hkv : kv ∈ m := (sortBy_perm _ m).mem_iff.1 hkv
        exact ⟨hP _ (.inr (.inr ⟨m, e, kv, hkv, .inl rfl⟩)), hP _ (.inr (.inr ⟨m, e, kv, hkv, .inr rfl⟩))⟩

/-- what a plot of a mesh leaves in the object has the names of the scan -/
theorem plotOn_keys {env : Env} {reg : List HKey} (dataFile : Str) (data plot : Option Int) (c : ScanCtx) (s : Plot.St) {k : Str}
    (h : (plotOn env reg .mesh dataFile data plot c s).1.data.get? k ≠ none) :
    s.data.get? k ≠ none ∨ Named (readAttr env reg p!"data" c).1.scan k := by
  unfold plotOn at h
  by_cases ha : c.scan.aborted = some abortText
  · rw [if_pos ha] at h; exact .inl h
  rw [if_neg ha] at h
  have hd : ∀ r : Res Plot.St, (drawn .mesh data plot r).1.data = r.1.data := by
    intro r
    have ho : (meshOptions r.1).1.data = r.1.data := rfl
    have hi : ∀ u : Plot.St, (imaged .mesh u).data = u.data := by
      intro u; unfold imaged; split <;> rfl
    unfold drawn
    split
    · rfl
    · rfl
    · simp only [options]
      split
      · exact ho
      · split
        · exact ho
        · exact ho
        · split
          · exact ho
          · exact ho
          · exact (hi _).trans ho
  rw [hd] at h
  unfold retrieved at h
  rw [show (titles dataFile { s with ctx := c }).ctx = c from rfl] at h
  simp only at h
  generalize readAttr env reg p!"data" c = rd at h ⊢
  cases hw : Writer.meshWords c.scan.scanCmd with
  | error e => rw [hw] at h; exact .inl h
  | ok w =>
    rw [hw] at h
    simp only at h
    cases he : rd.2 with
    | some e => rw [he] at h; exact .inl h
    | none =>
      rw [he] at h
      exact (under_mesh (P := fun k => s.data.get? k ≠ none ∨ Named rd.1.scan k)
        (s := { titles dataFile { s with ctx := c } with ctx := rd.1 }) (fun k hk => .inl hk) (fun k hk => .inr hk)).keys k h

theorem jobs_keys {env : Env} {reg : List HKey} : ∀ (jobs : List Job) (new : Plot.St) {k : Str},
    (afterJobs env reg .mesh jobs new).data.get? k ≠ none →
    new.data.get? k ≠ none ∨ ∃ i ∈ jobs, Named (readAttr env reg p!"data" i.ctx).1.scan k := by
  intro jobs
  induction jobs with
  | nil => intro new k h; exact .inl h
  | cons i is ih =>
    intro new k h
    rcases ih _ h with h | ⟨j, hj, h⟩
    · rcases plotOn_keys _ _ _ _ _ h with h | h
      · exact .inl h
      · exact .inr ⟨i, by simp, h⟩
    · exact .inr ⟨j, by simp [hj], h⟩

/-- **C113**: the meshes that one object plots have their own images, as long as the scans before have no names in common with the labels
of the scan. -/
theorem C113_mesh_apart {env : Env} {reg : List HKey} (jobs : List Job) (j : Job) (new : Plot.St) (hnew : new.data = [])
    (hj : ∀ i ∈ jobs, ∀ k, MeshName (readAttr env reg p!"data" j.ctx).1.scan k → ¬ Named (readAttr env reg p!"data" i.ctx).1.scan k) :
    SameCurve (plotOn env reg .mesh j.dataFile j.data j.plot j.ctx (afterJobs env reg .mesh jobs new)).2
      (plotScan env reg .mesh {} j.dataFile j.data j.plot j.ctx).2 := by
  refine (C113_mesh jobs j new (fun k hk => ?_)).1
  cases e : (afterJobs env reg .mesh jobs new).data.get? k with
  | none => rfl
  | some v =>
    rcases jobs_keys (env := env) (reg := reg) jobs new (k := k) (by rw [e]; simp) with h | ⟨i, hi, h⟩
    · rw [hnew] at h; exact absurd rfl h
    · exact absurd h (hj i hi k hk)

end

/-! ### an example -/

/-- two meshes with labels of their own -/
def meshesText : Str := demoHead ++ join p!"\n" [[],
  p!"#S 1 mesh  a 0 1 1  b 0 1 1  1", p!"#D Wed Jun 16 18:26:36 2010", p!"#N 3", p!"#L a  b  I", p!"0 0 1", p!"1 0 2", p!"0 1 3", p!"1 1 4", [],
  p!"#S 2 mesh  c 0 1 1  d 0 1 1  1", p!"#D Wed Jun 16 18:27:36 2010", p!"#N 3", p!"#L c  d  J", p!"0 0 5", p!"1 0 6", p!"0 1 7", p!"1 1 8", []]
def meshesJob (n : Nat) : Option Job := match openText meshesText with
  | .ok s => match s.getScan (.int n) with
    | .ok (some x) => some ⟨⟨x, s.headerOf x⟩, p!"demo.dat", some 5, none⟩
    | _ => none
  | .error _ => none

/-- C113: the hypotheses of C113_mesh and C113_mesh_apart are met: the mesh 1 has no name in common with the mesh 2; after the mesh 1 the object has data under its labels, and none under those of the mesh 2,
whose own image is drawn. -/
theorem C113_mesh_nonvacuous : (letI : UniDB := asciiDB; match meshesJob 1, meshesJob 2 with
    | some i, some j =>
      let s := afterJobs saveEnv HKey.all .mesh [i] { ctx := i.ctx }
      decide (s.data.map (·.1) = [p!"a", p!"b", p!"I"]) &&
      decide ((readAttr saveEnv HKey.all p!"data" i.ctx).1.scan.data.keys = [p!"a", p!"b", p!"I"]) &&
      decide ((readAttr saveEnv HKey.all p!"data" i.ctx).1.scan.L = some [p!"a", p!"b", p!"I"]) &&
      decide ((readAttr saveEnv HKey.all p!"data" j.ctx).1.scan.L = some [p!"c", p!"d", p!"J"]) &&
      decide ((readAttr saveEnv HKey.all p!"data" j.ctx).1.scan.columnLast = some p!"J") &&
      (match cleanName p!"J" with | .ok k => decide (k = p!"J") | .error _ => false) &&
      (match (plotOn saveEnv HKey.all .mesh j.dataFile j.data j.plot j.ctx s).2 with
        | .ok (some (.image a _ set)) => decide (a = .nd ⟨[.flt (.fin 5), .flt (.fin 6), .flt (.fin 7), .flt (.fin 8)], [2, 2]⟩) &&
          decide (set.subtitle = some p!"J,  #S 2 mesh  c 0 1 1  d 0 1 1  1") && decide (set.xTitle = some p!"c")
        | _ => false)
    | _, _ => false) = true := by decide +kernel

end S2N.Props
