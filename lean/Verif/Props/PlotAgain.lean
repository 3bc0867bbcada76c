import Verif.Model.PlotAgain
import Verif.Props.Plot
import Verif.Props.Alone
/-
C113: an image maker that is used again.
-/
namespace S2N.Props
open S2N S2N.Py S2N.Plot

/-- the same curve (titles and scales aside), or the same exception, or no plot at all -/
def SameCurve : Except PyErr (Option Picture) → Except PyErr (Option Picture) → Prop
  | .error e, .error e' => e = e'
  | .ok none, .ok none => True
  | .ok (some (.xy x y _)), .ok (some (.xy x' y' _)) => x = x' ∧ y = y'
  | .ok (some (.image a l _)), .ok (some (.image a' l' _)) => a = a' ∧ l = l'
  | _, _ => False

theorem SameCurve.refl (a : Except PyErr (Option Picture)) : SameCurve a a := by
  cases a with
  | error e => rfl
  | ok o =>
    cases o with
    | none => trivial
    | some p => cases p <;> exact ⟨rfl, rfl⟩

/-- two objects look at the same scan -/
theorem lineData_two (s t : Plot.St) (h : s.ctx = t.ctx) :
    (lineData s).2 = (lineData t).2 ∧ (lineData s).1.ctx = s.ctx ∧ (lineData t).1.ctx = t.ctx ∧
      (lineData s).1.set = s.set ∧ (lineData t).1.set = t.set ∧
      ((lineData s).2 = none → (lineData s).1.signal = (lineData t).1.signal ∧ (lineData s).1.axes = (lineData t).1.axes ∧
        (lineData s).1.data = (lineData t).1.data ∧ (lineData s).1.axes ≠ []) := by
  unfold lineData
  rw [h]
  cases t.ctx.scan.columnLast with
  | none => simp [attr, Res.eval, Res.raise, h]
  | some last =>
    simp only [attr, Res.eval_ok]
    by_cases hl : t.ctx.scan.data.has last = false
    · rw [if_pos hl, if_pos hl]; simp [Res.raise, h]
    · rw [if_neg hl, if_neg hl]
      cases t.ctx.scan.columnFirst with
      | none => simp [Res.eval, Res.raise, h]
      | some first =>
        simp only [Res.eval_ok]
        cases t.ctx.scan.L with
        | none => simp [Res.eval, Res.raise, h]
        | some l => simp [Res.ok, h]

section
variable [UniDB]

theorem imaged_ctx (m : Maker) (s : Plot.St) : (imaged m s).ctx = s.ctx := by
  unfold imaged
  split <;> rfl

/-- C113: a new object is used as `plot_scan` of the other claims has it. -/
theorem C113_new {env : Env} {reg : List HKey} (m : Maker) (set : Settings) (dataFile : Str) (data plot : Option Int) (c c0 : ScanCtx) :
    plotScan env reg m set dataFile data plot c =
      ((plotOn env reg m dataFile data plot c { ctx := c0, set := set }).1.ctx,
        (plotOn env reg m dataFile data plot c { ctx := c0, set := set }).2) := by
  unfold plotScan plotOn
  by_cases ha : c.scan.aborted = some abortText
  · rw [if_pos ha, if_pos ha]
  rw [if_neg ha, if_neg ha]
  simp only
  generalize retrieved env reg m (titles dataFile { ctx := c, set := set }) = r
  unfold drawn
  obtain ⟨s1, e⟩ := r
  cases e with
  | some e => cases e <;> rfl
  | none =>
    simp only
    generalize options m s1 = o
    obtain ⟨o, e⟩ := o
    cases e with
    | some e => rfl
    | none =>
      simp only
      cases plottable m o with
      | error e => rfl
      | ok b =>
        cases b with
        | false => rfl
        | true =>
          cases newer data plot with
          | error e => rfl
          | ok b =>
            cases b with
            | false => rfl
            | true => simp only [imaged_ctx]

/-- two results of `retrieve_plot_data` that differ in the settings, and in columns that are not drawn, only -/
theorem drawn_two {m : Maker} (hm : m = .line ∨ m = .hkl) {data plot : Option Int} {r1 r2 : Res Plot.St} (h1 : r1.2 = r2.2) (hc : r1.1.ctx = r2.1.ctx)
    (h6 : r1.2 = none → r1.1.signal = r2.1.signal ∧ r1.1.axes = r2.1.axes ∧
      (∀ k, k ∈ r1.1.axes ∨ r1.1.signal = some k → r1.1.data.get? k = r2.1.data.get? k) ∧ r1.1.axes ≠ []) :
    SameCurve (drawn m data plot r1).2 (drawn m data plot r2).2 ∧
      (drawn m data plot r1).1.ctx = (drawn m data plot r2).1.ctx := by
  have hlin : ∀ r : Res Plot.St, drawn m data plot r = drawn .line data plot r := by
    rcases hm with rfl | rfl
    · exact fun _ => rfl
    · exact fun _ => rfl
  rw [hlin, hlin]
  obtain ⟨s1, e1⟩ := r1
  obtain ⟨s2, e2⟩ := r2
  simp only at h1 hc h6
  subst h1
  unfold drawn
  cases e1 with
  | some e =>
    cases e <;> simp only <;> refine ⟨?_, hc⟩ <;> first | rfl | (rw [hc]; exact SameCurve.refl _)
  | none =>
    obtain ⟨k1, k2, k3, k4⟩ := h6 rfl
    simp only [options]
    have hopt : ∀ u : Plot.St, u.axes ≠ [] → ∃ set, lineOptions u = ({ u with set := set }, none) := by
      intro u hu
      unfold lineOptions
      obtain ⟨a, l, e⟩ := List.exists_cons_of_ne_nil hu
      rw [e]
      cases u.set.xTitle with
      | none => exact ⟨_, rfl⟩
      | some t => cases t <;> exact ⟨_, rfl⟩
    obtain ⟨set1, o1⟩ := hopt _ k4
    obtain ⟨set2, o2⟩ := hopt s2 (by rw [← k2]; exact k4)
    rw [o1, o2]
    simp only [plottable, imaged]
    have hp : linePlottable { s1 with set := set1 } = linePlottable { s2 with set := set2 } := by
      unfold linePlottable
      simp only [k1, k2]
      cases hs : s2.signal with
      | none => rfl
      | some sig =>
        simp only
        rw [k3 sig (.inr (k1.trans hs))]
        cases s2.data.get? sig with
        | none => rfl
        | some y =>
          simp only
          cases y.len with
          | error e => rfl
          | ok n =>
            simp only
            cases ha : s2.axes with
            | nil => rfl
            | cons a l => simp only; rw [k3 a (.inl (by rw [k2, ha]; simp))]
    rw [hp]
    cases linePlottable { s2 with set := set2 } with
    | error e => exact ⟨rfl, hc⟩
    | ok b =>
      cases b with
      | false => exact ⟨trivial, hc⟩
      | true =>
        cases newer data plot with
        | error e => exact ⟨rfl, hc⟩
        | ok b =>
          cases b with
          | false => exact ⟨trivial, hc⟩
          | true =>
            refine ⟨?_, hc⟩
            simp only [image]
            unfold lineImage
            simp only [k1, k2]
            cases hs : s2.signal with
            | none => rfl
            | some sig =>
              simp only
              rw [k3 sig (.inr (k1.trans hs))]
              cases hy : s2.data.get? sig with
              | none => simp only; exact SameCurve.refl _
              | some y =>
                cases ha : s2.axes with
                | nil => rfl
                | cons a l =>
                  cases l with
                  | cons b l => rfl
                  | nil =>
                    simp only
                    rw [k3 a (.inl (by rw [k2, ha]; simp))]
                    cases s2.data.get? a with
                    | none => rfl
                    | some x => exact ⟨rfl, rfl⟩

theorem retrieved_line {env : Env} {reg : List HKey} (s : Plot.St) :
    retrieved env reg .line s = (match (readAttr env reg p!"data" s.ctx).2 with
      | none => lineData { s with ctx := (readAttr env reg p!"data" s.ctx).1 }
      | some e => ({ s with ctx := (readAttr env reg p!"data" s.ctx).1 }, some e)) := by
  unfold retrieved
  simp only [retrieve, Res.raise]
  generalize readAttr env reg p!"data" s.ctx = rd
  obtain ⟨a, b⟩ := rd
  cases b <;> rfl

omit [UniDB] in
theorem lineData_set (s : Plot.St) : (lineData s).1.set = s.set := (lineData_two s s rfl).2.2.2.1

/-- what was done with the object before does not matter -/
theorem plotOn_line {env : Env} {reg : List HKey} (dataFile : Str) (data plot : Option Int) (c : ScanCtx) (s t : Plot.St) :
    SameCurve (plotOn env reg .line dataFile data plot c s).2 (plotOn env reg .line dataFile data plot c t).2 ∧
    (plotOn env reg .line dataFile data plot c s).1.ctx = (plotOn env reg .line dataFile data plot c t).1.ctx := by
  unfold plotOn
  by_cases ha : c.scan.aborted = some abortText
  · rw [if_pos ha, if_pos ha]; exact ⟨rfl, rfl⟩
  rw [if_neg ha, if_neg ha]
  have key : ∀ u : Plot.St, (titles dataFile { u with ctx := c }).ctx = c := fun _ => rfl
  rw [retrieved_line, retrieved_line, key, key]
  generalize readAttr env reg p!"data" c = rd
  cases rd.2 with
  | some e => exact drawn_two (.inl rfl) rfl rfl (fun h => by cases h)
  | none =>
    obtain ⟨h1, h2, h3, _, _, h6⟩ := lineData_two { titles dataFile { s with ctx := c } with ctx := rd.1 }
      { titles dataFile { t with ctx := c } with ctx := rd.1 } rfl
    refine drawn_two (.inl rfl) h1 (h2.trans h3.symm) (fun h => ?_)
    obtain ⟨q1, q2, q3, q4⟩ := h6 h
    exact ⟨q1, q2, fun k _ => by rw [q3], q4⟩

/-- **C113**: what was plotted with a line plotter before does not show in the curve that it draws: after any calls of `plot_scan`,
with or without exceptions, the next call draws the same curve as a new object would, or raises the same exception, or draws nothing
where that would; and it leaves the scan as that would. -/
theorem C113_line {env : Env} {reg : List HKey} (jobs : List Job) (j : Job) (new : Plot.St) :
    SameCurve (plotOn env reg .line j.dataFile j.data j.plot j.ctx (afterJobs env reg .line jobs new)).2
      (plotScan env reg .line {} j.dataFile j.data j.plot j.ctx).2 ∧
    (plotOn env reg .line j.dataFile j.data j.plot j.ctx (afterJobs env reg .line jobs new)).1.ctx =
      (plotScan env reg .line {} j.dataFile j.data j.plot j.ctx).1 := by
  rw [C113_new .line {} j.dataFile j.data j.plot j.ctx j.ctx]
  exact plotOn_line _ _ _ _ _ _

/-! ### scans in reciprocal space -/

omit [UniDB] in
theorem hklLoop_steady (x : Obj) : ∀ (l : List Str) (r : Option (List PyFloat) × Str × Bool) (xs : List PyFloat) (a : Str),
    hklLoop x l r = .ok (some xs, a, false) → ∀ k ∈ l, ∀ ys, x.data.get? k = some (.col ys) → varies ys = .ok false := by
  intro l
  induction l with
  | nil => intro _ _ _ _ k hk; cases hk
  | cons b l ih =>
    intro r xs a h k hk ys hy
    rw [hklLoop] at h
    have hnext : ∀ r', hklLoop x l r' = .ok (some xs, a, false) → k ∈ l → varies ys = .ok false := fun r' h' hk' => ih r' xs a h' k hk' ys hy
    rcases List.mem_cons.1 hk with rfl | hk
    · rw [hy] at h
      simp only at h
      cases hv : varies ys with
      | error e => rw [hv] at h; cases h
      | ok v =>
        cases v with
        | true => rw [hv] at h; cases h
        | false => rfl
    · cases hb : x.data.get? b with
      | none => rw [hb] at h; exact hnext _ h hk
      | some c =>
        rw [hb] at h
        cases c with
        | mca m => cases h
        | col zs =>
          simp only at h
          cases hv : varies zs with
          | error e => rw [hv] at h; cases h
          | ok v =>
            rw [hv] at h
            cases v with
            | true => cases h
            | false => exact hnext _ h hk

omit [UniDB] in
theorem hklData_two (s t : Plot.St) (h : s.ctx = t.ctx) {k : Str} (hk : k ∈ [p!"H", p!"K", p!"L"]) {ys : List PyFloat}
    (hy : s.ctx.scan.data.get? k = some (.col ys)) (hv : varies ys ≠ .ok false) :
    (hklData s).2 = (hklData t).2 ∧ (hklData s).1.ctx = (hklData t).1.ctx ∧
      ((hklData s).2 = none → (hklData s).1.signal = (hklData t).1.signal ∧ (hklData s).1.axes = (hklData t).1.axes ∧
        (∀ k, k ∈ (hklData s).1.axes ∨ (hklData s).1.signal = some k → (hklData s).1.data.get? k = (hklData t).1.data.get? k) ∧
        (hklData s).1.axes ≠ []) := by
  unfold hklData
  rw [h] at hy ⊢
  cases hl : hklLoop t.ctx.scan [p!"H", p!"K", p!"L"] (none, [], false) with
  | error e => simp [Res.eval, Res.raise, h]
  | ok r =>
    obtain ⟨o, axis, found⟩ := r
    simp only [Res.eval_ok]
    cases o with
    | none => simp [Res.raise, h]
    | some xs =>
      cases found with
      | false => exact absurd (hklLoop_steady _ _ _ _ _ hl k hk ys hy) hv
      | true =>
        simp only [if_true]
        cases hcl : t.ctx.scan.columnLast with
        | none => simp [attr, Res.eval, Res.raise]
        | some last =>
          simp only [attr, Res.eval_ok]
          cases t.ctx.scan.data.get? last with
          | none => simp [Res.raise]
          | some c =>
            refine ⟨rfl, rfl, fun _ => ⟨rfl, rfl, ?_, by simp [Res.ok]⟩⟩
            intro k hk'
            have hk' : k ∈ [axis] ∨ some last = some k := hk'
            show Dict.get? ((s.data.set axis _).set last _) k = Dict.get? ((t.data.set axis _).set last _) k
            by_cases e : last = k
            · subst e
              rw [Dict.get?_set_self, Dict.get?_set_self]
            · rw [Dict.get?_set_ne _ _ e, Dict.get?_set_ne _ _ e]
              rcases hk' with hk' | hk'
              · simp only [List.mem_singleton] at hk'
                subst hk'
                rw [Dict.get?_set_self, Dict.get?_set_self]
              · exact absurd (by injection hk') e

theorem retrieved_hkl {env : Env} {reg : List HKey} (s : Plot.St) :
    retrieved env reg .hkl s = (match (readAttr env reg p!"data" s.ctx).2 with
      | none => hklData { s with ctx := (readAttr env reg p!"data" s.ctx).1 }
      | some e => ({ s with ctx := (readAttr env reg p!"data" s.ctx).1 }, some e)) := by
  unfold retrieved
  simp only [retrieve, Res.raise]
  generalize readAttr env reg p!"data" s.ctx = rd
  obtain ⟨a, b⟩ := rd
  cases b <;> rfl

/-- **C113**: the same for the plotter of `hklscan`, if one of the columns H, K and L of the scan is not constant. -/
theorem C113_hkl {env : Env} {reg : List HKey} (jobs : List Job) (j : Job) (new : Plot.St) {k : Str} (hk : k ∈ [p!"H", p!"K", p!"L"])
    {ys : List PyFloat} (hy : (readAttr env reg p!"data" j.ctx).1.scan.data.get? k = some (.col ys)) (hv : varies ys ≠ .ok false) :
    SameCurve (plotOn env reg .hkl j.dataFile j.data j.plot j.ctx (afterJobs env reg .hkl jobs new)).2
      (plotScan env reg .hkl {} j.dataFile j.data j.plot j.ctx).2 ∧
    (plotOn env reg .hkl j.dataFile j.data j.plot j.ctx (afterJobs env reg .hkl jobs new)).1.ctx =
      (plotScan env reg .hkl {} j.dataFile j.data j.plot j.ctx).1 := by
  rw [C113_new .hkl {} j.dataFile j.data j.plot j.ctx j.ctx]
  generalize afterJobs env reg .hkl jobs new = s
  generalize ({ ctx := j.ctx, set := {} } : Plot.St) = t
  show SameCurve (plotOn env reg .hkl j.dataFile j.data j.plot j.ctx s).2 (plotOn env reg .hkl j.dataFile j.data j.plot j.ctx t).2 ∧
    (plotOn env reg .hkl j.dataFile j.data j.plot j.ctx s).1.ctx = (plotOn env reg .hkl j.dataFile j.data j.plot j.ctx t).1.ctx
  unfold plotOn
  by_cases ha : j.ctx.scan.aborted = some abortText
  · rw [if_pos ha, if_pos ha]; exact ⟨rfl, rfl⟩
  rw [if_neg ha, if_neg ha]
  have key : ∀ u : Plot.St, (titles j.dataFile { u with ctx := j.ctx }).ctx = j.ctx := fun _ => rfl
  rw [retrieved_hkl, retrieved_hkl, key, key]
  generalize readAttr env reg p!"data" j.ctx = rd at hy ⊢
  cases rd.2 with
  | some e => exact drawn_two (.inr rfl) rfl rfl (fun h => by cases h)
  | none =>
    obtain ⟨h1, h2, h6⟩ := hklData_two { titles j.dataFile { s with ctx := j.ctx } with ctx := rd.1 }
      { titles j.dataFile { t with ctx := j.ctx } with ctx := rd.1 } rfl hk hy hv
    exact drawn_two (.inr rfl) h1 h2 h6

/-! ### the titles stay -/

/-- a setting that the user, or a plot before, has made -/
def IsSet (t : Option Str) : Prop := ∃ c cs, t = some (c :: cs)

omit [UniDB] in
theorem orElse_set {t : Option Str} (h : IsSet t) (o : Str) : orElse t o = t := by
  obtain ⟨c, cs, rfl⟩ := h
  rfl

/-- the texts of the settings that are set stay -/
structure Stays (s t : Plot.St) : Prop where
  title : IsSet s.set.title → t.set.title = s.set.title
  subtitle : IsSet s.set.subtitle → t.set.subtitle = s.set.subtitle
  timestamp : IsSet s.set.timestamp → t.set.timestamp = s.set.timestamp
  xTitle : IsSet s.set.xTitle → t.set.xTitle = s.set.xTitle
  yTitle : IsSet s.set.yTitle → t.set.yTitle = s.set.yTitle

omit [UniDB] in
theorem Stays.of_set {s t : Plot.St} (h : t.set = s.set) : Stays s t := by
  constructor <;> intro _ <;> rw [h]

omit [UniDB] in
theorem Stays.trans {s t u : Plot.St} (h : Stays s t) (k : Stays t u) : Stays s u := by
  constructor
  · intro g; have := h.title g; rw [k.title (by rw [this]; exact g), this]
  · intro g; have := h.subtitle g; rw [k.subtitle (by rw [this]; exact g), this]
  · intro g; have := h.timestamp g; rw [k.timestamp (by rw [this]; exact g), this]
  · intro g; have := h.xTitle g; rw [k.xTitle (by rw [this]; exact g), this]
  · intro g; have := h.yTitle g; rw [k.yTitle (by rw [this]; exact g), this]

omit [UniDB] in
theorem stays_titles (dataFile : Str) (s : Plot.St) : Stays s (titles dataFile s) := by
  constructor <;> intro h
  · exact orElse_set h _
  · exact orElse_set h _
  · exact orElse_set h _
  · rfl
  · rfl

omit [UniDB] in
theorem stays_options (s : Plot.St) : Stays s (lineOptions s).1 := by
  unfold lineOptions
  constructor <;> intro h
  case xTitle =>
    obtain ⟨c, cs, e⟩ := h
    rw [e]; rfl
  case yTitle =>
    obtain ⟨c, cs, e⟩ := h
    rw [e]
    split
    · rfl
    · split <;> simp [Res.eval, Res.raise, e] <;> rfl
  all_goals
    split
    · rfl
    · split <;> rfl

theorem stays_drawn {data plot : Option Int} (r : Res Plot.St) : Stays r.1 (drawn .line data plot r).1 ∧
    ∀ x y set, (drawn .line data plot r).2 = .ok (some (.xy x y set)) → set = (drawn .line data plot r).1.set := by
  unfold drawn
  split
  · exact ⟨.of_set rfl, fun _ _ _ h => by cases h⟩
  · exact ⟨.of_set rfl, fun _ _ _ h => by cases h⟩
  · simp only [options]
    have ho := stays_options r.1
    split
    · exact ⟨ho, fun _ _ _ h => by cases h⟩
    · split
      · exact ⟨ho, fun _ _ _ h => by cases h⟩
      · exact ⟨ho, fun _ _ _ h => by cases h⟩
      · split
        · exact ⟨ho, fun _ _ _ h => by cases h⟩
        · exact ⟨ho, fun _ _ _ h => by cases h⟩
        · refine ⟨ho, fun x y set h => ?_⟩
          have h : lineImage (lineOptions r.1).1 = .ok (some (.xy x y set)) := h
          show set = (lineOptions r.1).1.set
          unfold lineImage at h
          split at h
          · cases h
          · split at h
            · split at h
              · simp only [Except.ok.injEq, Option.some.injEq, Picture.xy.injEq] at h
                exact h.2.2.symm
              · cases h
            · cases h

theorem stays_plotOn {env : Env} {reg : List HKey} (dataFile : Str) (data plot : Option Int) (c : ScanCtx) (s : Plot.St) :
    Stays s (plotOn env reg .line dataFile data plot c s).1 ∧
    ∀ x y set, (plotOn env reg .line dataFile data plot c s).2 = .ok (some (.xy x y set)) →
      set = (plotOn env reg .line dataFile data plot c s).1.set := by
  unfold plotOn
  by_cases ha : c.scan.aborted = some abortText
  · rw [if_pos ha]; exact ⟨.of_set rfl, fun _ _ _ h => by cases h⟩
  rw [if_neg ha]
  obtain ⟨h1, h2⟩ := stays_drawn (data := data) (plot := plot) (retrieved env reg .line (titles dataFile { s with ctx := c }))
  refine ⟨?_, h2⟩
  have h0 : Stays s (titles dataFile { s with ctx := c }) := (Stays.of_set (s := s) (t := { s with ctx := c }) rfl).trans (stays_titles _ _)
  refine (h0.trans ?_).trans h1
  apply Stays.of_set
  rw [retrieved_line]
  generalize readAttr env reg p!"data" (titles dataFile { s with ctx := c }).ctx = rd
  obtain ⟨a, b⟩ := rd
  cases b with
  | none => rw [lineData_set]
  | some e => rfl

theorem stays_jobs {env : Env} {reg : List HKey} : ∀ (jobs : List Job) (s : Plot.St), Stays s (afterJobs env reg .line jobs s) := by
  intro jobs
  induction jobs with
  | nil => intro s; exact .of_set rfl
  | cons j jobs ih => intro s; exact (stays_plotOn j.dataFile j.data j.plot j.ctx s).1.trans (ih _)

theorem plotOn_set {env : Env} {reg : List HKey} (dataFile : Str) (data plot : Option Int) (c : ScanCtx) (s : Plot.St)
    (ha : c.scan.aborted ≠ some abortText) :
    Stays (titles dataFile { s with ctx := c }) (plotOn env reg .line dataFile data plot c s).1 := by
  unfold plotOn
  rw [if_neg ha]
  obtain ⟨h1, _⟩ := stays_drawn (data := data) (plot := plot) (retrieved env reg .line (titles dataFile { s with ctx := c }))
  refine Stays.trans ?_ h1
  apply Stays.of_set
  rw [retrieved_line]
  generalize readAttr env reg p!"data" (titles dataFile { s with ctx := c }).ctx = rd
  obtain ⟨a, b⟩ := rd
  cases b with
  | none => rw [lineData_set]
  | some e => rfl

/-- **C113** (a defect): but the titles stay: whatever is plotted with a new object after a first scan, every plot has the number and the
command of that first scan as subtitle, and its date as time (if it has one), not its own; the first call need not even have drawn
anything. -/
theorem C113_titles_stay {env : Env} {reg : List HKey} (first : Job) (jobs : List Job) (j : Job) (c0 : ScanCtx)
    (ha : first.ctx.scan.aborted ≠ some abortText) {x y : PVal} {set : Settings}
    (hd : (plotOn env reg .line j.dataFile j.data j.plot j.ctx (afterJobs env reg .line (first :: jobs) { ctx := c0 })).2 =
      .ok (some (.xy x y set))) :
    set.subtitle = some (p!"#" ++ first.ctx.scan.scanNum ++ p!": " ++ first.ctx.scan.scanCmd) ∧
    (first.ctx.scan.date ≠ [] → set.timestamp = some first.ctx.scan.date) := by
  have h0 := plotOn_set (env := env) (reg := reg) first.dataFile first.data first.plot first.ctx { ctx := c0 } ha
  have h1 := h0.trans (stays_jobs (env := env) (reg := reg) jobs _)
  obtain ⟨h2, h3⟩ := stays_plotOn (env := env) (reg := reg) j.dataFile j.data j.plot j.ctx (afterJobs env reg .line (first :: jobs) { ctx := c0 })
  have h4 := h1.trans h2
  rw [h3 x y set hd]
  refine ⟨h4.subtitle ⟨_, _, rfl⟩, fun hne => ?_⟩
  have e : (titles first.dataFile { ctx := first.ctx, set := ({} : Settings) }).set.timestamp = some first.ctx.scan.date := rfl
  obtain ⟨a, l, e'⟩ := List.exists_cons_of_ne_nil hne
  have := h4.timestamp (by show IsSet (some first.ctx.scan.date); rw [e']; exact ⟨_, _, rfl⟩)
  rw [this]
  rfl

end
/-! ### examples -/

/-- two line scans, two meshes, and two scans in reciprocal space, the second one at one point -/
def againText : Str := demoHead ++ join p!"\n" [[], p!"#S 1 ascan  th 0 1 2 1", p!"#D Wed Jun 16 18:24:36 2010",
  p!"#N 2", p!"#L two theta  I0", p!"0.5 1", p!"1.5 3", [],
  p!"#S 2 ascan  chi 0 1 2 1", p!"#D Wed Jun 16 18:25:36 2010", p!"#N 2", p!"#L chi  I0", p!"5 10", p!"6 11", [],
  p!"#S 3 mesh  a 0 1 1  b 0 1 1  1", p!"#D Wed Jun 16 18:26:36 2010", p!"#N 3", p!"#L a  b  I", p!"0 0 1", p!"1 0 2", p!"0 1 3", p!"1 1 4", [],
  p!"#S 4 mesh  a 0 1 1  b 0 1 1  1", p!"#D Wed Jun 16 18:27:36 2010", p!"#N 3", p!"#L a  b  I", p!"0 0 5", p!"1 0 6", p!"0 1 7", p!"1 1 8", [],
  p!"#S 5 hklscan  0 1 0 0 0 0 1 1", p!"#D Wed Jun 16 18:28:36 2010", p!"#N 4", p!"#L H  K  L  I", p!"0 0 0 5", p!"1 0 0 6", [],
  p!"#S 6 hklscan  2 2 0 0 0 0 1 1", p!"#D Wed Jun 16 18:29:36 2010", p!"#N 4", p!"#L H  K  L  I", p!"2 0 0 7", p!"2 0 0 8", []]
/-- a call of `plot_scan` with a scan of this file -/
def againJob (n : Nat) : Option Job := match openText againText with
  | .ok s => match s.getScan (.int n) with
    | .ok (some x) => some ⟨⟨x, s.headerOf x⟩, p!"demo.dat", some 5, none⟩
    | _ => none
  | .error _ => none
/-- what an object draws for the scan `b` after the scan `a`, and what a new one draws -/
def againDrawn (m : Maker) (a b : Nat) : Option (Except PyErr (Option Picture) × Except PyErr (Option Picture)) :=
  letI : UniDB := asciiDB
  match againJob a, againJob b with
  | some i, some j => some ((plotOn saveEnv HKey.all m j.dataFile j.data j.plot j.ctx (afterJobs saveEnv HKey.all m [i] { ctx := i.ctx })).2,
     (plotScan saveEnv HKey.all m {} j.dataFile j.data j.plot j.ctx).2)
  | _, _ => none

/-- C113: the hypotheses are met: with one object, after scan 1, the curve of scan 2 is drawn, with the titles of scan 1. -/
theorem C113_nonvacuous : (match againDrawn .line 1 2 with
    | some (.ok (some (.xy x y set)), .ok (some (.xy x' y' set'))) =>
      decide (x = x') && decide (y = y') && decide (y = .col (.col [.fin 10, .fin 11])) &&
      decide (set.subtitle = some p!"#1: ascan  th 0 1 2 1") && decide (set'.subtitle = some p!"#2: ascan  chi 0 1 2 1") &&
      decide (set.xTitle = some p!"two theta") && decide (set'.xTitle = some p!"chi")
    | _ => false) = true := by decide +kernel

/-- C113 (a defect): a mesh plotter that is used again draws the image of the scan before, if the column has the same label, under the subtitle of
the new scan. -/
theorem C113_mesh_again : (match againDrawn .mesh 3 4 with
    | some (.ok (some (.image a _ set)), .ok (some (.image a' _ set'))) =>
      decide (a = .nd ⟨[.flt (.fin 1), .flt (.fin 2), .flt (.fin 3), .flt (.fin 4)], [2, 2]⟩) &&
      decide (a' = .nd ⟨[.flt (.fin 5), .flt (.fin 6), .flt (.fin 7), .flt (.fin 8)], [2, 2]⟩) &&
      decide (set.subtitle = set'.subtitle)
    | _ => false) = true := by decide +kernel

/-- C113 (a defect): a plotter for `hklscan` that is used again draws a scan at one point of reciprocal space over the values of H of the
scan before, not over the point numbers. -/
theorem C113_hkl_again : (match againDrawn .hkl 5 6 with
    | some (.ok (some (.xy x y _)), .ok (some (.xy x' y' _))) =>
      decide (y = y') && decide (x = .col (.col [.fin 0, .fin 1])) && decide (x' = .range 2)
    | _ => false) = true := by decide +kernel

end S2N.Props
