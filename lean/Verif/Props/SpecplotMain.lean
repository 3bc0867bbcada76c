import Verif.Model.SpecplotMain
import Verif.Props.Charts
import Verif.Props.PlotMore
import Verif.Props.Select
import Verif.Props.Untouched
/-
C105: the command specplot.
-/
namespace S2N.Props
open S2N S2N.Py S2N.Spec S2N.Plot S2N.Charts

section
variable [UniDB] (env : Env) (reg : List HKey)

/-- a picture is made only if the data file is newer than the plot -/
theorem plotScan_newer {m : Maker} {set : Settings} {dataFile : Str} {td : Int} {tp : Option Int} {c : ScanCtx} {p : Picture}
    (h : (plotScan env reg m set dataFile (some td) tp c).2 = .ok (some p)) : tp.getD 0 < td := by
  unfold plotScan at h
  split at h
  · cases h
  · generalize hr : retrieved env reg m (titles dataFile { ctx := c, set := set }) = r at *
    obtain ⟨r, e⟩ := r
    cases e with
    | some e => exfalso; revert h; cases e <;> (intro h; cases h)
    | none =>
      simp only at h
      generalize ho : options m r = o at *
      obtain ⟨o, e⟩ := o
      cases e with
      | some e => cases h
      | none =>
        simp only at h
        generalize plottable m o = b at *
        cases b with
        | error e => cases h
        | ok b =>
          cases b with
          | false => cases h
          | true =>
            simp only [newer] at h
            by_cases hd : tp.getD 0 < td
            · exact hd
            · rw [decide_eq_false hd] at h; cases h

variable (ln : Rat → Rat) (specFile : Str) (f : FileSt) (num : Str)

/-- what the run did: the cases -/
theorem specplot_cases (now : Int) (plot : Option PlotFile) :
    ((specplot env reg ln specFile f num now plot).1 = plot ∧
      ∀ now' , (specplot env reg ln specFile f num now' plot).1 = plot ∧
        (specplot env reg ln specFile f num now' plot).2 = (specplot env reg ln specFile f num now plot).2) ∨
    ((specplot env reg ln specFile f num now plot).2 = none ∧ ∃ s x m pic d,
      Sdf.openFile env reg specFile f f = .ok s ∧ s.getScan (.str num) = .ok (some x) ∧
      (Selector.auto (some x) Selector.new).2 = .ok m ∧
      (plotScan env reg m {} s.fileName (some f.mtime) (plot.map PlotFile.mtime) ⟨x, s.headerOf x⟩).2 = .ok (some pic) ∧
      draw ln pic = .ok d ∧ (specplot env reg ln specFile f num now plot).1 = some ⟨.drawn d, now⟩) := by
  unfold specplot
  cases h1 : Sdf.openFile env reg specFile f f with
  | error e => exact .inl ⟨rfl, fun _ => ⟨rfl, rfl⟩⟩
  | ok s =>
    simp only
    cases h2 : s.getScan (.str num) with
    | error e => exact .inl ⟨rfl, fun _ => ⟨rfl, rfl⟩⟩
    | ok scan =>
      simp only
      cases h3 : (Selector.auto scan Selector.new).2 with
      | error e => exact .inl ⟨rfl, fun _ => ⟨rfl, rfl⟩⟩
      | ok m =>
        cases scan with
        | none => exact .inl ⟨rfl, fun _ => ⟨rfl, rfl⟩⟩
        | some x =>
          simp only
          cases h4 : (plotScan env reg m {} s.fileName (some f.mtime) (plot.map PlotFile.mtime) ⟨x, s.headerOf x⟩).2 with
          | error e => exact .inl ⟨rfl, fun _ => ⟨rfl, rfl⟩⟩
          | ok o =>
            cases o with
            | none => exact .inl ⟨rfl, fun _ => ⟨rfl, rfl⟩⟩
            | some pic =>
              simp only
              cases h5 : draw ln pic with
              | error e => exact .inl ⟨rfl, fun _ => ⟨rfl, rfl⟩⟩
              | ok d => exact .inr ⟨rfl, s, x, m, pic, d, rfl, h2, h3, h4, h5, rfl⟩

/-- C105: if the command fails, the plot file is as it was. -/
theorem C105_fails (now : Int) (plot : Option PlotFile) (h : (specplot env reg ln specFile f num now plot).2 ≠ none) :
    (specplot env reg ln specFile f num now plot).1 = plot := by
  rcases specplot_cases env reg ln specFile f num now plot with ⟨h1, _⟩ | ⟨h1, _⟩
  · exact h1
  · exact absurd h1 h

/-- C105: if the plot file is changed, then it is what is drawn for the scan of this number (getScan) in the file, by the image
maker that Selector chooses; and the data file was newer. -/
theorem C105_written (now : Int) (plot : Option PlotFile) (h : (specplot env reg ln specFile f num now plot).1 ≠ plot) :
    (plot.map PlotFile.mtime).getD 0 < f.mtime ∧ (specplot env reg ln specFile f num now plot).2 = none ∧ ∃ s x m pic d,
      Sdf.openFile env reg specFile f f = .ok s ∧ s.getScan (.str num) = .ok (some x) ∧
      ((selectorAfter []).auto (some x)).2 = .ok m ∧
      (plotScan env reg m {} s.fileName (some f.mtime) (plot.map PlotFile.mtime) ⟨x, s.headerOf x⟩).2 = .ok (some pic) ∧
      draw ln pic = .ok d ∧ (specplot env reg ln specFile f num now plot).1 = some ⟨.drawn d, now⟩ := by
  rcases specplot_cases env reg ln specFile f num now plot with ⟨h1, _⟩ | ⟨h1, s, x, m, pic, d, h2, h3, h4, h5, h6, h7⟩
  · exact absurd h1 h
  · exact ⟨plotScan_newer env reg h5, h1, s, x, m, pic, d, h2, h3, h4, h5, h6, h7⟩

/-- C105: a plot file at least as new as the data file is left as it is (in particular the data file itself, if it is given as the
plot file too). -/
theorem C105_older (now : Int) (p : PlotFile) (h : f.mtime ≤ p.mtime) :
    (specplot env reg ln specFile f num now (some p)).1 = some p := by
  rcases specplot_cases env reg ln specFile f num now (some p) with ⟨h1, _⟩ | ⟨_, s, x, m, pic, d, h2, h3, h4, h5, h6, h7⟩
  · exact h1
  · have := plotScan_newer env reg h5
    simp at this
    omega

/-- C105: after a run, a second one changes nothing, unless the data file is changed. -/
theorem C105_again (now later : Int) (plot : Option PlotFile) (h : f.mtime ≤ now) :
    (specplot env reg ln specFile f num later (specplot env reg ln specFile f num now plot).1).1 =
      (specplot env reg ln specFile f num now plot).1 := by
  rcases specplot_cases env reg ln specFile f num now plot with ⟨h1, h2⟩ | ⟨_, s, x, m, pic, d, h2, h3, h4, h5, h6, h7⟩
  · rw [h1]; exact (h2 later).1
  · rw [h7]; exact C105_older env reg ln specFile f num later _ h

/-- C105: a file that cannot be opened gives the error of opening it (C02, C93); a number that getScan does not find gives
UnexpectedObjectTypeError. -/
theorem C105_refused (now : Int) (plot : Option PlotFile) :
    (∀ e, Sdf.openFile env reg specFile f f = .error e → specplot env reg ln specFile f num now plot = (plot, some e)) ∧
    (∀ s, Sdf.openFile env reg specFile f f = .ok s → s.getScan (.str num) = .ok none →
      specplot env reg ln specFile f num now plot = (plot, some .UnexpectedObjectTypeError)) := by
  constructor
  · intro e h; unfold specplot; rw [h]
  · intro s h h'; unfold specplot; rw [h]; simp only; rw [h']; rfl

omit [UniDB] in
/-- a new selector has only the line plotter -/
theorem new_only {k : Str} {v : Maker} (h : (selectorAfter []).get k = some v) : v = .line := by
  have e : selectorAfter [] = ⟨[(p!"__default__", .line)]⟩ := rfl
  rw [e] at h
  have := Dict.mem_of_get? h
  simp at this
  exact this.2

omit [UniDB] in
theorem new_after : Selector.new = selectorAfter [] := rfl

variable (hr : reg.Perm HKey.all)

include hr in
/-- **C105**: the command on a file with the scan.  The file has no #P lines in its headers (C70), the macro of the scan is
neither `hklscan` nor one that ends with `mesh`, the scan can be interpreted (C92), its labels are all different, it has data
lines and a row, and the plot file is older or missing: then the plot file holds one point per row of the table of the scan, with
the value of the first and that of the last column. -/
theorem C105_plots (now : Int) (plot : Option PlotFile) (hnew : (plot.map PlotFile.mtime).getD 0 < f.mtime) {s : Sdf}
    (ho : Sdf.openFile env reg specFile f f = .ok s) {texts : List Str} (ht : dissectFile f.node = .ok texts)
    (hP : ∀ t ∈ texts, isHeaderText t = true → ∀ l ∈ splitlines t, hKind .P l = false)
    {x : Obj} (hx : s.getScan (.str num) = .ok (some x)) {m : Str} (hm : macroOf x = some m) (hm1 : m ≠ p!"hklscan")
    (hm2 : ¬ ∃ a, lower m = a ++ p!"mesh")
    (hok : (interpretScan env reg ⟨x, s.headerOf x⟩).2 = none) (hl : dataLinesOf (scanLines x.raw) ≠ [])
    {labels : List Str} (hs : StatedLabels (scanLines x.raw) labels) (hn : labels.Nodup)
    (hmca : p!"_mca_" ∉ labels ∨ ∀ l ∈ dataLinesOf (scanLines x.raw), isMcaLine l = false) (hne : labels ≠ []) :
    ∃ rows, ScanRows x.raw labels rows ∧ (rows ≠ [] → specplot env reg ln specFile f num now plot =
      (some ⟨.drawn (.points (rows.map fun r => (r.getD 0 .nan, r.getD (labels.length - 1) .nan)) false false), now⟩, none)) := by
  have hfr : Fresh x := by
    have := C70_untouched env reg hr specFile f f s ho texts ht hP
    obtain ⟨k, hk⟩ := getScan_mem hx
    exact this _ (Dict.mem_of_get? hk)
  have hmk : ((selectorAfter []).auto (some x)).2 = .ok .line := by
    obtain ⟨v, h1, h2, -⟩ := C54_auto [] x m hm
    rw [h1]
    congr 1
    rcases h2 with h2 | ⟨h2, d, h3, h4⟩
    · exact new_only h2
    · by_cases hsc : ∃ a, lower m = a ++ p!"scan"
      · exact h4.scan hm1 hsc
      · rw [h4.other hsc hm2]; exact new_only h3
  obtain ⟨first, hfst⟩ : ∃ a, labels.head? = some a := by cases labels with | nil => exact absurd rfl hne | cons a l => exact ⟨a, rfl⟩
  obtain ⟨last, hlst⟩ : ∃ a, labels.getLast? = some a := by
    rw [List.getLast?_eq_getLast_of_ne_nil hne]; exact ⟨_, rfl⟩
  obtain ⟨rows, h1, h2⟩ := C104_scan env reg hr ln ⟨x, s.headerOf x⟩ hfr hok hl s.fileName f.mtime (plot.map PlotFile.mtime) hnew labels hs hn hmca
    first last hfst hlst
  refine ⟨rows, h1, fun hne => ?_⟩
  obtain ⟨pic, g1, g2⟩ := h2 hne
  unfold specplot
  rw [ho]
  simp only
  rw [hx]
  simp only
  rw [new_after, hmk]
  simp only
  rw [g1]
  simp only
  rw [g2]

include hr in
/-- **C105**: the command on a file with a mesh scan, under the conditions of C56: it draws the image of the mesh (`MeshDrawing`), or
raises IndexError and changes nothing if only the first row was measured. -/
theorem C105_mesh (now : Int) (plot : Option PlotFile) (hnew : (plot.map PlotFile.mtime).getD 0 < f.mtime) {s : Sdf}
    (ho : Sdf.openFile env reg specFile f f = .ok s) {texts : List Str} (ht : dissectFile f.node = .ok texts)
    (hP : ∀ t ∈ texts, isHeaderText t = true → ∀ l ∈ splitlines t, hKind .P l = false)
    {x : Obj} (hx : s.getScan (.str num) = .ok (some x))
    (hok : (interpretScan env reg ⟨x, s.headerOf x⟩).2 = none) (hl : dataLinesOf (scanLines x.raw) ≠ [])
    (hmca : ∀ l ∈ dataLinesOf (scanLines x.raw), isMcaLine l = false) {line1 : Str} (hl1 : (splitlines x.raw).head? = some line1)
    {w w1 s1 e1 t1 w2 s2 e2 t2 t : Str} {n1 : Nat} {n2 : Int}
    (hcmd : splitWs x.scanCmd = [w, w1, s1, e1, t1, w2, s2, e2, t2, t]) (hm : ∃ a, lower w = a ++ p!"mesh")
    (hn1 : parseInt t1 = some (n1 : Int)) (hn2 : parseInt t2 = some n2) (hw1 : w1 ≠ p!"_mca_") (hw2 : w2 ≠ p!"_mca_") :
    ∃ labels names rows, StatedLabels (scanLines x.raw) labels ∧ Renamed labels names ∧ ScanRows x.raw names rows ∧
      (rows ≠ [] → n1 ≤ rows.length → p!"_mca_" ∉ names → ∀ l1 l2 last, NamedColumn names w1 0 l1 → NamedColumn names w2 1 l2 → l1 ≠ l2 →
        labels.getLast? = some last → cleanName last = .ok last → last ≠ l1 → last ≠ l2 →
        (p!"hkl" <+: x.scanCmd → last ∉ [p!"H", p!"K", p!"L"] ∧
          ∃ a ∈ [p!"H", p!"K", p!"L"], a ∈ names ∧ a ≠ l1 ∧ a ≠ l2) →
        (rows.length ≤ n1 + 1 → specplot env reg ln specFile f num now plot = (plot, some .IndexError)) ∧
        (1 ≤ n1 → n1 + 1 < rows.length → ∃ d, specplot env reg ln specFile f num now plot = (some ⟨.drawn d, now⟩, none) ∧
          MeshDrawing names rows l1 l2 last n1 d)) := by
  have hfr : Fresh x := by
    have := C70_untouched env reg hr specFile f f s ho texts ht hP
    obtain ⟨k, hk⟩ := getScan_mem hx
    exact this _ (Dict.mem_of_get? hk)
  have hmk : ((selectorAfter []).auto (some x)).2 = .ok .mesh := by
    obtain ⟨v, h1, h2, -⟩ := C54_auto [] x w (by unfold macroOf; rw [hcmd]; rfl)
    rw [h1]
    congr 1
    rcases h2 with h2 | ⟨h2, d, h3, h4⟩
    · exfalso
      have e : selectorAfter [] = ⟨[(p!"__default__", .line)]⟩ := rfl
      rw [e] at h2
      have := Dict.mem_of_get? h2
      simp at this
      obtain ⟨a, ha⟩ := hm
      rw [this.1] at ha
      have := congrArg List.getLast? ha
      rw [List.getLast?_append] at this
      have h' : List.getLast? (lower p!"__default__") = some 'h' := this
      revert h'
      decide +kernel
    · exact h4.mesh hm
  obtain ⟨labels, names, rows, h1, h2, h3, h4⟩ := C104_mesh env reg hr ln ⟨x, s.headerOf x⟩ hfr hok hl hmca s.fileName f.mtime
    (plot.map PlotFile.mtime) hnew line1 hl1 w w1 s1 e1 t1 w2 s2 e2 t2 t n1 n2 hcmd hn1 hn2 hw1 hw2
  refine ⟨labels, names, rows, h1, h2, h3, ?_⟩
  intro a1 a2 a3 l1 l2 last a4 a5 a6 a7 a8 a9 a10 a11
  obtain ⟨pic, g1, g2, g3⟩ := h4 a1 a2 a3 l1 l2 last a4 a5 a6 a7 a8 a9 a10 a11
  have key : specplot env reg ln specFile f num now plot = match draw ln pic with
      | .error e => (plot, some e)
      | .ok d => (some ⟨.drawn d, now⟩, none) := by
    unfold specplot
    rw [ho]
    simp only
    rw [hx]
    simp only
    rw [new_after, hmk]
    simp only
    rw [g1]
    simp only
    cases draw ln pic <;> rfl
  constructor
  · intro h; rw [key, g2 h]
  · intro b1 b2
    obtain ⟨d, d1, d2⟩ := g3 b1 b2
    exact ⟨d, by rw [key, d1], d2⟩

end

/-! ### Examples -/

/-- a file with a line scan and a mesh scan that was stopped when its first row was complete -/
def specplotText : Str := join ['\n'] [p!"#F f.dat", p!"#E 1", p!"#D Mon Nov 17 00:00:01 1980", p!"#C x", p!"",
  p!"#S 1 ascan a 0 1 1 1", p!"#D Mon Nov 17 00:00:01 1980", p!"#N 2", p!"#L a  I", p!"0 5", p!"1 7", p!"",
  p!"#S 2 mesh a 0 1 1 b 0 2 2 1", p!"#D Mon Nov 17 00:00:01 1980", p!"#N 3", p!"#L a  b  I", p!"0 0 1", p!"1 0 2", p!"",
  p!"#S 3 mesh a 0 1 1 b 0 2 2 1", p!"#D Mon Nov 17 00:00:01 1980", p!"#N 3", p!"#L a  b  I", p!"0 0 1", p!"1 0 2", p!"0 1 3", p!""]

/-- the command for this file, made at the time 5 -/
def specplotRun (num : Str) (now : Int) (plot : Option PlotFile) : Option PlotFile × Option PyErr :=
  @specplot asciiDB demoEnv HKey.all someLog p!"f.dat" ⟨.file (some specplotText), 5, 0⟩ num now plot

/-- C105: the command at work: a plot of the line scan, over an older file; a second run; the data file given as plot file; a number
that is not there; the two mesh scans. -/
theorem C105_nonvacuous :
    specplotRun p!"1" 9 (some ⟨.other p!"x", 4⟩) = (some ⟨.drawn (.points [(.fin 0, .fin 5), (.fin 1, .fin 7)] false false), 9⟩, none) ∧
    specplotRun p!"1" 12 (some ⟨.drawn (.points [(.fin 0, .fin 5), (.fin 1, .fin 7)] false false), 9⟩) =
      (some ⟨.drawn (.points [(.fin 0, .fin 5), (.fin 1, .fin 7)] false false), 9⟩, none) ∧
    specplotRun p!"1" 9 (some ⟨.other specplotText, 5⟩) = (some ⟨.other specplotText, 5⟩, none) ∧
    specplotRun p!"7" 9 none = (none, some .UnexpectedObjectTypeError) ∧
    specplotRun p!"2" 9 none = (none, some .IndexError) ∧
    specplotRun p!"3" 9 none = (some ⟨.drawn (.pixels [.fin (-1/2), .fin (1/2), .fin (3/2)] [.fin (-1/2), .fin (1/2), .fin (3/2)]
      [some 1, some 2, some 3, none]), 9⟩, none) := by
  decide +kernel

end S2N.Props
