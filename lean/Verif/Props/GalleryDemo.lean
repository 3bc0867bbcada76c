import Verif.Props.GalleryCrash
/-
Properties C51, C53, C71, C72, C73: cases that meet the hypotheses, and what goes wrong
-/
namespace S2N.Props
open S2N Py Spec Gallery Plot

/-- an environment in which the time of a scan is the second of its date -/
def galleryEnv : Env := { demoEnv with mktime := fun tm => .ok (.int tm.sec) }

/-- the beginning of a file -/
def galHead : Str := p!"#F demo.dat\n#E 1276730676\n#D Wed Jun 16 18:24:06 2010\n#C x\n"

/-- a scan at a second of the same minute -/
def galScan (n : Str) (second : Nat) (rows : Str) : Str :=
  p!"\n#S " ++ n ++ p!" ascan  a 0 1 1 1\n#D Wed Jun 16 18:24:" ++ dd second ++ p!" 2010\n#N 2\n#L a  I\n" ++ rows

/-- the data file with this text -/
def galCfg (t : Str) (mtime : Int) : Cfg := galleryCfg [(p!"/data/demo.dat", ⟨.file (some t), mtime, t.length⟩)]

/-- the object that is read from this text -/
def galSdf (t : Str) (mtime : Int) : Except PyErr Sdf :=
  @Sdf.openFile asciiDB galleryEnv HKey.all p!"/data/demo.dat" ((galCfg t mtime).files p!"/data/demo.dat")
    ((galCfg t mtime).files p!"/data/demo.dat")

/-- a run for this file -/
def galRun (t : Str) (mtime : Int) (d : Disk) : GS × Option PyErr :=
  @plotAllScans asciiDB galleryEnv HKey.all (galCfg t mtime) p!"/data/demo.dat" { disk := d, sel := Plot.instanceOf none }

/-- two scans -/
def galText : Str := galHead ++ galScan p!"1" 20 p!"0 1\n1 2\n" ++ galScan p!"2" 30 p!"0 3\n1 4\n"

/-- the gallery directory -/
def galDir : Str := p!"/gallery/2010/06/demo"

/-- what a plot of these scans shows -/
def shown : GNode → Option (Option (List (List PyFloat)))
  | .plot (some (.xy (.col (.col x)) (.col (.col y)) _)) _ => some (some [x, y])
  | .plot _ _ => some none
  | _ => none

/-- the plot of a scan in this gallery -/
def plotAt (d : Disk) (n : Str) : Option (Option (Option (List (List PyFloat)))) :=
  (d.get? (pathJoin galDir (plotName n))).map shown

/-- the index page -/
def pageAt (d : Disk) : Option Index :=
  match d.get? (pathJoin galDir indexName) with
  | some (.index i) => i
  | _ => none

/-- C51, C71, C72, C73: a file that meets the hypotheses. -/
theorem galleried_demo : ∃ sdf, @Galleried asciiDB galleryEnv HKey.all (galCfg galText 5) p!"/data/demo.dat" galText sdf galDir ∧
    sdf.scans.keys = [p!"1", p!"2"] := by
  have h : (match galSdf galText 5 with | .ok s => decide (s.scans.keys = [p!"1", p!"2"] ∧ s.headers.length = 1) | .error _ => false) = true := by
    decide +kernel
  cases hs : galSdf galText 5 with
  | error e => rw [hs] at h; simp at h
  | ok sdf =>
    rw [hs] at h
    simp only [decide_eq_true_eq] at h
    refine ⟨sdf, @Galleried.mk asciiDB _ _ _ _ _ _ _ rfl hs ?_ (by decide +kernel) ⟨?_, by decide, by decide⟩ ?_, h.1⟩
    · intro e
      rw [e] at h
      simp at h
    · rintro ⟨stem, e⟩
      have := congrArg List.getLast? e
      simp at this
      revert this
      decide
    · intro n hn
      rw [h.1] at hn
      simp only [List.mem_cons, List.not_mem_nil, or_false] at hn
      rcases hn with rfl | rfl
      · exact ⟨⟨1, by decide +kernel, by decide +kernel⟩, by constructor <;> first | decide | (intro c t e; cases e)⟩
      · exact ⟨⟨2, by decide +kernel, by decide +kernel⟩, by constructor <;> first | decide | (intro c t e; cases e)⟩

/-- C51, C71, C72: the first run for this file makes both plots, the page and the copy; with the order of the page
reversed the later scan is the first. -/
theorem C72_nonvacuous :
    (galRun galText 5 []).2 = none ∧
    plotAt (galRun galText 5 []).1.disk p!"1" = some (some (some [[.fin 0, .fin 1], [.fin 1, .fin 2]])) ∧
    plotAt (galRun galText 5 []).1.disk p!"2" = some (some (some [[.fin 0, .fin 1], [.fin 3, .fin 4]])) ∧
    pageAt (galRun galText 5 []).1.disk = some ⟨p!"/data/demo.dat",
      [(p!"s00001.svg", p!"#1: ascan  a 0 1 1 1"), (p!"s00002.svg", p!"#2: ascan  a 0 1 1 1")], []⟩ ∧
    (pageAt (@plotAllScans asciiDB galleryEnv HKey.all { galCfg galText 5 with reversed := true } p!"/data/demo.dat"
      { disk := [], sel := Plot.instanceOf none }).1.disk).map (fun i => i.plotted.map (·.1)) =
      some [p!"s00002.svg", p!"s00001.svg"] := by decide +kernel

/-- the gallery when the first run is killed after its `k`th change -/
def killedAt (k : Nat) : Disk := ((galRun galText 5 []).1.past[k]?).getD []

/-- C51: killed when the first plot was just created, the gallery holds an empty plot, and the next runs neither
complete it nor make the second one. -/
theorem C51_not_caught_up :
    (galRun galText 5 (killedAt 3)).2 = none ∧ (galRun galText 5 (killedAt 3)).1.disk = killedAt 3 ∧
    plotAt (killedAt 3) p!"1" = some (some none) ∧ plotAt (killedAt 3) p!"2" = none := by decide +kernel

/-- C51: killed when the cache was just emptied, every later run fails. -/
theorem C51_never_again :
    (galRun galText 5 (killedAt 1)).2 = some .ValueError ∧ (galRun (galText ++ galScan p!"3" 40 p!"0 1\n") 9 (killedAt 1)).2 =
      some .ValueError := by decide +kernel

/-- C51: the empty plot counts as a plot even when the file is extended by new scans later. -/
theorem C51_empty_plot_kept :
    plotAt (galRun (galText ++ galScan p!"3" 40 p!"0 5\n1 6\n") 9 (killedAt 3)).1.disk p!"1" = some (some none) ∧
    plotAt (galRun (galText ++ galScan p!"3" 40 p!"0 5\n1 6\n") 9 (killedAt 3)).1.disk p!"2" =
      some (some (some [[.fin 0, .fin 1], [.fin 3, .fin 4]])) := by decide +kernel

/-- the gallery after the first run -/
def demo1 : Disk := (galRun galText 5 []).1.disk
/-- after a scan was added -/
def demo2 : Disk := (galRun (galText ++ galScan p!"3" 40 p!"0 5\n1 6\n") 9 demo1).1.disk
/-- after this scan went on -/
def demo3 : Disk := (galRun (galText ++ galScan p!"3" 40 p!"0 5\n1 6\n2 7\n") 11 demo2).1.disk

/-- C71: a third scan was added: nothing else is made again; then it goes on: its plot is made again. -/
theorem C71_nonvacuous :
    plotAt demo2 p!"3" = some (some (some [[.fin 0, .fin 1], [.fin 5, .fin 6]])) ∧
    plotAt demo2 p!"1" = plotAt demo1 p!"1" ∧
    plotAt demo3 p!"3" = some (some (some [[.fin 0, .fin 1, .fin 2], [.fin 5, .fin 6, .fin 7]])) ∧
    plotAt demo3 p!"2" = plotAt demo1 p!"2" := by
  refine ⟨?_, ?_, ?_, ?_⟩ <;> decide +kernel

/-- scan 5 and then scan 1 -/
def galText51 : Str := galHead ++ galScan p!"5" 20 p!"0 1\n1 2\n" ++ galScan p!"1" 30 p!"0 3\n"

/-- C71: if the numbers of the scans start again, the plot that is made again is not the one of the scan that
goes on: this one keeps its old points. -/
theorem C71_stale :
    plotAt (galRun galText51 5 []).1.disk p!"1" = some (some (some [[.fin 0], [.fin 3]])) ∧
    plotAt (galRun (galText51 ++ p!"1 4\n2 5\n") 9 (galRun galText51 5 []).1.disk).1.disk p!"1" =
      some (some (some [[.fin 0], [.fin 3]])) := by decide +kernel

/-- C72: a scan that went on and can no longer be plotted: its plot is removed, but the page still shows it and does
not tell the problem. -/
theorem C72_dangling :
    (galRun (galText ++ p!"1 4 7 8\n") 9 demo1).2 = none ∧
    plotAt (galRun (galText ++ p!"1 4 7 8\n") 9 demo1).1.disk p!"2" = none ∧
    pageAt (galRun (galText ++ p!"1 4 7 8\n") 9 demo1).1.disk = pageAt demo1 ∧
    (pageAt demo1).map (fun i => i.plotted.map (·.1)) = some [p!"s00001.svg", p!"s00002.svg"] := by decide +kernel

/-- the run for two files with the same name in different directories -/
def sharedRun : GS × Option PyErr :=
  let t2 := galHead ++ galScan p!"1" 20 p!"0 11\n1 12\n" ++ galScan p!"2" 30 p!"0 13\n1 14\n"
  @Gallery.run asciiDB galleryEnv HKey.all
    (galleryCfg [(p!"/a/demo.dat", ⟨.file (some galText), 5, galText.length⟩), (p!"/b/demo.dat", ⟨.file (some t2), 6, t2.length⟩)])
    [p!"/a/demo.dat", p!"/b/demo.dat"] { disk := [], sel := Plot.instanceOf none }

/-- C53: two files with the same name and dates in the same month share the gallery directory: it ends with scan 1 of the
first and scan 2 of the second. -/
theorem C53_shared : sharedRun.2 = none ∧
    plotAt sharedRun.1.disk p!"1" = some (some (some [[.fin 0, .fin 1], [.fin 1, .fin 2]])) ∧
    plotAt sharedRun.1.disk p!"2" = some (some (some [[.fin 0, .fin 1], [.fin 13, .fin 14]])) := by decide +kernel

/-- the file with 4 letters of two bytes in its comment, whose size is given in bytes -/
def galBytes (more : Str) (mtime : Int) (d : Disk) : GS × Option PyErr :=
  let t := p!"#F demo.dat\n#E 1276730676\n#D Wed Jun 16 18:24:06 2010\n#C éèéè\n" ++ galScan p!"1" 20 p!"0 1\n1 2\n" ++ more
  @plotAllScans asciiDB galleryEnv HKey.all (galleryCfg [(p!"/data/demo.dat", ⟨.file (some t), mtime, t.length + 4⟩)])
    p!"/data/demo.dat" { disk := d, sel := Plot.instanceOf none }

/-- C71: the old size is a number of bytes but as many characters are skipped: the scan at the old end of the file went on
by one row, and its plot keeps the old points. -/
theorem C71_bytes :
    plotAt (galBytes (p!"2 3\n" ++ galScan p!"2" 30 p!"0 1\n") 9 (galBytes [] 5 []).1.disk).1.disk p!"1" =
      some (some (some [[.fin 0, .fin 1], [.fin 1, .fin 2]])) := by decide +kernel

end S2N.Props
