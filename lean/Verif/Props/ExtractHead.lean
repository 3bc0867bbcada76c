import Verif.Props.Extract
import Verif.Props.GalleryRun
/-! # C77: the heading in the output of extractSpecScan -/
namespace S2N.Props
open S2N S2N.Py S2N.Dict S2N.Res S2N.Spec

theorem listing_sorted {α : Type} (tag : Str) (text : α → Str) (d : Dict α) :
    Listing tag text d ((sortedItems d).map (fun p => tag ++ p!"\t" ++ p.1 ++ p!"\t" ++ text p.2)) := by
  refine ⟨sortedItems d, sortBy_perm _ _, ?_, rfl⟩
  exact sortBy_sorted _ (fun a b => strLe_total a.1 b.1) (fun a b c => strLe_trans a.1 b.1 c.1) d

theorem join_splitC (c d : Char) : ∀ s : Str, join [d] (splitC c s) = s.map (fun x => if x = c then d else x) := by
  intro s
  induction s with
  | nil => rfl
  | cons x s ih =>
    unfold splitC at ih ⊢
    simp only [splitP]
    by_cases hx : x = c
    · subst hx
      simp only [beq_self_eq_true, if_true, List.map_cons]
      rw [join_cons _ _ _ (splitP_ne_nil _ _), ih]; rfl
    · simp only [beq_false_of_ne hx, List.map_cons, if_neg hx]
      rw [← ih]
      cases hs : splitP (· == c) s with
      | nil => exact absurd hs (splitP_ne_nil _ _)
      | cons w ws =>
        cases ws with
        | nil => simp [join]
        | cons w2 ws => simp [join]

theorem heading_spec (show_ : PyFloat → Str) (a : Extract.Args) (x : Obj) :
    Heading show_ a x (Extract.headingText show_ a x) := by
  unfold Extract.headingText
  refine ⟨_, _, _, _, rfl, ?_, ?_, ?_, ?_⟩
  · cases hG : a.G
    · simp
    · simp only [if_true]
      have := listing_sorted p!"#G" (fun t => t.map (fun c => if c = ' ' then '\t' else c)) (x.G.getD [])
      simp only [join_splitC]
      exact this
  · cases hP : a.P
    · simp
    · exact listing_sorted p!"#P" show_ x.positioner
  · cases hQ : a.Q
    · simp
    · cases hq : x.Q with
      | none => simp
      | some q => cases q <;> simp
  · cases hV : a.V
    · simp
    · have := listing_sorted p!"#V" (fun v : MVal => match v with | .num n => show_ n | .str s => s) (x.metadata.getD [])
      exact this

section
variable [UniDB] (env : Env) (reg : List HKey)

/-- **C77**: a run without error, and a scan `t` of it (whose output file is not written again for
a later one).  If the scan as read has all columns asked for, then its output begins with the names of
the file and the scan and the lines of the heading asked for.  (The header with which the scan is read
is that of the file, if it is the first of the run; reading scans can change the header, see C26.) -/
theorem C77_heading (hr : reg.Perm HKey.all) (show_ : PyFloat → Str) (a : Extract.Args) (c : Con)
    (hok : (Extract.main env reg show_ a c).2 = none)
    (scans : List Str) (hsc : Extract.expandTerms a.scan = .ok scans) (sdf : Sdf)
    (ho : Sdf.openFile env reg a.specFile (Stored.file (c.fs.at? a.specFile)) (Stored.file (c.fs.at? a.specFile)) = .ok sdf)
    (pre : List Str) (t : Str) (post : List Str) (hs : scans = pre ++ t :: post)
    (hp : ∀ u ∈ post, c.fs.real (Extract.outputName a.specFile u) ≠ c.fs.real (Extract.outputName a.specFile t))
    (x : Obj) (hx : sdf.getScan (.str t) = .ok (some x)) :
    ∃ h, (interpretScan env reg ⟨x, h⟩).2 = none ∧ (pre = [] → h = sdf.headerOf x) ∧
      ((∀ l ∈ a.column, l ∈ (interpretScan env reg ⟨x, h⟩).1.scan.L.getD []) →
        ∃ lines rest, Heading show_ a (interpretScan env reg ⟨x, h⟩).1.scan lines ∧
          (Extract.main env reg show_ a c).1.fs.at? (Extract.outputName a.specFile t) =
            some (.text (some (join p!"\n" ([p!"# file: " ++ a.specFile, p!"# scan: " ++ t] ++ framed lines) ++ p!"\n" ++
              join p!"\n" rest)) 0 0)) := by
  obtain ⟨scans', sdf', q1, q2, q3, q4, q5⟩ := run_scan env reg hr show_ a c hok
  rw [hsc] at q1; cases q1
  rw [ho] at q2; cases q2
  obtain ⟨c1, x0, h, e1, e2, e7, e3, e4, e5, e6⟩ := q5 pre t post hs
  rw [hx] at e1; cases e1
  refine ⟨h, e2, e7, fun hc => ?_⟩
  unfold Fs.at?
  rw [q3, e6 _ hp]
  generalize (interpretScan env reg ⟨x, h⟩).1.scan = y at *
  unfold Extract.report at e5 ⊢
  simp only at e5 ⊢
  have hfs := foldl_fs (fun c l => if l ∈ y.L.getD [] then c else c.say a.level.verb (Extract.notFound l t))
    (by intro c l; split; rfl; exact say_fs _ _ _) a.column c1
  generalize hgc : (List.foldl (fun c l => if l ∈ y.L.getD [] then c else c.say a.level.verb (Extract.notFound l t)) c1 a.column) = c2 at *
  have hfil : (a.column.filter (fun l => decide (l ∈ y.L.getD []))) = a.column :=
    List.filter_eq_self.2 (fun l hl => decide_eq_true (hc l hl))
  rw [if_pos (by rw [hfil])] at e5 ⊢
  cases hd : Extract.dataText show_ a y with
  | error e => rw [hd] at e5; cases e5
  | ok txt =>
    rw [hd] at e5
    simp only [Res.eval_ok] at e5 ⊢
    split at e5
    · cases e5
    · rename_i hre
      rw [if_neg hre]
      refine ⟨Extract.headingText show_ a y, txt, heading_spec show_ a y, ?_⟩
      simp only [Res.ok]
      rw [foldl_fs _ (fun c l => say_fs _ _ _), say_fs, ← e3, ← hfs]
      exact Dict.get?_set_self _ _ _

end

/-- the scan of C40's file, with all that can be said of its heading -/
def headText : Str := p!"#F demo\n#E 1\n#D Sat Jul 04 16:44:32 2020\n#C demo\n#O0 mu  eta\n\n#S 1 ascan th 1 2 1 1\n#D Sat Jul 04 16:44:32 2020\n#G0 4 5\n#Q 1 0 0.5\n#P0 1.5 2\n#N 2\n#L th  I0\n1 7\n"

/-- a run on it with all options -/
def headDemo : Res Con :=
  @Extract.main asciiDB saveEnv HKey.all (fun x => match x with | .fin q => intStr q.num ++ p!"/" ++ natStr q.den | _ => p!"nan")
    { specFile := p!"demo.dat", scan := [p!"1"], column := [p!"th"], level := .quiet, G := true, P := true, Q := true }
    { fs := { real := id, writable := fun _ => true, files := [(p!"demo.dat", .text (some headText) 1 1)] } }

theorem C77_nonvacuous : headDemo.2 = none ∧
    (match headDemo.1.fs.at? p!"demo_1.dat" with
      | some (.text (some t) _ _) => some t
      | _ => none) = some (join p!"\n" [p!"# file: demo.dat", p!"# scan: 1", p!"#", p!"# data from scan heading",
        p!"#G\tG0\t4\t5", p!"#P\teta\t2/1", p!"#P\tmu\t3/2", p!"#Q\t1/1\t0/1\t1/2", p!"#", p!"# scan data:", p!"#",
        p!"# th", p!"1/1"]) := by
  refine ⟨?_, ?_⟩ <;> decide +kernel

end S2N.Props
