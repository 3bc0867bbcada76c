import Verif.Props.History
import Verif.Props.ArriveDemo
/-
C110: examples.
-/
namespace S2N.Props
open S2N S2N.Py S2N.Spec S2N.H5 S2N.Writer Eznx

/-- the sections of the file with a scan, a mesh and a scan without data -/
def aloneTexts : List Str := match dissectFile (.file (some (aloneText p!"I"))) with
  | .ok texts => texts
  | .error _ => []

/-- C110: the hypotheses are met by this file, after the data of the mesh were read, the other scans were saved, and a save of a scan
that is not there failed; two of the scans have been read then. -/
theorem C110_nonvacuous : letI : UniDB := asciiDB
    ∃ s t, Sdf.openFile saveEnv HKey.all p!"demo.dat" (fileAt (aloneText p!"I") 1) (fileAt (aloneText p!"I") 1) = .ok s ∧
      dissectFile (fileAt (aloneText p!"I") 1).node = .ok aloneTexts ∧
      (∀ t ∈ aloneTexts, isHeaderText t = true → ∀ l ∈ splitlines t, hKind .P l = false) ∧
      (∀ t ∈ aloneTexts, isScanText t = true → ofKind .O (scanLines t) = []) ∧
      History saveEnv HKey.all s t ∧ s.scans.map (fun p => (p.1, p.2.interpreted)) = [(p!"1", false), (p!"2", false), (p!"3", false)] ∧
      t.scans.map (fun p => (p.1, p.2.interpreted)) = [(p!"1", true), (p!"2", true), (p!"3", false)] ∧
      (save saveEnv HKey.all saveVersions [.int 7] s).2 = some .AttributeError := by
  letI : UniDB := asciiDB
  have ht : dissectFile (.file (some (aloneText p!"I"))) = .ok aloneTexts ∧ calmB aloneTexts = true ∧
    (∀ t ∈ aloneTexts, isScanText t = true → ofKind .O (scanLines t) = []) := by decide +kernel
  have hd : (match openText (aloneText p!"I") with
    | .error _ => false
    | .ok s =>
      let t1 := (s.access saveEnv HKey.all p!"2" p!"data").1
      let t2 := (save saveEnv HKey.all saveVersions [.int 1] t1).1.sdf
      let t3 := (save saveEnv HKey.all saveVersions [.int 7] t2).1.sdf
      decide (s.scans.map (fun p => (p.1, p.2.interpreted)) = [(p!"1", false), (p!"2", false), (p!"3", false)]) &&
      decide (t3.scans.map (fun p => (p.1, p.2.interpreted)) = [(p!"1", true), (p!"2", true), (p!"3", false)]) &&
      decide ((save saveEnv HKey.all saveVersions [.int 7] s).2 = some .AttributeError) &&
      (match s.scans.get? p!"2" with
        | some x => decide ((interpretScan saveEnv HKey.all ⟨x, s.headerOf x⟩).2 = none)
        | none => false) &&
      (match s.getScan (.int 1) with
        | .ok (some x) => decide ((interpretScan saveEnv HKey.all ⟨x, s.headerOf x⟩).2 = none) && decide (macroOf x = some p!"ascan")
        | _ => false) &&
      (match s.getScan (.int 7) with
        | .ok none => true
        | _ => false)) = true := by decide +kernel
  cases hs : openText (aloneText p!"I") with
  | error e => rw [hs] at hd; cases hd
  | ok s =>
    rw [hs] at hd
    simp only [Bool.and_eq_true, decide_eq_true_eq] at hd
    obtain ⟨⟨⟨⟨⟨c1, c2⟩, c3⟩, c4⟩, c5⟩, c6⟩ := hd
    refine ⟨s, _, hs, ht.1, (plain_of_b ht.2.1).noP, ht.2.2, ?_, c1, c2, c3⟩
    refine .saved _ _ (.saved _ _ (.read _ _ .opened ?_) ?_) ?_
    · intro x hx
      rw [hx] at c4
      simpa using c4
    · intro k hk x hx
      simp only [List.mem_cons, List.not_mem_nil, or_false] at hk
      subst hk
      rw [hx] at c5
      simp only [Bool.and_eq_true, decide_eq_true_eq] at c5
      refine ⟨c5.1, ?_⟩
      intro m hm e
      rw [c5.2] at e
      injection e with e
      subst e
      revert hm; decide
    · intro k hk x hx
      simp only [List.mem_cons, List.not_mem_nil, or_false] at hk
      subst hk
      rw [hx] at c6
      cases c6

/-- a scan with a line that cannot be read, before its data -/
def badText : Str := demoHead ++ join p!"\n" [[], p!"#S 1 ascan  th 0 1 2 1", p!"#D Wed Jun 16 18:24:36 2010", p!"#N x", p!"#L th  I0",
  p!"0.5 1", p!"1.5 3", []]

/-- C110: the scans that were used must be readable: if the reading of an attribute failed at a line of the scan, the same reading
does not raise an exception when it is repeated (and there are no data). -/
theorem C110_unreadable_matters :
    (match openText badText with
      | .error _ => none
      | .ok s =>
        let r1 := @Sdf.access asciiDB saveEnv HKey.all p!"1" p!"data" s
        let r2 := @Sdf.access asciiDB saveEnv HKey.all p!"1" p!"data" r1.1
        some (r1.2, r2.2, (r2.1.scans.get? p!"1").map (fun x => decide (x.data = [])))) =
      some (some .ValueError, none, some true) := by decide +kernel

/-- C110: and no mesh must have been saved: the second save raises an exception (the first took the labels of the axes from the list
of labels of the scan). -/
theorem C110_mesh_matters :
    (match openText (aloneText p!"I") with
      | .error _ => none
      | .ok s =>
        let r1 := @save asciiDB saveEnv HKey.all saveVersions [.int 2] s
        let r2 := @save asciiDB saveEnv HKey.all saveVersions [.int 2] r1.1.sdf
        some (r1.2, r2.2)) = some (none, some .ValueError) := by decide +kernel

end S2N.Props
