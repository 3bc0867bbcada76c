import Verif.Props.EntryFlat
/-
A file with positioners, #H and #V values and MCA lines.
-/
namespace S2N.Props
open S2N Py H5 Eznx Writer Spec

/-- two positioners of the same cleaned name ("Two Theta" and "Two-Theta"); the header has #H and #@CALIB lines, the scan #V,
another #@CALIB, #@CHANN and #@CTIME -/
def posText : Str := demoHead ++ join p!"\n" [[], p!"#O0 Two Theta  Chi  Two-Theta", p!"#o0 tth chi del", p!"#H0 Ring  Mode",
  p!"#@CALIB 0 1 2",
  [], p!"#S 1 ascan  th 0 1 2 1", p!"#D Wed Jun 16 18:24:36 2010", p!"#P0 10.5 90 -7", p!"#V0 102  topup",
  p!"#@CALIB 3 4 5", p!"#@CHANN 4 0 3 1", p!"#@CTIME 1 0.5 2", p!"#N 2", p!"#L th  I0", p!"0.5 1", p!"1.5 3",
  [], p!"#S 2 ascan  th 0 1 2 1", p!"#D Wed Jun 16 18:26:36 2010", p!"#P0 1 2 3", []]

/-- the file object -/
def posFile : Except PyErr Sdf :=
  @Sdf.openFile asciiDB saveEnv HKey.all p!"demo.dat" (fileAt posText 1) (fileAt posText 1)

/-- what the examples look at after a save -/
def posDemo (ks : List Ref) : Option (Bool × Option PyErr × H5 × Sdf) :=
  match posFile with
  | .error _ => none
  | .ok s =>
    let r := @save asciiDB saveEnv HKey.all saveVersions ks s
    some (@savableB asciiDB s, r.2, r.1.h5, r.1.sdf)

/-- C79, C80, C81: the hypotheses are met by this file. -/
theorem C79_nonvacuous : letI : UniDB := asciiDB
    ∃ s r z, Savable s ∧ save saveEnv HKey.all saveVersions [.int 1, .int 2] s = (r, none) ∧
      r.sdf.getScan (.int 1) = .ok (some z) ∧
      z.positioner = [(p!"Two Theta", .fin (21/2)), (p!"Chi", .fin 90), (p!"Two-Theta", .fin (-7))] ∧
      (r.sdf.headerOf z).positioner = [] ∧
      (r.sdf.headerOf z).positionerXref = some [(p!"tth", p!"Two Theta"), (p!"chi", p!"Chi"), (p!"del", p!"Two-Theta")] ∧
      z.metadata = some [(p!"Ring", .num (.fin 102)), (p!"Mode", .str p!"topup")] ∧
      z.mca.bind (·.calib) = some (.fin 3, .fin 4, .fin 5) ∧ z.mca.bind (·.chann) = some (4, 0, 3, .fin 1) ∧
      z.mca.bind (·.ctime) = some (.fin 1, .fin (1/2), .fin 2) ∧
      (r.sdf.headerOf z).mca.bind (·.calib) = some (.fin 0, .fin 1, .fin 2) := by
  letI : UniDB := asciiDB
  have hd : (match posDemo [.int 1, .int 2] with
    | none => false
    | some (b, e, _, sdf) =>
      b && e.isNone &&
      (match sdf.getScan (.int 1) with
      | .ok (some z) =>
        decide (z.positioner = [(p!"Two Theta", .fin (21/2)), (p!"Chi", .fin 90), (p!"Two-Theta", .fin (-7))]) &&
        decide ((sdf.headerOf z).positioner = []) &&
        decide ((sdf.headerOf z).positionerXref = some [(p!"tth", p!"Two Theta"), (p!"chi", p!"Chi"), (p!"del", p!"Two-Theta")]) &&
        decide (z.metadata = some [(p!"Ring", .num (.fin 102)), (p!"Mode", .str p!"topup")]) &&
        decide (z.mca.bind (·.calib) = some (.fin 3, .fin 4, .fin 5)) && decide (z.mca.bind (·.chann) = some (4, 0, 3, .fin 1)) &&
        decide (z.mca.bind (·.ctime) = some (.fin 1, .fin (1/2), .fin 2)) &&
        decide ((sdf.headerOf z).mca.bind (·.calib) = some (.fin 0, .fin 1, .fin 2))
      | _ => false)) = true := by decide +kernel
  unfold posDemo at hd
  cases hs : posFile with
  | error e => rw [hs] at hd; cases hd
  | ok s =>
    rw [hs] at hd
    simp only at hd
    cases hr : save saveEnv HKey.all saveVersions [.int 1, .int 2] s with
    | mk r e =>
      rw [hr] at hd
      simp only at hd
      cases h1 : r.sdf.getScan (.int 1) with
      | error e => rw [h1] at hd; simp at hd
      | ok o1 =>
        rw [h1] at hd
        cases o1 with
        | none => simp at hd
        | some z =>
          simp only [Bool.and_eq_true, decide_eq_true_eq, Option.isNone_iff_eq_none] at hd
          obtain ⟨⟨b1, b2⟩, ⟨⟨⟨⟨⟨⟨⟨c1, c2⟩, c3⟩, c4⟩, c5⟩, c6⟩, c7⟩, c8⟩⟩ := hd
          subst b2
          exact ⟨s, r, z, savable_of_b b1, hr, h1, c1, c2, c3, c4, c5, c6, c7, c8⟩

/-- C79: what the file says of the positioners of the first scan. -/
theorem C79_example :
    (posDemo [.int 1, .int 2]).map (fun r => (childrenAt r.2.2.1 [p!"S1", p!"positioners"], childrenAt r.2.2.1 [p!"S1", p!"instrument"])) =
      some ([p!"Two_Theta", p!"Chi"], [p!"MCA", p!"positioners", p!"metadata"]) ∧
    (posDemo [.int 1, .int 2]).map (fun r => datasetAt r.2.2.1 [p!"S1", p!"instrument", p!"positioners", p!"Two_Theta", p!"value"]) =
      some (some (.nums ⟨[.flt (.fin (-7))], [1]⟩, [(p!"spec_name", .str p!"Two-Theta"), (p!"spec_mne", .str p!"del")])) := by
  refine ⟨?_, ?_⟩ <;> decide +kernel

/-- C80: what the file says of the #V values of the first scan. -/
theorem C80_example : (posDemo [.int 1, .int 2]).map (fun r => datasetAt r.2.2.1 [p!"S1", p!"metadata", p!"Mode"]) =
      some (some (.text [p!"topup"], [(p!"spec_name", .str p!"Mode")])) := by
  decide +kernel

/-- C81: the first scan has its own calibration, the second that of the header. -/
theorem C81_example :
    (posDemo [.int 1, .int 2]).map (fun r => datasetAt r.2.2.1 [p!"S1", p!"instrument", p!"MCA", p!"calib_b"]) =
      some (some (.nums ⟨[.flt (.fin 4)], [1]⟩, [])) ∧
    (posDemo [.int 1, .int 2]).map (fun r => datasetAt r.2.2.1 [p!"S2", p!"MCA", p!"calib_b"]) =
      some (some (.nums ⟨[.flt (.fin 1)], [1]⟩, [])) := by
  refine ⟨?_, ?_⟩ <;> decide +kernel

end S2N.Props
