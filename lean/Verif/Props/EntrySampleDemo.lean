import Verif.Props.EntrySample
/-
Examples for the diffractometer and the temperature in an entry.
-/
namespace S2N.Props
open S2N Py H5 Eznx Writer Spec

/-- two scans of a four circle diffractometer; the first one has its own set points of the temperature -/
def tempText : Str := join p!"\n" [p!"#F demo.dat", p!"#E 1276730676", p!"#D Wed Jun 16 18:24:36 2010", p!"#C fourc  User = me",
  p!"#O0 tth  th  chi  phi", p!"#X 1.5 2.5", [], p!"#S 1 ascan  th 0 1 2 1", p!"#D Wed Jun 16 18:24:36 2010",
  p!"#G0 " ++ upRow 27, p!"#G1 " ++ upRow 34, p!"#G3 " ++ upRow 9, p!"#G4 " ++ upRow 26, p!"#P0 1 2 3 4", p!"#X 12.5Kohm (45.5C)",
  p!"#N 2", p!"#L th  I0", p!"0.5 1", p!"1.5 3",
  [], p!"#S 2 ascan  th 0 1 2 1", p!"#D Wed Jun 16 18:24:36 2010",
  p!"#G0 " ++ upRow 27, p!"#G1 " ++ upRow 34, p!"#G3 " ++ upRow 9, p!"#G4 " ++ upRow 26, p!"#P0 1 2 3 4",
  p!"#N 2", p!"#L th  I0", p!"0.5 1", p!"1.5 3", []]

/-- the file object -/
def tempFile : Except PyErr Sdf :=
  @Sdf.openFile asciiDB saveEnv HKey.all p!"demo.dat" (fileAt tempText 1) (fileAt tempText 1)

/-- what the examples look at after a save -/
def tempDemo (ks : List Ref) : Option (Bool × Option PyErr × H5 × Sdf) :=
  match tempFile with
  | .error _ => none
  | .ok s =>
    let r := @save asciiDB saveEnv HKey.all saveVersions ks s
    some (@savableB asciiDB s, r.2, r.1.h5, r.1.sdf)

/-- C86, C87: the hypotheses are met by this file: both scans have a diffractometer, the first one with its own set points and
the second one with those of the header -/
theorem C86_nonvacuous : letI : UniDB := asciiDB
    ∃ s r z z2, Savable s ∧ save saveEnv HKey.all saveVersions [.int 1, .int 2] s = (r, none) ∧
      r.sdf.getScan (.int 1) = .ok (some z) ∧ r.sdf.getScan (.int 2) = .ok (some z2) ∧
      z.G.getD [] ≠ [] ∧ z2.G.getD [] ≠ [] ∧
      z.diff.map (fun d => (d.full, sampleNames d)) = some (p!"fourc.default", [p!"unit_cell_abc", p!"unit_cell_alphabetagamma",
        p!"unit_cell", p!"ub_matrix", p!"diffractometer_mode", p!"diffractometer_sector", p!"or0", p!"or1", p!"beam"]) ∧
      z.tempSP = some (.flt (.fin (25 / 2))) ∧ z2.tempSP = none ∧ (r.sdf.headerOf z2).tempSP = some (.flt (.fin (3 / 2))) := by
  letI : UniDB := asciiDB
  have hd : (match tempDemo [.int 1, .int 2] with
    | none => false
    | some (b, e, _, sdf) =>
      b && e.isNone &&
      (match sdf.getScan (.int 1), sdf.getScan (.int 2) with
      | .ok (some z), .ok (some z2) =>
        decide (z.G.getD [] ≠ []) && decide (z2.G.getD [] ≠ []) &&
        decide (z.diff.map (fun d => (d.full, sampleNames d)) = some (p!"fourc.default", [p!"unit_cell_abc", p!"unit_cell_alphabetagamma",
          p!"unit_cell", p!"ub_matrix", p!"diffractometer_mode", p!"diffractometer_sector", p!"or0", p!"or1", p!"beam"])) &&
        decide (z.tempSP = some (.flt (.fin (25 / 2)))) && decide (z2.tempSP = none) &&
        decide ((sdf.headerOf z2).tempSP = some (.flt (.fin (3 / 2))))
      | _, _ => false)) = true := by decide +kernel
  unfold tempDemo at hd
  cases hs : tempFile with
  | error e => rw [hs] at hd; cases hd
  | ok s =>
    rw [hs] at hd
    simp only at hd
    cases hr : save saveEnv HKey.all saveVersions [.int 1, .int 2] s with
    | mk r e =>
      rw [hr] at hd
      simp only at hd
      cases hz : r.sdf.getScan (.int 1) with
      | error e => rw [hz] at hd; simp at hd
      | ok o =>
        rw [hz] at hd
        cases o with
        | none => simp at hd
        | some z =>
          cases hz2 : r.sdf.getScan (.int 2) with
          | error e => rw [hz2] at hd; simp at hd
          | ok o =>
            rw [hz2] at hd
            cases o with
            | none => simp at hd
            | some z2 =>
              simp only [Bool.and_eq_true, decide_eq_true_eq, Option.isNone_iff_eq_none] at hd
              obtain ⟨⟨b1, b2⟩, ⟨⟨⟨⟨b3, b4⟩, b5⟩, b6⟩, b7⟩, b8⟩ := hd
              subst b2
              exact ⟨s, r, z, z2, savable_of_b b1, hr, hz, hz2, b3, b4, b5, b6, b7, b8⟩

/-- C86: what is written of that file -/
theorem C86_example :
    (tempDemo [.int 1, .int 2]).map (fun r => decide (datasetAt r.2.2.1 [p!"S1", p!"instrument", p!"name"] =
      some (.text [p!"fourc.default"], []))) = some true ∧
    (tempDemo [.int 1, .int 2]).map (fun r => decide (datasetAt r.2.2.1 [p!"S1", p!"sample", p!"unit_cell"] =
      some (floatsData [.fin 0, .fin 1, .fin 2, .fin 3, .fin 4, .fin 5], []))) = some true ∧
    (tempDemo [.int 1, .int 2]).map (fun r => decide (datasetAt r.2.2.1 [p!"S1", p!"sample", p!"or1", p!"k"] =
      some (floatsData [.fin 16], []))) = some true ∧
    (tempDemo [.int 1, .int 2]).map (fun r => decide (datasetAt r.2.2.1 [p!"S1", p!"sample", p!"diffractometer_mode"] =
      some (.text [p!"Omega equals zero"], []))) = some true ∧
    (geoDemo [.int 1, .int 2]).map (fun r => (objAt r.2.2.1 [p!"S2", p!"sample"]).isNone) = some true := by decide +kernel

/-- C87: what is written of that file: the first scan has its own set points, the second one those of the header -/
theorem C87_example :
    (tempDemo [.int 1, .int 2]).map (fun r => decide (datasetAt r.2.2.1 [p!"S1", p!"DEGC_SP"] =
      some (floatsData [.fin (91 / 2)], [(p!"units", .str p!"C"), (p!"description", .str p!"temperature set point (C)"),
        (p!"target", .str p!"/S1/sample/temperature/value")]))) = some true ∧
    (tempDemo [.int 1, .int 2]).map (fun r => decide (datasetAt r.2.2.1 [p!"S2", p!"sample", p!"temperature", p!"target_value"] =
      some (floatsData [.fin (3 / 2)], [(p!"description", .str p!"temperature set point"),
        (p!"target", .str p!"/S2/sample/temperature/target_value")]))) = some true ∧
    (geoDemo [.int 1, .int 2]).map (fun r => (objAt r.2.2.1 [p!"S1", p!"TEMP_SP"]).isNone) = some true := by decide +kernel

/-- a scan with set points of the temperature, without diffractometer -/
def bareText : Str := join p!"\n" [p!"#F demo.dat", p!"#E 1276730676", p!"#D Wed Jun 16 18:24:36 2010", p!"#C fourc  User = me",
  [], p!"#S 1 ascan  th 0 1 2 1", p!"#D Wed Jun 16 18:24:36 2010", p!"#X 1.5 2.5", p!"#N 2", p!"#L th  I0", p!"0.5 1", p!"1.5 3", []]

/-- C87: such a scan cannot be saved -/
theorem C87_without_geometry :
    (match @Sdf.openFile asciiDB saveEnv HKey.all p!"demo.dat" (fileAt bareText 1) (fileAt bareText 1) with
    | .error _ => false
    | .ok s => @savableB asciiDB s && decide ((@save asciiDB saveEnv HKey.all saveVersions [.int 1] s).2 = some .KeyError)) = true := by
  decide +kernel

end S2N.Props
