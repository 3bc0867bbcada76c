import Verif.Props.ArriveGeo
import Verif.Props.ArriveDemo
/-
A file that is converted (C98).
-/
namespace S2N.Props
open S2N Py H5 Eznx Writer Spec

/-- a file with two headers: the first one does not state the geometry, the second one does -/
def gonioText : Str := join p!"\n" [p!"#F demo", p!"#E 10", p!"#D Wed Jun 16 18:24:00 2010", p!"#C no geometry here", p!"#O0 tth  om  chi  phi",
  [], p!"#S 1 ascan  om 0 1 2 1", p!"#D Wed Jun 16 18:24:36 2010", p!"#G0 0", p!"#G0 " ++ upRow 27, p!"#G1 " ++ upRow 34, p!"#G3 " ++ upRow 9, p!"#G4 " ++ upRow 26,
  p!"#P0 1 2 3 4", p!"#N 2", p!"#L om  I0", p!"0.5 1", p!"1.5 3",
  [], p!"#E 20", p!"#D Wed Jun 16 18:25:00 2010", p!"#C twoc  User = me", p!"#O0 tth  th",
  [], p!"#S 2 ascan  th 0 1 2 1", p!"#D Wed Jun 16 18:25:36 2010", p!"#G1 " ++ upRow 11, p!"#G4 " ++ upRow 4,
  p!"#N 2", p!"#L th  I0", p!"0.5 1", p!"1.5 3"]

/-- the file object -/
def gonioFile : Except PyErr Sdf :=
  @Sdf.openFile asciiDB saveEnv HKey.all p!"demo.dat" (fileAt gonioText 1) (fileAt gonioText 1)

/-- the sections of the file -/
def gonioTexts : List Str := match dissectFile (.file (some gonioText)) with
  | .ok texts => texts
  | .error _ => []

/-- what the examples look at after a save -/
def gonioDemo (ks : List Ref) : Option (Option PyErr × H5 × Sdf) :=
  match gonioFile with
  | .error _ => none
  | .ok s =>
    let r := @save asciiDB saveEnv HKey.all saveVersions ks s
    some (r.2, r.1.h5, s)

/-- C98: the file is converted, and the texts of its scans and headers are these. -/
theorem C98_nonvacuous : letI : UniDB := asciiDB
    ∃ s r x y, Conversion saveEnv HKey.all gonioTexts s [.int 1, .int 2] r ∧ s.getScan (.int 1) = .ok (some x) ∧ s.getScan (.int 2) = .ok (some y) ∧
      x.raw = gonioTexts.getD 2 [] ∧ (s.headerOf x).raw = gonioTexts.getD 1 [] ∧ y.raw = gonioTexts.getD 4 [] ∧ (s.headerOf y).raw = gonioTexts.getD 3 [] := by
  letI : UniDB := asciiDB
  have ht : dissectFile (.file (some gonioText)) = .ok gonioTexts ∧ calmB gonioTexts = true := by decide +kernel
  have hd : (match gonioDemo [.int 1, .int 2] with
    | none => false
    | some (e, _, s) =>
      e.isNone &&
      (match s.getScan (.int 1), s.getScan (.int 2) with
      | .ok (some x), .ok (some y) =>
        decide (x.raw = gonioTexts.getD 2 []) && decide ((s.headerOf x).raw = gonioTexts.getD 1 []) &&
        decide (y.raw = gonioTexts.getD 4 []) && decide ((s.headerOf y).raw = gonioTexts.getD 3 [])
      | _, _ => false)) = true := by decide +kernel
  unfold gonioDemo at hd
  cases hs : gonioFile with
  | error e => rw [hs] at hd; cases hd
  | ok s =>
    rw [hs] at hd
    simp only at hd
    cases hr : save saveEnv HKey.all saveVersions [.int 1, .int 2] s with
    | mk r e =>
      rw [hr] at hd
      simp only at hd
      cases h1 : s.getScan (.int 1) with
      | error e => rw [h1] at hd; simp at hd
      | ok o1 =>
        cases h2 : s.getScan (.int 2) with
        | error e => rw [h1, h2] at hd; cases o1 <;> simp at hd
        | ok o2 =>
          rw [h1, h2] at hd
          cases o1 with
          | none => simp at hd
          | some x =>
            cases o2 with
            | none => simp at hd
            | some y =>
              simp only [Bool.and_eq_true, decide_eq_true_eq, Option.isNone_iff_eq_none] at hd
              obtain ⟨b2, ⟨⟨c1, c2⟩, c3⟩, c4⟩ := hd
              subst b2
              refine ⟨s, r, x, y, ⟨⟨_, _, _, hs, ht.1⟩, plain_of_b ht.2, ?_, ⟨_, hr⟩⟩, h1, h2, c1, c2, c3, c4⟩
              intro k hk
              simp only [List.mem_cons, List.not_mem_nil, or_false] at hk
              rcases hk with rfl | rfl <;> (unfold PlainText; decide)

/-- the numbers 0, 1, ... -/
def upNumbers (m : Nat) : List PyFloat := (List.range m).map (fun i => .fin i)

theorem gnumbers_of {n text : Str} {xs : List PyFloat} (h : (@gLine asciiDB n text).map (fun l => mapE Py.float (wordsOf l)) = some (.ok xs)) :
    @GNumbers asciiDB n text xs := by
  cases hl : @gLine asciiDB n text with
  | none => rw [hl] at h; cases h
  | some l =>
    rw [hl] at h
    injection h with h
    exact ⟨l, hl, mapE_float_ok _ _ h⟩

/-- C98: the numbers of the #G lines of the first scan; of two #G0 lines it is the last one. -/
theorem C98_numbers : letI : UniDB := asciiDB
    ofKind .G (scanLines (gonioTexts.getD 2 [])) ≠ [] ∧ NamesKept gonioTexts (gonioTexts.getD 1 []) ∧
    GNumbers p!"G0" (gonioTexts.getD 2 []) (upNumbers 27) ∧ GNumbers p!"G1" (gonioTexts.getD 2 []) (upNumbers 34) ∧
    GNumbers p!"G3" (gonioTexts.getD 2 []) (upNumbers 9) ∧ GNumbers p!"G4" (gonioTexts.getD 2 []) (upNumbers 26) ∧
    geo2.G.length = 27 ∧ geo2.Q.length = 26 ∧ geo2.G[1]? = some p!"g_sect" ∧ geo2.Q[3]? = some p!"LAMBDA" ∧ geo2.U = none := by
  letI : UniDB := asciiDB
  refine ⟨by decide +kernel, .inl ?_, gnumbers_of (by decide +kernel), gnumbers_of (by decide +kernel), gnumbers_of (by decide +kernel),
    gnumbers_of (by decide +kernel), by decide +kernel⟩
  have : gonioTexts.all (fun t => !isScanText t || decide (ofKind .O (scanLines t) = [])) = true := by decide +kernel
  rw [List.all_eq_true] at this
  intro t ht h
  have := this t ht
  rw [h] at this
  simpa using this

/-- C98: the second scan: two circles, as its header states. -/
theorem C98_stated : letI : UniDB := asciiDB
    GeometryIs (gonioTexts.getD 3 []) (gonioTexts.getD 4 []) p!"twoc.default" geo13 ∧
    GNumbers p!"G1" (gonioTexts.getD 4 []) (upNumbers 11) ∧ GNumbers p!"G4" (gonioTexts.getD 4 []) (upNumbers 4) := by
  letI : UniDB := asciiDB
  refine ⟨.stated geo13 (by simp [geoDb]) ⟨p!"twoc  User = me", [], p!"=", p!"me", by decide +kernel, by decide⟩, gnumbers_of (by decide +kernel),
    gnumbers_of (by decide +kernel)⟩

/-- C98: what is written of these two scans. -/
theorem C98_example :
    (gonioDemo [.int 1, .int 2]).map (fun r => decide (datasetAt r.2.1 [p!"S1", p!"instrument", p!"name"] = some (.text [p!"fourc.omega"], []))) = some true ∧
    (gonioDemo [.int 1, .int 2]).map (fun r => decide (datasetAt r.2.1 [p!"S2", p!"instrument", p!"name"] = some (.text [p!"twoc.default"], []))) = some true ∧
    (gonioDemo [.int 1, .int 2]).map (fun r => decide (datasetAt r.2.1 [p!"S1", p!"sample", p!"or1", p!"om"] =
      some (floatsData [.fin 25], [(p!"units", .str p!"degrees"), (p!"description", .str p!"diffractometer angle")]))) = some true ∧
    (gonioDemo [.int 1, .int 2]).map (fun r => decide (datasetAt r.2.1 [p!"S2", p!"sample", p!"unit_cell_gamma"] =
      some (floatsData [.fin 2], [(p!"units", .str p!"degrees")]))) = some true := by decide +kernel

end S2N.Props
