import Verif.Props.EntryTables
import Verif.Props.EntryPreset
/-
A file whose header and scans have lines of all these kinds.
-/
namespace S2N.Props
open S2N Py H5 Eznx Writer Spec

/-- the header has #R, #O and #o, #j and #J and unrecognized lines, the first scan #Q, #M, #T, #R, #U, #MD and
unrecognized lines; the second has #U lines -/
def entryText : Str := demoHead ++ join p!"\n" [[], p!"#O0 Theta  Chi", p!"#o0 th chi", p!"#J0 Seconds  Detector", p!"#j0 sec det",
  p!"#R from the header", p!"#W what is this", p!"#Q 1 2 3",
  [], p!"#S 1 ascan  th 0 1 2 1", p!"#D Wed Jun 16 18:24:36 2010", p!"#C one", p!"#C two", p!"#M 1000  (I0)", p!"#T 1  (Seconds)",
  p!"#R first", p!"#R second", p!"#U user", p!"#W nothing", p!"#W again", p!"#MD uid = abc", p!"#MD plan_name = scan",
  p!"#N 2", p!"#L th  I0", p!"0.5 1", p!"1.5 3",
  [], p!"#S 2 ascan  th 0 1 2 1", p!"#D Wed Jun 16 18:26:36 2010", p!"#U only", p!"#Q 0.5 0 1", p!"#T 2  (Seconds)", []]

/-- the file object -/
def entryFile : Except PyErr Sdf :=
  @Sdf.openFile asciiDB saveEnv HKey.all p!"demo.dat" (fileAt entryText 1) (fileAt entryText 1)

/-- what the examples look at after a save -/
def entryDemo (ks : List Ref) : Option (Bool × Option PyErr × H5 × Sdf) :=
  match entryFile with
  | .error _ => none
  | .ok s =>
    let r := @save asciiDB saveEnv HKey.all saveVersions ks s
    some (@savableB asciiDB s, r.2, r.1.h5, r.1.sdf)

/-- C44, C74, C75, C76: the hypotheses are met by this file: `Savable` holds, the save returns, and the scan and its
header have all these lines. -/
theorem C44_nonvacuous : letI : UniDB := asciiDB
    ∃ s r z, Savable s ∧ save saveEnv HKey.all saveVersions [.int 1, .int 2] s = (r, none) ∧
      r.sdf.getScan (.int 1) = .ok (some z) ∧
      (r.sdf.headerOf z).R = some [p!"from the header"] ∧ z.R = some [p!"first", p!"second"] ∧ z.U = some [p!"user"] ∧
      (r.sdf.headerOf z).unrecognized = some [p!"#W what is this"] ∧ z.unrecognized = some [p!"#W nothing", p!"#W again"] ∧
      (r.sdf.headerOf z).counterXref = some [(p!"sec", p!"Seconds"), (p!"det", p!"Detector")] ∧ z.counterXref = none ∧
      (r.sdf.headerOf z).positionerXref = some [(p!"th", p!"Theta"), (p!"chi", p!"Chi")] ∧ z.positionerXref = none ∧
      z.MD = some [(p!"uid", p!"abc"), (p!"plan_name", p!"scan")] ∧ z.M = some p!"1000" ∧ z.T = some p!"1" ∧
      z.comments = [p!"one", p!"two"] ∧ (r.sdf.headerOf z).Q = some [.fin 1, .fin 2, .fin 3] ∧
      (∃ l ∈ scanLines z.raw, isKind .D l = true) := by
  letI : UniDB := asciiDB
  have hd : (match entryDemo [.int 1, .int 2] with
    | none => false
    | some (b, e, _, sdf) =>
      b && e.isNone &&
      (match sdf.getScan (.int 1) with
      | .ok (some z) =>
        decide ((sdf.headerOf z).R = some [p!"from the header"]) && decide (z.R = some [p!"first", p!"second"]) &&
        decide (z.U = some [p!"user"]) && decide ((sdf.headerOf z).unrecognized = some [p!"#W what is this"]) &&
        decide (z.unrecognized = some [p!"#W nothing", p!"#W again"]) &&
        decide ((sdf.headerOf z).counterXref = some [(p!"sec", p!"Seconds"), (p!"det", p!"Detector")]) &&
        decide (z.counterXref = none) &&
        decide ((sdf.headerOf z).positionerXref = some [(p!"th", p!"Theta"), (p!"chi", p!"Chi")]) && decide (z.positionerXref = none) &&
        decide (z.MD = some [(p!"uid", p!"abc"), (p!"plan_name", p!"scan")]) && decide (z.M = some p!"1000") &&
        decide (z.T = some p!"1") && decide (z.comments = [p!"one", p!"two"]) &&
        decide ((sdf.headerOf z).Q = some [.fin 1, .fin 2, .fin 3]) &&
        decide (∃ l ∈ scanLines z.raw, isKind .D l = true)
      | _ => false)) = true := by decide +kernel
  unfold entryDemo at hd
  cases hs : entryFile with
  | error e => rw [hs] at hd; cases hd
  | ok s =>
    rw [hs] at hd
    simp only at hd
    cases hr : save saveEnv HKey.all saveVersions [.int 1, .int 2] s with
    | mk r e =>
      rw [hr] at hd
      simp only at hd
      cases h1 : r.sdf.getScan (.int 1) with
      | error e => rw [h1] at hd; simp at hd
      | ok o1 =>
        rw [h1] at hd
        cases o1 with
        | none => simp at hd
        | some z =>
          simp only [Bool.and_eq_true, decide_eq_true_eq, Option.isNone_iff_eq_none] at hd
          obtain ⟨⟨b1, b2⟩, ⟨⟨⟨⟨⟨⟨⟨⟨⟨⟨⟨⟨⟨⟨c1, c2⟩, c3⟩, c4⟩, c5⟩, c6⟩, c7⟩, c8⟩, c9⟩, c10⟩, c11⟩, c12⟩, c13⟩, c14⟩, c15⟩⟩ := hd
          subst b2
          exact ⟨s, r, z, savable_of_b b1, hr, h1, c1, c2, c3, c4, c5, c6, c7, c8, c9, c10, c11, c12, c13, c14, c15⟩

/-- C44, C74, C75, C76: what the file says of the first scan. -/
theorem C44_example :
    (entryDemo [.int 1, .int 2]).map (fun r => childrenAt r.2.2.1 [p!"S1"]) =
      some [p!"experiment_description", p!"title", p!"scan_number", p!"command", p!"UserResults", p!"unrecognized_1", p!"Q",
        p!"positioner_cross_reference", p!"counter_cross_reference", p!"date", p!"comments", p!"M", p!"counting_basis", p!"T",
        p!"UserReserved", p!"unrecognized_2", p!"bluesky_metadata", p!"data", p!"monitor"] ∧
    (entryDemo [.int 1, .int 2]).map (fun r => (childrenAt r.2.2.1 [p!"S1", p!"UserResults"], childrenAt r.2.2.1 [p!"S1", p!"unrecognized_2"])) =
      some ([p!"header_1", p!"item_1", p!"item_2"], [p!"u0", p!"u1"]) ∧
    (entryDemo [.int 1, .int 2]).map (fun r => datasetAt r.2.2.1 [p!"S1", p!"UserResults", p!"item_2"]) =
      some (some (.text [p!"second"], [(p!"description", .str p!"#R line 2")])) ∧
    (entryDemo [.int 1, .int 2]).map (fun r => datasetAt r.2.2.1 [p!"S2", p!"Q"]) =
      some (some (.nums ⟨[.flt (.fin (1/2)), .flt (.fin 0), .flt (.fin 1)], [3]⟩, [(p!"description", .str p!"hkl at start of scan")])) ∧
    (entryDemo [.int 1, .int 2]).map (fun r => datasetAt r.2.2.1 [p!"S2", p!"monitor", p!"preset"]) =
      some (some (.nums ⟨[.flt (.fin 2)], [1]⟩, [(p!"units", .str p!"s"), (p!"description", .str p!"SPEC scan with constant counting time"),
          (p!"target", .str p!"/S2/monitor/preset")])) := by
  refine ⟨?_, ?_, ?_, ?_, ?_⟩ <;> decide +kernel

/-- C75: a file whose header and scan both have #j lines can be read but not saved. -/
theorem C75_twice : (match @Sdf.openFile asciiDB saveEnv HKey.all p!"demo.dat"
      (fileAt (demoHead ++ join p!"\n" [[], p!"#J0 Seconds", p!"#j0 sec", [], p!"#S 1 ascan  th 0 1 2 1", p!"#D Wed Jun 16 18:24:36 2010",
        p!"#J0 Seconds", p!"#j0 sec", p!"#N 1", p!"#L th", []]) 1)
      (fileAt (demoHead ++ join p!"\n" [[], p!"#J0 Seconds", p!"#j0 sec", [], p!"#S 1 ascan  th 0 1 2 1", p!"#D Wed Jun 16 18:24:36 2010",
        p!"#J0 Seconds", p!"#j0 sec", p!"#N 1", p!"#L th", []]) 1) with
    | .error _ => none
    | .ok s => some (@save asciiDB saveEnv HKey.all saveVersions [.int 1] s).2) = some (some .ValueError) := by decide +kernel

end S2N.Props
