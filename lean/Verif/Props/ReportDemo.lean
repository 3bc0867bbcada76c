import Verif.Props.Report
import Verif.Props.ArriveGeoDemo
/-
Reports on a diffractometer with two circles (C100).
-/
namespace S2N.Props
open S2N Py H5 Eznx Writer Spec

/-- numbers and dates as short texts -/
def repTexts : Texts where
  float := fun x => match x with | .fin q => intStr q.num | _ => p!"nan"
  angles := fun _ => p!"OrderedDict()"
  matrix := fun m => p!"[" ++ join p!" " (m.flatten.map (fun x => match x with | .fin q => intStr q.num | _ => p!"nan")) ++ p!"]"
  date := fun _ => .ok p!"2010-06-16 18:24:36"

/-- the text of a scan -/
def repRaw (extra : List Str) : Str := join p!"\n" ([p!"#S 3 ascan  th 0 1 2 1", p!"#D Wed Jun 16 18:24:36 2010"] ++ extra ++ [p!"#P0 5 6 7", p!"#N 2", p!"#L th  I0", p!"0.5 1", p!"1.5 3"])

/-- a scan as it is read -/
def repScan (extra : List Str) : Obj := { Obj.newScan p!"demo.dat" 0 (repRaw extra) with S := p!"3 ascan  th 0 1 2 1", scanNum := p!"3", scanCmd := p!"ascan  th 0 1 2 1" }

/-- its header -/
def repHdr : Obj := { Obj.newHeader p!"demo.dat" [] with comments := [p!"twoc  User = me"], O := some [[p!"tth", p!"th", p!"chi"]] }

/-- the interpreted scan -/
def repAfter (extra : List Str) : Res ScanCtx := @interpretScan asciiDB saveEnv HKey.all ⟨repScan extra, repHdr⟩

/-- the three reports -/
def reports (extra : List Str) : Option (Except PyErr Str × Except PyErr Str × Except PyErr Str) :=
  (repAfter extra).1.scan.diff.map (fun d => (d.toStr repTexts, d.printBrief repTexts (repAfter extra).1.scan, d.printAll repTexts (repAfter extra).1.scan))

/-- lines with all that is reported -/
def repLines : List Str := [p!"#G1 " ++ upRow 11, p!"#G3 " ++ upRow 9, p!"#G4 " ++ upRow 4]

/-- C100: the hypotheses are met. -/
theorem C100_nonvacuous : letI : UniDB := asciiDB
    (∀ e, Fresh (repScan e)) ∧ (repAfter repLines).2 = none ∧ ofKind .G (scanLines (repScan repLines).raw) ≠ [] ∧
      (repAfter repLines).1.scan.diff.map (·.name) = some geo13.name ∧ geo13 ∈ geoDb ∧
      G4Numbers (repScan repLines).raw geo13 (upNumbers 4) ∧ (upNumbers 4).length = geo13.Q.length ∧ millerNames geo13 = [p!"h", p!"k", p!"l"] ∧
      GNumbers p!"G3" (repScan repLines).raw (upNumbers 9) ∧ (upNumbers 9).length = 9 ∧
      DateIs repTexts (repAfter repLines).1.scan.epoch (some p!"2010-06-16 18:24:36") := by
  letI : UniDB := asciiDB
  refine ⟨fun e => ⟨_, _, _, _, _, _, _, _, _, rfl⟩, by decide +kernel, by decide +kernel, by decide +kernel, by simp [geoDb],
    .inl ⟨gnumbers_of (by decide +kernel), by decide +kernel⟩, by decide +kernel, by decide, gnumbers_of (by decide +kernel), by decide, ?_⟩
  have : ((repAfter repLines).1.scan.epoch).isSome = true := by decide +kernel
  obtain ⟨e, he⟩ := Option.isSome_iff_exists.1 this
  exact .inr ⟨e, _, he, rfl, rfl⟩

/-- C100: the three reports of this scan. -/
theorem C100_example : (reports repLines).map (fun r => decide (r = ((
    .ok p!"Diffractometer(geometry='twoc', wavelength=3, mode='None', sector=None, h=0, k=1, l=2)",
    .ok (join p!"\n" [p!"twoc", p!"h k l = 0  1  2", [], p!"wavelength=3", p!"tth = 5", p!"th = 6"]),
    .ok (join p!"\n" [
      p!"    SPEC file      = demo.dat",
      p!"      scan #       = 3",
      p!"   SPEC scanCmd    = ascan  th 0 1 2 1",
      p!"       date        = 2010-06-16 18:24:36",
      p!"     geometry      = 'twoc'",
      p!"    wavelength     = 3",
      p!"       mode        = 'None'",
      p!"      sector       = None",
      p!"        h          = 0",
      p!"        k          = 1",
      p!"        l          = 2",
      p!"     lattice       = LatticeParameters2D(a=0, b=1, gamma=2)",
      p!"full_geometry_name = 'twoc.default'",
      p!"        UB         = [0 1 2 3 4 5 6 7 8]",
      p!"   reflection 1    = Reflections2D(h=6, k=7, wavelength=10, angles=OrderedDict())",
      p!"       tth         = 5",
      p!"        th         = 6"])) : Except PyErr Str × Except PyErr Str × Except PyErr Str))) = some true := by decide +kernel

/-- C100: without the orientation matrix there is no full report, and with three numbers on the #G4 line none at all. -/
theorem C100_counterexample :
    (reports [p!"#G4 " ++ upRow 4]).map (fun r => decide (r.2.2 = .error .AttributeError)) = some true ∧
    (reports [p!"#G4 " ++ upRow 3]).map (fun r => decide (r = (.error .KeyError, .error .KeyError, .error .KeyError))) = some true := by decide +kernel

end S2N.Props
