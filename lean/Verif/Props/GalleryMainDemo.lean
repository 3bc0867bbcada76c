import Verif.Props.GalleryMain
import Verif.Props.GalleryDemo
/-
Property C102: cases
-/
namespace S2N.Props
open S2N Py Spec Gallery Plot

/-- a directory with a SPEC data file and a note, and the base directory -/
def mainFiles (p : Str) : FileSt :=
  if p = p!"/data" ∨ p = p!"/gallery" then ⟨.dir, 1, 1⟩
  else if p = p!"/data/demo.dat" then ⟨.file (some galText), 5, galText.length⟩
  else if p = p!"/data/notes.txt" then ⟨.file (some p!"just a note\n"), 5, 12⟩
  else ⟨.missing, 0, 0⟩

/-- the names in it -/
def mainNames (p : Str) : List Str := if p = p!"/data" then [p!"notes.txt", p!"demo.dat"] else []

/-- the arguments -/
def mainArgs : Args := ⟨some p!"/gallery", p!"/home", [p!"/nowhere", p!"/data/notes.txt", p!"/data"], false⟩

/-- the command -/
def mainRun (a : Args) (now : Int) (s : GS) : GS × Ends :=
  @Gallery.main asciiDB galleryEnv HKey.all a mainFiles mainNames now (fun _ => .ok ()) s

/-- C102: of a path that does not exist, a note, and a directory with the note and a data file, the command takes the data file. -/
theorem C102_nonvacuous : fileList ⟨fun p => (mainFiles p).node, mainNames⟩ mainArgs.paths = [p!"/data/demo.dat"] ∧
    (mainRun mainArgs 100 { disk := [], sel := Plot.instanceOf none }).2 = .ran none ∧
    (mainRun mainArgs 100 { disk := [], sel := Plot.instanceOf none }).1.disk.keys =
      [galDir, p!"/gallery/mtime_cache.json", p!"/gallery/2010/06/demo/s00001.svg", p!"/gallery/2010/06/demo/s00002.svg",
       p!"/gallery/2010/06/demo/index.html", p!"/gallery/2010/06/demo/demo.dat"] ∧
    (mainRun { mainArgs with dir := some p!"/data/demo.dat" } 100 { disk := [], sel := Plot.instanceOf none }).2 = .notDirectory ∧
    (mainRun { mainArgs with dir := none } 100 { disk := [], sel := Plot.instanceOf none }).2 = .noDirectory := by
  decide +kernel

theorem run_pair (r : GS × Ends) {e : Ends} (h : r.2 = e) : r = (r.1, e) := by rw [← h]

/-- C102: this command meets the hypotheses of `C102_command_again`. -/
theorem C102_again_nonvacuous : @AllGalleried asciiDB galleryEnv HKey.all (mainArgs.cfg mainFiles 100 (fun _ => .ok ()))
    (fileList ⟨fun p => (mainFiles p).node, mainNames⟩ mainArgs.paths) ∧
    ∀ later, mainRun mainArgs later (mainRun mainArgs 100 { disk := [], sel := Plot.instanceOf none }).1 =
      ((mainRun mainArgs 100 { disk := [], sel := Plot.instanceOf none }).1, .ran none) := by
  have hg : @AllGalleried asciiDB galleryEnv HKey.all (mainArgs.cfg mainFiles 100 (fun _ => .ok ()))
      (fileList ⟨fun p => (mainFiles p).node, mainNames⟩ mainArgs.paths) := by
    rw [C102_nonvacuous.1]
    intro f hf
    simp only [List.mem_singleton] at hf
    subst hf
    obtain ⟨sdf, G, -⟩ := galleried_demo
    have h1 := @Galleried.opened asciiDB _ _ _ _ _ _ _ G
    have h2 := @Galleried.dir asciiDB _ _ _ _ _ _ _ G
    have e1 : (galCfg galText 5).files p!"/data/demo.dat" = (mainArgs.cfg mainFiles 100 (fun _ => .ok ())).files p!"/data/demo.dat" := rfl
    rw [e1] at h1
    exact ⟨galText, sdf, galDir, @Galleried.mk asciiDB _ _ _ _ _ _ _ rfl h1
      (@Galleried.headers asciiDB _ _ _ _ _ _ _ G) h2
      (@Galleried.notPlot asciiDB _ _ _ _ _ _ _ G) (@Galleried.names asciiDB _ _ _ _ _ _ _ G)⟩
  refine ⟨hg, fun later => ?_⟩
  exact @C102_command_again asciiDB galleryEnv HKey.all (List.Perm.refl _) mainArgs mainFiles mainNames 100 later _ _ _ hg
    (run_pair _ C102_nonvacuous.2.1)

end S2N.Props
