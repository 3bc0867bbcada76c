import Verif.Props.SavesDemo
import Verif.Props.Plot
/-
A file with meshes which meets the conditions of C95, and meshes which show that they are needed.
-/
namespace S2N.Props
open S2N S2N.Py S2N.Spec S2N.H5 S2N.Writer

def gridLines : List Str := [p!"#E 1562611000", p!"#D Mon Jul 08 13:35:50 2019", p!"#O0 th  phi"]

def gridHeader : Str := join ['\n'] gridLines

def gridRaw1 : Str := join ['\n'] [p!"#S 1 mesh  th 0 1 1 phi 0 1 1 1", p!"#D Mon Jul 08 13:35:50 2019", p!"#P0 1 2", p!"#N 3", p!"#L th  phi  det",
  p!"0 0 5", p!"1 0 6", p!"@A 1 2 3", p!"0 1 7", p!"1 1 8"]

def gridRaw2 : Str := join ['\n'] [p!"#S 2 hklmesh  H 0 1 1 K 0 1 1 1", p!"#D Mon Jul 08 13:36:50 2019", p!"#P0 1 2", p!"#N 4", p!"#L H  K  L  det",
  p!"0 0 2 5", p!"1 0 2 6", p!"0 1 2 7", p!"1 1 2 8"]

def gridTexts : List Str := [p!"#F f.dat", gridHeader, gridRaw1, gridRaw2]

def gridText : Str := join ['\n'] gridTexts

theorem grid_dissect : dissectFile (.file (some gridText)) = .ok gridTexts := by decide +kernel

theorem grid_sections : ∀ texts, SectionsOf (fileLines gridText) texts → texts = gridTexts :=
  fun texts h => C01_unique _ _ _ h (C01_partition gridText gridTexts grid_dissect).2

theorem grid_lines : splitlines gridHeader = gridLines := by decide +kernel

theorem grid_headerFits : @HeaderFits asciiDB saveEnv gridHeader := by
  refine @HeaderFits.mk asciiDB _ _ ?_ ?_ ?_ ?_ ?_ ?_ ?_ <;> rw [grid_lines]
  · intro l hl
    cases hl
    refine .inr ⟨by decide, 1562611000, by decide +kernel, time_of_b (by decide +kernel)⟩
  · have h : (gridLines.all (fun l => !(@hKind asciiDB .D l) || dateB saveEnv (stripFirstWord l))) = true := by decide +kernel
    intro l hl hk
    have h1 := List.all_eq_true.1 h l hl
    rw [hk] at h1
    exact date_of_b h1
  · have h : (gridLines.all (fun l => match l.head? with | some c => !isSpace c | none => true)) = true := by decide +kernel
    intro l hl c hc
    have h1 := List.all_eq_true.1 h l hl
    rw [hc] at h1
    simpa using h1
  · have h : (gridLines.all (fun l => scanOnly.all (fun k => !(@hKind asciiDB k l)))) = true := by decide +kernel
    intro l hl k hk
    have h1 := List.all_eq_true.1 (List.all_eq_true.1 h l hl) k hk
    simpa using h1
  · intro h
    exact absurd (by decide +kernel) h
  · have h : @wordTable asciiDB .o gridLines = [] := by decide +kernel
    rw [h]
    intro r row hrow
    simp at hrow
  · intro h
    exact absurd (by decide +kernel) h

theorem grid_fits : @FileFits asciiDB saveEnv gridTexts := by
  refine @FileFits.mk asciiDB _ _ ?_ ?_ ?_
  · intro t ht
    simp only [gridTexts, List.mem_cons, List.not_mem_nil, or_false] at ht
    rcases ht with rfl | rfl | rfl | rfl
    · exact ⟨p!"f.dat", .inl rfl⟩
    · exact ⟨gridHeader.drop 3, .inr (.inl (by decide +kernel))⟩
    · exact ⟨gridRaw1.drop 3, .inr (.inr (by decide +kernel))⟩
    · exact ⟨gridRaw2.drop 3, .inr (.inr (by decide +kernel))⟩
  · intro t ht hh
    simp only [gridTexts, List.mem_cons, List.not_mem_nil, or_false] at ht
    rcases ht with rfl | rfl | rfl | rfl
    · exact absurd hh (by decide +kernel)
    · exact grid_headerFits
    · exact absurd hh (by decide +kernel)
    · exact absurd hh (by decide +kernel)
  · intro t ht hh
    simp only [gridTexts, List.mem_cons, List.not_mem_nil, or_false] at ht
    rcases ht with rfl | rfl | rfl | rfl
    · exact absurd hh (by decide +kernel)
    · exact absurd hh (by decide +kernel)
    · refine ⟨[], p!"#D Mon Jul 08 13:35:50 2019", (splitlines gridRaw1).drop 2, by decide +kernel, by simp, ?_, date_of_b (by decide +kernel)⟩
      unfold firstWordIs
      decide +kernel
    · refine ⟨[], p!"#D Mon Jul 08 13:36:50 2019", (splitlines gridRaw2).drop 2, by decide +kernel, by simp, ?_, date_of_b (by decide +kernel)⟩
      unfold firstWordIs
      decide +kernel

theorem grid_header : @HeaderSaves asciiDB saveEnv gridHeader := by
  refine @HeaderSaves.mk asciiDB _ _ ?_ ?_ ?_ ?_ ?_ <;> rw [grid_lines]
  · have h : (gridLines.all (fun l => lineSavesB (fun k => @hKind asciiDB k l) l)) = true := by decide +kernel
    intro l hl
    exact @lineSaves_of_b asciiDB _ _ (List.all_eq_true.1 h l hl)
  · decide +kernel
  · decide +kernel
  · intro h; exact absurd (by decide +kernel) h
  · intro root h; exact absurd (by decide +kernel) h

/-! ### Scans without geometry, metadata and counters -/

section
variable [UniDB]

/-- lines of a scan of one #N line in the place `i`, the #L line after it -/
structure PlainGrid (env : Env) (lines : List Str) (n : Int) (L : List Str) : Prop where
  fits : lines.all (lineB env) = true
  saves : lines.all (fun l => lineSavesB (isKind · l) l) = true
  labels : labelsB false lines = true
  none : ((ofKind .G lines).isEmpty && (ofKind .V lines).isEmpty && (ofKind .J lines).isEmpty && (ofKind .UXML lines).isEmpty && (ofKind .X lines).isEmpty) = true
  positions : (ofKind .P lines).all (fun l => (wordsOf l).all (fun w => okE (Py.float w))) = true
  numbers : ColumnNumbers lines [n]
  stated : StatedLabels lines L
  rows : (dataLinesOf lines).all (fun l => isMcaLine l || decide ((splitWs l).length ≤ L.length)) = true
  distinct : L.Nodup ∧ L.length ≤ 1000 ∧ 2 ≤ L.length ∧ p!"_mca_" ∉ L ∧ [] ∉ L
  spectra : ∀ l ∈ dataLinesOf lines, isMcaLine l = true → (∃ xs, SpectrumOf l xs) ∧ ∀ l' ∈ dataLinesOf lines, isMcaLine l' = true → l = l'

theorem PlainGrid.text {env : Env} {raw : Str} {n : Int} {L : List Str} (h : PlainGrid env (scanLines raw) n L) (header : Str) : ScanTextFits env header raw := by
  have hno := h.none
  simp only [Bool.and_eq_true, List.isEmpty_iff] at hno
  obtain ⟨⟨⟨⟨kG, kV⟩, kJ⟩, kU⟩, -⟩ := hno
  unfold ScanTextFits
  refine ⟨?_, ?_, ?_, ?_, ?_, ?_, ?_, ?_, ?_⟩
  · intro l hl
    exact lineFits_of_b (List.all_eq_true.1 h.fits l hl)
  · intro pre l post e hl
    rcases labels_of_b (scanLines raw) false h.labels pre l post e hl with h | h
    · cases h
    · exact h
  · intro _
    exact ⟨fun e h => (nomatch h), Or.inl (show strip [] = [] by decide)⟩
  · intro i l hi
    have hi : (ofKind .V (scanLines raw))[i]? = some l := hi
    rw [kV] at hi
    simp at hi
  · intro hne
    exact absurd kJ hne
  · intro i l O names hi _ _ w hw
    have := List.all_eq_true.1 (List.all_eq_true.1 h.positions l (List.mem_of_getElem? hi)) w (List.mem_of_mem_take hw)
    exact okE_iff this
  · intro hne
    exact absurd kG hne
  · intro _
    refine ⟨⟨[n], h.numbers, .inl rfl⟩, ?_, ?_, ?_, ?_⟩
    · intro nm h1 h2
      rw [columnNumbers_unique h1 h.numbers] at h2
      simp at h2
    · intro nm ls L' h1 h2 h3 l hl hm
      rw [columnNumbers_unique h1 h.numbers] at h2
      rw [statedLabels_unique h3 h.stated]
      have e : ls = _ := h2
      rw [e] at hl
      have := List.all_eq_true.1 h.rows l hl
      rw [hm] at this
      simpa using this
    · intro L' h1
      rw [statedLabels_unique h1 h.stated]
      obtain ⟨-, d2, d3, d4, -⟩ := h.distinct
      refine ⟨d2, ?_, fun _ => d4⟩
      rintro l rfl
      simp at d3
    · intro l hl hm
      exact (h.spectra l hl hm).1
  · intro hne
    exact absurd kU hne

theorem PlainGrid.scan {env : Env} {x : Obj} {n : Int} {L : List Str} (h : PlainGrid env (scanLines x.raw) n L) {header : Str}
    (hn : ∃ l, splitScanNumberString x.scanNum = .ok l) (hm : (∃ m ∈ meshMacros, macroOf x = some m) → MeshSaves x.scanCmd (scanLines x.raw))
    (hk : NotBy x hklMacros) (hc : splitWs x.scanCmd ≠ []) (ha : apartB (splitlines header) (scanLines x.raw) = true) (hX : hOfKind .X (splitlines header) = []) :
    ScanSaves env header x := by
  have hno := h.none
  simp only [Bool.and_eq_true, List.isEmpty_iff] at hno
  obtain ⟨⟨⟨⟨kG, kV⟩, kJ⟩, kU⟩, kX⟩ := hno
  refine ⟨hn, ?_, hc, fun a _ => hm a, ?_, ?_, apart_of_b ha, ?_, ?_⟩
  · intro l hl
    exact lineSaves_of_b (List.all_eq_true.1 h.saves l hl)
  · rintro ⟨m, hm, e⟩
    exact absurd e (hk m hm)
  · intro _
    refine ⟨?_, ?_⟩
    · intro L' h1
      rw [statedLabels_unique h1 h.stated]
      obtain ⟨-, -, d3, d4, d5⟩ := h.distinct
      refine ⟨by rintro rfl; simp at d3, ?_⟩
      intro l hl
      exact ⟨by rintro rfl; exact d5 hl, by rintro rfl; exact d4 hl⟩
    · intro l hl l' hl' hm hm' _
      rw [(h.spectra l hl hm).2 l' hl' hm']
  · intro root hne
    exact absurd kU hne
  · rintro (h | h)
    · exact absurd hX h
    · exact absurd kX h

end

def gridL1 : List Str := [p!"th", p!"phi", p!"det"]
def gridL2 : List Str := [p!"H", p!"K", p!"L", p!"det"]

theorem grid_spectrum : SpectrumOf p!"@A 1 2 3" [.int 1, .int 2, .int 3] := fit_spectrum

theorem grid_data1 : @dataLinesOf asciiDB (scanLines gridRaw1) = [p!"0 0 5", p!"1 0 6", p!"@A 1 2 3", p!"0 1 7", p!"1 1 8"] := by decide +kernel
theorem grid_data2 : @dataLinesOf asciiDB (scanLines gridRaw2) = [p!"0 0 2 5", p!"1 0 2 6", p!"0 1 2 7", p!"1 1 2 8"] := by decide +kernel

theorem grid_N1 (j : Nat) (hj : (scanLines gridRaw1).take j = (scanLines gridRaw1).take 3 ++ p!"#N 3" :: ((scanLines gridRaw1).take j).drop 4)
    (hn : ∀ l ∈ ((scanLines gridRaw1).take j).drop 4, @isKind asciiDB .N l = false) : @ColumnNumbers asciiDB ((scanLines gridRaw1).take j) [3] := by
  refine ⟨p!"#N 3", ⟨_, _, hj, by decide +kernel, hn⟩, ?_⟩
  have e : splitWs (stripFirstWord p!"#N 3") = [p!"3"] := by decide +kernel
  rw [e]
  exact .cons (by decide +kernel) .nil

theorem grid_N2 (j : Nat) (hj : (scanLines gridRaw2).take j = (scanLines gridRaw2).take 3 ++ p!"#N 4" :: ((scanLines gridRaw2).take j).drop 4)
    (hn : ∀ l ∈ ((scanLines gridRaw2).take j).drop 4, @isKind asciiDB .N l = false) : @ColumnNumbers asciiDB ((scanLines gridRaw2).take j) [4] := by
  refine ⟨p!"#N 4", ⟨_, _, hj, by decide +kernel, hn⟩, ?_⟩
  have e : splitWs (stripFirstWord p!"#N 4") = [p!"4"] := by decide +kernel
  rw [e]
  exact .cons (by decide +kernel) .nil

theorem grid_scan1 : @PlainGrid asciiDB saveEnv (scanLines gridRaw1) 3 gridL1 := by
  refine @PlainGrid.mk asciiDB _ _ _ _ (by decide +kernel) (by decide +kernel) (by decide +kernel) (by decide +kernel) (by decide +kernel) ?_ ?_ (by decide +kernel)
    (by decide) ?_
  · have := grid_N1 100 (by decide +kernel) (by decide +kernel)
    have e : (scanLines gridRaw1).take 100 = scanLines gridRaw1 := by decide +kernel
    rw [e] at this
    exact this
  · exact .inr ⟨(scanLines gridRaw1).take 4, p!"#L th  phi  det", (scanLines gridRaw1).drop 5, by decide +kernel, by decide +kernel, by decide +kernel,
      .inl ⟨[3], 3, grid_N1 4 (by decide +kernel) (by decide +kernel), rfl, by decide +kernel⟩⟩
  · rw [grid_data1]
    intro l hl hm
    simp only [List.mem_cons, List.not_mem_nil, or_false] at hl
    rcases hl with rfl | rfl | rfl | rfl | rfl
    · exact absurd hm (by decide)
    · exact absurd hm (by decide)
    · exact ⟨⟨_, fit_spectrum⟩, by decide⟩
    · exact absurd hm (by decide)
    · exact absurd hm (by decide)

theorem grid_scan2 : @PlainGrid asciiDB saveEnv (scanLines gridRaw2) 4 gridL2 := by
  refine @PlainGrid.mk asciiDB _ _ _ _ (by decide +kernel) (by decide +kernel) (by decide +kernel) (by decide +kernel) (by decide +kernel) ?_ ?_ (by decide +kernel)
    (by decide) ?_
  · have := grid_N2 100 (by decide +kernel) (by decide +kernel)
    have e : (scanLines gridRaw2).take 100 = scanLines gridRaw2 := by decide +kernel
    rw [e] at this
    exact this
  · exact .inr ⟨(scanLines gridRaw2).take 4, p!"#L H  K  L  det", (scanLines gridRaw2).drop 5, by decide +kernel, by decide +kernel, by decide +kernel,
      .inl ⟨[4], 4, grid_N2 4 (by decide +kernel) (by decide +kernel), rfl, by decide +kernel⟩⟩
  · rw [grid_data2]
    intro l hl hm
    simp only [List.mem_cons, List.not_mem_nil, or_false] at hl
    rcases hl with rfl | rfl | rfl | rfl
    · exact absurd hm (by decide)
    · exact absurd hm (by decide)
    · exact absurd hm (by decide)
    · exact absurd hm (by decide)

def gridCmd1 : Str := p!"mesh  th 0 1 1 phi 0 1 1 1"
def gridCmd2 : Str := p!"hklmesh  H 0 1 1 K 0 1 1 1"

theorem grid_mesh1 : @MeshSaves asciiDB gridCmd1 (scanLines gridRaw1) := by
  refine ⟨p!"mesh", p!"th", p!"0", p!"1", p!"1", p!"phi", p!"0", p!"1", p!"1", p!"1", 1, 1, by decide +kernel, by decide +kernel, by decide +kernel, by decide, by decide, by decide, ?_, ?_⟩
  · intro L names h1 h2
    have e := @statedLabels_unique asciiDB _ _ _ h1 (@PlainGrid.stated asciiDB _ _ _ _ grid_scan1)
    subst e
    rw [renamed_distinct h2 (by decide)]
    refine ⟨by decide, by decide, fun h => absurd h (by decide)⟩
  · intro _ L nm all h1 h2 h3
    rw [@columnNumbers_unique asciiDB _ _ _ h2 (@PlainGrid.numbers asciiDB _ _ _ _ grid_scan1)] at h3
    rw [@statedLabels_unique asciiDB _ _ _ h1 (@PlainGrid.stated asciiDB _ _ _ _ grid_scan1)]
    have e : all = _ := h3
    rw [e, grid_data1]
    decide +kernel

theorem grid_mesh2 : @MeshSaves asciiDB gridCmd2 (scanLines gridRaw2) := by
  refine ⟨p!"hklmesh", p!"H", p!"0", p!"1", p!"1", p!"K", p!"0", p!"1", p!"1", p!"1", 1, 1, by decide +kernel, by decide +kernel, by decide +kernel, by decide, by decide, by decide, ?_, ?_⟩
  · intro L names h1 h2
    have e := @statedLabels_unique asciiDB _ _ _ h1 (@PlainGrid.stated asciiDB _ _ _ _ grid_scan2)
    subst e
    rw [renamed_distinct h2 (by decide)]
    refine ⟨by decide, by decide, fun _ => by decide⟩
  · rw [grid_data2]
    intro h
    exact absurd h (by decide)

theorem grid_saves1 (x : Obj) (hr : x.raw = gridRaw1) (hn : x.scanNum = p!"1") (hc : x.scanCmd = gridCmd1) : @ScanSaves asciiDB saveEnv gridHeader x := by
  have em : macroOf x = some p!"mesh" := by
    unfold macroOf
    rw [hc]
    decide +kernel
  refine @PlainGrid.scan asciiDB saveEnv x 3 gridL1 (by rw [hr]; exact grid_scan1) gridHeader ?_ ?_ ?_ ?_ ?_ ?_
  · rw [hn]; exact okE_iff (by decide +kernel)
  · intro _; rw [hc, hr]; exact grid_mesh1
  · intro m hm e
    rw [em] at e
    cases e
    revert hm; decide
  · rw [hc]; decide +kernel
  · rw [hr]; decide +kernel
  · decide +kernel

theorem grid_saves2 (x : Obj) (hr : x.raw = gridRaw2) (hn : x.scanNum = p!"2") (hc : x.scanCmd = gridCmd2) : @ScanSaves asciiDB saveEnv gridHeader x := by
  have em : macroOf x = some p!"hklmesh" := by
    unfold macroOf
    rw [hc]
    decide +kernel
  refine @PlainGrid.scan asciiDB saveEnv x 4 gridL2 (by rw [hr]; exact grid_scan2) gridHeader ?_ ?_ ?_ ?_ ?_ ?_
  · rw [hn]; exact okE_iff (by decide +kernel)
  · intro _; rw [hc, hr]; exact grid_mesh2
  · intro m hm e
    rw [em] at e
    cases e
    revert hm; decide
  · rw [hc]; decide +kernel
  · rw [hr]; decide +kernel
  · decide +kernel

/-- the file object -/
def gridOpen : Except PyErr Sdf := @Sdf.openFile asciiDB saveEnv HKey.all p!"f.dat" (fileAt gridText 1) (fileAt gridText 1)

def gridFile : Sdf := match gridOpen with | .ok s => s | .error _ => { fileName := [] }

theorem gridFile_eq : gridOpen = .ok gridFile := by
  have h : isOk (gridOpen) = true := by decide +kernel
  unfold gridFile
  cases e : gridOpen with
  | ok s => rfl
  | error e1 => rw [e] at h; cases h

theorem grid_headed : @FirstDated asciiDB gridFile := by
  have h : (match gridFile.headers with
    | h :: _ => decide (h.raw = gridHeader)
    | [] => false) = true := by decide +kernel
  split at h
  · next x xs e =>
    refine ⟨x, by rw [e]; rfl, .inl ?_⟩
    rw [of_decide_eq_true h, grid_lines]
    decide +kernel
  · cases h

/-- C95: the hypotheses are met by a file with two meshes, one of them with a spectrum, the other one in reciprocal space; both are
converted in one call. -/
theorem C95_mesh_nonvacuous : ClockReads saveEnv ∧ SchemaNames saveEnv ∧
    (∀ texts, SectionsOf (fileLines gridText) texts → @FileFits asciiDB saveEnv texts ∧ ∀ u ∈ texts, isHeaderText u = true → @HeaderSaves asciiDB saveEnv u) ∧
    gridOpen = .ok gridFile ∧ @FirstDated asciiDB gridFile ∧ gridFile.scans.keys = [p!"1", p!"2"] ∧
    (∀ p ∈ gridFile.scans, @ScanTextFits asciiDB saveEnv (gridFile.headerOf p.2).raw p.2.raw ∧ @ScanSaves asciiDB saveEnv (gridFile.headerOf p.2).raw p.2) ∧
    ∃ r, @save asciiDB saveEnv HKey.all saveVersions [.int 1, .int 2] gridFile = (r, none) ∧ ∃ texts, @Conversion asciiDB saveEnv HKey.all texts gridFile [.int 1, .int 2] r := by
  have hfit : ∀ texts, SectionsOf (fileLines gridText) texts → @FileFits asciiDB saveEnv texts ∧ ∀ u ∈ texts, isHeaderText u = true → @HeaderSaves asciiDB saveEnv u := by
    intro texts h
    rw [grid_sections texts h]
    refine ⟨grid_fits, ?_⟩
    intro u hu hh
    simp only [gridTexts, List.mem_cons, List.not_mem_nil, or_false] at hu
    rcases hu with rfl | rfl | rfl | rfl
    · exact absurd hh (by decide +kernel)
    · exact grid_header
    · exact absurd hh (by decide +kernel)
    · exact absurd hh (by decide +kernel)
  have hs : gridFile.scans.map (fun p => (p.2.raw, (gridFile.headerOf p.2).raw, p.2.scanNum, p.2.scanCmd)) =
      [(gridRaw1, gridHeader, p!"1", gridCmd1), (gridRaw2, gridHeader, p!"2", gridCmd2)] := by decide +kernel
  have ht : ∀ p ∈ gridFile.scans, @ScanTextFits asciiDB saveEnv (gridFile.headerOf p.2).raw p.2.raw ∧
      @ScanSaves asciiDB saveEnv (gridFile.headerOf p.2).raw p.2 := by
    intro p hp
    have h1 : (p.2.raw, (gridFile.headerOf p.2).raw, p.2.scanNum, p.2.scanCmd) ∈
        gridFile.scans.map (fun p => (p.2.raw, (gridFile.headerOf p.2).raw, p.2.scanNum, p.2.scanCmd)) := List.mem_map.2 ⟨p, hp, rfl⟩
    rw [hs, List.mem_cons, List.mem_singleton] at h1
    rcases h1 with h1 | h1
    · simp only [Prod.mk.injEq] at h1
      obtain ⟨e1, e2, e3, e4⟩ := h1
      rw [e2]
      exact ⟨by rw [e1]; exact @PlainGrid.text asciiDB _ _ _ _ grid_scan1 _, grid_saves1 p.2 e1 e3 e4⟩
    · simp only [Prod.mk.injEq] at h1
      obtain ⟨e1, e2, e3, e4⟩ := h1
      rw [e2]
      exact ⟨by rw [e1]; exact @PlainGrid.text asciiDB _ _ _ _ grid_scan2 _, grid_saves2 p.2 e1 e3 e4⟩
  refine ⟨saves_clock, saveEnv_schema, hfit, gridFile_eq, grid_headed, by decide +kernel, ht, ?_⟩
  refine @C95_converts asciiDB saveEnv HKey.all (List.Perm.refl _) saveEnv_schema saveVersions p!"f.dat" (fileAt gridText 1) (fileAt gridText 1) gridText
    saves_clock rfl hfit gridFile gridFile_eq grid_headed ht [.int 1, .int 2] ?_ ?_ (by decide +kernel) ?_
  · intro k hk
    have h : ([Ref.int 1, .int 2].all (fun k => match gridFile.getScan k with | .ok (some _) => true | _ => false)) = true := by decide +kernel
    have h := List.all_eq_true.1 h k hk
    split at h
    · next x e => exact ⟨x, e⟩
    · cases h
  · intro k hk
    unfold PlainText
    revert k hk
    simp only [List.mem_cons, List.not_mem_nil, or_false, forall_eq_or_imp, forall_eq]
    constructor <;> decide +kernel
  · simp only [List.pairwise_cons, List.mem_singleton, forall_eq, List.not_mem_nil, false_imp_iff, implies_true, List.Pairwise.nil, and_true]
    intro x h1 h2
    exfalso
    have h : (match gridFile.getScan (.int 1), gridFile.getScan (.int 2) with
      | .ok (some a), .ok (some b) => decide (a.scanNum = b.scanNum)
      | _, _ => false) = false := by decide +kernel
    rw [h1, h2] at h
    simp at h

/-- the exception of saving these scans of a file of these lines -/
def raisedByKeys (ks : List Ref) (ls : List Str) : Option (Option PyErr) :=
  match @Sdf.openFile asciiDB saveEnv HKey.all p!"f.dat" (fileAt (join p!"\n" ls) 1) (fileAt (join p!"\n" ls) 1) with
  | .error _ => none
  | .ok s => some (@save asciiDB saveEnv HKey.all saveVersions ks s).2

def gridOf (cmd : Str) (labels : Str) (rows : List Str) : List Str :=
  [p!"#E 10", p!"#S 1 " ++ cmd, p!"#D Wed Jun 16 18:24:36 2010", p!"#N 3", p!"#L " ++ labels] ++ rows

/-- C95: conditions on meshes that are needed.  Saving raises for: a command without the counting time; a number of intervals that is no integer; the same column for both axes;
a mesh in reciprocal space without its third column; a spectrum with less points than intervals; the same mesh under two keys (here 1, and 0 as the first scan), while
another scan is saved twice. -/
theorem C95_mesh_needed :
    raisedByKeys [.int 1] (gridOf p!"mesh  th 0 1 1 phi 0 1 1 1" p!"th  phi  det" [p!"0 0 5", p!"1 0 6"]) = some none ∧
    raisedByKeys [.int 1] (gridOf p!"mesh  th 0 1 1 phi 0 1 1" p!"th  phi  det" [p!"0 0 5", p!"1 0 6"]) = some (some .ValueError) ∧
    raisedByKeys [.int 1] (gridOf p!"mesh  th 0 1 x phi 0 1 1 1" p!"th  phi  det" [p!"0 0 5", p!"1 0 6"]) = some (some .ValueError) ∧
    raisedByKeys [.int 1] (gridOf p!"mesh  th 0 1 1 th 0 1 1 1" p!"th  phi  det" [p!"0 0 5", p!"1 0 6"]) = some (some .ValueError) ∧
    raisedByKeys [.int 1] (gridOf p!"hklmesh  H 0 1 1 K 0 1 1 1" p!"H  K  det" [p!"0 0 5", p!"1 0 6"]) = some (some .TypeError) ∧
    raisedByKeys [.int 1] (gridOf p!"mesh  th 0 1 3 phi 0 1 1 1" p!"th  phi  det" [p!"0 0 5", p!"@A 1 2"]) = some (some .UnboundLocalError) ∧
    raisedByKeys [.int 1, .int 0] (gridOf p!"mesh  th 0 1 1 phi 0 1 1 1" p!"th  phi  det" [p!"0 0 5", p!"1 0 6"]) = some (some .ValueError) ∧
    raisedByKeys [.int 1, .int 0] (gridOf p!"ascan  th 0 1 1 1" p!"th  phi  det" [p!"0 0 5", p!"1 0 6"]) = some none := by decide +kernel

end S2N.Props
