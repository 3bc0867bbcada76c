import Verif.Props.Saves
import Verif.Props.OpensDemo
/-
A file which meets the conditions of C95, and files which show that they are needed.
-/
namespace S2N.Props
open S2N S2N.Py S2N.Spec S2N.H5 S2N.Writer

def savesLines : List Str := [p!"#E 1562611000", p!"#D Mon Jul 08 13:35:50 2019", p!"#C fourc User = me", p!"#O0 th  phi", p!"#o0 th phi",
  p!"", p!"#H0 x  y", p!"#X 1.5 2.5"]

def savesHeader : Str := join ['\n'] savesLines

def savesText : Str := join ['\n'] [p!"#F f.dat", savesHeader, fitRaw]

def savesTexts : List Str := [p!"#F f.dat", savesHeader, fitRaw]

theorem saves_dissect : dissectFile (.file (some savesText)) = .ok savesTexts := by decide +kernel

theorem saves_sections : ∀ texts, SectionsOf (fileLines savesText) texts → texts = savesTexts :=
  fun texts h => C01_unique _ _ _ h (C01_partition savesText savesTexts saves_dissect).2

theorem saves_lines : splitlines savesHeader = savesLines := by decide +kernel

theorem saves_kinds : @hOfKind asciiDB .O savesLines = [p!"#O0 th  phi"] ∧ @hOfKind asciiDB .o savesLines = [p!"#o0 th phi"] ∧
    @hOfKind asciiDB .J savesLines = [] ∧ @hOfKind asciiDB .j savesLines = [] ∧
    @hOfKind asciiDB .H savesLines = [p!"#H0 x  y"] ∧ @hOfKind asciiDB .C savesLines = [p!"#C fourc User = me"] ∧
    @hOfKind asciiDB .UXML savesLines = [] := by decide +kernel

theorem saves_clock : ClockReads saveEnv := fun f s h => opens_clock f s h

theorem saves_headerFits : @HeaderFits asciiDB saveEnv savesHeader := by
  obtain ⟨kO, ko, kJ, kj, -, -, kU⟩ := saves_kinds
  refine @HeaderFits.mk asciiDB _ _ ?_ ?_ ?_ ?_ ?_ ?_ ?_ <;> rw [saves_lines]
  · intro l hl
    cases hl
    refine .inr ⟨by decide, 1562611000, by decide +kernel, time_of_b (by decide +kernel)⟩
  · have h : (savesLines.all (fun l => !(@hKind asciiDB .D l) || dateB saveEnv (stripFirstWord l))) = true := by decide +kernel
    intro l hl hk
    have h1 := List.all_eq_true.1 h l hl
    rw [hk] at h1
    exact date_of_b h1
  · have h : (savesLines.all (fun l => match l.head? with | some c => !isSpace c | none => true)) = true := by decide +kernel
    intro l hl c hc
    have h1 := List.all_eq_true.1 h l hl
    rw [hc] at h1
    simpa using h1
  · have h : (savesLines.all (fun l => scanOnly.all (fun k => !(@hKind asciiDB k l)))) = true := by decide +kernel
    intro l hl k hk
    have h1 := List.all_eq_true.1 (List.all_eq_true.1 h l hl) k hk
    simpa using h1
  · intro _ r row hrow
    unfold wordTable at hrow
    rw [kj] at hrow
    simp at hrow
  · intro r row hrow
    unfold wordTable at hrow
    rw [ko] at hrow
    rw [kO]
    cases r with
    | zero => cases hrow; exact ⟨[p!"th", p!"phi"], by decide +kernel, by decide +kernel⟩
    | succ r => simp at hrow
  · rw [kU]; intro h; exact absurd rfl h

theorem saves_fits : @FileFits asciiDB saveEnv savesTexts := by
  refine @FileFits.mk asciiDB _ _ ?_ ?_ ?_
  · intro t ht
    simp only [savesTexts, List.mem_cons, List.not_mem_nil, or_false] at ht
    rcases ht with rfl | rfl | rfl
    · exact ⟨p!"f.dat", .inl rfl⟩
    · exact ⟨savesHeader.drop 3, .inr (.inl (by decide +kernel))⟩
    · exact ⟨fitRaw.drop 3, .inr (.inr (by decide +kernel))⟩
  · intro t ht hh
    simp only [savesTexts, List.mem_cons, List.not_mem_nil, or_false] at ht
    rcases ht with rfl | rfl | rfl
    · exact absurd hh (by decide +kernel)
    · exact saves_headerFits
    · exact absurd hh (by decide +kernel)
  · intro t ht hh
    simp only [savesTexts, List.mem_cons, List.not_mem_nil, or_false] at ht
    rcases ht with rfl | rfl | rfl
    · exact absurd hh (by decide +kernel)
    · exact absurd hh (by decide +kernel)
    · refine ⟨[], p!"#D Mon Jul 08 13:35:50 2019", (splitlines fitRaw).drop 2, by decide +kernel, by simp, ?_, date_of_b (by decide +kernel)⟩
      unfold firstWordIs
      decide +kernel

/-! ### Conditions which can be evaluated -/

section
variable [UniDB]

instance (s : Str) : Decidable (NoSlash s) := by unfold NoSlash; infer_instance

def lineSavesB (kind : HKey → Bool) (l : Str) : Bool :=
  (!kind .M || okE (Py.float (tmValue l))) && (!kind .T || okE (Py.float (tmValue l))) &&
  (!(kind .j || kind .o) || (wordsOf l).all (fun w => decide (NoSlash w)))

theorem lineSaves_of_b {kind : HKey → Bool} {l : Str} (h : lineSavesB kind l = true) : LineSaves kind l := by
  simp only [lineSavesB, Bool.and_eq_true, Bool.or_eq_true, Bool.not_eq_true', List.all_eq_true, decide_eq_true_eq, Bool.or_eq_false_iff] at h
  obtain ⟨⟨h1, h2⟩, h3⟩ := h
  refine ⟨?_, ?_, ?_⟩
  · intro hk
    rcases h1 with h1 | h1
    · rw [hk] at h1; cases h1
    · exact okE_iff h1
  · intro hk
    rcases h2 with h1 | h1
    · rw [hk] at h1; cases h1
    · exact okE_iff h1
  · intro hk w hw
    rcases h3 with ⟨a, b⟩ | h3
    · rcases hk with hk | hk
      · rw [hk] at a; cases a
      · rw [hk] at b; cases b
    · exact h3 w hw

def apartB (header scan : List Str) : Bool :=
  [[HKey.J, .j], [.o], [.MD], [.UXML], [.VA], [.VD], [.VE]].all (fun g => g.all (fun k => (hOfKind k header).isEmpty) || g.all (fun k => (ofKind k scan).isEmpty))

theorem apart_of_b {header scan : List Str} (h : apartB header scan = true) : Apart header scan := by
  intro g hg
  have h1 := List.all_eq_true.1 h g hg
  simp only [Bool.or_eq_true, List.all_eq_true, List.isEmpty_iff] at h1
  exact h1

end

theorem saves_header : @HeaderSaves asciiDB saveEnv savesHeader := by
  obtain ⟨kO, ko, -, -, kH, -, kU⟩ := saves_kinds
  refine @HeaderSaves.mk asciiDB _ _ ?_ ?_ ?_ ?_ ?_ <;> rw [saves_lines]
  · have h : (savesLines.all (fun l => lineSavesB (fun k => @hKind asciiDB k l) l)) = true := by decide +kernel
    intro l hl
    exact @lineSaves_of_b asciiDB _ _ (List.all_eq_true.1 h l hl)
  · rw [kO]; decide +kernel
  · rw [kH]; decide +kernel
  · intro _
    unfold wordTable
    rw [kO, ko]
    constructor <;> decide +kernel
  · intro root h; rw [kU] at h; exact absurd rfl h

theorem saves_text : @ScanTextFits asciiDB saveEnv savesHeader fitRaw := by
  have hO : (@statedHeader asciiDB savesHeader).O = fitHdr.O := by decide +kernel
  have hH : (@statedHeader asciiDB savesHeader).H = fitHdr.H := by decide +kernel
  have hC : (@statedHeader asciiDB savesHeader).comments = fitHdr.comments := by decide +kernel
  have h := fit_fits
  obtain ⟨-, -, -, -, -, kU, -⟩ := fit_kinds
  have hl : fitLines.all (@lineB asciiDB saveEnv) = true := by decide +kernel
  let _ := asciiDB
  unfold ScanTextFits
  refine @ScanFits.mk asciiDB _ _ _ (fun l hm => @lineFits_of_b asciiDB _ _ (List.all_eq_true.1 hl l hm)) h.labels ?_ ?_ h.counters ?_ ?_ h.data (fun hne => absurd kU hne)
  · intro _
    exact ⟨fun e he => (nomatch he), .inl (by decide)⟩
  · rw [hH]; exact h.metadata
  · rw [hO]; exact h.positions
  · intro hne
    obtain ⟨g1, g2, g3⟩ := h.geometry hne
    refine @GeometryFits.mk asciiDB _ _ g1 ?_ ?_
    · rw [hC]; exact g2
    · rw [hC]; exact g3

theorem saves_data : @DataSaves asciiDB fitLines := by
  obtain ⟨-, -, -, -, -, -, hd⟩ := fit_kinds
  refine @DataSaves.mk asciiDB _ ?_ ?_
  · intro L h
    rw [@statedLabels_unique asciiDB _ _ _ h fit_L]
    decide
  · rw [hd]; decide +kernel

theorem saves_scan (x : Obj) (hr : x.raw = fitRaw) (hn : x.scanNum = p!"1") (hc : x.scanCmd = p!"ascan  th 0 1 2 1") :
    @ScanSaves asciiDB saveEnv savesHeader x := by
  obtain ⟨kG, -, -, -, -, kU, -⟩ := fit_kinds
  have el : scanLines x.raw = fitLines := by rw [hr]; rfl
  have em : macroOf x = some p!"ascan" := by
    unfold macroOf
    rw [hc]
    decide +kernel
  refine @ScanSaves.mk asciiDB _ _ _ ?_ ?_ ?_ ?_ ?_ ?_ ?_ ?_ ?_
  · rw [hn]; exact okE_iff (by decide +kernel)
  · rw [el]
    have h : (fitLines.all (fun l => lineSavesB (fun k => @isKind asciiDB k l) l)) = true := by decide +kernel
    intro l hl
    exact @lineSaves_of_b asciiDB _ _ (List.all_eq_true.1 h l hl)
  · rw [hc]; decide +kernel
  · rintro ⟨m, hm, e⟩
    rw [em] at e
    cases e
    exact absurd hm (by decide)
  · rintro ⟨m, hm, e⟩
    rw [em] at e
    cases e
    exact absurd hm (by decide)
  · intro _; rw [el]; exact saves_data
  · rw [el, saves_lines]
    exact @apart_of_b asciiDB _ _ (by decide +kernel)
  · intro root h
    rw [el, kU] at h
    exact absurd rfl h
  · intro _
    rw [el, kG]
    decide +kernel

/-- the file object -/
def savesOpen : Except PyErr Sdf := @Sdf.openFile asciiDB saveEnv HKey.all p!"f.dat" (fileAt savesText 1) (fileAt savesText 1)

def savesFile : Sdf := match savesOpen with | .ok s => s | .error _ => { fileName := [] }

theorem savesFile_eq : savesOpen = .ok savesFile := by
  have h : isOk (savesOpen) = true := by decide +kernel
  unfold savesFile
  cases e : savesOpen with
  | ok s => rfl
  | error e1 => rw [e] at h; cases h

theorem saves_headed : @FirstDated asciiDB savesFile := by
  have h : (match savesFile.headers with
    | h :: _ => decide (h.raw = savesHeader)
    | [] => false) = true := by decide +kernel
  split at h
  · next x xs e =>
    refine ⟨x, by rw [e]; rfl, .inl ?_⟩
    rw [of_decide_eq_true h, saves_lines]
    decide +kernel
  · cases h

/-- C95: the hypotheses are met by a file with a four circle scan with positioners, metadata, counters, temperatures, a spectrum and a column
that occurs twice, and the conversion of it writes an entry. -/
theorem C95_nonvacuous : ClockReads saveEnv ∧ SchemaNames saveEnv ∧
    (∀ texts, SectionsOf (fileLines savesText) texts → @FileFits asciiDB saveEnv texts ∧ ∀ u ∈ texts, isHeaderText u = true → @HeaderSaves asciiDB saveEnv u) ∧
    savesOpen = .ok savesFile ∧ @FirstDated asciiDB savesFile ∧ savesFile.scans.keys = [p!"1"] ∧
    (∀ p ∈ savesFile.scans, @ScanTextFits asciiDB saveEnv (savesFile.headerOf p.2).raw p.2.raw ∧ @ScanSaves asciiDB saveEnv (savesFile.headerOf p.2).raw p.2) ∧
    ∃ r, @save asciiDB saveEnv HKey.all saveVersions [.int 1] savesFile = (r, none) ∧ ∃ texts, @Conversion asciiDB saveEnv HKey.all texts savesFile [.int 1] r := by
  have hfit : ∀ texts, SectionsOf (fileLines savesText) texts → @FileFits asciiDB saveEnv texts ∧ ∀ u ∈ texts, isHeaderText u = true → @HeaderSaves asciiDB saveEnv u := by
    intro texts h
    rw [saves_sections texts h]
    refine ⟨saves_fits, ?_⟩
    intro u hu hh
    simp only [savesTexts, List.mem_cons, List.not_mem_nil, or_false] at hu
    rcases hu with rfl | rfl | rfl
    · exact absurd hh (by decide +kernel)
    · exact saves_header
    · exact absurd hh (by decide +kernel)
  have hs : savesFile.scans.map (fun p => (p.2.raw, (savesFile.headerOf p.2).raw, p.2.scanNum, p.2.scanCmd)) =
      [(fitRaw, savesHeader, p!"1", p!"ascan  th 0 1 2 1")] := by decide +kernel
  have ht : ∀ p ∈ savesFile.scans, @ScanTextFits asciiDB saveEnv (savesFile.headerOf p.2).raw p.2.raw ∧
      @ScanSaves asciiDB saveEnv (savesFile.headerOf p.2).raw p.2 := by
    intro p hp
    have h1 : (p.2.raw, (savesFile.headerOf p.2).raw, p.2.scanNum, p.2.scanCmd) ∈
        savesFile.scans.map (fun p => (p.2.raw, (savesFile.headerOf p.2).raw, p.2.scanNum, p.2.scanCmd)) := List.mem_map.2 ⟨p, hp, rfl⟩
    rw [hs, List.mem_singleton] at h1
    simp only [Prod.mk.injEq] at h1
    obtain ⟨e1, e2, e3, e4⟩ := h1
    rw [e2]
    exact ⟨by rw [e1]; exact saves_text, saves_scan p.2 e1 e3 e4⟩
  refine ⟨saves_clock, saveEnv_schema, hfit, savesFile_eq, saves_headed, by decide +kernel, ht, ?_⟩
  refine @C95_converts asciiDB saveEnv HKey.all (List.Perm.refl _) saveEnv_schema saveVersions p!"f.dat" (fileAt savesText 1) (fileAt savesText 1) savesText
    saves_clock rfl hfit savesFile savesFile_eq saves_headed ht [.int 1] ?_ ?_ (by simp) (by simp)
  · intro k hk
    rw [List.mem_singleton] at hk
    subst hk
    have h : (match savesFile.getScan (.int 1) with | .ok (some _) => true | _ => false) = true := by decide +kernel
    split at h
    · next x e => exact ⟨x, e⟩
    · cases h
  · intro k hk
    rw [List.mem_singleton] at hk
    subst hk
    unfold PlainText
    decide +kernel

/-- the exception of the save of the first scan of a file of these lines -/
def raisedByLines (ls : List Str) : Option (Option PyErr) :=
  match @Sdf.openFile asciiDB saveEnv HKey.all p!"f.dat" (fileAt (join p!"\n" ls) 1) (fileAt (join p!"\n" ls) 1) with
  | .error _ => none
  | .ok s => some (@save asciiDB saveEnv HKey.all saveVersions [.int 1] s).2

/-- C95: conditions that are needed.  Saving raises for: mnemonics of counters both in header and scan; #MD lines in both;
more names of positioners than mnemonics; a preset that is no number; temperatures without a sample; MCA lines of different lengths; a first header
without date and without scans.  A first header without #D but with a scan is no problem. -/
theorem C95_needed : raisedBy [] [] = some none ∧
    raisedBy [p!"#J0 a", p!"#j0 a"] [p!"#J0 a", p!"#j0 a"] = some (some .ValueError) ∧
    raisedBy [p!"#MD a = 1"] [p!"#MD a = 1"] = some (some .ValueError) ∧
    raisedBy [p!"#O0 tth  th", p!"#o0 t1"] [p!"#P0 1 2"] = some (some .IndexError) ∧
    raisedBy [] [p!"#T x (Seconds)"] = some (some .ValueError) ∧
    raisedBy [] [p!"#X 1.5 2.5"] = some (some .KeyError) ∧
    raisedBy [] [p!"@A 1 2", p!"@A 1 2 3"] = some (some .ValueError) ∧
    raisedByLines [p!"#E 10", p!"#E 11", p!"#S 1 ascan  th 0 1 2 1", p!"#D Wed Jun 16 18:24:36 2010"] = some (some .ValueError) ∧
    raisedByLines [p!"#E 10", p!"#S 1 ascan  th 0 1 2 1", p!"#D Wed Jun 16 18:24:36 2010"] = some none := by decide +kernel

end S2N.Props
