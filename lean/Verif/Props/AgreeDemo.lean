import Verif.Props.Agree
import Verif.Props.ArriveDemo
import Verif.Props.Alone
/-
C109: a file that meets the hypotheses, and where the tools do not agree.
-/
namespace S2N.Props
open S2N S2N.Py S2N.Spec S2N.H5 S2N.Writer S2N.Plot

/-- C109: the hypotheses are met by the first scan of this file, which is drawn with two points. -/
theorem C109_nonvacuous : letI : UniDB := asciiDB
    ∃ s r x t, Conversion saveEnv HKey.all arriveTexts s [.int 1, .int 2] r ∧ s.getScan (.int 1) = .ok (some x) ∧
      NotBy x meshMacros ∧ NotBy x hklMacros ∧ dataLinesOf (scanLines x.raw) ≠ [] ∧ ClearColumns x.raw ∧
      (plotScan saveEnv HKey.all .line {} p!"demo.dat" (some 5) none ⟨x, s.headerOf x⟩).2 =
        .ok (some (.xy (.col (.col [.fin (1/2), .fin (3/2)])) (.col (.col [.fin 1, .fin 3])) t)) := by
  letI : UniDB := asciiDB
  have ht : dissectFile (.file (some arriveText)) = .ok arriveTexts ∧ calmB arriveTexts = true := by decide +kernel
  have hd : (match arriveDemo [.int 1, .int 2] with
    | none => false
    | some (e, _, s) =>
      e.isNone &&
      (match s.getScan (.int 1) with
      | .ok (some x) =>
        decide (x.raw = arriveScan) && decide (macroOf x = some p!"ascan") &&
        (match (plotScan saveEnv HKey.all .line {} p!"demo.dat" (some 5) none ⟨x, s.headerOf x⟩).2 with
          | .ok (some (.xy a b _)) => decide (a = .col (.col [.fin (1/2), .fin (3/2)])) && decide (b = .col (.col [.fin 1, .fin 3]))
          | _ => false) &&
        decide ((interpretScan saveEnv HKey.all ⟨x, s.headerOf x⟩).2 = none) &&
        decide ((interpretScan saveEnv HKey.all ⟨x, s.headerOf x⟩).1.scan.L = some [p!"Two Theta", p!"I0", p!"I0_1"])
      | _ => false)) = true := by decide +kernel
  unfold arriveDemo at hd
  cases hs : arriveFile with
  | error e => rw [hs] at hd; cases hd
  | ok s =>
    rw [hs] at hd
    simp only at hd
    cases hr : save saveEnv HKey.all saveVersions [.int 1, .int 2] s with
    | mk r e =>
      rw [hr] at hd
      simp only at hd
      cases h1 : s.getScan (.int 1) with
      | error e => rw [h1] at hd; simp at hd
      | ok o1 =>
        rw [h1] at hd
        cases o1 with
        | none => simp at hd
        | some x =>
          simp only [Bool.and_eq_true, decide_eq_true_eq, Option.isNone_iff_eq_none] at hd
          obtain ⟨b2, ⟨⟨⟨c1, c2⟩, c3⟩, c4⟩, c5⟩ := hd
          subst b2
          have hc : Conversion saveEnv HKey.all arriveTexts s [.int 1, .int 2] r := by
            refine ⟨⟨_, _, _, hs, ht.1⟩, plain_of_b ht.2, ?_, ⟨_, hr⟩⟩
            intro k hk
            simp only [List.mem_cons, List.not_mem_nil, or_false] at hk
            rcases hk with rfl | rfl <;> (unfold PlainText; decide)
          obtain ⟨z, hdr, ar⟩ := arrived (List.Perm.refl _) saveEnv_schema hc (k := .int 1) (by simp) h1
          obtain ⟨t1, t2, -⟩ := C90_text
          rw [← c1] at t1 t2
          have hl : dataLinesOf (scanLines x.raw) ≠ [] := by rw [t1]; simp
          have hcl : ClearColumns x.raw := by
            intro labels names g1 g2
            obtain ⟨labels', names', nm, lines, e1, e2, e3, -⟩ :=
              interp_data saveEnv HKey.all (List.Perm.refl _) ⟨x, s.headerOf x⟩ ar.fresh c4 hl
            rw [c5] at e2
            injection e2 with e2
            cases statedLabels_unique e1 g1
            cases renamed_unique e3 g2
            subst e2
            refine ⟨fun e => ?_, by decide, t2⟩
            have := e3.length
            rw [e] at this; cases this
          have hno : NotBy x meshMacros ∧ NotBy x hklMacros := by
            constructor <;>
            · intro m hm e
              rw [c2] at e
              injection e with e
              subst e
              revert hm; decide
          generalize hp : (plotScan saveEnv HKey.all .line {} p!"demo.dat" (some 5) none ⟨x, s.headerOf x⟩).2 = pp at c3
          rcases pp with _ | _ | p
          · cases c3
          · cases c3
          cases p with
          | xy a b t =>
            simp only [Bool.and_eq_true, decide_eq_true_eq] at c3
            exact ⟨s, r, x, t, hc, h1, hno.1, hno.2, hl, hcl, by rw [hp, c3.1, c3.2]⟩
          | _ => cases c3

/-- a scan along L; the first of its indices is written in two ways -/
def constText : Str := demoHead ++ join p!"\n" [[], p!"#S 1 hklscan  1 1.0 0 0 1 2 1 1", p!"#D Wed Jun 16 18:24:36 2010",
  p!"#N 4", p!"#L H  K  L  I", p!"1 0 1 5", p!"1 0 2 6", []]

/-- C109: in the entry of a scan in reciprocal space the attribute `axes` may name a dataset that is constant, since the texts of the
command are compared (`1` and `1.0`); specplot, which compares the data, plots against L. -/
theorem C109_hkl_differs :
    (savedText constText [.int 1]).map (fun r => (r.2.1, attrAt r.2.2 [p!"S1", p!"data"] p!"axes")) =
      some (none, some (.strs [p!"H", p!"L"])) ∧
    (match openText constText with
      | .error _ => false
      | .ok s =>
        match s.getScan (.int 1) with
        | .ok (some x) =>
          match (@plotScan asciiDB saveEnv HKey.all .hkl {} p!"demo.dat" (some 5) none ⟨x, s.headerOf x⟩).2 with
          | .ok (some (.xy a b t)) =>
            decide (a = .col (.col [.fin 1, .fin 2])) && decide (b = .col (.col [.fin 5, .fin 6])) && decide (t.xTitle = some p!"L")
          | _ => false
        | _ => false) = true := by
  constructor <;> decide +kernel

/-- the sections of this file -/
def constTexts : List Str := match dissectFile (.file (some constText)) with
  | .ok texts => texts
  | .error _ => []

/-- C109: the hypotheses of `C109_hkl` are met by the scan of this file. -/
theorem C109_hkl_nonvacuous : letI : UniDB := asciiDB
    ∃ s r x pic, Conversion saveEnv HKey.all constTexts s [.int 1] r ∧ s.getScan (.int 1) = .ok (some x) ∧
      NotBy x meshMacros ∧ dataLinesOf (scanLines x.raw) ≠ [] ∧ ClearColumns x.raw ∧
      (∀ names rows, ColumnNames x.raw names → ScanRows x.raw names rows → rows ≠ [] ∧
        ∀ a ∈ [p!"H", p!"K", p!"L"], a ∈ names → ∀ r ∈ rows, r.getD (names.idxOf a) .nan ≠ .nan) ∧
      (∀ labels, StatedLabels (scanLines x.raw) labels → labels.getLast? ≠ some p!"data point number") ∧
      (∀ names, ColumnNames x.raw names → p!"H" ∈ names) ∧
      (plotScan saveEnv HKey.all .hkl {} p!"demo.dat" (some 5) none ⟨x, s.headerOf x⟩).2 = .ok (some pic) := by
  letI : UniDB := asciiDB
  have ht : dissectFile (.file (some constText)) = .ok constTexts ∧ calmB constTexts = true := by decide +kernel
  have hd : (match openText constText with
    | .error _ => false
    | .ok s =>
      decide ((save saveEnv HKey.all saveVersions [.int 1] s).2 = none) &&
      (match s.getScan (.int 1) with
      | .ok (some x) =>
        decide (macroOf x = some p!"hklscan") && decide (dataLinesOf (scanLines x.raw) = [p!"1 0 1 5", p!"1 0 2 6"]) &&
        decide (((allLabels x.raw [p!"H", p!"K", p!"L", p!"I"]).map cleanName).Nodup) &&
        (match (plotScan saveEnv HKey.all .hkl {} p!"demo.dat" (some 5) none ⟨x, s.headerOf x⟩).2 with
          | .ok (some _) => true
          | _ => false) &&
        decide ((interpretScan saveEnv HKey.all ⟨x, s.headerOf x⟩).2 = none) &&
        decide ((interpretScan saveEnv HKey.all ⟨x, s.headerOf x⟩).1.scan.L = some [p!"H", p!"K", p!"L", p!"I"]) &&
        decide ((interpretScan saveEnv HKey.all ⟨x, s.headerOf x⟩).1.scan.data = [(p!"H", .col [.fin 1, .fin 1]),
          (p!"K", .col [.fin 0, .fin 0]), (p!"L", .col [.fin 1, .fin 2]), (p!"I", .col [.fin 5, .fin 6])]) &&
        decide ((interpretScan saveEnv HKey.all ⟨x, s.headerOf x⟩).1.scan.columnLast = p!"I")
      | _ => false)) = true := by decide +kernel
  cases hs : openText constText with
  | error e => rw [hs] at hd; cases hd
  | ok s =>
    rw [hs] at hd
    simp only at hd
    cases hr : save saveEnv HKey.all saveVersions [.int 1] s with
    | mk r e =>
      rw [hr] at hd
      cases h1 : s.getScan (.int 1) with
      | error e => rw [h1] at hd; simp at hd
      | ok o1 =>
        rw [h1] at hd
        cases o1 with
        | none => simp at hd
        | some x =>
          simp only [Bool.and_eq_true, decide_eq_true_eq] at hd
          obtain ⟨b2, ⟨⟨⟨⟨⟨⟨⟨c1, c2⟩, c3⟩, c4⟩, c5⟩, c6⟩, c7⟩, c8⟩⟩ := hd
          subst b2
          have hc : Conversion saveEnv HKey.all constTexts s [.int 1] r := by
            refine ⟨⟨_, _, _, hs, ht.1⟩, plain_of_b ht.2, ?_, ⟨_, hr⟩⟩
            intro k hk
            simp only [List.mem_cons, List.not_mem_nil, or_false] at hk
            rcases hk with rfl; unfold PlainText; decide
          obtain ⟨z, hdr, ar⟩ := arrived (List.Perm.refl _) saveEnv_schema hc (k := .int 1) (by simp) h1
          have hl : dataLinesOf (scanLines x.raw) ≠ [] := by rw [c2]; simp
          obtain ⟨labels, names, nm, lines, e1, e2, e3, -, -, e6, e7, -, e9⟩ :=
            interp_data saveEnv HKey.all (List.Perm.refl _) ⟨x, s.headerOf x⟩ ar.fresh c5 hl
          obtain ⟨labels', f1, -, f3⟩ := C21_first_last saveEnv HKey.all (List.Perm.refl _) ⟨x, s.headerOf x⟩ ar.fresh c5
          rw [c6] at e2
          injection e2 with e2
          subst e2
          cases statedLabels_unique e1 f1
          have hne : labels ≠ [] := by
            intro e
            have := e3.length
            rw [e] at this; cases this
          have hlast : labels.getLast? = some p!"I" := by
            obtain ⟨l, hl⟩ : ∃ l, labels.getLast? = some l := ⟨_, List.getLast?_eq_some_getLast hne⟩
            rw [hl, c8] at f3
            rw [hl]; simpa using f3.symm
          obtain ⟨rows, sp, g1, g2, -⟩ := e9 (.inl (by decide))
          have hrows : ScanRows x.raw [p!"H", p!"K", p!"L", p!"I"] rows := ⟨nm, lines, e6, e7, g2⟩
          rw [c7] at g1
          generalize hp : (plotScan saveEnv HKey.all .hkl {} p!"demo.dat" (some 5) none ⟨x, s.headerOf x⟩).2 = pp at c4
          rcases pp with _ | _ | p
          · cases c4
          · cases c4
          refine ⟨s, r, x, p, hc, h1, ?_, hl, ?_, ?_, ?_, ?_, hp⟩
          · intro m hm e
            rw [c1] at e
            injection e with e
            subst e
            revert hm; decide
          · intro labels' names' k1 k2
            cases statedLabels_unique e1 k1
            cases renamed_unique e3 k2
            exact ⟨hne, by decide, c3⟩
          · rintro names' rows' ⟨labels', k1, k2⟩ k3
            obtain ⟨rfl, rfl, rfl⟩ := C21_determined e1 e3 hrows k1 k2 k3 hne
            constructor
            · intro e
              have := table_get g1 (k := p!"H") (by decide)
              rw [e] at this
              revert this; decide
            · intro a ha _ r hrr hnan
              have := table_get g1 (k := a) (by revert ha; simp only [List.mem_cons, List.not_mem_nil, or_false]; tauto)
              have hm : PyFloat.nan ∈ rows.map (fun r => r.getD ([p!"H", p!"K", p!"L", p!"I"].idxOf a) .nan) :=
                List.mem_map.2 ⟨r, hrr, hnan⟩
              generalize rows.map (fun r => r.getD ([p!"H", p!"K", p!"L", p!"I"].idxOf a) .nan) = col at this hm
              simp only [List.mem_cons, List.not_mem_nil, or_false] at ha
              rcases ha with rfl | rfl | rfl
              · have e : col = [.fin 1, .fin 1] := by injection this with this; injection this with this; exact this.symm
                rw [e] at hm; revert hm; decide
              · have e : col = [.fin 0, .fin 0] := by injection this with this; injection this with this; exact this.symm
                rw [e] at hm; revert hm; decide
              · have e : col = [.fin 1, .fin 2] := by injection this with this; injection this with this; exact this.symm
                rw [e] at hm; revert hm; decide
          · intro labels' k1
            cases statedLabels_unique e1 k1
            rw [hlast]; decide
          · rintro names' ⟨labels', k1, k2⟩
            cases statedLabels_unique e1 k1
            cases renamed_unique e3 k2
            decide

end S2N.Props
