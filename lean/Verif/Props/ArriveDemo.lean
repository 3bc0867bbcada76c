import Verif.Props.Arrive
/-
A file that is converted (C90, C91).
-/
namespace S2N.Props
open S2N Py H5 Eznx Writer Spec

/-- a file with names and a result in its header, and a scan with all the lines that C90 and C91 speak of; it has two
columns of the same label, a line with too few numbers, and spectra of two detectors -/
def arriveText : Str := demoHead ++ join p!"\n" [[], p!"#O0 Two Theta  Chi  Phi", p!"#R first result",
  [], p!"#S 1 ascan  th 0 1 2 1", p!"#D Wed Jun 16 18:24:36 2010", p!"#M 500  (I0)", p!"#Q 1 0 0.5", p!"#P0 10.5 90 -7",
  p!"#R second result", p!"#U for the user", p!"#C Wed Jun 16 18:24:36 2010.  hello", p!"#xyzzy nobody knows", p!"#N 3",
  p!"#L Two Theta  I0  I0", p!"@A 7 8", p!"@A1 3 4 5", p!"0.5 1 10", p!"9 9", p!"@A 9 10", p!"@A1 6 7 8", p!"1.5 3 20",
  p!"#C Wed Jun 16 18:24:38 2010.  good bye",
  [], p!"#S 2 ascan  th 0 1 2 1", p!"#D Wed Jun 16 18:26:36 2010", p!"#P0 1 2 3", p!"#T 2  (Seconds)", []]

/-- the file object -/
def arriveFile : Except PyErr Sdf :=
  @Sdf.openFile asciiDB saveEnv HKey.all p!"demo.dat" (fileAt arriveText 1) (fileAt arriveText 1)

/-- the sections of the file -/
def arriveTexts : List Str := match dissectFile (.file (some arriveText)) with
  | .ok texts => texts
  | .error _ => []

/-- what the examples look at after a save -/
def arriveDemo (ks : List Ref) : Option (Option PyErr × H5 × Sdf) :=
  match arriveFile with
  | .error _ => none
  | .ok s =>
    let r := @save asciiDB saveEnv HKey.all saveVersions ks s
    some (r.2, r.1.h5, s)

theorem plain_of_b {texts : List Str} (h : calmB texts = true) : @PlainSections asciiDB texts := by
  unfold calmB at h
  rw [List.all_eq_true] at h
  refine @PlainSections.mk asciiDB _ ?_ ?_ ?_
  · intro t ht hh l hl
    have := h t ht
    rw [Bool.and_eq_true, hh] at this
    simp only [Bool.not_true, Bool.false_or, List.all_eq_true, Bool.and_eq_true] at this
    simpa using (this.1 l hl).1
  · intro t ht hh l hl hk w hw
    have := h t ht
    rw [Bool.and_eq_true, hh] at this
    simp only [Bool.not_true, Bool.false_or, List.all_eq_true, Bool.and_eq_true] at this
    have h2 := (this.1 l hl).2
    rw [Bool.or_eq_true_iff] at h2
    rcases h2 with h2 | h2
    · rw [Bool.not_eq_true', Bool.or_eq_false_iff] at h2
      rcases hk with hk | hk
      · rw [h2.1] at hk; cases hk
      · rw [h2.2] at hk; cases hk
    · exact of_decide_eq_true (List.all_eq_true.1 h2 w hw)
  · intro t ht hh l hl hk w hw
    have := h t ht
    rw [Bool.and_eq_true, hh] at this
    have h1 := this.2
    simp only [Bool.not_true, Bool.false_or, List.all_eq_true] at h1
    have h2 := h1 l hl
    rw [Bool.or_eq_true_iff] at h2
    rcases h2 with h2 | h2
    · rw [Bool.not_eq_true', Bool.or_eq_false_iff] at h2
      rcases hk with hk | hk
      · rw [h2.1] at hk; cases hk
      · rw [h2.2] at hk; cases hk
    · exact of_decide_eq_true (List.all_eq_true.1 h2 w hw)

/-- the section of the first scan -/
def arriveScan : Str := arriveTexts.getD 2 []

/-- C90, C91: the hypotheses are met by this file. -/
theorem C90_nonvacuous : letI : UniDB := asciiDB
    ∃ s r x, Conversion saveEnv HKey.all arriveTexts s [.int 1, .int 2] r ∧ s.getScan (.int 1) = .ok (some x) ∧
      x.raw = arriveScan ∧ macroOf x = some p!"ascan" ∧ (s.headerOf x).O = some [[p!"Two Theta", p!"Chi", p!"Phi"]] ∧
      (s.headerOf x).R = some [p!"first result"] := by
  letI : UniDB := asciiDB
  have ht : dissectFile (.file (some arriveText)) = .ok arriveTexts ∧ calmB arriveTexts = true := by decide +kernel
  have hd : (match arriveDemo [.int 1, .int 2] with
    | none => false
    | some (e, _, s) =>
      e.isNone &&
      (match s.getScan (.int 1) with
      | .ok (some x) =>
        decide (x.raw = arriveScan) && decide (macroOf x = some p!"ascan") &&
        decide ((s.headerOf x).O = some [[p!"Two Theta", p!"Chi", p!"Phi"]]) &&
        decide ((s.headerOf x).R = some [p!"first result"])
      | _ => false)) = true := by decide +kernel
  unfold arriveDemo at hd
  cases hs : arriveFile with
  | error e => rw [hs] at hd; cases hd
  | ok s =>
    rw [hs] at hd
    simp only at hd
    cases hr : save saveEnv HKey.all saveVersions [.int 1, .int 2] s with
    | mk r e =>
      rw [hr] at hd
      simp only at hd
      cases h1 : s.getScan (.int 1) with
      | error e => rw [h1] at hd; simp at hd
      | ok o1 =>
        rw [h1] at hd
        cases o1 with
        | none => simp at hd
        | some x =>
          simp only [Bool.and_eq_true, decide_eq_true_eq, Option.isNone_iff_eq_none] at hd
          obtain ⟨b2, ⟨⟨c1, c2⟩, c3⟩, c4⟩ := hd
          subst b2
          refine ⟨s, r, x, ⟨⟨_, _, _, hs, ht.1⟩, plain_of_b ht.2, ?_, ⟨_, hr⟩⟩, h1, c1, c2, c3, c4⟩
          intro k hk
          simp only [List.mem_cons, List.not_mem_nil, or_false] at hk
          rcases hk with rfl | rfl <;> (unfold PlainText; decide)

/-- C90: what the text of the first scan says. -/
theorem C90_text : letI : UniDB := asciiDB
    dataLinesOf (scanLines arriveScan) = [p!"@A 7 8", p!"@A1 3 4 5", p!"0.5 1 10", p!"9 9", p!"@A 9 10", p!"@A1 6 7 8", p!"1.5 3 20"] ∧
    ((allLabels arriveScan [p!"Two Theta", p!"I0", p!"I0_1"]).map cleanName).Nodup ∧
    (mcaLines arriveScan).map mcaName = [p!"mca", p!"mca1", p!"mca", p!"mca1"] ∧
    (ofKind .C (scanLines arriveScan)).length = 2 ∧
    (ofKind .R (scanLines arriveScan)).map stripFirstWord = [p!"second result"] ∧
    (ofKind .U (scanLines arriveScan)).map stripFirstWord = [p!"for the user"] ∧
    (scanLines arriveScan).filter (fun l => isUnknown l || isKind .unrec l) = [p!"#xyzzy nobody knows"] ∧
    ofKind .Q (scanLines arriveScan) = [p!"#Q 1 0 0.5"] ∧
    (ofKind .M (scanLines arriveScan)).map tmValue = [p!"500"] ∧
    (∀ t ∈ arriveTexts, isScanText t = true → ofKind .O (scanLines t) = []) ∧
    pairTables [[p!"Two Theta", p!"Chi", p!"Phi"]] ((ofKind .P (scanLines arriveScan)).map (fun l => splitWs (stripFirstWord l))) =
      [(p!"Two Theta", p!"10.5"), (p!"Chi", p!"90"), (p!"Phi", p!"-7")] := by decide +kernel

/-- C90: what the file says of the first scan. -/
theorem C90_example :
    (arriveDemo [.int 1, .int 2]).map (fun r => decide ((datasetAt r.2.1 [p!"S1", p!"data", p!"I0_1"]).map (·.1) =
      some (.nums ⟨[.flt (.fin 10), .flt (.fin 20)], [2]⟩))) = some true ∧
    (arriveDemo [.int 1, .int 2]).map (fun r => decide ((datasetAt r.2.1 [p!"S1", p!"data", p!"_mca1_"]).map (·.1) =
      some (.nums ⟨[.int 3, .int 4, .int 5, .int 6, .int 7, .int 8], [2, 3]⟩))) = some true := by
  constructor <;> decide +kernel

/-- C91: what the file says of the scans. -/
theorem C91_example :
    (arriveDemo [.int 1, .int 2]).map (fun r => decide (datasetAt r.2.1 [p!"S1", p!"comments"] =
      some (.text [p!"Wed Jun 16 18:24:36 2010.  hello\nWed Jun 16 18:24:38 2010.  good bye"], []))) = some true ∧
    (arriveDemo [.int 1, .int 2]).map (fun r => decide ((datasetAt r.2.1 [p!"S2", p!"positioners", p!"Chi", p!"value"]).map (·.1) =
      some (.nums ⟨[.flt (.fin 2)], [1]⟩))) = some true ∧
    (arriveDemo [.int 1, .int 2]).map (fun r => decide ((datasetAt r.2.1 [p!"S2", p!"T"]).map (·.1) =
      some (.nums ⟨[.flt (.fin 2)], [1]⟩))) = some true := by
  refine ⟨?_, ?_, ?_⟩ <;> decide +kernel

end S2N.Props
