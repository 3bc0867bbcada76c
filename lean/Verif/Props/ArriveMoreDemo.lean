import Verif.Props.ArriveTemp
import Verif.Props.ArriveHeader
import Verif.Props.ArriveDemo
/-
A file that is converted (C96, C97).
-/
namespace S2N.Props
open S2N Py H5 Eznx Writer Spec

/-- a file with all the lines in its header that C97 speaks of, and a scan with those that C96 speaks of -/
def moreText : Str := join p!"\n" [p!"#F demo", p!"#E 10", p!"#D Wed Jun 16 18:24:00 2010", p!"#C fourc  User =  mary jo = x", p!"#C again",
  p!"#O0 Two Theta  Chi", p!"#o0 tth chi", p!"#J0 Seconds  Ion", p!"#j0 sec ion", p!"#H0 gap  mode", p!"#R first result", p!"#U for the user", p!"#plugh nobody knows",
  [], p!"#S 7 ascan  th 0 1 2 1", p!"#D Wed Jun 16 18:24:36 2010", p!"#G0 1 2.5", p!"#G0 3 4.5", p!"#G1 5.4 5.4 5.4 90 90 90 1 1 1 90 90 90 1 0 0 0 1 0 10 5 0 0 0 0 10 5 90 0 0 0 1.5 1.5", p!"#Q 0 0 1", p!"#V0 12.5  up", p!"#MD user = joe", p!"#MD user = jim", p!"#MD beam = on",
  p!"#@CALIB 0 1 0", p!"#@CHANN 3 0 2 1", p!"#@CTIME 1 2 3", p!"#X 1.5Kohm (-20.25C)", p!"#P0 10.5 90", p!"#R second result", p!"#xyzzy nobody knows",
  p!"#N 2", p!"#L Two Theta  I0", p!"0.5 1", p!"1.5 3"]

/-- the file object -/
def moreFile : Except PyErr Sdf :=
  @Sdf.openFile asciiDB saveEnv HKey.all p!"demo.dat" (fileAt moreText 1) (fileAt moreText 1)

/-- the sections of the file -/
def moreTexts : List Str := match dissectFile (.file (some moreText)) with
  | .ok texts => texts
  | .error _ => []

/-- what the examples look at after a save -/
def moreDemo (ks : List Ref) : Option (Option PyErr × H5 × Sdf) :=
  match moreFile with
  | .error _ => none
  | .ok s =>
    let r := @save asciiDB saveEnv HKey.all saveVersions ks s
    some (r.2, r.1.h5, s)

/-- the sections of the header and of the scan -/
def moreHead : Str := moreTexts.getD 1 []
def moreScan : Str := moreTexts.getD 2 []

/-- C96, C97: the hypotheses are met by this file. -/
theorem C96_nonvacuous : letI : UniDB := asciiDB
    ∃ s r x, Conversion saveEnv HKey.all moreTexts s [.int 7] r ∧ s.getScan (.int 7) = .ok (some x) ∧
      x.raw = moreScan ∧ (s.headerOf x).raw = moreHead ∧ x.scanNum = p!"7" ∧ (s.headerOf x).H = some [[p!"gap", p!"mode"]] := by
  letI : UniDB := asciiDB
  have ht : dissectFile (.file (some moreText)) = .ok moreTexts ∧ calmB moreTexts = true := by decide +kernel
  have hd : (match moreDemo [.int 7] with
    | none => false
    | some (e, _, s) =>
      e.isNone &&
      (match s.getScan (.int 7) with
      | .ok (some x) =>
        decide (x.raw = moreScan) && decide ((s.headerOf x).raw = moreHead) && decide (x.scanNum = p!"7") &&
        decide ((s.headerOf x).H = some [[p!"gap", p!"mode"]])
      | _ => false)) = true := by decide +kernel
  unfold moreDemo at hd
  cases hs : moreFile with
  | error e => rw [hs] at hd; cases hd
  | ok s =>
    rw [hs] at hd
    simp only at hd
    cases hr : save saveEnv HKey.all saveVersions [.int 7] s with
    | mk r e =>
      rw [hr] at hd
      simp only at hd
      cases h1 : s.getScan (.int 7) with
      | error e => rw [h1] at hd; simp at hd
      | ok o1 =>
        rw [h1] at hd
        cases o1 with
        | none => simp at hd
        | some x =>
          simp only [Bool.and_eq_true, decide_eq_true_eq, Option.isNone_iff_eq_none] at hd
          obtain ⟨b2, ⟨⟨c1, c2⟩, c3⟩, c4⟩ := hd
          subst b2
          refine ⟨s, r, x, ⟨⟨_, _, _, hs, ht.1⟩, plain_of_b ht.2, ?_, ⟨_, hr⟩⟩, h1, c1, c2, c3, c4⟩
          intro k hk
          simp only [List.mem_cons, List.not_mem_nil, or_false] at hk
          subst hk
          unfold PlainText; decide

/-- C96: what the text of the scan says. -/
theorem C96_text : letI : UniDB := asciiDB
    (ofKind .D (scanLines moreScan)).getLast? = some p!"#D Wed Jun 16 18:24:36 2010" ∧
    pairTables [[p!"gap", p!"mode"]] ((ofKind .V (scanLines moreScan)).mapIdx (fun i l => valuesV ([[p!"gap", p!"mode"]].getD i []) l)) =
      [(p!"gap", p!"12.5"), (p!"mode", p!"up")] ∧
    (ofKind .CALIB (scanLines moreScan)).length = 1 ∧ (ofKind .CHANN (scanLines moreScan)).length = 1 ∧ (ofKind .CTIME (scanLines moreScan)).length = 1 ∧
    ((ofKind .G (scanLines moreScan)).map (fun l => (lstripC '#' ((splitWs l).headD []), stripFirstWord l))).take 2 =
      [(p!"G0", p!"1 2.5"), (p!"G0", p!"3 4.5")] ∧
    ofKind .MD (scanLines moreScan) = [(p!"user", p!"joe"), (p!"user", p!"jim"), (p!"beam", p!"on")].map (fun kv => mdLine kv.1 kv.2) ∧
    (ofKind .X (scanLines moreScan)).getLast? = some p!"#X 1.5Kohm (-20.25C)" := by decide +kernel

/-- C96: that #X line has one of the three forms. -/
theorem C96_form : TempLine p!"#X 1.5Kohm (-20.25C)" (decVal p!"1" p!"5") (-decVal p!"20" p!"25") :=
  ⟨p!"1.5", p!"-20.25", ⟨false, p!"1", p!"5", by decide, by decide, rfl, rfl⟩, ⟨true, p!"20", p!"25", by decide, by decide, rfl, rfl⟩, .inl (by decide)⟩

/-- C96: what the file says of the scan. -/
theorem C96_example :
    (moreDemo [.int 7]).map (fun r => decide (datasetAt r.2.1 [p!"S7", p!"scan_number"] = some (.nums ⟨[.int 7], [1]⟩, [(p!"spec_name", .str p!"SCAN_N")]))) = some true ∧
    (moreDemo [.int 7]).map (fun r => decide ((datasetAt r.2.1 [p!"S7", p!"date"]).map (·.1) = some (.text [p!"2010-06-16T18:24:36"]))) = some true ∧
    (moreDemo [.int 7]).map (fun r => decide ((datasetAt r.2.1 [p!"S7", p!"G", p!"G0"]).map (·.1) = some (.nums ⟨[.flt (.fin 3), .flt (.fin (9/2))], [2]⟩))) = some true := by
  refine ⟨?_, ?_, ?_⟩ <;> decide +kernel

/-- C97: what the text of the header says. -/
theorem C97_nonvacuous : letI : UniDB := asciiDB
    moreTexts = [p!"#F demo"] ++ moreHead :: [moreScan] ∧ isHeaderText p!"#F demo" = false ∧ isScanText p!"#F demo" = false ∧ isHeaderText moreHead = true ∧
    hTexts .R moreHead = [p!"first result"] ∧ hTexts .U moreHead = [p!"for the user"] ∧ hUnrecognized moreHead = [p!"#plugh nobody knows"] ∧
    pairTables (wordTable .j (splitlines moreHead)) (wordTable .J (splitlines moreHead)) = [(p!"sec", p!"Seconds"), (p!"ion", p!"Ion")] ∧
    pairTables (wordTable .o (splitlines moreHead)) (namesTable (hOfKind .O (splitlines moreHead))) = [(p!"tth", p!"Two Theta"), (p!"chi", p!"Chi")] ∧
    ofKind .j (scanLines moreScan) = [] ∧ ofKind .o (scanLines moreScan) = [] ∧ (∀ t ∈ moreTexts, isScanText t = true → ofKind .O (scanLines t) = []) ∧
    pairTables (namesTable (hOfKind .O (splitlines moreHead))) ((ofKind .P (scanLines moreScan)).map (fun l => splitWs (stripFirstWord l))) =
      [(p!"Two Theta", p!"10.5"), (p!"Chi", p!"90")] ∧
    (hOfKind .H (splitlines moreHead)).map (fun l => splitDbl false (stripFirstWord l)) = [[p!"gap", p!"mode"]] ∧
    (hOfKind .C (splitlines moreHead)).map stripFirstWord = [p!"fourc  User =  mary jo = x", p!"again"] := by decide +kernel

/-- C97: what the file says. -/
theorem C97_example :
    (moreDemo [.int 7]).map (fun r => decide (attrAt r.2.1 [] p!"SPEC_user" = some (.str p!"mary jo"))) = some true ∧
    (moreDemo [.int 7]).map (fun r => decide ((childrenAt r.2.1 [p!"S7", p!"positioner_cross_reference"]) = [p!"chi", p!"tth"])) = some true ∧
    (moreDemo [.int 7]).map (fun r => decide ((childrenAt r.2.1 [p!"S7", p!"counter_cross_reference"]) = [p!"ion", p!"sec"])) = some true := by
  refine ⟨?_, ?_, ?_⟩ <;> decide +kernel

end S2N.Props
