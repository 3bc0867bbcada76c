import Verif.Props.ArrivePlug
import Verif.Props.ArriveDemo
import Verif.Props.UxmlDemo
/-
A file with lines of plug-ins in its header (C99).
-/
namespace S2N.Props
open S2N Py H5 Eznx Writer Spec

/-- a file with all the lines in its header that C99 speaks of, and a scan -/
def plugText : Str := join p!"\n" [p!"#F demo", p!"#E 10", p!"#D Wed Jun 16 18:24:00 2010", p!"#C fourc  User = mary",
  p!"#VA0 1 two", p!"#VA0 3 four  5", p!"#VE7 x", p!"#MD user = joe", p!"#MD user = jim", p!"#MD beam = on", p!"#UXML <group/>", p!"#UXML <more/>",
  p!"#X 1.5Kohm (-20.25C)", p!"#@CALIB 0 1 0", p!"#@CTIME 1 2 3",
  [], p!"#S 7 ascan  th 0 1 2 1", p!"#D Wed Jun 16 18:24:36 2010", p!"#G0 1 2.5", p!"#G1 5.4 5.4 5.4 90 90 90 1 1 1 90 90 90 1 0 0 0 1 0 10 5 0 0 0 0 10 5 90 0 0 0 1.5 1.5", p!"#@CALIB 5 6 7 8", p!"#VD0 4",
  p!"#N 2", p!"#L th  I0", p!"0.5 1", p!"1.5 3"]

/-- the file object -/
def plugFile : Except PyErr Sdf :=
  @Sdf.openFile asciiDB (uxmlEnv []) HKey.all p!"demo.dat" (fileAt plugText 1) (fileAt plugText 1)

/-- the sections of the file -/
def plugTexts : List Str := match dissectFile (.file (some plugText)) with
  | .ok texts => texts
  | .error _ => []

/-- what the examples look at after a save -/
def plugDemo (ks : List Ref) : Option (Option PyErr × H5 × Sdf) :=
  match plugFile with
  | .error _ => none
  | .ok s =>
    let r := @save asciiDB (uxmlEnv []) HKey.all saveVersions ks s
    some (r.2, r.1.h5, s)

/-- the sections of the header and of the scan -/
def plugHead : Str := plugTexts.getD 1 []
def plugScan : Str := plugTexts.getD 2 []

/-- C99: the hypotheses are met by this file. -/
theorem C99_nonvacuous : letI : UniDB := asciiDB
    SchemaNames (uxmlEnv []) ∧
    ∃ s r x, Conversion (uxmlEnv []) HKey.all plugTexts s [.int 7] r ∧ s.getScan (.int 7) = .ok (some x) ∧
      x.raw = plugScan ∧ (s.headerOf x).raw = plugHead := by
  letI : UniDB := asciiDB
  refine ⟨uxmlEnv_schema [], ?_⟩
  have ht : dissectFile (.file (some plugText)) = .ok plugTexts ∧ calmB plugTexts = true := by decide +kernel
  have hd : (match plugDemo [.int 7] with
    | none => false
    | some (e, _, s) =>
      e.isNone &&
      (match s.getScan (.int 7) with
      | .ok (some x) => decide (x.raw = plugScan) && decide ((s.headerOf x).raw = plugHead)
      | _ => false)) = true := by decide +kernel
  unfold plugDemo at hd
  cases hs : plugFile with
  | error e => rw [hs] at hd; cases hd
  | ok s =>
    rw [hs] at hd
    simp only at hd
    cases hr : save (uxmlEnv []) HKey.all saveVersions [.int 7] s with
    | mk r e =>
      rw [hr] at hd
      simp only at hd
      cases h1 : s.getScan (.int 7) with
      | error e => rw [h1] at hd; simp at hd
      | ok o1 =>
        rw [h1] at hd
        cases o1 with
        | none => simp at hd
        | some x =>
          simp only [Bool.and_eq_true, decide_eq_true_eq, Option.isNone_iff_eq_none] at hd
          obtain ⟨b2, c1, c2⟩ := hd
          subst b2
          refine ⟨s, r, x, ⟨⟨_, _, _, hs, ht.1⟩, plain_of_b ht.2, ?_, ⟨_, hr⟩⟩, h1, c1, c2⟩
          intro k hk
          simp only [List.mem_cons, List.not_mem_nil, or_false] at hk
          subst hk
          unfold PlainText; decide

/-- C99: what the text of the header and the scan says; the document is one that C99 speaks of. -/
theorem C99_text : letI : UniDB := asciiDB
    keyedLines .VA plugHead = [(p!"VA0", p!"1 two"), (p!"VA0", p!"3 four  5")] ∧ keyedLines .VD plugHead = [] ∧ keyedLines .VE plugHead = [(p!"VE7", p!"x")] ∧
    hOfKind .MD (splitlines plugHead) = [(p!"user", p!"joe"), (p!"user", p!"jim"), (p!"beam", p!"on")].map (fun kv => mdLine kv.1 kv.2) ∧
    ofKind .MD (scanLines plugScan) = [] ∧ xmlText (hOfKind .UXML (splitlines plugHead)) = p!"<group/>\n<more/>" ∧ ofKind .UXML (scanLines plugScan) = [] ∧
    (elements (uxmlDoc [])).all (fun e => nodeB e.2) = true ∧
    hOfKind .X (splitlines plugHead) ++ ofKind .X (scanLines plugScan) = [p!"#X 1.5Kohm (-20.25C)"] ∧
    (hOfKind .CALIB (splitlines plugHead) ++ ofKind .CALIB (scanLines plugScan)).getLast? = some p!"#@CALIB 5 6 7 8" ∧
    (hOfKind .CHANN (splitlines plugHead) ++ ofKind .CHANN (scanLines plugScan)).getLast? = none ∧
    (hOfKind .CTIME (splitlines plugHead) ++ ofKind .CTIME (scanLines plugScan)).getLast? = some p!"#@CTIME 1 2 3" := by decide +kernel

/-- C99: what the file says of the scan. -/
theorem C99_example :
    (plugDemo [.int 7]).map (fun r => decide ((datasetAt r.2.1 [p!"S7", p!"VA", p!"VA0"]).map (·.1) = some (.text [p!"3", p!"four", p!"5"]))) = some true ∧
    (plugDemo [.int 7]).map (fun r => decide ((datasetAt r.2.1 [p!"S7", p!"UXML", p!"number"]).map (·.1) = some (.nums ⟨[.int 12], [1]⟩))) = some true ∧
    (plugDemo [.int 7]).map (fun r => decide ((datasetAt r.2.1 [p!"S7", p!"TEMP_SP"]).map (·.1) = some (.nums ⟨[.flt (.fin (3/2))], [1]⟩))) = some true := by
  refine ⟨?_, ?_, ?_⟩ <;> decide +kernel

end S2N.Props
