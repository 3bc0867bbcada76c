import Verif.Props.Uxml
/-
A file with UXML metadata.
-/
namespace S2N.Props
open S2N Py H5 Eznx Writer Spec

mutual
/-- a check of `XmlOk` -/
def xmlB : XmlNode → Bool
  | .mk _ attrib _ children => (match attrib.get? p!"name" with | some n => !n.contains '/' | none => true) && xmlsB children
/-- a check of `XmlsOk` -/
def xmlsB : List XmlNode → Bool
  | [] => true
  | n :: ns => xmlB n && xmlsB ns
end

mutual
theorem xml_of_b : ∀ n, xmlB n = true → XmlOk n
  | .mk t attrib v children => by
    intro h
    rw [xmlB, Bool.and_eq_true] at h
    rw [XmlOk]
    refine ⟨fun n hn => ?_, xmls_of_b _ h.2⟩
    have := h.1
    rw [hn] at this
    simpa using this
theorem xmls_of_b : ∀ ns, xmlsB ns = true → XmlsOk ns
  | [] => fun _ => by rw [XmlsOk]; trivial
  | n :: ns => by
    intro h
    rw [xmlsB, Bool.and_eq_true] at h
    rw [XmlsOk]
    exact ⟨xml_of_b n h.1, xmls_of_b ns h.2⟩
end

/-- a document: a group with a dataset, a text and an integer, and links to the dataset and to the group -/
def uxmlDoc (again : List XmlNode) : XmlNode := .mk p!"UXML" [] none ([
  .mk p!"group" [(p!"name", p!"stage"), (p!"NX_class", p!"NXpositioner"), (p!"unique_id", p!"7"), (p!"description", p!"top")] none [
    .mk p!"dataset" [(p!"name", p!"x"), (p!"type", p!"float"), (p!"units", p!"mm"), (p!"unique_id", p!"8")] (some p!"1.5") [],
    .mk p!"group" [(p!"name", p!"sub"), (p!"NX_class", p!"NXnote")] none [
      .mk p!"hardlink" [(p!"name", p!"again"), (p!"target_id", p!"8")] none []]],
  .mk p!"dataset" [(p!"name", p!"label")] (some p!"sample") [],
  .mk p!"dataset" [(p!"name", p!"number"), (p!"type", p!"int")] (some p!" 12 ") [],
  .mk p!"hardlink" [(p!"name", p!"table"), (p!"target_id", p!"7")] none []] ++ again)

/-- the parser gives this document; the schema checks the names -/
def uxmlEnv (again : List XmlNode) : Env :=
  { demoEnv with xmlParse := fun _ => .ok (uxmlDoc again), xmlValid := fun | .mk _ _ _ ch => xmlsB ch }

theorem uxmlEnv_schema (again : List XmlNode) : SchemaNames (uxmlEnv again) := fun _ _ _ ch h => xmls_of_b ch h

def uxmlText : Str := demoHead ++ join p!"\n" [[], p!"#S 1 ascan  th 0 1 2 1", p!"#D Wed Jun 16 18:24:36 2010", p!"#UXML <group/>",
  p!"#N 2", p!"#L th  I0", p!"0.5 1", p!"1.5 3", []]

def uxmlFile (again : List XmlNode) : Except PyErr Sdf :=
  @Sdf.openFile asciiDB (uxmlEnv again) HKey.all p!"demo.dat" (fileAt uxmlText 1) (fileAt uxmlText 1)

def uxmlRun (again : List XmlNode) : Option (Bool × Option PyErr × H5 × Sdf) :=
  match uxmlFile again with
  | .error _ => none
  | .ok s =>
    let r := @save asciiDB (uxmlEnv again) HKey.all saveVersions [.int 1] s
    some (@savableB asciiDB s, r.2, r.1.h5, r.1.sdf)

def nodeB : XmlNode → Bool
  | .mk tag attrib text ch =>
    (match attrOf (.mk tag attrib text ch) p!"name" with
    | some nm => decide (nm ≠ []) && decide (nm ≠ ['.']) && nm.all (fun c => decide (c ≠ '/') && decide (c.toNat < 128))
    | none => false) && decide attrib.keys.Nodup

theorem node_of_b {n : XmlNode} (h : nodeB n = true) : NodeOk n := by
  obtain ⟨tag, attrib, text, ch⟩ := n
  rw [nodeB, Bool.and_eq_true, decide_eq_true_eq] at h
  refine ⟨?_, h.2⟩
  have h1 := h.1
  cases hn : attrOf (.mk tag attrib text ch) p!"name" with
  | none => rw [hn] at h1; cases h1
  | some nm =>
    rw [hn] at h1
    simp only [Bool.and_eq_true, decide_eq_true_eq, List.all_eq_true] at h1
    exact ⟨nm, rfl, h1.1.1, h1.1.2, h1.2⟩

/-- the places and the ids of the elements -/
def summaryOf (root : XmlNode) : List (List Str × Str × Option Str × Option Str) :=
  (elements root).map (fun e => (e.1, tagOf e.2, linkTo e.2, idOf e.2))

/-- C46, C78: the hypotheses are met by this file: `Savable` holds, the save returns, and the scan has a document of
seven elements with groups in groups and hard links of different targets. -/
theorem C46_nonvacuous : letI : UniDB := asciiDB
    SchemaNames (uxmlEnv []) ∧
    ∃ s r z root, Savable s ∧ save (uxmlEnv []) HKey.all saveVersions [.int 1] s = (r, none) ∧
      r.sdf.getScan (.int 1) = .ok (some z) ∧ (r.sdf.headerOf z).uxmlRoot = none ∧ z.uxmlRoot = some root ∧
      DocumentOk z.uxmlRoot ∧ summaryOf root =
        [([p!"stage"], p!"group", none, some p!"7"), ([p!"stage", p!"x"], p!"dataset", none, some p!"8"),
          ([p!"stage", p!"sub"], p!"group", none, none), ([p!"stage", p!"sub", p!"again"], p!"hardlink", some p!"8", none),
          ([p!"label"], p!"dataset", none, none), ([p!"number"], p!"dataset", none, none),
          ([p!"table"], p!"hardlink", some p!"7", none)] := by
  letI : UniDB := asciiDB
  refine ⟨uxmlEnv_schema [], ?_⟩
  have hd : (match uxmlRun [] with
    | none => false
    | some (b, e, _, sdf) =>
      b && e.isNone &&
      (match sdf.getScan (.int 1) with
      | .ok (some z) =>
        (sdf.headerOf z).uxmlRoot.isNone &&
        (match z.uxmlRoot with
        | none => false
        | some root => (elements root).all (fun e => nodeB e.2) && decide (summaryOf root =
            [([p!"stage"], p!"group", none, some p!"7"), ([p!"stage", p!"x"], p!"dataset", none, some p!"8"),
              ([p!"stage", p!"sub"], p!"group", none, none), ([p!"stage", p!"sub", p!"again"], p!"hardlink", some p!"8", none),
              ([p!"label"], p!"dataset", none, none), ([p!"number"], p!"dataset", none, none),
              ([p!"table"], p!"hardlink", some p!"7", none)]))
      | _ => false)) = true := by decide +kernel
  unfold uxmlRun at hd
  cases hs : uxmlFile [] with
  | error e => rw [hs] at hd; simp at hd
  | ok s =>
    rw [hs] at hd
    simp only at hd
    cases hr : save (uxmlEnv []) HKey.all saveVersions [.int 1] s with
    | mk r e =>
      rw [hr] at hd
      simp only at hd
      cases h1 : r.sdf.getScan (.int 1) with
      | error e => rw [h1] at hd; simp at hd
      | ok o1 =>
        rw [h1] at hd
        cases o1 with
        | none => simp at hd
        | some z =>
          cases hu : z.uxmlRoot with
          | none => simp [hu] at hd
          | some root =>
            simp only [hu, Bool.and_eq_true, decide_eq_true_eq, Option.isNone_iff_eq_none, List.all_eq_true] at hd
            obtain ⟨⟨b1, b2⟩, c1, c2, c3⟩ := hd
            subst b2
            refine ⟨s, r, z, root, savable_of_b b1, hr, h1, c1, hu, ?_, c3⟩
            rw [hu]
            intro root' e
            cases e
            exact fun e he => node_of_b (c2 e he)

/-- C46, C78: what the file of this scan has: the dataset and the link to it are one object. -/
theorem C46_example :
    (uxmlRun []).map (fun r => (childrenAt r.2.2.1 [p!"S1", p!"UXML"], childrenAt r.2.2.1 [p!"S1", p!"UXML", p!"stage"])) =
      some ([p!"stage", p!"label", p!"number", p!"table"], [p!"x", p!"sub"]) ∧
    (uxmlRun []).map (fun r => datasetAt r.2.2.1 [p!"S1", p!"UXML", p!"table", p!"sub", p!"again"]) =
      some (some (.nums ⟨[.flt (.fin (3/2))], [1]⟩, [(p!"units", .str p!"mm"), (p!"target", .str p!"/S1/UXML/stage/x")])) ∧
    (uxmlRun []).map (fun r => decide (H5.walk r.2.2.1 0 [p!"S1", p!"UXML", p!"stage", p!"x"] =
      H5.walk r.2.2.1 0 [p!"S1", p!"UXML", p!"stage", p!"sub", p!"again"])) = some true ∧
    (uxmlRun []).map (fun r => datasetAt r.2.2.1 [p!"S1", p!"UXML", p!"number"]) = some (some (.nums ⟨[.int 12], [1]⟩, [])) := by
  refine ⟨?_, ?_, ?_, ?_⟩ <;> decide +kernel

/-- C46: with two hard links to the same id only the last is made, although the document is valid and the save
succeeds: the full statement is false. -/
theorem C46_two_links :
    (uxmlRun [.mk p!"hardlink" [(p!"name", p!"other"), (p!"target_id", p!"8")] none []]).map (fun r => (r.1, r.2.1)) =
      some (true, none) ∧
    (uxmlRun [.mk p!"hardlink" [(p!"name", p!"other"), (p!"target_id", p!"8")] none []]).map (fun r =>
      (objAt r.2.2.1 [p!"S1", p!"UXML", p!"stage", p!"sub", p!"again"]).isSome) = some false ∧
    (uxmlRun [.mk p!"hardlink" [(p!"name", p!"other"), (p!"target_id", p!"8")] none []]).map (fun r =>
      datasetAt r.2.2.1 [p!"S1", p!"UXML", p!"other"]) =
      some (some (.nums ⟨[.flt (.fin (3/2))], [1]⟩, [(p!"units", .str p!"mm"), (p!"target", .str p!"/S1/UXML/stage/x")])) := by
  refine ⟨?_, ?_, ?_⟩ <;> decide +kernel

end S2N.Props
