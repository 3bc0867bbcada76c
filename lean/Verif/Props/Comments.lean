import Verif.Lemmas.Continue
import Verif.Lemmas.Post
import Verif.Props.Lines
/-
C23: comment lines do not matter (except for the comments).
-/
namespace S2N.Props
open S2N S2N.Py S2N.Spec

local notation "er" => noComments

theorem er_kind (x : Obj) : (er x).kind = x.kind := rfl
theorem er_fileName (x : Obj) : (er x).fileName = x.fileName := rfl
theorem er_date (x : Obj) : (er x).date = x.date := rfl
theorem er_epoch (x : Obj) : (er x).epoch = x.epoch := rfl
theorem er_G (x : Obj) : (er x).G = x.G := rfl
theorem er_diff (x : Obj) : (er x).diff = x.diff := rfl
theorem er_I (x : Obj) : (er x).I = x.I := rfl
theorem er_J (x : Obj) : (er x).J = x.J := rfl
theorem er_j (x : Obj) : (er x).j = x.j := rfl
theorem er_o (x : Obj) : (er x).o = x.o := rfl
theorem er_counterXref (x : Obj) : (er x).counterXref = x.counterXref := rfl
theorem er_positionerXref (x : Obj) : (er x).positionerXref = x.positionerXref := rfl
theorem er_L (x : Obj) : (er x).L = x.L := rfl
theorem er_columnFirst (x : Obj) : (er x).columnFirst = x.columnFirst := rfl
theorem er_columnLast (x : Obj) : (er x).columnLast = x.columnLast := rfl
theorem er_M (x : Obj) : (er x).M = x.M := rfl
theorem er_monitorName (x : Obj) : (er x).monitorName = x.monitorName := rfl
theorem er_T (x : Obj) : (er x).T = x.T := rfl
theorem er_timeName (x : Obj) : (er x).timeName = x.timeName := rfl
theorem er_N (x : Obj) : (er x).N = x.N := rfl
theorem er_O (x : Obj) : (er x).O = x.O := rfl
theorem er_H (x : Obj) : (er x).H = x.H := rfl
theorem er_P (x : Obj) : (er x).P = x.P := rfl
theorem er_positioner (x : Obj) : (er x).positioner = x.positioner := rfl
theorem er_Q (x : Obj) : (er x).Q = x.Q := rfl
theorem er_R (x : Obj) : (er x).R = x.R := rfl
theorem er_U (x : Obj) : (er x).U = x.U := rfl
theorem er_UIM (x : Obj) : (er x).UIM = x.UIM := rfl
theorem er_unrecognized (x : Obj) : (er x).unrecognized = x.unrecognized := rfl
theorem er_UXML (x : Obj) : (er x).UXML = x.UXML := rfl
theorem er_uxmlRoot (x : Obj) : (er x).uxmlRoot = x.uxmlRoot := rfl
theorem er_tempSP (x : Obj) : (er x).tempSP = x.tempSP := rfl
theorem er_degcSP (x : Obj) : (er x).degcSP = x.degcSP := rfl
theorem er_data (x : Obj) : (er x).data = x.data := rfl
theorem er_dataLines (x : Obj) : (er x).dataLines = x.dataLines := rfl
theorem er_mca (x : Obj) : (er x).mca = x.mca := rfl
theorem er_metadata (x : Obj) : (er x).metadata = x.metadata := rfl
theorem er_V (x : Obj) : (er x).V = x.V := rfl
theorem er_VA (x : Obj) : (er x).VA = x.VA := rfl
theorem er_VD (x : Obj) : (er x).VD = x.VD := rfl
theorem er_VE (x : Obj) : (er x).VE = x.VE := rfl
theorem er_XPCS (x : Obj) : (er x).XPCS = x.XPCS := rfl
theorem er_CCD (x : Obj) : (er x).CCD = x.CCD := rfl
theorem er_MD (x : Obj) : (er x).MD = x.MD := rfl
theorem er_S (x : Obj) : (er x).S = x.S := rfl
theorem er_scanNum (x : Obj) : (er x).scanNum = x.scanNum := rfl
theorem er_scanCmd (x : Obj) : (er x).scanCmd = x.scanCmd := rfl
theorem er_interpComments (x : Obj) : (er x).interpComments = x.interpComments := rfl
theorem er_post (x : Obj) : (er x).post = x.post := rfl
theorem er_lazy (x : Obj) : (er x).lazy = x.lazy := rfl
theorem er_interpreted (x : Obj) : (er x).interpreted = x.interpreted := rfl
theorem er_hdrIdx (x : Obj) : (er x).hdrIdx = x.hdrIdx := rfl

theorem filter_setDefault (h : Dict H5Fn) (l : Str) (f : H5Fn) (hl : l ≠ p!"#C") :
    (Dict.setDefault h l f).filter (fun p => p.1 != p!"#C") =
      Dict.setDefault (h.filter (fun p => p.1 != p!"#C")) l f := by
  have hk : Dict.has (h.filter (fun p => p.1 != p!"#C")) l = Dict.has h l := by
    rw [Bool.eq_iff_iff, Dict.has_iff_mem, Dict.has_iff_mem]
    simp only [Dict.keys, List.mem_map, List.mem_filter]
    constructor
    · rintro ⟨p, ⟨h1, _⟩, h2⟩; exact ⟨p, h1, h2⟩
    · rintro ⟨p, h1, h2⟩; exact ⟨p, ⟨h1, by rw [h2]; simpa using hl⟩, h2⟩
  cases hh : Dict.has h l with
  | true => rw [Dict.setDefault_of_has _ _ _ hh, Dict.setDefault_of_has _ _ _ (by rw [hk, hh])]
  | false =>
    rw [setDefault_of_not_has _ _ _ hh, setDefault_of_not_has _ _ _ (by rw [hk, hh]), List.filter_append]
    congr 1
    simp [hl]

theorem er_addH5 (x : Obj) (l : Str) (f : H5Fn) (hl : l ≠ p!"#C") :
    er (x.addH5 l f) = (er x).addH5 l f := by
  unfold Obj.addH5 noComments
  simp only
  rw [filter_setDefault _ _ _ hl]

theorem er_addPost (x : Obj) (l : Str) (f : PostFn) : er (x.addPost l f) = (er x).addPost l f := rfl

theorem er_er (x : Obj) : er (er x) = er x := by
  unfold noComments; simp

theorem er_C (text : Str) (x : Obj) : er (procC text x).1 = er x ∧ (procC text x).2 = none := by
  have hC : ∀ y : Obj, er (y.addH5 p!"#C" .comments) = er y := by
    intro y
    unfold noComments Obj.addH5
    have : (Dict.setDefault y.h5 p!"#C" .comments).filter (fun p => p.1 != p!"#C") =
        y.h5.filter (fun p => p.1 != p!"#C") := by
      cases hh : Dict.has y.h5 p!"#C" with
      | true => rw [Dict.setDefault_of_has _ _ _ hh]
      | false => rw [setDefault_of_not_has _ _ _ hh, List.filter_append]; simp
    simp only [this]
  unfold procC
  simp only [Res.ok]
  refine ⟨?_, trivial⟩
  split <;> split <;> first | (rw [hC]; rfl) | rfl

/-- pushing the erasure through a handler -/
macro "er_tac" : tactic => `(tactic| (
  simp only [procDate, procG, procI, procJ, procj, procL, procM,
    procN, procO, proco, procP, procQ, procR, procT, procU, procX, procData, procCalib, procChann,
    procCtime, procRoi, procUnrec, procMD, procUIM, procH, procVA, procVD, procVE, procXPCS,
    procCCD, procUXML, Res.eval, Res.ok, Res.raise, er_kind, er_date, er_epoch, er_G, er_diff, er_I, er_J, er_j, er_o, er_counterXref, er_positionerXref, er_L, er_columnFirst, er_columnLast, er_M, er_monitorName, er_T, er_timeName, er_N, er_O, er_H, er_P, er_positioner, er_Q, er_R, er_U, er_UIM, er_unrecognized, er_UXML, er_uxmlRoot, er_tempSP, er_degcSP, er_data, er_dataLines, er_mca, er_metadata, er_V, er_VA, er_VD, er_VE, er_XPCS, er_CCD, er_MD, er_S, er_scanNum, er_interpComments, er_post] <;>
    (repeat' split) <;> first
      | rfl
      | (rw [er_addH5 _ _ _ (by decide)]; rfl)
      | (simp_all; done)
      | (simp_all; rfl)
      | (simp_all; rw [er_addH5 _ _ _ (by decide)]; rfl)))

theorem er_proc (env : Env) (k : HKey) (text : Str) (x : Obj) (hk : k ≠ .C) (hO : k ≠ .O) :
    procObj env k text (er x) = (er (procObj env k text x).1, (procObj env k text x).2) := by
  cases k <;> first | exact absurd rfl hk | exact absurd rfl hO | skip
  all_goals simp only [procObj]
  all_goals er_tac

/-- a scan without its comments, and its header -/
def erC (c : ScanCtx) : ScanCtx := { c with scan := er c.scan }

theorem er_dateHdr (env : Env) (c : ScanCtx) :
    dateHdr env (erC c) = (erC (dateHdr env c).1, (dateHdr env c).2) := by
  unfold dateHdr
  simp only [erC, ← er_addH5 _ _ _ (show p!"#D" ≠ p!"#C" by decide)]
  generalize c.scan.addH5 p!"#D" .date = y
  simp only [er_date, er_epoch, Res.eval, Res.ok, Res.raise]
  repeat' split
  all_goals first | rfl | simp_all

theorem erC_procScan (env : Env) (k : HKey) (text : Str) (c : ScanCtx) (hk : k ≠ .C) :
    procScan env k text (erC c) = (erC (procScan env k text c).1, (procScan env k text c).2) := by
  cases k
  case C => exact absurd rfl hk
  case O => rfl
  case D =>
    have h := er_proc env .D text c.scan (by simp) (by simp)
    simp only [procObj] at h
    have h2 : onScan (procDate env text) (erC c) =
        (erC (onScan (procDate env text) c).1, (onScan (procDate env text) c).2) := by
      simp only [onScan, erC, h]
    simp only [procScan, h2]
    generalize onScan (procDate env text) c = r
    obtain ⟨a, b⟩ := r
    cases b with
    | none => exact er_dateHdr env a
    | some e => rfl
  case V =>
    simp only [procScan, procV, erC, er_V, Res.ok, Res.raise]
    repeat' split
    all_goals first | rfl | simp_all
  all_goals
    simp only [procScan, onScan, erC]
    rw [er_proc env _ text c.scan (by simp) (by simp)]

theorem er_xref (x : Obj) : counterXref (er x) = (er (counterXref x).1, (counterXref x).2) := by
  unfold counterXref
  simp only [er_j, er_J, er_counterXref, Res.ok]
  split <;> rfl

theorem er_pxref (x : Obj) : positionerXref (er x) = (er (positionerXref x).1, (positionerXref x).2) := by
  unfold positionerXref
  simp only [er_o, er_O, er_positionerXref, Res.ok]
  split <;> rfl

theorem er_postData (x : Obj) : postData (er x) = (er (postData x).1, (postData x).2) := by
  unfold postData
  simp only [Res.eval, Res.ok, Res.raise]
  by_cases h1 : (x.L.getD []).length = 1 ∧ splitC ' ' ((x.L.getD []).headD []) ≠ splitTwo ((x.L.getD []).headD [])
  · have h1' : ((er x).L.getD []).length = 1 ∧ splitC ' ' (((er x).L.getD []).headD []) ≠
        splitTwo (((er x).L.getD []).headD []) := h1
    rw [if_pos h1', if_pos h1]
  · have h1' : ¬(((er x).L.getD []).length = 1 ∧ splitC ' ' (((er x).L.getD []).headD []) ≠
        splitTwo (((er x).L.getD []).headD [])) := h1
    rw [if_neg h1', if_neg h1]
    simp only [er_L, er_N]
    cases hN : x.N.first with
    | error e => rfl
    | ok n =>
      simp only
      cases hr : (renameCols (x.L.getD []) [] []).2 with
      | some e => rfl
      | none =>
        simp only
        cases hx : x.N with
        | absent => rw [hx] at hN; cases hN
        | minusOne => rw [hx] at hN; cases hN
        | nums nm =>
          by_cases hm : hasMca (x.dataLines.getD []) = true
          · have hm' : hasMca ((er x).dataLines.getD []) = true := hm
            rw [if_pos hm', if_pos hm]
            simp only
            cases hc : combineSplit nm (x.dataLines.getD []) with
            | error e => simp only [er_dataLines, hc]; rfl
            | ok lines =>
              simp only [er_dataLines, hc]
              split
              · rfl
              · rw [er_addH5 _ _ _ (by decide)]; rfl
          · have hm' : ¬hasMca ((er x).dataLines.getD []) = true := hm
            rw [if_neg hm', if_neg hm]
            simp only
            cases hc : combineSplit nm (x.dataLines.getD []) with
            | error e => simp only [er_dataLines, hc]; rfl
            | ok lines =>
              simp only [er_dataLines, hc]
              split
              · rfl
              · rw [er_addH5 _ _ _ (by decide)]; rfl

/-- the end of the post-processing of positioners -/
def posFin (r : Res (Dict PyFloat × List Str)) (x : Obj) : Res Obj :=
  match r.2 with
  | some e => ({ x with positioner := r.1.1, interpComments := r.1.2 }, some e)
  | none => (if r.1.1.length > 0 then
      { x with positioner := r.1.1, interpComments := r.1.2 }.addH5 p!"#P\\d+" .positioners
      else { x with positioner := r.1.1, interpComments := r.1.2 }, none)

theorem posFin_eq (c : ScanCtx) : postPositions c =
    onScan (posFin (positionRows (c.hdr.O.getD []) 0 (c.scan.P.getD []) ([], c.scan.interpComments))) c := by
  unfold postPositions
  simp only
  generalize positionRows (c.hdr.O.getD []) 0 (c.scan.P.getD []) ([], c.scan.interpComments) = r
  obtain ⟨a, b⟩ := r
  cases b <;> rfl

theorem er_posFin (r : Res (Dict PyFloat × List Str)) (x : Obj) :
    posFin r (er x) = (er (posFin r x).1, (posFin r x).2) := by
  unfold posFin
  cases r.2 with
  | some e => rfl
  | none =>
    simp only
    by_cases h : r.1.1.length > 0
    · rw [if_pos h, if_pos h, er_addH5 _ _ _ (by decide)]; rfl
    · rw [if_neg h, if_neg h]; rfl

theorem erC_post (env : Env) (f : PostFn) (c : ScanCtx) :
    runPost env f (erC c) = (erC (runPost env f c).1, (runPost env f c).2) := by
  have lift : ∀ (g : Obj → Res Obj), (∀ x, g (er x) = (er (g x).1, (g x).2)) →
      onScan g (erC c) = (erC (onScan g c).1, (onScan g c).2) := by
    intro g hg; simp only [onScan, erC, hg]
  have thenH5 : ∀ (g : Obj → Res Obj) (l : Str) (h : H5Fn), l ≠ p!"#C" → (∀ x, g (er x) = (er (g x).1, (g x).2)) →
      ∀ x, (g (er x)).andThen (fun x => Res.ok (x.addH5 l h)) =
        (er ((g x).andThen (fun x => Res.ok (x.addH5 l h))).1, ((g x).andThen (fun x => Res.ok (x.addH5 l h))).2) := by
    intro g l h hl hg x
    rw [hg]
    generalize g x = r
    obtain ⟨a, b⟩ := r
    cases b with
    | none => simp only [Res.andThen, Res.ok, er_addH5 _ _ _ hl]
    | some e => rfl
  cases f
  case counterJ => simp only [runPost]; exact lift (fun x => (counterXref x).andThen fun x => Res.ok (x.addH5 p!"counter cross-referencing" .counterJ)) (thenH5 _ p!"counter cross-referencing" .counterJ (by decide) er_xref)
  case counterj => simp only [runPost]; exact lift (fun x => (counterXref x).andThen fun x => Res.ok (x.addH5 p!"counter cross-referencing" .counterj)) (thenH5 _ p!"counter cross-referencing" .counterj (by decide) er_xref)
  case positionerXref => simp only [runPost]; exact lift (fun x => (positionerXref x).andThen fun x => Res.ok (x.addH5 p!"positioner cross-referencing" .positionerXref)) (thenH5 _ p!"positioner cross-referencing" .positionerXref (by decide) er_pxref)
  case geometry =>
    simp only [runPost, postGeometry]
    have e1 : (if ((erC c).scan.G.getD []).length > 0 then (erC c).scan.addH5 p!"diffractometer geometry" .geometry
        else (erC c).scan) = er (if (c.scan.G.getD []).length > 0 then
          c.scan.addH5 p!"diffractometer geometry" .geometry else c.scan) := by
      by_cases h : (c.scan.G.getD []).length > 0
      · have h' : ((erC c).scan.G.getD []).length > 0 := h
        rw [if_pos h, if_pos h', er_addH5 _ _ _ (by decide)]; rfl
      · have h' : ¬((erC c).scan.G.getD []).length > 0 := h
        rw [if_neg h, if_neg h']; rfl
    rw [e1]
    generalize (if (c.scan.G.getD []).length > 0 then
          c.scan.addH5 p!"diffractometer geometry" .geometry else c.scan) = y
    simp only [er_positioner, er_G, Res.eval, erC]
    split <;> rfl
  case positions =>
    simp only [runPost, posFin_eq]
    exact lift (posFin (positionRows (c.hdr.O.getD []) 0 (c.scan.P.getD []) ([], c.scan.interpComments)))
      (er_posFin _)
  case scanData => exact lift _ er_postData
  case unicat =>
    simp only [runPost, postUnicat, erC, er_V, Res.ok, Res.raise]
    split
    · rfl
    · split
      · rfl
      · rw [er_addH5 _ _ _ (by decide)]; rfl
  case uxml =>
    refine lift _ ?_
    intro x
    simp only [postUXML, er_UXML, Res.eval, Res.ok, Res.raise]
    cases env.xmlParse (join ['\n'] (x.UXML.getD [])) with
    | error e => rfl
    | ok root =>
      simp only
      by_cases h : env.xmlValid root = true
      · rw [if_pos h, if_pos h, er_addH5 _ _ _ (by decide)]; rfl
      · rw [if_neg h, if_neg h]; rfl

theorem erC_forEach {α : Type} (f : α → ScanCtx → Res ScanCtx) :
    ∀ (as : List α) (h : ∀ a ∈ as, ∀ c, f a (erC c) = (erC (f a c).1, (f a c).2)) (c : ScanCtx),
    forEach f as (erC c) = (erC (forEach f as c).1, (forEach f as c).2)
  | [], _, c => rfl
  | a :: as, h, c => by
    simp only [forEach, Res.andThen]
    rw [h a (by simp) c]
    generalize f a c = r
    obtain ⟨r1, r2⟩ := r
    cases r2 with
    | none => exact erC_forEach f as (fun b hb => h b (by simp [hb])) _
    | some e => rfl

section
variable [UniDB] (env : Env) (reg : List HKey) (hr : reg.Perm HKey.all)

include hr in
theorem erC_lines : ∀ (ls : List Str), (∀ l ∈ ls, '\n' ∉ l) → ∀ (c : ScanCtx),
    (erC (forEach (scanLine env reg) ls c).1, (forEach (scanLine env reg) ls c).2) =
      forEach (scanLine env reg) (ls.filter (fun l => !isKind .C l)) (erC c)
  | [], _, c => rfl
  | l :: ls, hn, c => by
    have ih := erC_lines ls (fun x hx => hn x (by simp [hx]))
    cases hC : isKind .C l with
    | true =>
      rw [List.filter_cons_of_neg (by simp [hC])]
      have hk := (effKey_iff reg hr l (hn l (by simp)) .C (by simp) (by simp)).2 hC
      have hs : scanLine env reg l c = procScan env .C l c := by rw [scanLine_eq, hk]
      have h1 := er_C l c.scan
      have h2 : (scanLine env reg l c).2 = none := by rw [hs]; exact h1.2
      have h3 : erC (scanLine env reg l c).1 = erC c := by
        rw [hs]
        simp only [procScan, onScan, procObj, erC, h1.1]
      rw [← h3, ← ih]
      have : forEach (scanLine env reg) (l :: ls) c = forEach (scanLine env reg) ls (scanLine env reg l c).1 := by
        conv_lhs => unfold forEach
        exact Res.andThen_of_none h2 _
      rw [this]
    | false =>
      rw [List.filter_cons_of_pos (by simp [hC])]
      have h1 : scanLine env reg l (erC c) = (erC (scanLine env reg l c).1, (scanLine env reg l c).2) := by
        rw [scanLine_eq, scanLine_eq]
        cases hk : effKey reg l with
        | none => rfl
        | some k =>
          refine erC_procScan env k l c ?_
          rintro rfl
          rw [effKey_iff reg hr l (hn l (by simp)) .C (by simp) (by simp), hC] at hk
          cases hk
      simp only [forEach, Res.andThen]
      rw [h1]
      generalize scanLine env reg l c = r
      obtain ⟨r1, r2⟩ := r
      cases r2 with
      | none => exact ih _
      | some e => rfl

include hr in
theorem erC_interpret (c : ScanCtx) (hi : c.scan.interpreted = false) :
    (erC (interpretScan env reg c).1, (interpretScan env reg c).2) =
      ((forEach (scanLine env reg) ((scanLines c.scan.raw).filter (fun l => !isKind .C l))
        (erC { c with scan := { c.scan with lazy := false } })).andThen fun c =>
      (forEach (runPost env) c.scan.post.values c).andThen fun c =>
      Res.ok { c with scan := { c.scan with interpreted := true } }) := by
  rw [← erC_lines env reg hr _ (scanLines_no_nl _)]
  unfold interpretScan
  rw [if_neg (by rw [hi]; simp)]
  simp only
  generalize forEach (scanLine env reg) (scanLines c.scan.raw)
    { c with scan := { c.scan with lazy := false } } = r
  obtain ⟨r1, r2⟩ := r
  cases r2 with
  | some e => rfl
  | none =>
    simp only [Res.andThen]
    have h := erC_forEach (runPost env) r1.scan.post.values (fun f _ c => erC_post env f c) r1
    rw [show (erC r1).scan.post = r1.scan.post from rfl, h]
    generalize forEach (runPost env) r1.scan.post.values r1 = r2
    obtain ⟨r2a, r2b⟩ := r2
    cases r2b <;> rfl

include hr in
/-- **C23.**  Two scans that differ only in their texts and whose texts differ only by comment
lines: interpreting them raises the same exception or none, leaves the same header, and gives the same
scan in all respects except the comments. -/
theorem C23_comments (c c' : ScanCtx) (hx : noComments c'.scan = noComments c.scan)
    (hh : c'.hdr = c.hdr)
    (hl : (scanLines c'.scan.raw).filter (fun l => !isKind .C l) =
      (scanLines c.scan.raw).filter (fun l => !isKind .C l)) :
    (interpretScan env reg c').2 = (interpretScan env reg c).2 ∧
    (interpretScan env reg c').1.hdr = (interpretScan env reg c).1.hdr ∧
    noComments (interpretScan env reg c').1.scan = noComments (interpretScan env reg c).1.scan := by
  have hi : c'.scan.interpreted = c.scan.interpreted := (congrArg Obj.interpreted hx : (er c'.scan).interpreted = (er c.scan).interpreted)
  cases hI : c.scan.interpreted with
  | true =>
    rw [hI] at hi
    unfold interpretScan
    rw [if_pos hI, if_pos hi]
    exact ⟨rfl, hh, hx⟩
  | false =>
    rw [hI] at hi
    have h1 := erC_interpret env reg hr c hI
    have h2 := erC_interpret env reg hr c' hi
    have e : erC { c' with scan := { c'.scan with lazy := false } } =
        erC { c with scan := { c.scan with lazy := false } } := by
      unfold erC
      have : er { c'.scan with lazy := false } = er { c.scan with lazy := false } :=
        congrArg (fun y : Obj => { y with lazy := false }) hx
      simp only [this, hh]
    rw [hl, e, ← h1] at h2
    simp only [Prod.mk.injEq] at h2
    refine ⟨h2.2, ?_, ?_⟩
    · exact (congrArg ScanCtx.hdr h2.1 : (erC _).hdr = (erC _).hdr)
    · exact (congrArg ScanCtx.scan h2.1 : (erC _).scan = (erC _).scan)

end

/-- **C23**, at the level of the text: the lines of a scan text that is made of lines. -/
theorem C23_text (ls : List Str)
    (h : ∀ l ∈ ls, (∀ c ∈ l, isLineBreak c = false) ∧ l.getLast? ≠ some '\\') (hl : ls.getLast? ≠ some []) :
    scanLines (join ['\n'] ls) = ls := scanLines_join ls h hl

/-- A scan without the comments of `demoScan`. -/
def plainScan : ScanCtx :=
  ⟨Obj.newScan p!"f.dat" 0 (join ['\n'] ((scanLines demoRaw).filter (fun l => !startsWith l p!"#C"))),
    demoScan.hdr⟩

theorem C23_nonvacuous :
    noComments plainScan.scan = noComments demoScan.scan ∧ plainScan.hdr = demoScan.hdr ∧
    (scanLines plainScan.scan.raw).filter (fun l => !@isKind asciiDB .C l) =
      (scanLines demoScan.scan.raw).filter (fun l => !@isKind asciiDB .C l) ∧
    scanLines plainScan.scan.raw ≠ scanLines demoScan.scan.raw := by
  refine ⟨rfl, rfl, ?_, ?_⟩
  · decide +kernel
  · decide +kernel

end S2N.Props
