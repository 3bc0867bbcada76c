import Verif.Model.Handlers
/-
Generated by tools/gen_frames.py: which attributes of a scan each handler and each
post-processor leaves alone.
-/
namespace S2N
open Py

theorem dateHdr_scan (env : Env) (c : ScanCtx) :
    (dateHdr env c).1.scan = c.scan.addH5 p!"#D" .date := by
  unfold dateHdr
  simp only [Res.ok, Res.raise, Res.eval]
  repeat' split
  all_goals rfl

theorem procScan_lift {β : Type} (π : Obj → β) (env : Env) (k : HKey) (text : Str) (c : ScanCtx)
    (h1 : k ≠ .O → π (procObj env k text c.scan).1 = π c.scan)
    (h2 : k = .D → ∀ x : Obj, π (x.addH5 p!"#D" .date) = π x)
    (h3 : k = .V → ∀ (x : Obj) v p, π { x with V := v, post := p } = π x) :
    π (procScan env k text c).1.scan = π c.scan := by
  cases k
  case D =>
    simp only [procScan, Res.andThen]
    have h1 := h1 (by simp)
    simp only [procObj] at h1
    split
    · rw [dateHdr_scan, h2 rfl]; exact h1
    · exact h1
  case O => rfl
  case V =>
    simp only [procScan, procV]
    repeat' split
    all_goals first | rfl | exact h3 rfl c.scan _ _
  all_goals exact h1 (by simp)

/-- case split of the effect of a handler -/
macro "frame_obj" k:term : tactic => `(tactic| (
  cases $k:term <;> simp only [procObj, procDate, procC, procG, procI, procJ, procj, procL, procM,
    procN, procO, proco, procP, procQ, procR, procT, procU, procX, procData, procCalib, procChann,
    procCtime, procRoi, procUnrec, procMD, procUIM, procH, procVA, procVD, procVE, procXPCS,
    procCCD, procUXML, Res.eval, Res.ok, Res.raise, Obj.addH5, Obj.addPost] <;>
    (repeat' split) <;> first | rfl | (exfalso; simp_all; done)))

/-- case split of the effect of a post-processor -/
macro "frame_post" f:term : tactic => `(tactic| (
  cases $f:term <;> simp only [runPost, onScan, postGeometry, postPositions, postData, postUnicat,
    postUXML, counterXref, positionerXref, Res.eval, Res.ok, Res.raise, Res.andThen, Obj.addH5,
    Obj.addPost] <;>
    (repeat' split) <;> first | rfl | (exfalso; simp_all; done)))

theorem po_kind (env : Env) (k : HKey) (text : Str) (x : Obj) :
    (procObj env k text x).1.kind = x.kind := by
  frame_obj k

theorem ps_kind (env : Env) (k : HKey) (text : Str) (c : ScanCtx) :
    (procScan env k text c).1.scan.kind = c.scan.kind := by
  exact procScan_lift (·.kind) env k text c (fun _ => po_kind env k text c.scan ) (fun _ _ => rfl) (fun _ _ _ _ => rfl)

theorem pp_kind (env : Env) (f : PostFn) (c : ScanCtx) :
    (runPost env f c).1.scan.kind = c.scan.kind := by
  frame_post f

theorem po_raw (env : Env) (k : HKey) (text : Str) (x : Obj) :
    (procObj env k text x).1.raw = x.raw := by
  frame_obj k

theorem ps_raw (env : Env) (k : HKey) (text : Str) (c : ScanCtx) :
    (procScan env k text c).1.scan.raw = c.scan.raw := by
  exact procScan_lift (·.raw) env k text c (fun _ => po_raw env k text c.scan ) (fun _ _ => rfl) (fun _ _ _ _ => rfl)

theorem pp_raw (env : Env) (f : PostFn) (c : ScanCtx) :
    (runPost env f c).1.scan.raw = c.scan.raw := by
  frame_post f

theorem po_fileName (env : Env) (k : HKey) (text : Str) (x : Obj) :
    (procObj env k text x).1.fileName = x.fileName := by
  frame_obj k

theorem ps_fileName (env : Env) (k : HKey) (text : Str) (c : ScanCtx) :
    (procScan env k text c).1.scan.fileName = c.scan.fileName := by
  exact procScan_lift (·.fileName) env k text c (fun _ => po_fileName env k text c.scan ) (fun _ _ => rfl) (fun _ _ _ _ => rfl)

theorem pp_fileName (env : Env) (f : PostFn) (c : ScanCtx) :
    (runPost env f c).1.scan.fileName = c.scan.fileName := by
  frame_post f

theorem po_S (env : Env) (k : HKey) (text : Str) (x : Obj) :
    (procObj env k text x).1.S = x.S := by
  frame_obj k

theorem ps_S (env : Env) (k : HKey) (text : Str) (c : ScanCtx) :
    (procScan env k text c).1.scan.S = c.scan.S := by
  exact procScan_lift (·.S) env k text c (fun _ => po_S env k text c.scan ) (fun _ _ => rfl) (fun _ _ _ _ => rfl)

theorem pp_S (env : Env) (f : PostFn) (c : ScanCtx) :
    (runPost env f c).1.scan.S = c.scan.S := by
  frame_post f

theorem po_scanNum (env : Env) (k : HKey) (text : Str) (x : Obj) :
    (procObj env k text x).1.scanNum = x.scanNum := by
  frame_obj k

theorem ps_scanNum (env : Env) (k : HKey) (text : Str) (c : ScanCtx) :
    (procScan env k text c).1.scan.scanNum = c.scan.scanNum := by
  exact procScan_lift (·.scanNum) env k text c (fun _ => po_scanNum env k text c.scan ) (fun _ _ => rfl) (fun _ _ _ _ => rfl)

theorem pp_scanNum (env : Env) (f : PostFn) (c : ScanCtx) :
    (runPost env f c).1.scan.scanNum = c.scan.scanNum := by
  frame_post f

theorem po_scanCmd (env : Env) (k : HKey) (text : Str) (x : Obj) :
    (procObj env k text x).1.scanCmd = x.scanCmd := by
  frame_obj k

theorem ps_scanCmd (env : Env) (k : HKey) (text : Str) (c : ScanCtx) :
    (procScan env k text c).1.scan.scanCmd = c.scan.scanCmd := by
  exact procScan_lift (·.scanCmd) env k text c (fun _ => po_scanCmd env k text c.scan ) (fun _ _ => rfl) (fun _ _ _ _ => rfl)

theorem pp_scanCmd (env : Env) (f : PostFn) (c : ScanCtx) :
    (runPost env f c).1.scan.scanCmd = c.scan.scanCmd := by
  frame_post f

theorem po_hdrIdx (env : Env) (k : HKey) (text : Str) (x : Obj) :
    (procObj env k text x).1.hdrIdx = x.hdrIdx := by
  frame_obj k

theorem ps_hdrIdx (env : Env) (k : HKey) (text : Str) (c : ScanCtx) :
    (procScan env k text c).1.scan.hdrIdx = c.scan.hdrIdx := by
  exact procScan_lift (·.hdrIdx) env k text c (fun _ => po_hdrIdx env k text c.scan ) (fun _ _ => rfl) (fun _ _ _ _ => rfl)

theorem pp_hdrIdx (env : Env) (f : PostFn) (c : ScanCtx) :
    (runPost env f c).1.scan.hdrIdx = c.scan.hdrIdx := by
  frame_post f

theorem po_lazy (env : Env) (k : HKey) (text : Str) (x : Obj) :
    (procObj env k text x).1.lazy = x.lazy := by
  frame_obj k

theorem ps_lazy (env : Env) (k : HKey) (text : Str) (c : ScanCtx) :
    (procScan env k text c).1.scan.lazy = c.scan.lazy := by
  exact procScan_lift (·.lazy) env k text c (fun _ => po_lazy env k text c.scan ) (fun _ _ => rfl) (fun _ _ _ _ => rfl)

theorem pp_lazy (env : Env) (f : PostFn) (c : ScanCtx) :
    (runPost env f c).1.scan.lazy = c.scan.lazy := by
  frame_post f

theorem po_interpreted (env : Env) (k : HKey) (text : Str) (x : Obj) :
    (procObj env k text x).1.interpreted = x.interpreted := by
  frame_obj k

theorem ps_interpreted (env : Env) (k : HKey) (text : Str) (c : ScanCtx) :
    (procScan env k text c).1.scan.interpreted = c.scan.interpreted := by
  exact procScan_lift (·.interpreted) env k text c (fun _ => po_interpreted env k text c.scan ) (fun _ _ => rfl) (fun _ _ _ _ => rfl)

theorem pp_interpreted (env : Env) (f : PostFn) (c : ScanCtx) :
    (runPost env f c).1.scan.interpreted = c.scan.interpreted := by
  frame_post f

theorem po_comments (env : Env) (k : HKey) (text : Str) (x : Obj) (h0 : k ≠ .C) :
    (procObj env k text x).1.comments = x.comments := by
  frame_obj k

theorem ps_comments (env : Env) (k : HKey) (text : Str) (c : ScanCtx) (h0 : k ≠ .C) :
    (procScan env k text c).1.scan.comments = c.scan.comments := by
  exact procScan_lift (·.comments) env k text c (fun _ => po_comments env k text c.scan h0) (fun _ _ => rfl) (fun _ _ _ _ => rfl)

theorem pp_comments (env : Env) (f : PostFn) (c : ScanCtx) :
    (runPost env f c).1.scan.comments = c.scan.comments := by
  frame_post f

theorem po_aborted (env : Env) (k : HKey) (text : Str) (x : Obj) (h0 : k ≠ .C) :
    (procObj env k text x).1.aborted = x.aborted := by
  frame_obj k

theorem ps_aborted (env : Env) (k : HKey) (text : Str) (c : ScanCtx) (h0 : k ≠ .C) :
    (procScan env k text c).1.scan.aborted = c.scan.aborted := by
  exact procScan_lift (·.aborted) env k text c (fun _ => po_aborted env k text c.scan h0) (fun _ _ => rfl) (fun _ _ _ _ => rfl)

theorem pp_aborted (env : Env) (f : PostFn) (c : ScanCtx) :
    (runPost env f c).1.scan.aborted = c.scan.aborted := by
  frame_post f

theorem po_date (env : Env) (k : HKey) (text : Str) (x : Obj) (h0 : k ≠ .D) :
    (procObj env k text x).1.date = x.date := by
  frame_obj k

theorem ps_date (env : Env) (k : HKey) (text : Str) (c : ScanCtx) (h0 : k ≠ .D) :
    (procScan env k text c).1.scan.date = c.scan.date := by
  exact procScan_lift (·.date) env k text c (fun _ => po_date env k text c.scan h0) (fun _ _ => rfl) (fun _ _ _ _ => rfl)

theorem pp_date (env : Env) (f : PostFn) (c : ScanCtx) :
    (runPost env f c).1.scan.date = c.scan.date := by
  frame_post f

theorem po_epoch (env : Env) (k : HKey) (text : Str) (x : Obj) (h0 : k ≠ .D) :
    (procObj env k text x).1.epoch = x.epoch := by
  frame_obj k

theorem ps_epoch (env : Env) (k : HKey) (text : Str) (c : ScanCtx) (h0 : k ≠ .D) :
    (procScan env k text c).1.scan.epoch = c.scan.epoch := by
  exact procScan_lift (·.epoch) env k text c (fun _ => po_epoch env k text c.scan h0) (fun _ _ => rfl) (fun _ _ _ _ => rfl)

theorem pp_epoch (env : Env) (f : PostFn) (c : ScanCtx) :
    (runPost env f c).1.scan.epoch = c.scan.epoch := by
  frame_post f

theorem po_G (env : Env) (k : HKey) (text : Str) (x : Obj) (h0 : k ≠ .G) :
    (procObj env k text x).1.G = x.G := by
  frame_obj k

theorem ps_G (env : Env) (k : HKey) (text : Str) (c : ScanCtx) (h0 : k ≠ .G) :
    (procScan env k text c).1.scan.G = c.scan.G := by
  exact procScan_lift (·.G) env k text c (fun _ => po_G env k text c.scan h0) (fun _ _ => rfl) (fun _ _ _ _ => rfl)

theorem pp_G (env : Env) (f : PostFn) (c : ScanCtx) :
    (runPost env f c).1.scan.G = c.scan.G := by
  frame_post f

theorem po_I (env : Env) (k : HKey) (text : Str) (x : Obj) (h0 : k ≠ .I) :
    (procObj env k text x).1.I = x.I := by
  frame_obj k

theorem ps_I (env : Env) (k : HKey) (text : Str) (c : ScanCtx) (h0 : k ≠ .I) :
    (procScan env k text c).1.scan.I = c.scan.I := by
  exact procScan_lift (·.I) env k text c (fun _ => po_I env k text c.scan h0) (fun _ _ => rfl) (fun _ _ _ _ => rfl)

theorem pp_I (env : Env) (f : PostFn) (c : ScanCtx) :
    (runPost env f c).1.scan.I = c.scan.I := by
  frame_post f

theorem po_J (env : Env) (k : HKey) (text : Str) (x : Obj) (h0 : k ≠ .J) :
    (procObj env k text x).1.J = x.J := by
  frame_obj k

theorem ps_J (env : Env) (k : HKey) (text : Str) (c : ScanCtx) (h0 : k ≠ .J) :
    (procScan env k text c).1.scan.J = c.scan.J := by
  exact procScan_lift (·.J) env k text c (fun _ => po_J env k text c.scan h0) (fun _ _ => rfl) (fun _ _ _ _ => rfl)

theorem pp_J (env : Env) (f : PostFn) (c : ScanCtx) :
    (runPost env f c).1.scan.J = c.scan.J := by
  frame_post f

theorem po_j (env : Env) (k : HKey) (text : Str) (x : Obj) (h0 : k ≠ .j) :
    (procObj env k text x).1.j = x.j := by
  frame_obj k

theorem ps_j (env : Env) (k : HKey) (text : Str) (c : ScanCtx) (h0 : k ≠ .j) :
    (procScan env k text c).1.scan.j = c.scan.j := by
  exact procScan_lift (·.j) env k text c (fun _ => po_j env k text c.scan h0) (fun _ _ => rfl) (fun _ _ _ _ => rfl)

theorem pp_j (env : Env) (f : PostFn) (c : ScanCtx) :
    (runPost env f c).1.scan.j = c.scan.j := by
  frame_post f

theorem po_o (env : Env) (k : HKey) (text : Str) (x : Obj) (h0 : k ≠ .o) :
    (procObj env k text x).1.o = x.o := by
  frame_obj k

theorem ps_o (env : Env) (k : HKey) (text : Str) (c : ScanCtx) (h0 : k ≠ .o) :
    (procScan env k text c).1.scan.o = c.scan.o := by
  exact procScan_lift (·.o) env k text c (fun _ => po_o env k text c.scan h0) (fun _ _ => rfl) (fun _ _ _ _ => rfl)

theorem pp_o (env : Env) (f : PostFn) (c : ScanCtx) :
    (runPost env f c).1.scan.o = c.scan.o := by
  frame_post f

theorem po_L (env : Env) (k : HKey) (text : Str) (x : Obj) (h0 : k ≠ .L) :
    (procObj env k text x).1.L = x.L := by
  frame_obj k

theorem ps_L (env : Env) (k : HKey) (text : Str) (c : ScanCtx) (h0 : k ≠ .L) :
    (procScan env k text c).1.scan.L = c.scan.L := by
  exact procScan_lift (·.L) env k text c (fun _ => po_L env k text c.scan h0) (fun _ _ => rfl) (fun _ _ _ _ => rfl)

theorem pp_L (env : Env) (f : PostFn) (c : ScanCtx) (h0 : f ≠ .scanData) :
    (runPost env f c).1.scan.L = c.scan.L := by
  frame_post f

theorem po_columnFirst (env : Env) (k : HKey) (text : Str) (x : Obj) (h0 : k ≠ .L) :
    (procObj env k text x).1.columnFirst = x.columnFirst := by
  frame_obj k

theorem ps_columnFirst (env : Env) (k : HKey) (text : Str) (c : ScanCtx) (h0 : k ≠ .L) :
    (procScan env k text c).1.scan.columnFirst = c.scan.columnFirst := by
  exact procScan_lift (·.columnFirst) env k text c (fun _ => po_columnFirst env k text c.scan h0) (fun _ _ => rfl) (fun _ _ _ _ => rfl)

theorem pp_columnFirst (env : Env) (f : PostFn) (c : ScanCtx) :
    (runPost env f c).1.scan.columnFirst = c.scan.columnFirst := by
  frame_post f

theorem po_columnLast (env : Env) (k : HKey) (text : Str) (x : Obj) (h0 : k ≠ .L) :
    (procObj env k text x).1.columnLast = x.columnLast := by
  frame_obj k

theorem ps_columnLast (env : Env) (k : HKey) (text : Str) (c : ScanCtx) (h0 : k ≠ .L) :
    (procScan env k text c).1.scan.columnLast = c.scan.columnLast := by
  exact procScan_lift (·.columnLast) env k text c (fun _ => po_columnLast env k text c.scan h0) (fun _ _ => rfl) (fun _ _ _ _ => rfl)

theorem pp_columnLast (env : Env) (f : PostFn) (c : ScanCtx) :
    (runPost env f c).1.scan.columnLast = c.scan.columnLast := by
  frame_post f

theorem po_M (env : Env) (k : HKey) (text : Str) (x : Obj) (h0 : k ≠ .M) :
    (procObj env k text x).1.M = x.M := by
  frame_obj k

theorem ps_M (env : Env) (k : HKey) (text : Str) (c : ScanCtx) (h0 : k ≠ .M) :
    (procScan env k text c).1.scan.M = c.scan.M := by
  exact procScan_lift (·.M) env k text c (fun _ => po_M env k text c.scan h0) (fun _ _ => rfl) (fun _ _ _ _ => rfl)

theorem pp_M (env : Env) (f : PostFn) (c : ScanCtx) :
    (runPost env f c).1.scan.M = c.scan.M := by
  frame_post f

theorem po_monitorName (env : Env) (k : HKey) (text : Str) (x : Obj) (h0 : k ≠ .M) :
    (procObj env k text x).1.monitorName = x.monitorName := by
  frame_obj k

theorem ps_monitorName (env : Env) (k : HKey) (text : Str) (c : ScanCtx) (h0 : k ≠ .M) :
    (procScan env k text c).1.scan.monitorName = c.scan.monitorName := by
  exact procScan_lift (·.monitorName) env k text c (fun _ => po_monitorName env k text c.scan h0) (fun _ _ => rfl) (fun _ _ _ _ => rfl)

theorem pp_monitorName (env : Env) (f : PostFn) (c : ScanCtx) :
    (runPost env f c).1.scan.monitorName = c.scan.monitorName := by
  frame_post f

theorem po_T (env : Env) (k : HKey) (text : Str) (x : Obj) (h0 : k ≠ .T) :
    (procObj env k text x).1.T = x.T := by
  frame_obj k

theorem ps_T (env : Env) (k : HKey) (text : Str) (c : ScanCtx) (h0 : k ≠ .T) :
    (procScan env k text c).1.scan.T = c.scan.T := by
  exact procScan_lift (·.T) env k text c (fun _ => po_T env k text c.scan h0) (fun _ _ => rfl) (fun _ _ _ _ => rfl)

theorem pp_T (env : Env) (f : PostFn) (c : ScanCtx) :
    (runPost env f c).1.scan.T = c.scan.T := by
  frame_post f

theorem po_timeName (env : Env) (k : HKey) (text : Str) (x : Obj) (h0 : k ≠ .T) :
    (procObj env k text x).1.timeName = x.timeName := by
  frame_obj k

theorem ps_timeName (env : Env) (k : HKey) (text : Str) (c : ScanCtx) (h0 : k ≠ .T) :
    (procScan env k text c).1.scan.timeName = c.scan.timeName := by
  exact procScan_lift (·.timeName) env k text c (fun _ => po_timeName env k text c.scan h0) (fun _ _ => rfl) (fun _ _ _ _ => rfl)

theorem pp_timeName (env : Env) (f : PostFn) (c : ScanCtx) :
    (runPost env f c).1.scan.timeName = c.scan.timeName := by
  frame_post f

theorem po_N (env : Env) (k : HKey) (text : Str) (x : Obj) (h0 : k ≠ .N) :
    (procObj env k text x).1.N = x.N := by
  frame_obj k

theorem ps_N (env : Env) (k : HKey) (text : Str) (c : ScanCtx) (h0 : k ≠ .N) :
    (procScan env k text c).1.scan.N = c.scan.N := by
  exact procScan_lift (·.N) env k text c (fun _ => po_N env k text c.scan h0) (fun _ _ => rfl) (fun _ _ _ _ => rfl)

theorem pp_N (env : Env) (f : PostFn) (c : ScanCtx) :
    (runPost env f c).1.scan.N = c.scan.N := by
  frame_post f

theorem po_P (env : Env) (k : HKey) (text : Str) (x : Obj) (h0 : k ≠ .P) :
    (procObj env k text x).1.P = x.P := by
  frame_obj k

theorem ps_P (env : Env) (k : HKey) (text : Str) (c : ScanCtx) (h0 : k ≠ .P) :
    (procScan env k text c).1.scan.P = c.scan.P := by
  exact procScan_lift (·.P) env k text c (fun _ => po_P env k text c.scan h0) (fun _ _ => rfl) (fun _ _ _ _ => rfl)

theorem pp_P (env : Env) (f : PostFn) (c : ScanCtx) :
    (runPost env f c).1.scan.P = c.scan.P := by
  frame_post f

theorem po_Q (env : Env) (k : HKey) (text : Str) (x : Obj) (h0 : k ≠ .Q) :
    (procObj env k text x).1.Q = x.Q := by
  frame_obj k

theorem ps_Q (env : Env) (k : HKey) (text : Str) (c : ScanCtx) (h0 : k ≠ .Q) :
    (procScan env k text c).1.scan.Q = c.scan.Q := by
  exact procScan_lift (·.Q) env k text c (fun _ => po_Q env k text c.scan h0) (fun _ _ => rfl) (fun _ _ _ _ => rfl)

theorem pp_Q (env : Env) (f : PostFn) (c : ScanCtx) :
    (runPost env f c).1.scan.Q = c.scan.Q := by
  frame_post f

theorem po_R (env : Env) (k : HKey) (text : Str) (x : Obj) (h0 : k ≠ .R) :
    (procObj env k text x).1.R = x.R := by
  frame_obj k

theorem ps_R (env : Env) (k : HKey) (text : Str) (c : ScanCtx) (h0 : k ≠ .R) :
    (procScan env k text c).1.scan.R = c.scan.R := by
  exact procScan_lift (·.R) env k text c (fun _ => po_R env k text c.scan h0) (fun _ _ => rfl) (fun _ _ _ _ => rfl)

theorem pp_R (env : Env) (f : PostFn) (c : ScanCtx) :
    (runPost env f c).1.scan.R = c.scan.R := by
  frame_post f

theorem po_U (env : Env) (k : HKey) (text : Str) (x : Obj) (h0 : k ≠ .U) :
    (procObj env k text x).1.U = x.U := by
  frame_obj k

theorem ps_U (env : Env) (k : HKey) (text : Str) (c : ScanCtx) (h0 : k ≠ .U) :
    (procScan env k text c).1.scan.U = c.scan.U := by
  exact procScan_lift (·.U) env k text c (fun _ => po_U env k text c.scan h0) (fun _ _ => rfl) (fun _ _ _ _ => rfl)

theorem pp_U (env : Env) (f : PostFn) (c : ScanCtx) :
    (runPost env f c).1.scan.U = c.scan.U := by
  frame_post f

theorem po_UIM (env : Env) (k : HKey) (text : Str) (x : Obj) (h0 : k ≠ .UIM) :
    (procObj env k text x).1.UIM = x.UIM := by
  frame_obj k

theorem ps_UIM (env : Env) (k : HKey) (text : Str) (c : ScanCtx) (h0 : k ≠ .UIM) :
    (procScan env k text c).1.scan.UIM = c.scan.UIM := by
  exact procScan_lift (·.UIM) env k text c (fun _ => po_UIM env k text c.scan h0) (fun _ _ => rfl) (fun _ _ _ _ => rfl)

theorem pp_UIM (env : Env) (f : PostFn) (c : ScanCtx) :
    (runPost env f c).1.scan.UIM = c.scan.UIM := by
  frame_post f

theorem po_unrecognized (env : Env) (k : HKey) (text : Str) (x : Obj) (h0 : k ≠ .unrec) :
    (procObj env k text x).1.unrecognized = x.unrecognized := by
  frame_obj k

theorem ps_unrecognized (env : Env) (k : HKey) (text : Str) (c : ScanCtx) (h0 : k ≠ .unrec) :
    (procScan env k text c).1.scan.unrecognized = c.scan.unrecognized := by
  exact procScan_lift (·.unrecognized) env k text c (fun _ => po_unrecognized env k text c.scan h0) (fun _ _ => rfl) (fun _ _ _ _ => rfl)

theorem pp_unrecognized (env : Env) (f : PostFn) (c : ScanCtx) :
    (runPost env f c).1.scan.unrecognized = c.scan.unrecognized := by
  frame_post f

theorem po_UXML (env : Env) (k : HKey) (text : Str) (x : Obj) (h0 : k ≠ .UXML) :
    (procObj env k text x).1.UXML = x.UXML := by
  frame_obj k

theorem ps_UXML (env : Env) (k : HKey) (text : Str) (c : ScanCtx) (h0 : k ≠ .UXML) :
    (procScan env k text c).1.scan.UXML = c.scan.UXML := by
  exact procScan_lift (·.UXML) env k text c (fun _ => po_UXML env k text c.scan h0) (fun _ _ => rfl) (fun _ _ _ _ => rfl)

theorem pp_UXML (env : Env) (f : PostFn) (c : ScanCtx) :
    (runPost env f c).1.scan.UXML = c.scan.UXML := by
  frame_post f

theorem po_tempSP (env : Env) (k : HKey) (text : Str) (x : Obj) (h0 : k ≠ .X) :
    (procObj env k text x).1.tempSP = x.tempSP := by
  frame_obj k

theorem ps_tempSP (env : Env) (k : HKey) (text : Str) (c : ScanCtx) (h0 : k ≠ .X) :
    (procScan env k text c).1.scan.tempSP = c.scan.tempSP := by
  exact procScan_lift (·.tempSP) env k text c (fun _ => po_tempSP env k text c.scan h0) (fun _ _ => rfl) (fun _ _ _ _ => rfl)

theorem pp_tempSP (env : Env) (f : PostFn) (c : ScanCtx) :
    (runPost env f c).1.scan.tempSP = c.scan.tempSP := by
  frame_post f

theorem po_degcSP (env : Env) (k : HKey) (text : Str) (x : Obj) (h0 : k ≠ .X) :
    (procObj env k text x).1.degcSP = x.degcSP := by
  frame_obj k

theorem ps_degcSP (env : Env) (k : HKey) (text : Str) (c : ScanCtx) (h0 : k ≠ .X) :
    (procScan env k text c).1.scan.degcSP = c.scan.degcSP := by
  exact procScan_lift (·.degcSP) env k text c (fun _ => po_degcSP env k text c.scan h0) (fun _ _ => rfl) (fun _ _ _ _ => rfl)

theorem pp_degcSP (env : Env) (f : PostFn) (c : ScanCtx) :
    (runPost env f c).1.scan.degcSP = c.scan.degcSP := by
  frame_post f

theorem po_dataLines (env : Env) (k : HKey) (text : Str) (x : Obj) (h0 : k ≠ .data) (h1 : k ≠ .A) :
    (procObj env k text x).1.dataLines = x.dataLines := by
  frame_obj k

theorem ps_dataLines (env : Env) (k : HKey) (text : Str) (c : ScanCtx) (h0 : k ≠ .data) (h1 : k ≠ .A) :
    (procScan env k text c).1.scan.dataLines = c.scan.dataLines := by
  exact procScan_lift (·.dataLines) env k text c (fun _ => po_dataLines env k text c.scan h0 h1) (fun _ _ => rfl) (fun _ _ _ _ => rfl)

theorem pp_dataLines (env : Env) (f : PostFn) (c : ScanCtx) :
    (runPost env f c).1.scan.dataLines = c.scan.dataLines := by
  frame_post f

theorem po_mca (env : Env) (k : HKey) (text : Str) (x : Obj) (h0 : k ≠ .CALIB) (h1 : k ≠ .CHANN) (h2 : k ≠ .CTIME) (h3 : k ≠ .ROI) :
    (procObj env k text x).1.mca = x.mca := by
  frame_obj k

theorem ps_mca (env : Env) (k : HKey) (text : Str) (c : ScanCtx) (h0 : k ≠ .CALIB) (h1 : k ≠ .CHANN) (h2 : k ≠ .CTIME) (h3 : k ≠ .ROI) :
    (procScan env k text c).1.scan.mca = c.scan.mca := by
  exact procScan_lift (·.mca) env k text c (fun _ => po_mca env k text c.scan h0 h1 h2 h3) (fun _ _ => rfl) (fun _ _ _ _ => rfl)

theorem pp_mca (env : Env) (f : PostFn) (c : ScanCtx) :
    (runPost env f c).1.scan.mca = c.scan.mca := by
  frame_post f

theorem po_V (env : Env) (k : HKey) (text : Str) (x : Obj) (h0 : k ≠ .V) :
    (procObj env k text x).1.V = x.V := by
  frame_obj k

theorem ps_V (env : Env) (k : HKey) (text : Str) (c : ScanCtx) (h0 : k ≠ .V) :
    (procScan env k text c).1.scan.V = c.scan.V := by
  exact procScan_lift (·.V) env k text c (fun _ => po_V env k text c.scan h0) (fun _ _ => rfl) (fun e => absurd e h0)

theorem pp_V (env : Env) (f : PostFn) (c : ScanCtx) :
    (runPost env f c).1.scan.V = c.scan.V := by
  frame_post f

theorem po_VA (env : Env) (k : HKey) (text : Str) (x : Obj) (h0 : k ≠ .VA) :
    (procObj env k text x).1.VA = x.VA := by
  frame_obj k

theorem ps_VA (env : Env) (k : HKey) (text : Str) (c : ScanCtx) (h0 : k ≠ .VA) :
    (procScan env k text c).1.scan.VA = c.scan.VA := by
  exact procScan_lift (·.VA) env k text c (fun _ => po_VA env k text c.scan h0) (fun _ _ => rfl) (fun _ _ _ _ => rfl)

theorem pp_VA (env : Env) (f : PostFn) (c : ScanCtx) :
    (runPost env f c).1.scan.VA = c.scan.VA := by
  frame_post f

theorem po_VD (env : Env) (k : HKey) (text : Str) (x : Obj) (h0 : k ≠ .VD) :
    (procObj env k text x).1.VD = x.VD := by
  frame_obj k

theorem ps_VD (env : Env) (k : HKey) (text : Str) (c : ScanCtx) (h0 : k ≠ .VD) :
    (procScan env k text c).1.scan.VD = c.scan.VD := by
  exact procScan_lift (·.VD) env k text c (fun _ => po_VD env k text c.scan h0) (fun _ _ => rfl) (fun _ _ _ _ => rfl)

theorem pp_VD (env : Env) (f : PostFn) (c : ScanCtx) :
    (runPost env f c).1.scan.VD = c.scan.VD := by
  frame_post f

theorem po_VE (env : Env) (k : HKey) (text : Str) (x : Obj) (h0 : k ≠ .VE) :
    (procObj env k text x).1.VE = x.VE := by
  frame_obj k

theorem ps_VE (env : Env) (k : HKey) (text : Str) (c : ScanCtx) (h0 : k ≠ .VE) :
    (procScan env k text c).1.scan.VE = c.scan.VE := by
  exact procScan_lift (·.VE) env k text c (fun _ => po_VE env k text c.scan h0) (fun _ _ => rfl) (fun _ _ _ _ => rfl)

theorem pp_VE (env : Env) (f : PostFn) (c : ScanCtx) :
    (runPost env f c).1.scan.VE = c.scan.VE := by
  frame_post f

theorem po_XPCS (env : Env) (k : HKey) (text : Str) (x : Obj) (h0 : k ≠ .XPCS) :
    (procObj env k text x).1.XPCS = x.XPCS := by
  frame_obj k

theorem ps_XPCS (env : Env) (k : HKey) (text : Str) (c : ScanCtx) (h0 : k ≠ .XPCS) :
    (procScan env k text c).1.scan.XPCS = c.scan.XPCS := by
  exact procScan_lift (·.XPCS) env k text c (fun _ => po_XPCS env k text c.scan h0) (fun _ _ => rfl) (fun _ _ _ _ => rfl)

theorem pp_XPCS (env : Env) (f : PostFn) (c : ScanCtx) :
    (runPost env f c).1.scan.XPCS = c.scan.XPCS := by
  frame_post f

theorem po_CCD (env : Env) (k : HKey) (text : Str) (x : Obj) (h0 : k ≠ .CCD) :
    (procObj env k text x).1.CCD = x.CCD := by
  frame_obj k

theorem ps_CCD (env : Env) (k : HKey) (text : Str) (c : ScanCtx) (h0 : k ≠ .CCD) :
    (procScan env k text c).1.scan.CCD = c.scan.CCD := by
  exact procScan_lift (·.CCD) env k text c (fun _ => po_CCD env k text c.scan h0) (fun _ _ => rfl) (fun _ _ _ _ => rfl)

theorem pp_CCD (env : Env) (f : PostFn) (c : ScanCtx) :
    (runPost env f c).1.scan.CCD = c.scan.CCD := by
  frame_post f

theorem po_MD (env : Env) (k : HKey) (text : Str) (x : Obj) (h0 : k ≠ .MD) :
    (procObj env k text x).1.MD = x.MD := by
  frame_obj k

theorem ps_MD (env : Env) (k : HKey) (text : Str) (c : ScanCtx) (h0 : k ≠ .MD) :
    (procScan env k text c).1.scan.MD = c.scan.MD := by
  exact procScan_lift (·.MD) env k text c (fun _ => po_MD env k text c.scan h0) (fun _ _ => rfl) (fun _ _ _ _ => rfl)

theorem pp_MD (env : Env) (f : PostFn) (c : ScanCtx) :
    (runPost env f c).1.scan.MD = c.scan.MD := by
  frame_post f

theorem po_positioner (env : Env) (k : HKey) (text : Str) (x : Obj) :
    (procObj env k text x).1.positioner = x.positioner := by
  frame_obj k

theorem ps_positioner (env : Env) (k : HKey) (text : Str) (c : ScanCtx) :
    (procScan env k text c).1.scan.positioner = c.scan.positioner := by
  exact procScan_lift (·.positioner) env k text c (fun _ => po_positioner env k text c.scan ) (fun _ _ => rfl) (fun _ _ _ _ => rfl)

theorem pp_positioner (env : Env) (f : PostFn) (c : ScanCtx) (h0 : f ≠ .positions) :
    (runPost env f c).1.scan.positioner = c.scan.positioner := by
  frame_post f

theorem po_interpComments (env : Env) (k : HKey) (text : Str) (x : Obj) :
    (procObj env k text x).1.interpComments = x.interpComments := by
  frame_obj k

theorem ps_interpComments (env : Env) (k : HKey) (text : Str) (c : ScanCtx) :
    (procScan env k text c).1.scan.interpComments = c.scan.interpComments := by
  exact procScan_lift (·.interpComments) env k text c (fun _ => po_interpComments env k text c.scan ) (fun _ _ => rfl) (fun _ _ _ _ => rfl)

theorem pp_interpComments (env : Env) (f : PostFn) (c : ScanCtx) (h0 : f ≠ .positions) :
    (runPost env f c).1.scan.interpComments = c.scan.interpComments := by
  frame_post f

theorem po_diff (env : Env) (k : HKey) (text : Str) (x : Obj) :
    (procObj env k text x).1.diff = x.diff := by
  frame_obj k

theorem ps_diff (env : Env) (k : HKey) (text : Str) (c : ScanCtx) :
    (procScan env k text c).1.scan.diff = c.scan.diff := by
  exact procScan_lift (·.diff) env k text c (fun _ => po_diff env k text c.scan ) (fun _ _ => rfl) (fun _ _ _ _ => rfl)

theorem pp_diff (env : Env) (f : PostFn) (c : ScanCtx) (h0 : f ≠ .geometry) :
    (runPost env f c).1.scan.diff = c.scan.diff := by
  frame_post f

theorem po_counterXref (env : Env) (k : HKey) (text : Str) (x : Obj) :
    (procObj env k text x).1.counterXref = x.counterXref := by
  frame_obj k

theorem ps_counterXref (env : Env) (k : HKey) (text : Str) (c : ScanCtx) :
    (procScan env k text c).1.scan.counterXref = c.scan.counterXref := by
  exact procScan_lift (·.counterXref) env k text c (fun _ => po_counterXref env k text c.scan ) (fun _ _ => rfl) (fun _ _ _ _ => rfl)

theorem pp_counterXref (env : Env) (f : PostFn) (c : ScanCtx) (h0 : f ≠ .counterJ) (h1 : f ≠ .counterj) :
    (runPost env f c).1.scan.counterXref = c.scan.counterXref := by
  frame_post f

theorem po_positionerXref (env : Env) (k : HKey) (text : Str) (x : Obj) :
    (procObj env k text x).1.positionerXref = x.positionerXref := by
  frame_obj k

theorem ps_positionerXref (env : Env) (k : HKey) (text : Str) (c : ScanCtx) :
    (procScan env k text c).1.scan.positionerXref = c.scan.positionerXref := by
  exact procScan_lift (·.positionerXref) env k text c (fun _ => po_positionerXref env k text c.scan ) (fun _ _ => rfl) (fun _ _ _ _ => rfl)

theorem pp_positionerXref (env : Env) (f : PostFn) (c : ScanCtx) (h0 : f ≠ .positionerXref) :
    (runPost env f c).1.scan.positionerXref = c.scan.positionerXref := by
  frame_post f

theorem po_data (env : Env) (k : HKey) (text : Str) (x : Obj) :
    (procObj env k text x).1.data = x.data := by
  frame_obj k

theorem ps_data (env : Env) (k : HKey) (text : Str) (c : ScanCtx) :
    (procScan env k text c).1.scan.data = c.scan.data := by
  exact procScan_lift (·.data) env k text c (fun _ => po_data env k text c.scan ) (fun _ _ => rfl) (fun _ _ _ _ => rfl)

theorem pp_data (env : Env) (f : PostFn) (c : ScanCtx) (h0 : f ≠ .scanData) :
    (runPost env f c).1.scan.data = c.scan.data := by
  frame_post f

theorem po_metadata (env : Env) (k : HKey) (text : Str) (x : Obj) :
    (procObj env k text x).1.metadata = x.metadata := by
  frame_obj k

theorem ps_metadata (env : Env) (k : HKey) (text : Str) (c : ScanCtx) :
    (procScan env k text c).1.scan.metadata = c.scan.metadata := by
  exact procScan_lift (·.metadata) env k text c (fun _ => po_metadata env k text c.scan ) (fun _ _ => rfl) (fun _ _ _ _ => rfl)

theorem pp_metadata (env : Env) (f : PostFn) (c : ScanCtx) (h0 : f ≠ .unicat) :
    (runPost env f c).1.scan.metadata = c.scan.metadata := by
  frame_post f

theorem po_uxmlRoot (env : Env) (k : HKey) (text : Str) (x : Obj) :
    (procObj env k text x).1.uxmlRoot = x.uxmlRoot := by
  frame_obj k

theorem ps_uxmlRoot (env : Env) (k : HKey) (text : Str) (c : ScanCtx) :
    (procScan env k text c).1.scan.uxmlRoot = c.scan.uxmlRoot := by
  exact procScan_lift (·.uxmlRoot) env k text c (fun _ => po_uxmlRoot env k text c.scan ) (fun _ _ => rfl) (fun _ _ _ _ => rfl)

theorem pp_uxmlRoot (env : Env) (f : PostFn) (c : ScanCtx) (h0 : f ≠ .uxml) :
    (runPost env f c).1.scan.uxmlRoot = c.scan.uxmlRoot := by
  frame_post f

theorem po_O (env : Env) (k : HKey) (text : Str) (x : Obj) (h0 : k ≠ .O) :
    (procObj env k text x).1.O = x.O := by
  frame_obj k

theorem ps_O (env : Env) (k : HKey) (text : Str) (c : ScanCtx) :
    (procScan env k text c).1.scan.O = c.scan.O := by
  exact procScan_lift (·.O) env k text c (fun h => po_O env k text c.scan h) (fun _ _ => rfl) (fun _ _ _ _ => rfl)

theorem pp_O (env : Env) (f : PostFn) (c : ScanCtx) :
    (runPost env f c).1.scan.O = c.scan.O := by
  frame_post f

theorem po_H (env : Env) (k : HKey) (text : Str) (x : Obj) (h0 : k ≠ .H) :
    (procObj env k text x).1.H = x.H := by
  frame_obj k

theorem pp_H (env : Env) (f : PostFn) (c : ScanCtx) :
    (runPost env f c).1.scan.H = c.scan.H := by
  frame_post f

theorem po_post (env : Env) (k : HKey) (text : Str) (x : Obj) (h0 : k ≠ .G) (h1 : k ≠ .J) (h2 : k ≠ .j) (h3 : k ≠ .o) (h4 : k ≠ .P) (h5 : k ≠ .data) (h6 : k ≠ .A) (h7 : k ≠ .V) (h8 : k ≠ .UXML) :
    (procObj env k text x).1.post = x.post := by
  frame_obj k

theorem ps_post (env : Env) (k : HKey) (text : Str) (c : ScanCtx) (h0 : k ≠ .G) (h1 : k ≠ .J) (h2 : k ≠ .j) (h3 : k ≠ .o) (h4 : k ≠ .P) (h5 : k ≠ .data) (h6 : k ≠ .A) (h7 : k ≠ .V) (h8 : k ≠ .UXML) :
    (procScan env k text c).1.scan.post = c.scan.post := by
  exact procScan_lift (·.post) env k text c (fun _ => po_post env k text c.scan h0 h1 h2 h3 h4 h5 h6 h7 h8) (fun _ _ => rfl) (fun e => absurd e h7)

theorem pp_post (env : Env) (f : PostFn) (c : ScanCtx) :
    (runPost env f c).1.scan.post = c.scan.post := by
  frame_post f

theorem ps_hdr (env : Env) (k : HKey) (text : Str) (c : ScanCtx) (hO : k ≠ .O) (hD : k ≠ .D) :
    (procScan env k text c).1.hdr = c.hdr := by
  cases k
  case O => exact absurd rfl hO
  case D => exact absurd rfl hD
  case V =>
    simp only [procScan, procV]
    repeat' split
    all_goals rfl
  all_goals rfl

theorem pp_hdr (env : Env) (f : PostFn) (c : ScanCtx) : (runPost env f c).1.hdr = c.hdr := by
  cases f <;> simp only [runPost, onScan, postGeometry, postPositions, postUnicat, Res.eval, Res.ok,
    Res.raise] <;> (repeat' split) <;> rfl

end S2N
