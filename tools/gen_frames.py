fields={ # field: (kinds, posts)
'kind':([],[]),'raw':([],[]),'fileName':([],[]),'S':([],[]),'scanNum':([],[]),'scanCmd':([],[]),'hdrIdx':([],[]),
'lazy':([],[]),'interpreted':([],[]),
'comments':(['C'],[]),'aborted':(['C'],[]),'date':(['D'],[]),'epoch':(['D'],[]),'G':(['G'],[]),'I':(['I'],[]),
'J':(['J'],[]),'j':(['j'],[]),'o':(['o'],[]),'L':(['L'],['scanData']),'columnFirst':(['L'],[]),'columnLast':(['L'],[]),
'M':(['M'],[]),'monitorName':(['M'],[]),'T':(['T'],[]),'timeName':(['T'],[]),'N':(['N'],[]),'P':(['P'],[]),
'Q':(['Q'],[]),'R':(['R'],[]),'U':(['U'],[]),'UIM':(['UIM'],[]),'unrecognized':(['unrec'],[]),'UXML':(['UXML'],[]),
'tempSP':(['X'],[]),'degcSP':(['X'],[]),'dataLines':(['data','A'],[]),'mca':(['CALIB','CHANN','CTIME','ROI'],[]),
'V':(['V'],[]),'VA':(['VA'],[]),'VD':(['VD'],[]),'VE':(['VE'],[]),'XPCS':(['XPCS'],[]),'CCD':(['CCD'],[]),'MD':(['MD'],[]),
'positioner':([],['positions']),'interpComments':([],['positions']),'diff':([],['geometry']),
'counterXref':([],['counterJ','counterj']),'positionerXref':([],['positionerXref']),'data':([],['scanData']),
'metadata':([],['unicat']),'uxmlRoot':([],['uxml']),'O':([],[]),'H':(['H'],[]),
'post':(['G','J','j','o','P','data','A','V','UXML'],[]),
}
out='''import Verif.Model.Handlers
/-
Generated by tools/gen_frames.py: which attributes of a scan each handler and each
post-processor leaves alone.
-/
namespace S2N
open Py

theorem dateHdr_scan (env : Env) (c : ScanCtx) :
    (dateHdr env c).1.scan = c.scan.addH5 p!"#D" .date := by
  unfold dateHdr
  simp only [Res.ok, Res.raise, Res.eval]
  repeat' split
  all_goals rfl

theorem procScan_lift {β : Type} (π : Obj → β) (env : Env) (k : HKey) (text : Str) (c : ScanCtx)
    (h1 : k ≠ .O → π (procObj env k text c.scan).1 = π c.scan)
    (h2 : k = .D → ∀ x : Obj, π (x.addH5 p!"#D" .date) = π x)
    (h3 : k = .V → ∀ (x : Obj) v p, π { x with V := v, post := p } = π x) :
    π (procScan env k text c).1.scan = π c.scan := by
  cases k
  case D =>
    simp only [procScan, Res.andThen]
    have h1 := h1 (by simp)
    simp only [procObj] at h1
    split
    · rw [dateHdr_scan, h2 rfl]; exact h1
    · exact h1
  case O => rfl
  case V =>
    simp only [procScan, procV]
    repeat' split
    all_goals first | rfl | exact h3 rfl c.scan _ _
  all_goals exact h1 (by simp)

/-- case split of the effect of a handler -/
macro "frame_obj" k:term : tactic => `(tactic| (
  cases $k:term <;> simp only [procObj, procDate, procC, procG, procI, procJ, procj, procL, procM,
    procN, procO, proco, procP, procQ, procR, procT, procU, procX, procData, procCalib, procChann,
    procCtime, procRoi, procUnrec, procMD, procUIM, procH, procVA, procVD, procVE, procXPCS,
    procCCD, procUXML, Res.eval, Res.ok, Res.raise, Obj.addH5, Obj.addPost] <;>
    (repeat' split) <;> first | rfl | (exfalso; simp_all; done)))

/-- case split of the effect of a post-processor -/
macro "frame_post" f:term : tactic => `(tactic| (
  cases $f:term <;> simp only [runPost, onScan, postGeometry, postPositions, postData, postUnicat,
    postUXML, counterXref, positionerXref, Res.eval, Res.ok, Res.raise, Res.andThen, Obj.addH5,
    Obj.addPost] <;>
    (repeat' split) <;> first | rfl | (exfalso; simp_all; done)))

'''
for f,(ks,ps) in fields.items():
    hk=''.join(f' (h{i} : k ≠ .{k})' for i,k in enumerate(ks))
    names=' '.join(f'h{i}' for i in range(len(ks)))
    if f=='O': hk=' (h0 : k ≠ .O)'
    out+=f'''theorem po_{f} (env : Env) (k : HKey) (text : Str) (x : Obj){hk} :
    (procObj env k text x).1.{f} = x.{f} := by
  frame_obj k

'''
    if f=='O':
        hk=''; names='h0'
    if f not in('H',):
      if f=='O':
        pf=f'exact procScan_lift (·.O) env k text c (fun h => po_O env k text c.scan h) (fun _ _ => rfl) (fun _ _ _ _ => rfl)'
      else:
        v='(fun e => absurd e h0)' if f=='V' else ('(fun e => absurd e h7)' if f=='post' else '(fun _ _ _ _ => rfl)')
        pf=f'exact procScan_lift (·.{f}) env k text c (fun _ => po_{f} env k text c.scan {names}) (fun _ _ => rfl) {v}'
      out+=f'''theorem ps_{f} (env : Env) (k : HKey) (text : Str) (c : ScanCtx){hk} :
    (procScan env k text c).1.scan.{f} = c.scan.{f} := by
  {pf}

'''
    hp=''.join(f' (h{i} : f ≠ .{k})' for i,k in enumerate(ps))
    out+=f'''theorem pp_{f} (env : Env) (f : PostFn) (c : ScanCtx){hp} :
    (runPost env f c).1.scan.{f} = c.scan.{f} := by
  frame_post f

'''
out+='''theorem ps_hdr (env : Env) (k : HKey) (text : Str) (c : ScanCtx) (hO : k ≠ .O) (hD : k ≠ .D) :
    (procScan env k text c).1.hdr = c.hdr := by
  cases k
  case O => exact absurd rfl hO
  case D => exact absurd rfl hD
  case V =>
    simp only [procScan, procV]
    repeat' split
    all_goals rfl
  all_goals rfl

theorem pp_hdr (env : Env) (f : PostFn) (c : ScanCtx) : (runPost env f c).1.hdr = c.hdr := by
  cases f <;> simp only [runPost, onScan, postGeometry, postPositions, postUnicat, Res.eval, Res.ok,
    Res.raise] <;> (repeat' split) <;> rfl

end S2N
'''
open('/verif/lean/Verif/Lemmas/Frames.lean','w').write(out)
