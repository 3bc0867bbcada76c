import Verif.Lemmas.Writers
/-
The loop of `Writer.save` over the scans.
-/
namespace S2N
open Py H5 Eznx Writer Spec Props

section
variable [UniDB]

/-! ## Interpretation: header and data -/

/-- interpretation changes only names of positioners and the date of a header -/
theorem interp_hdr_inv (env : Env) (reg : List HKey) (P : Obj → Prop) (h1 : ∀ h O, P h → P { h with O := O })
    (h2 : ∀ h d e, P h → P { h with date := d, epoch := e }) (c : ScanCtx) (h : P c.hdr) :
    P (interpretScan env reg c).1.hdr := by
  unfold interpretScan
  split
  · exact h
  · refine andThen_inv' (P := fun c : ScanCtx => P c.hdr) ?_ fun c1 hc1 => ?_
    · refine forEach_invariant (scanLine env reg) (fun c : ScanCtx => P c.hdr) ?_ _ _ h
      intro a c h
      rw [scanLine_eq]
      cases effKey reg a with
      | none => exact h
      | some k =>
        by_cases hO : k = .O
        · subst hO
          show P (procO a c.hdr).1
          unfold procO
          cases firstWord a with
          | error e => exact h
          | ok w =>
            simp only [Res.eval]
            split
            · split
              · exact h1 _ _ h
              · exact h
            · split
              · exact h1 _ _ (h1 _ _ h)
              · exact h1 _ _ h
        by_cases hD : k = .D
        · subst hD
          refine andThen_inv' (P := fun c : ScanCtx => P c.hdr) h fun c1 hc1 => ?_
          unfold dateHdr
          simp only
          split
          · exact h2 _ _ _ hc1
          · split
            · refine eval_inv (P := fun c : ScanCtx => P c.hdr) hc1 fun _ _ => ?_
              refine eval_inv (P := fun c : ScanCtx => P c.hdr) hc1 fun _ _ => ?_
              split
              · refine eval_inv (P := fun c : ScanCtx => P c.hdr) hc1 fun _ _ => ?_
                exact eval_inv (P := fun c : ScanCtx => P c.hdr) hc1 fun _ _ => hc1
              · exact hc1
            · exact hc1
        have e := ps_hdr env k a c hO hD
        show P (procScan env k a c).1.hdr
        rw [e]
        exact h
    · refine andThen_inv' (P := fun c : ScanCtx => P c.hdr) ?_ fun c2 h2 => h2
      exact forEach_invariant (runPost env) (fun c : ScanCtx => P c.hdr)
        (fun f c h => by rw [pp_hdr env f c]; exact h) _ _ hc1

omit [UniDB] in
theorem po_dataWriter (env : Env) (k : HKey) (text : Str) (x : Obj) :
    (procObj env k text x).1.h5.get? p!"scan_data" = x.h5.get? p!"scan_data" := by
  frame_obj_h5 k

omit [UniDB] in
theorem ps_dataWriter (env : Env) (k : HKey) (text : Str) (c : ScanCtx) :
    (procScan env k text c).1.scan.h5.get? p!"scan_data" = c.scan.h5.get? p!"scan_data" :=
  procScan_lift (fun x => x.h5.get? p!"scan_data") env k text c (fun _ => po_dataWriter env k text c.scan)
    (fun _ x => Dict.get?_setDefault_ne _ _ (by decide)) (fun _ _ _ _ => rfl)

omit [UniDB] in
theorem pp_dataWriter (env : Env) (f : PostFn) (c : ScanCtx) (h0 : f ≠ .scanData) :
    (runPost env f c).1.scan.h5.get? p!"scan_data" = c.scan.h5.get? p!"scan_data" := by
  frame_post_h5 f

omit [UniDB] in
theorem po_geoWriter (env : Env) (k : HKey) (text : Str) (x : Obj) :
    (procObj env k text x).1.h5.get? p!"diffractometer geometry" = x.h5.get? p!"diffractometer geometry" := by
  frame_obj_h5 k

omit [UniDB] in
theorem ps_geoWriter (env : Env) (k : HKey) (text : Str) (c : ScanCtx) :
    (procScan env k text c).1.scan.h5.get? p!"diffractometer geometry" = c.scan.h5.get? p!"diffractometer geometry" :=
  procScan_lift (fun x => x.h5.get? p!"diffractometer geometry") env k text c (fun _ => po_geoWriter env k text c.scan)
    (fun _ x => Dict.get?_setDefault_ne _ _ (by decide)) (fun _ _ _ _ => rfl)

omit [UniDB] in
theorem pp_geoWriter (env : Env) (f : PostFn) (c : ScanCtx) (h0 : f ≠ .geometry) :
    (runPost env f c).1.scan.h5.get? p!"diffractometer geometry" = c.scan.h5.get? p!"diffractometer geometry" := by
  frame_post_h5 f

omit [UniDB] in
theorem _root_.S2N.Spec.GeoScan.same {x y : Obj} (h : GeoScan x) (h1 : y.post = x.post) (h2 : y.h5.get? p!"diffractometer geometry" = x.h5.get? p!"diffractometer geometry")
    (h3 : y.G = x.G) (h4 : y.interpreted = x.interpreted) : GeoScan y := by
  constructor
  · rw [h1]; exact h.only
  · rw [h2, h3]; exact h.lines
  · rw [h1, h3]; exact h.post
  · rw [h2, h3, h4]; exact h.done

omit [UniDB] in
/-- a line keeps it -/
theorem ps_geoScan (env : Env) (k : HKey) (text : Str) (c : ScanCtx) (h : GeoScan c.scan) (hi : c.scan.interpreted = false)
    (hok : (procScan env k text c).2 = none) : GeoScan (procScan env k text c).1.scan := by
  have hp := Props.ps_post_eq env k text c hok
  have hi' := ps_interpreted env k text c
  have hh := ps_geoWriter env k text c
  rw [hi] at hi'
  have hdone : (procScan env k text c).1.scan.interpreted = true → (procScan env k text c).1.scan.G.getD [] ≠ [] →
      (procScan env k text c).1.scan.h5.get? p!"diffractometer geometry" ≠ none := fun e => by rw [hi'] at e; cases e
  by_cases hk : k = .G
  · subst hk
    have hG : (procScan env .G text c).1.scan.G.getD [] ≠ [] := by
      revert hok
      simp only [procScan, onScan, procObj, procG, Res.eval]
      split
      · split
        · intro hok; cases hok
        · intro _
          simp only [Res.ok, Obj.addPost, Option.getD_some]
          intro e
          have hm := Dict.get?_set_self (α := Str) ‹Dict Str› (lstripC '#' ‹Str›) (stripFirstWord text)
          rw [e] at hm
          cases hm
      · intro hok; cases hok
    have hpost : (procScan env .G text c).1.scan.post = c.scan.post.setDefault p!"diffractometer geometry" .geometry := hp
    refine ⟨fun f hf => ?_, fun _ => hG, fun _ => ?_, hdone⟩
    · rw [hpost] at hf
      unfold Dict.setDefault at hf
      split at hf
      · exact h.only f hf
      · rw [Dict.get?_set_self] at hf
        injection hf with hf
        exact hf.symm
    · rw [hpost]
      unfold Dict.setDefault
      split
      · rename_i hh
        intro e
        unfold Dict.has at hh
        rw [e] at hh
        cases hh
      · rw [Dict.get?_set_self]; simp
  · have hG := ps_G env k text c hk
    have hpost : (procScan env k text c).1.scan.post.get? p!"diffractometer geometry" = c.scan.post.get? p!"diffractometer geometry" := by
      rw [hp]
      unfold Props.addPostOf
      split
      · rfl
      · rename_i f hf
        refine Dict.get?_setDefault_ne _ _ ?_
        revert hf hk
        cases k <;> intro hk hf <;> cases hf <;> first | decide | exact absurd rfl hk
    constructor
    · rw [hpost]; exact h.only
    · rw [hh, hG]; exact h.lines
    · rw [hpost, hG]; exact h.post
    · exact hdone

omit [UniDB] in
/-- the processing of the #G lines registers the writer -/
theorem postGeometry_writer {c : ScanCtx} (hG : c.scan.G.getD [] ≠ []) :
    (postGeometry c).1.scan.h5.get? p!"diffractometer geometry" ≠ none := by
  have hl : (c.scan.G.getD []).length > 0 := List.length_pos_iff.2 hG
  have key : (c.scan.addH5 p!"diffractometer geometry" .geometry).h5.get? p!"diffractometer geometry" ≠ none := by
    unfold Obj.addH5 Dict.setDefault
    simp only
    split
    · rename_i hh
      intro e
      unfold Dict.has at hh
      rw [e] at hh
      cases hh
    · rw [Dict.get?_set_self]; simp
  unfold postGeometry
  rw [if_pos hl]
  simp only [Res.eval, Res.ok, Res.raise]
  split <;> exact key

omit [UniDB] in
/-- post-processing keeps it -/
theorem pp_geoScan (env : Env) (f : PostFn) (c : ScanCtx) (h : GeoScan c.scan) (hi : c.scan.interpreted = false) :
    GeoScan (runPost env f c).1.scan := by
  have hi' := pp_interpreted env f c
  rw [hi] at hi'
  by_cases hf : f = .geometry
  · subst hf
    refine ⟨by rw [pp_post]; exact h.only, ?_, by rw [pp_post, pp_G]; exact h.post, fun e => by rw [hi'] at e; cases e⟩
    rw [pp_G]
    intro hw hG
    refine h.lines ?_ hG
    revert hw
    show (postGeometry c).1.scan.h5.get? p!"diffractometer geometry" ≠ none → _
    unfold postGeometry
    rw [if_neg (by rw [hG]; decide)]
    simp only [Res.eval, Res.ok, Res.raise]
    split <;> exact id
  · exact h.same (pp_post env f c) (pp_geoWriter env f c hf) (pp_G env f c) (by rw [hi', hi])

omit [UniDB] in
/-- after the post-processing the writer is registered -/
theorem posts_geoWriter (env : Env) : ∀ (fs : List PostFn) (c : ScanCtx), c.scan.G.getD [] ≠ [] →
    (.geometry ∈ fs ∨ c.scan.h5.get? p!"diffractometer geometry" ≠ none) → (forEach (runPost env) fs c).2 = none →
    (forEach (runPost env) fs c).1.scan.h5.get? p!"diffractometer geometry" ≠ none
  | [], c, _, h, _ => h.resolve_left (by simp)
  | f :: fs, c, hG, h, hok => by
    obtain ⟨a1, a2, a3⟩ := forEach_cons_ok hok
    rw [a2]
    refine posts_geoWriter env fs _ (by rw [pp_G]; exact hG) ?_ a3
    by_cases hf : f = .geometry
    · subst hf
      exact .inr (postGeometry_writer hG)
    · rw [pp_geoWriter env f c hf]
      rcases h with h | h
      · rcases List.mem_cons.1 h with h | h
        · exact absurd h.symm hf
        · exact .inl h
      · exact .inr h

omit [UniDB] in
theorem dataScan_of_eq {x y : Obj} (h : DataScan x) (h1 : y.data = x.data)
    (h2 : y.h5.get? p!"scan_data" = x.h5.get? p!"scan_data") (h3 : y.dataLines = x.dataLines)
    (h4 : .scanData ∈ y.post.values → .scanData ∈ x.post.values) (h5 : GeoScan y) : DataScan y :=
  ⟨by rw [h2]; exact h.only, by rw [h1, h2]; exact h.data, by rw [h2, h3]; exact h.lines,
    by rw [h3]; exact fun hm => h.post (h4 hm), h5⟩

omit [UniDB] in
theorem postData_frames (x : Obj) : (postData x).1.dataLines = x.dataLines ∧ (postData x).1.post = x.post := by
  unfold postData
  simp only [Res.eval, Res.ok, Res.raise]
  (repeat' split) <;> exact ⟨rfl, rfl⟩

omit [UniDB] in
theorem mem_setDefault {α : Type} {d : Dict α} {k : Str} {v w : α} (h : w ∈ (d.setDefault k v).values) : w ∈ d.values ∨ w = v := by
  cases hh : d.has k with
  | true => rw [Dict.setDefault_of_has _ _ _ hh] at h; exact .inl h
  | false =>
    rw [Props.setDefault_of_not_has _ _ _ hh] at h
    simpa [Dict.values] using h

omit [UniDB] in
/-- a line keeps it -/
theorem ps_dataScan (env : Env) (k : HKey) (text : Str) (c : ScanCtx) (h : DataScan c.scan) (hi : c.scan.interpreted = false)
    (hok : (procScan env k text c).2 = none) : DataScan (procScan env k text c).1.scan := by
  have hp := Props.ps_post_eq env k text c hok
  by_cases hk : k = .data ∨ k = .A
  · have hd : (procScan env k text c).1.scan.dataLines.getD [] ≠ [] := by
      rcases hk with rfl | rfl <;>
      · revert hok
        simp only [procScan, onScan, procObj, procData]
        split
        · intro hok; cases hok
        · intro _; simp [Res.ok, Obj.addPost]
    exact ⟨by rw [ps_dataWriter]; exact h.only, by rw [ps_data, ps_dataWriter]; exact h.data, fun _ => hd, fun _ => hd,
      ps_geoScan env k text c h.geo hi hok⟩
  · refine dataScan_of_eq h (ps_data env k text c) (ps_dataWriter env k text c)
      (ps_dataLines env k text c (fun e => hk (.inl e)) (fun e => hk (.inr e))) ?_ (ps_geoScan env k text c h.geo hi hok)
    rw [hp]
    unfold Props.addPostOf
    split
    · exact id
    · rename_i f hf
      intro hm
      rcases mem_setDefault hm with h1 | h1
      · exact h1
      · subst h1
        exact absurd (by cases k <;> first | (left; rfl) | (right; rfl) | cases hf) hk

omit [UniDB] in
theorem postData_writer {x : Obj} (h : DataScan x) (hl : x.dataLines.getD [] ≠ []) (hok : (postData x).2 = none)
    (hg : GeoScan (postData x).1) : DataScan (postData x).1 := by
  suffices hd : (postData x).1.h5.get? p!"scan_data" = some .scanData by
    refine ⟨fun f hf => ?_, fun _ => hd, fun _ => by rw [(postData_frames x).1]; exact hl,
      fun _ => by rw [(postData_frames x).1]; exact hl, hg⟩
    rw [hd] at hf
    injection hf with hf
    exact hf.symm
  have key : ∀ y : Obj, y.h5 = x.h5 → (y.addH5 p!"scan_data" .scanData).h5.get? p!"scan_data" = some .scanData := by
    intro y hy
    unfold Obj.addH5 Dict.setDefault
    simp only
    rw [hy]
    split
    · rename_i hh
      unfold Dict.has at hh
      obtain ⟨f, hf⟩ := Option.isSome_iff_exists.1 hh
      rw [hf, h.only f hf]
    · rw [Dict.get?_set_self]
  unfold postData at hok ⊢
  simp only at hok ⊢
  split at hok
  · simp [Res.raise] at hok
  · rename_i h0
    rw [if_neg h0]
    cases h1 : x.N.first with
    | error e => rw [h1] at hok; simp [Res.eval] at hok
    | ok n =>
      rw [h1] at hok
      simp only [Res.eval] at hok ⊢
      split at hok
      · simp [Res.raise] at hok
      · rename_i h2
        split at hok
        · rename_i h3
          split at hok
          · simp [Res.raise] at hok
          · rename_i h4
            apply key
            split <;> rfl
        · simp at hok

theorem interp_dataScan {env : Env} {reg : List HKey} (c : ScanCtx) (h : DataScan c.scan)
    (hok : (interpretScan env reg c).2 = none) : DataScan (interpretScan env reg c).1.scan := by
  by_cases hi : c.scan.interpreted = true
  · rw [show interpretScan env reg c = (c, none) from by unfold interpretScan; rw [if_pos hi]; rfl]
    exact h
  rw [Bool.not_eq_true] at hi
  obtain ⟨c1, c2, e1, e2, e3⟩ := interpret_ok env reg c hi hok
  have h0 : ∀ (ls : List Str) (c : ScanCtx), DataScan c.scan → c.scan.interpreted = false → (forEach (scanLine env reg) ls c).2 = none →
      DataScan (forEach (scanLine env reg) ls c).1.scan ∧ (forEach (scanLine env reg) ls c).1.scan.interpreted = false := by
    intro ls
    induction ls with
    | nil => intro c h hi _; exact ⟨h, hi⟩
    | cons l ls ih =>
      intro c h hi hok
      obtain ⟨a1, a2, a3⟩ := forEach_cons_ok hok
      rw [a2]
      refine ih _ ?_ (by rw [scanLine_eq]; split; exacts [hi, (ps_interpreted ..).trans hi]) a3
      rw [scanLine_eq] at a1 ⊢
      revert a1
      cases effKey reg l with
      | none => intro _; exact h
      | some k => intro a1; exact ps_dataScan env k l c h hi a1
  obtain ⟨h1, h1i⟩ : DataScan c1.scan ∧ c1.scan.interpreted = false := by
    have := h0 (scanLines c.scan.raw) { c with scan := { c.scan with lazy := false } } (dataScan_of_eq h rfl rfl rfl id (h.geo.same rfl rfl rfl rfl)) hi (by rw [e1])
    rw [e1] at this; exact this
  have h2 : ∀ (fs : List PostFn) (c : ScanCtx), DataScan c.scan → (.scanData ∈ fs → c.scan.dataLines.getD [] ≠ []) →
      c.scan.interpreted = false → (forEach (runPost env) fs c).2 = none → DataScan (forEach (runPost env) fs c).1.scan := by
    intro fs
    induction fs with
    | nil => intro c h _ _ _; exact h
    | cons f fs ih =>
      intro c h hl hi hok
      obtain ⟨a1, a2, a3⟩ := forEach_cons_ok hok
      rw [a2]
      have hg := pp_geoScan env f c h.geo hi
      refine ih _ ?_ (fun hm => by rw [pp_dataLines]; exact hl (by simp [hm])) (by rw [pp_interpreted]; exact hi) a3
      by_cases hf : f = .scanData
      · subst hf
        exact postData_writer h (hl (by simp)) a1 hg
      · exact dataScan_of_eq h (pp_data env f c hf) (pp_dataWriter env f c hf) (pp_dataLines env f c) (by rw [pp_post]; exact id) hg
  have h3 := h2 c1.scan.post.values c1 h1 h1.post h1i (by rw [e2])
  have hfp := forEach_pres (runPost env) (fun c => (c.scan.G, c.scan.post)) c1.scan.post.values (fun f _ c => by simp only [pp_G, pp_post]) c1
  have h4 := posts_geoWriter env c1.scan.post.values c1
  rw [e2] at h3 h4 hfp
  injection hfp with hf1 hf2
  rw [e3]
  refine dataScan_of_eq h3 rfl rfl rfl id ⟨h3.geo.only, h3.geo.lines, h3.geo.post, fun _ hG => ?_⟩
  have hG1 : c1.scan.G.getD [] ≠ [] := by rw [← hf1]; exact hG
  refine h4 hG1 (.inl ?_) rfl
  cases hg : c1.scan.post.get? p!"diffractometer geometry" with
  | none => exact absurd hg (h1.geo.post hG1)
  | some f =>
    rw [← h1.geo.only f hg]
    exact List.mem_map.2 ⟨_, Dict.mem_of_get? hg, rfl⟩

/-! ## The data file object in the loop -/

theorem interp_ident (env : Env) (reg : List HKey) (c : ScanCtx) :
    (interpretScan env reg c).1.scan.ident = c.scan.ident :=
  congrArg Prod.fst (interpretScan_ident env reg c)

theorem interp_done {env : Env} {reg : List HKey} {c : ScanCtx} (h : c.scan.interpreted = true) :
    interpretScan env reg c = (c, none) := by
  unfold interpretScan
  rw [if_pos h]
  rfl

theorem interp_interpreted {env : Env} {reg : List HKey} {c : ScanCtx} (h : (interpretScan env reg c).2 = none) :
    (interpretScan env reg c).1.scan.interpreted = true := by
  by_cases hi : c.scan.interpreted = true
  · rw [interp_done hi]; exact hi
  · rw [Bool.not_eq_true] at hi
    obtain ⟨c1, c2, e1, e2, e3⟩ := interpret_ok env reg c hi h
    rw [e3]

/-- the scan that a reference names depends only on the names of the scans -/
theorem getScan_name {s : Sdf} {k : Ref} {x : Obj} (h : s.getScan k = .ok (some x)) :
    ∃ n, s.scans.get? n = some x ∧ ∀ s' : Sdf, s'.scans.keys = s.scans.keys → s'.getScan k = .ok (s'.scans.get? n) := by
  unfold Sdf.getScan at h ⊢
  cases e : Sdf.refInt k with
  | error err => rw [e] at h; cases h
  | ok n =>
    rw [e] at h
    simp only at h ⊢
    by_cases hn : n < 1
    · rw [if_pos hn] at h
      cases e2 : s.getScanNumbers with
      | error err => rw [e2] at h; cases h
      | ok l =>
        rw [e2] at h
        simp only at h
        by_cases hl : l.length = 0
        · rw [if_pos hl] at h; cases h
        · rw [if_neg hl] at h
          cases e3 : Sdf.refIndex k with
          | error err => rw [e3] at h; cases h
          | ok i =>
            rw [e3] at h
            simp only at h
            cases e4 : pyGet l i with
            | error err => rw [e4] at h; cases h
            | ok name =>
              rw [e4] at h
              simp only at h
              injection h with h
              refine ⟨name, h, fun s' hs' => ?_⟩
              have e5 : s'.getScanNumbers = .ok l := by
                rw [← e2]; unfold Sdf.getScanNumbers; rw [hs']
              simp only [if_pos hn, e5, if_neg hl, e3, e4]
    · rw [if_neg hn] at h
      injection h with h
      exact ⟨_, h, fun s' _ => by simp only [if_neg hn]⟩

/-- what holds of the data file object during a save -/
structure SdfOk (s : Sdf) : Prop where
  safe : SafeFile s
  named : WellNamed s

theorem relNames_newHeader (f : Str) : RelNames (Obj.newHeader f []) := by
  refine ⟨?_, ?_, ?_, ?_, ?_⟩
  · intro k h; simp [Obj.newHeader, Dict.keys] at h
  · intro k h; simp [Obj.newHeader, Dict.keys] at h
  · intro d h; simp [Obj.newHeader] at h
  · intro d h; simp [Obj.newHeader] at h
  · intro t a v ch h; simp [Obj.newHeader] at h

/-- headers that differ only in what the interpretation of a scan may change -/
def HdrLike (a b : Obj) : Prop := ∃ O d e, b = { a with O := O, date := d, epoch := e }

theorem HdrLike.refl (a : Obj) : HdrLike a a := ⟨a.O, a.date, a.epoch, rfl⟩

theorem HdrLike.trans {a b c : Obj} (h : HdrLike a b) (k : HdrLike b c) : HdrLike a c := by
  obtain ⟨O, d, e, rfl⟩ := h
  obtain ⟨O', d', e', rfl⟩ := k
  exact ⟨O', d', e', rfl⟩

theorem HdrLike.symm {a b : Obj} (h : HdrLike a b) : HdrLike b a := by
  obtain ⟨O, d, e, rfl⟩ := h
  exact ⟨a.O, a.date, a.epoch, rfl⟩

/-- interpretation changes only names of positioners and the date of a header -/
theorem interp_hdrLike (env : Env) (reg : List HKey) (c : ScanCtx) : HdrLike c.hdr (interpretScan env reg c).1.hdr :=
  interp_hdr_inv env reg (HdrLike c.hdr) (fun h O k => k.trans ⟨O, h.date, h.epoch, rfl⟩)
    (fun h d e k => k.trans ⟨h.O, d, e, rfl⟩) c (HdrLike.refl _)

/-- One pass of the loop, as the data file object sees it: the scan `n` is interpreted, and its
labels may have changed. -/
structure SdfStep (env : Env) (reg : List HKey) (k : Ref) (s s' : Sdf) (n : Str) (x y : Obj) : Prop where
  ok : SdfOk s'
  keys : s'.scans.keys = s.scans.keys
  get : ∀ m, s'.scans.get? m = if n = m then some y else s.scans.get? m
  key : ∀ t : Sdf, t.scans.keys = s.scans.keys → t.getScan k = .ok (t.scans.get? n)
  done : x.interpreted = true
  labels : ∃ L, y = { x with L := L }
  again : ∀ z, s.scans.get? n = some z → z.interpreted = true → x = z
  hdrs : ∀ w : Obj, HdrLike (s.headerOf w) (s'.headerOf w)

theorem SafeScan.withL {x : Obj} (h : SafeScan x) (L : Option (List Str)) : SafeScan { x with L := L } :=
  ⟨h.names.withL L, h.counters, h.positioners, h.lines⟩

theorem writers_fresh {k : Kind} {x : Obj} (h0 : x.kind = k) (h1 : x.h5 = [] ∨ (k = .scan ∧ x.h5 = [(p!"#D", .date)]))
    (h2 : x.comments = []) (h3 : x.Q = none) (h4 : x.M.getD [] = []) (h5 : x.T.getD [] = []) (h6 : x.R = none) (h7 : x.U = none)
    (h8 : x.unrecognized = none) (h9 : x.MD = none) (h10 : x.counterXref = none) (h11 : x.positionerXref = none)
    (h12 : x.interpreted = false) (m1 : x.uxmlRoot = none) (m2 : x.metadata = none) (m3 : x.positioner = []) (m4 : x.mca = none)
    (m5 : x.VA = none) (m6 : x.VD = none) (m7 : x.VE = none) (m8 : (x.tempSP, x.degcSP) = (none, none)) (m9 : x.G.getD [] = []) : Writers k x := by
  have hv : ∀ g, g ≠ H5Fn.date → g ∉ x.h5.values := by
    intro g hg
    rcases h1 with h1 | ⟨_, h1⟩
    · rw [h1]; simp [Dict.values]
    · rw [h1]; simpa [Dict.values] using hg
  have hm : MoreWriters x := by
    refine ⟨?_, ?_, ?_, ?_, ?_, ?_, ?_, ?_, ?_, ?_, ?_, ?_, ?_, ?_, ?_, ?_⟩ <;>
      simp [m1, m2, m3, m4, m5, m6, m7, (Prod.mk.inj m8).1, (Prod.mk.inj m8).2, m9, Dict.keys, hv]
  rcases h1 with h1 | ⟨hk, h1⟩
  · constructor <;> first | exact hm | simp_all [Dict.keys, Dict.values]
  · subst hk
    constructor <;> first | exact hm | simp_all [Dict.keys, Dict.values, labelOf]

theorem writers_newHeader (f raw : Str) : Writers .header (Obj.newHeader f raw) :=
  writers_fresh rfl (.inl rfl) rfl rfl rfl rfl rfl rfl rfl rfl rfl rfl rfl rfl rfl rfl rfl rfl rfl rfl rfl rfl

theorem _root_.S2N.Spec.Writers.hdrLike {k : Kind} {x y : Obj} (h : Writers k x) (hl : HdrLike x y) : Writers k y := by
  obtain ⟨O, d, e, rfl⟩ := hl
  exact h.same rfl rfl rfl rfl rfl rfl rfl rfl rfl rfl rfl rfl rfl rfl id

theorem headerOf_ok {s : Sdf} (h : SdfOk s) (x : Obj) :
    RelNames (s.headerOf x) ∧ .scanData ∉ (s.headerOf x).h5.values ∧ Writers .header (s.headerOf x) := by
  unfold Sdf.headerOf
  rw [List.getD_eq_getElem?_getD]
  cases e : s.headers[x.hdrIdx]? with
  | none => exact ⟨relNames_newHeader _, by simp [Obj.newHeader, Dict.values], writers_newHeader _ _⟩
  | some y =>
    have := List.mem_of_getElem? e
    exact ⟨h.safe.headers y this, h.safe.noData y this, h.safe.hdrWriters y this⟩

theorem interp_ok_safe {env : Env} {reg : List HKey} (hr : reg.Perm HKey.all) (hx : SchemaNames env)
    {s : Sdf} (hs : SdfOk s) {k : Ref} {x0 x hdr : Obj} (hg : s.getScan k = .ok (some x0))
    (hi : interpretScan env reg ⟨x0, s.headerOf x0⟩ = (⟨x, hdr⟩, none)) :
    SafeScan x ∧ DataScan x ∧ RelNames hdr ∧ .scanData ∉ hdr.h5.values ∧ Writers .scan x ∧ Writers .header hdr := by
  obtain ⟨n, hn⟩ := getScan_mem hg
  have hm := Dict.mem_of_get? hn
  obtain ⟨g1, g2, g3⟩ := headerOf_ok hs x0
  have hok : (interpretScan env reg ⟨x0, s.headerOf x0⟩).2 = none := by rw [hi]
  have a := interp_safe env reg hr hx ⟨x0, s.headerOf x0⟩ (hs.safe.scans _ hm) hok
  have b := interp_dataScan ⟨x0, s.headerOf x0⟩ (hs.safe.data _ hm) hok
  have c := interp_hdr env reg ⟨x0, s.headerOf x0⟩ g1
  have d := interp_hdr_inv env reg (fun h => .scanData ∉ h.h5.values) (fun _ _ h => h) (fun _ _ _ h => h)
    ⟨x0, s.headerOf x0⟩ g2
  have e := interp_writers hr ⟨x0, s.headerOf x0⟩ (hs.safe.writers _ hm) hok
  have f := g3.hdrLike (interp_hdrLike env reg ⟨x0, s.headerOf x0⟩)
  rw [hi] at a b c d e f
  exact ⟨a, b, c, d, e, f⟩

theorem sdf_step {env : Env} {reg : List HKey} (hr : reg.Perm HKey.all) (hx : SchemaNames env)
    {s s' : Sdf} (hs : SdfOk s) {k : Ref} {x0 x hdr y : Obj} (hg : s.getScan k = .ok (some x0))
    (hi : interpretScan env reg ⟨x0, s.headerOf x0⟩ = (⟨x, hdr⟩, none)) (hy : ∃ L, y = { x with L := L })
    (hs' : s' = (s.putScan x0.scanNum ⟨x, hdr⟩).putScan y.scanNum ⟨y, hdr⟩) :
    ∃ n, s.scans.get? n = some x0 ∧ SdfStep env reg k s s' n x y := by
  obtain ⟨n, hn, hkey⟩ := getScan_name hg
  have hm := Dict.mem_of_get? hn
  obtain ⟨a1, a2, a3, a4, a5, a6⟩ := interp_ok_safe hr hx hs hg hi
  have hn0 : x0.scanNum = n := hs.named.named _ hm
  have hid := interp_ident env reg ⟨x0, s.headerOf x0⟩
  rw [hi] at hid
  have hxn : x.scanNum = n := by
    rw [← hn0]; exact congrArg Ident.scanNum hid
  have hxh : x.hdrIdx = x0.hdrIdx := congrArg Ident.hdrIdx hid
  obtain ⟨L, hL⟩ := hy
  have hyn : y.scanNum = n := by rw [hL]; exact hxn
  have hyh : y.hdrIdx = x.hdrIdx := by rw [hL]
  have hget : ∀ m, s'.scans.get? m = if n = m then some y else s.scans.get? m := by
    intro m
    rw [hs']
    show ((s.scans.set x0.scanNum x).set y.scanNum y).get? m = _
    rw [hyn, hn0, Dict.get?_set, Dict.get?_set]
    split
    · rfl
    · rfl
  have hkeys : s'.scans.keys = s.scans.keys := by
    rw [hs']
    show ((s.scans.set x0.scanNum x).set y.scanNum y).keys = _
    have hmem : n ∈ s.scans.keys := List.mem_map.2 ⟨_, hm, rfl⟩
    rw [hyn, hn0, Dict.keys_set, Dict.keys_set, if_pos hmem, if_pos hmem]
  have hsub : ∀ p ∈ s'.scans, p = (n, y) ∨ p ∈ s.scans ∨ p = (n, x) := by
    intro p hp
    rw [hs'] at hp
    rcases Dict.mem_set (show p ∈ (s.scans.set x0.scanNum x).set y.scanNum y from hp) with h | h
    · rw [hyn] at h; exact .inl h
    · rcases Dict.mem_set h with h | h
      · rw [hn0] at h; exact .inr (.inr h)
      · exact .inr (.inl h)
  have hsubh : ∀ h ∈ s'.headers, h = hdr ∨ h ∈ s.headers := by
    intro h hh
    rw [hs'] at hh
    rcases List.mem_or_eq_of_mem_set (show h ∈ (s.headers.set x.hdrIdx hdr).set y.hdrIdx hdr from hh) with h1 | h1
    · rcases List.mem_or_eq_of_mem_set h1 with h2 | h2
      · exact .inr h2
      · exact .inl h2
    · exact .inl h1
  have hySafe : SafeScan y := by rw [hL]; exact SafeScan.withL a1 L
  have hyData : DataScan y := by rw [hL]; exact dataScan_of_eq a2 rfl rfl rfl id (a2.geo.same rfl rfl rfl rfl)
  have hlike : HdrLike (s.headerOf x0) hdr := by
    have := interp_hdrLike env reg ⟨x0, s.headerOf x0⟩
    rw [hi] at this
    exact this
  have hhdrs : ∀ w : Obj, HdrLike (s.headerOf w) (s'.headerOf w) := by
    intro w
    rw [hs']
    show HdrLike _ ((((s.headers.set x.hdrIdx hdr).set y.hdrIdx hdr)).getD w.hdrIdx _)
    rw [hyh, hxh, List.set_set, List.getD_eq_getElem?_getD]
    by_cases e : x0.hdrIdx = w.hdrIdx
    · have hw : s.headerOf w = s.headerOf x0 := by unfold Sdf.headerOf; rw [e]
      rw [hw]
      by_cases hl : w.hdrIdx < s.headers.length
      · rw [e, List.getElem?_set_self hl]
        exact hlike
      · have : (s.headers.set x0.hdrIdx hdr)[w.hdrIdx]? = none := by
          rw [List.getElem?_eq_none_iff, List.length_set]; omega
        rw [this]
        have : s.headerOf x0 = Obj.newHeader s.fileName [] := by
          unfold Sdf.headerOf
          rw [e, List.getD_eq_getElem?_getD, List.getElem?_eq_none (by omega)]
          rfl
        rw [this]
        exact HdrLike.refl _
    · rw [List.getElem?_set_ne e]
      unfold Sdf.headerOf
      rw [List.getD_eq_getElem?_getD]
      exact HdrLike.refl _
  refine ⟨n, hn, ⟨⟨⟨?_, ?_, ?_, ?_, ?_, ?_⟩, ⟨?_, ?_⟩⟩, hkeys, hget, hkey, ?_, ⟨L, hL⟩, ?_, hhdrs⟩⟩
  · intro h hh
    rcases hsubh h hh with rfl | h1
    · exact a3
    · exact hs.safe.headers h h1
  · intro h hh
    rcases hsubh h hh with rfl | h1
    · exact a4
    · exact hs.safe.noData h h1
  · intro p hp
    rcases hsub p hp with rfl | h1 | rfl
    · exact hySafe
    · exact hs.safe.scans p h1
    · exact a1
  · intro p hp
    rcases hsub p hp with rfl | h1 | rfl
    · exact hyData
    · exact hs.safe.data p h1
    · exact a2
  · intro h hh
    rcases hsubh h hh with rfl | h1
    · exact a6
    · exact hs.safe.hdrWriters h h1
  · intro p hp
    rcases hsub p hp with rfl | h1 | rfl
    · show Writers .scan y
      rw [hL]
      exact a5.same rfl rfl rfl rfl rfl rfl rfl rfl rfl rfl rfl rfl rfl rfl id
    · exact hs.safe.writers p h1
    · exact a5
  · rw [hkeys]; exact hs.named.nodup
  · intro p hp
    rcases hsub p hp with rfl | h1 | rfl
    · exact hyn
    · exact hs.named.named p h1
    · exact hxn
  · have := interp_interpreted (env := env) (reg := reg) (c := ⟨x0, s.headerOf x0⟩) (by rw [hi])
    rw [hi] at this
    exact this
  · intro z hz hzi
    rw [hn] at hz
    injection hz with hz
    subst hz
    rw [interp_done hzi] at hi
    injection hi with hi _
    injection hi with hi _
    exact hi.symm

/-! ## The entry of a scan -/

/-- the scan is no mesh -/
def NotMesh (x : Obj) : Prop := ∀ m ws, splitWs x.scanCmd = m :: ws → m ∉ [p!"mesh", p!"hklmesh"]

/-- The entry of the scan `k` in the file.  `x` is the scan as it was written, `z` as it is now; they
differ at most in their labels. -/
structure EntryOf (k : Ref) (S : SState) (n : Str) (x y z : Obj) (e : Nat) (chE : Dict Nat) : Prop where
  root : ∃ ch a, S.h5[0]? = some (.group ch a) ∧ ch.get? (p!"S" ++ k.text) = some e
  pos : 0 < e
  entry : S.h5[e]? = some (.group chE [(p!"NX_class", .str p!"NXentry"), (p!"default", .str p!"data")])
  data : ∃ g chG aG, chE.get? p!"data" = some g ∧ 0 < g ∧ S.h5[g]? = some (.group chG aG) ∧
      aG.get? p!"NX_class" = some (.str p!"NXdata")
  noData : .scanData ∉ x.h5.values → ∃ g, chE.get? p!"data" = some g ∧ 0 < g ∧ NoDataAt S.h5 g
  done : x.interpreted = true
  dscan : DataScan x
  y_eq : ∃ L, y = { x with L := L }
  z_eq : ∃ L, z = { x with L := L }
  now : S.sdf.scans.get? n = some z
  key : ∀ t : Sdf, t.scans.keys = S.sdf.scans.keys → t.getScan k = .ok (t.scans.get? n)
  same : NotMesh x → z = x
  sub : ∀ l ∈ z.L.getD [], l ∈ y.L.getD []
  sections : ∀ f N cls attr body, GroupW f N cls attr body → f ∈ x.h5.values → OnlyBy f N x.h5.values →
      N ∉ usedByAdditions → Sectioned (p!"S" ++ k.text) e f N cls attr body x y chE S.h5
  ran : ∃ hdr, Ran (p!"S" ++ k.text) e hdr x y chE S.h5 ∧ HdrLike hdr (S.sdf.headerOf z)

theorem saveData_same {g : HRef} {x y : Obj} {s s' : H5} (hn : NotMesh x) (h : saveData g x s = (s', .ok y)) : y = x := by
  obtain ⟨m, ws, h1, h2⟩ := saveData_run h
  have : kindOf m ≠ .mesh := by
    unfold kindOf
    rw [if_neg (hn m ws h1)]
    split <;> simp
  split at h2
  · rename_i h3; exact absurd h3 this
  · exact h2.1
  · exact h2.1

omit [UniDB] in
theorem mem_pyRemove {l a : Str} {ls ls' : List Str} (h : pyRemove l ls = .ok ls') (ha : a ∈ ls') : a ∈ ls := by
  unfold pyRemove at h
  split at h
  · injection h with h
    subst h
    exact List.mem_of_mem_erase ha
  · cases h

theorem saveData_sub {g : HRef} {pre : List HNode} (hg : AtGroup pre g) {x y : Obj} {s s' : H5}
    (h : saveData g x s = (s', .ok y)) : ∀ l ∈ y.L.getD [], l ∈ x.L.getD [] := by
  obtain ⟨m, ws, h1, h2⟩ := saveData_run h
  split at h2
  · obtain ⟨sg, ax, t, h3, h4⟩ := h2
    rcases mesh_run hg h3 with ⟨w1, n1, w2, n2, l1, l2, i1, i2, a1, a2, ax2, labels', labels, t1, t2, t3, hr⟩ |
      ⟨_, _, _, _, _, _, _, _, _, _, _, _, _, h5, _⟩
    · obtain ⟨_, _, _, _, _, _, _, _, _, r1, r2, _, _, _, _, _, r3, _⟩ := hr
      intro l hl
      simp only at r3
      rw [r3] at hl
      exact mem_pyRemove r1 (mem_pyRemove r2 hl)
    · simp only at h5
      rw [h5]
      exact fun l hl => hl
  · rw [h2.1]
    exact fun l hl => hl
  · rw [h2.1]
    exact fun l hl => hl

theorem KeySaved.entry {env : Env} {reg : List HKey} (hr : reg.Perm HKey.all) (hx : SchemaNames env) {first : Bool}
    {k : Ref} {S S' : SState} (hs : SdfOk S.sdf) (h : KeySaved env reg first k S S') :
    ∃ n x y e chE, EntryOf k S' n x y y e chE ∧ SdfStep env reg k S.sdf S'.sdf n x y ∧ (NotMesh x → y = x) ∧
      (∀ l ∈ y.L.getD [], l ∈ x.L.getD []) := by
  obtain ⟨ch, a, chE, x0, x, hdr, y, h1, h2, h3, h4, h5, h6, h7, h8, h9, h10, hran, h11⟩ := h.ex
  obtain ⟨n, hn, st⟩ := sdf_step hr hx hs h6 h7 h8 h9
  obtain ⟨a1, a2, a3, a4, a5, a6⟩ := interp_ok_safe hr hx hs h6 h7
  have hl := lt_of_get? h1
  have hsame : NotMesh x → y = x := by
    intro hm
    by_cases hd : H5Fn.scanData ∈ x.h5.values
    · obtain ⟨pre, x1, t', y1, _, _, h14, h15, _⟩ := h11 _ _ _ _ _ groupW_data hd (onlyBy_data _) (by decide)
      obtain ⟨rfl, rfl⟩ := h14 rfl
      exact saveData_same hm h15
    · exact h10 hd
  have hsub : ∀ l ∈ y.L.getD [], l ∈ x.L.getD [] := by
    by_cases hd : H5Fn.scanData ∈ x.h5.values
    · obtain ⟨pre, x1, t', y1, _, _, h14, h15, _⟩ := h11 _ _ _ _ _ groupW_data hd (onlyBy_data _) (by decide)
      obtain ⟨rfl, rfl⟩ := h14 rfl
      exact saveData_sub (pre := pre) (g := ⟨pre.length, _⟩) rfl h15
    · rw [h10 hd]
      exact fun l hl => hl
  obtain ⟨g, chG, aG, d1, d2, d3, d4⟩ := h5
  have hg0 : 0 < g := by
    have := h.ok.noRoot _ _ _ h4 _ _ (Dict.mem_of_get? d1)
    omega
  refine ⟨n, x, y, S.h5.length, chE, ⟨⟨_, _, h3, Dict.get?_set_self ..⟩, hl, h4, ⟨g, chG, aG, d1, hg0, d2, d3⟩, fun hd => ⟨g, d1, hg0, d4 hd⟩, st.done, a2,
    h8, h8, ?_, ?_, hsame, fun _ h => h, h11, ⟨hdr, hran, ?_⟩⟩, st, hsame, hsub⟩
  · rw [st.get]; simp
  · intro t ht
    exact st.key t (ht.trans st.keys)
  · have hlike : HdrLike (S.sdf.headerOf x0) hdr := by
      have := interp_hdrLike env reg ⟨x0, S.sdf.headerOf x0⟩
      rw [h7] at this
      exact this
    have hid := interp_ident env reg ⟨x0, S.sdf.headerOf x0⟩
    rw [h7] at hid
    have hxh : x.hdrIdx = x0.hdrIdx := congrArg Ident.hdrIdx hid
    obtain ⟨L, hL⟩ := h8
    have hy : S.sdf.headerOf y = S.sdf.headerOf x0 := by
      unfold Sdf.headerOf
      rw [hL]
      show List.getD _ x.hdrIdx _ = _
      rw [hxh]
    have := st.hdrs y
    rw [hy] at this
    exact hlike.symm.trans this

theorem EntryOf.step {env : Env} {reg : List HKey} (hr : reg.Perm HKey.all) (hx : SchemaNames env) {first : Bool}
    {k k' : Ref} {S S' : SState} (hs : SdfOk S.sdf) (h : KeySaved env reg first k' S S') {n : Str} {x y z : Obj} {e : Nat}
    {chE : Dict Nat} (he : EntryOf k S n x y z e chE) : ∃ z', EntryOf k S' n x y z' e chE := by
  obtain ⟨n', x', y', e', chE', st1, st, hsame, hsub⟩ := h.entry hr hx hs
  obtain ⟨ch, a, _, _, _, _, _, h1, h2, h3, _⟩ := h.ex
  obtain ⟨ch0, a0, r1, r2⟩ := he.root
  rw [h1] at r1
  injection r1 with r1
  injection r1 with r1 r1'
  subst r1 r1'
  have hel := lt_of_get? he.entry
  obtain ⟨g, chG, aG, d1, d2, d3, d4⟩ := he.data
  have hgl := lt_of_get? d3
  have hsec : ∀ f N cls attr body, GroupW f N cls attr body → f ∈ x.h5.values → OnlyBy f N x.h5.values →
      N ∉ usedByAdditions → Sectioned (p!"S" ++ k.text) e f N cls attr body x y chE S'.h5 := by
    intro f N cls attr body g1 g2 g3 g4
    obtain ⟨pre, x1, t', y1, q1, q2, q3, q4, q5, q6, q7, q8⟩ := he.sections f N cls attr body g1 g2 g3 g4
    refine ⟨pre, x1, t', y1, q1, q2, q3, q4, q5, q6, fun i hi hi' => ?_, q8⟩
    have := q7 i hi hi'
    rw [← this]
    refine h.old i (by omega) ?_
    obtain ⟨v, hv⟩ : ∃ v, t'[i]? = some v := ⟨t'[i], List.getElem?_eq_getElem hi'⟩
    exact lt_of_get? (this.trans hv)
  obtain ⟨z', hz1, hz2, hz3, hz4⟩ : ∃ z', S'.sdf.scans.get? n = some z' ∧ (∃ L, z' = { x with L := L }) ∧ (NotMesh x → z' = x) ∧
      ∀ l ∈ z'.L.getD [], l ∈ y.L.getD [] := by
    obtain ⟨Lz, hLz⟩ := he.z_eq
    by_cases hnn : n' = n
    · subst hnn
      refine ⟨y', by rw [st.get]; simp, ?_, ?_, ?_⟩
      · have := st.again z he.now (by rw [hLz]; exact he.done)
        obtain ⟨L, hL⟩ := st.labels
        rw [hL, this, hLz]
        exact ⟨L, rfl⟩
      · intro hm
        have h4 := st.again z he.now (by rw [hLz]; exact he.done)
        have h5 := he.same hm
        rw [hsame (by rw [h4, h5]; exact hm), h4, h5]
      · intro l hl
        have h4 := st.again z he.now (by rw [hLz]; exact he.done)
        have := hsub l hl
        rw [h4] at this
        exact he.sub l this
    · exact ⟨z, by rw [st.get, if_neg hnn]; exact he.now, he.z_eq, he.same, he.sub⟩
  obtain ⟨hdr, ⟨t1, t2, chT, aT, q1, q2, q3, q4, q5, q6, q7, q8, q9, q10⟩, hl⟩ := he.ran
  have hran : ∃ hdr, Ran (p!"S" ++ k.text) e hdr x y chE S'.h5 ∧ HdrLike hdr (S'.sdf.headerOf z') := by
    refine ⟨hdr, ⟨t1, t2, chT, aT, q1, q2, q3, q4, q5, q6, q7, q8, fun i hi hi' => ?_, q10⟩, ?_⟩
    · have := q9 i hi hi'
      rw [← this]
      refine h.old i (by omega) ?_
      obtain ⟨v, hv⟩ : ∃ v, t2[i]? = some v := ⟨t2[i], List.getElem?_eq_getElem hi'⟩
      exact lt_of_get? (this.trans hv)
    · obtain ⟨Lz, hLz⟩ := he.z_eq
      obtain ⟨Lz', hLz'⟩ := hz2
      have hzz : S.sdf.headerOf z = S.sdf.headerOf z' := by
        unfold Sdf.headerOf
        rw [hLz, hLz']
      rw [hzz] at hl
      exact hl.trans (st.hdrs z')
  have hnod : .scanData ∉ x.h5.values → ∃ g, chE.get? p!"data" = some g ∧ 0 < g ∧ NoDataAt S'.h5 g := by
    intro hd
    obtain ⟨g, n1, n2, i, j, n3, n4, n5, n6, n7⟩ := he.noData hd
    exact ⟨g, n1, n2, i, j, by rw [h.old g n2 (lt_of_get? n3)]; exact n3, n4, n5,
      by rw [h.old i n4 (lt_of_get? n6)]; exact n6, by rw [h.old j n5 (lt_of_get? n7)]; exact n7⟩
  refine ⟨z', ⟨_, _, h3, ?_⟩, he.pos, ?_, ⟨g, chG, aG, d1, d2, ?_, d4⟩, hnod, he.done, he.dscan, he.y_eq, hz2, hz1, ?_, hz3, hz4, hsec, hran⟩
  · rw [Dict.get?_set_ne]
    · exact r2
    · intro hc
      rw [hc] at h2
      unfold Dict.has at h2
      rw [r2] at h2
      cases h2
  · rw [h.old e he.pos hel]; exact he.entry
  · rw [h.old g d2 hgl]; exact d3
  · intro t ht
    exact he.key t (ht.trans st.keys)

/-- What the loop does. -/
theorem saveKeys_ok {env : Env} {reg : List HKey} (hr : reg.Perm HKey.all) (hx : SchemaNames env) :
    ∀ (ks : List Ref) (first : Bool) (S S' : SState), FileOk S.h5 → SdfOk S.sdf →
      (∀ k ∈ ks, Plain (p!"S" ++ k.text)) → saveKeys env reg first ks S = (S', none) →
      FileOk S'.h5 ∧ SdfOk S'.sdf ∧ S'.sdf.scans.keys = S.sdf.scans.keys ∧
      (∀ ch a, S.h5[0]? = some (.group ch a) → ∃ ch', S'.h5[0]? = some (.group ch'
        (match first, ks with
          | true, k :: _ => a.set p!"default" (.str (p!"S" ++ k.text))
          | _, _ => a)) ∧
        Dict.keys ch' = Dict.keys ch ++ ks.map (fun k => p!"S" ++ k.text)) ∧
      (∀ k ∈ ks, ∃ n x y z e chE, EntryOf k S' n x y z e chE) ∧
      (∀ k n x y z e chE, EntryOf k S n x y z e chE → ∃ z', EntryOf k S' n x y z' e chE) := by
  intro ks
  induction ks with
  | nil =>
    intro first S S' hf hs _ h
    have : S' = S := by
      unfold saveKeys Res.ok at h
      injection h with h _
      exact h.symm
    subst this
    refine ⟨hf, hs, rfl, fun ch a h0 => ⟨ch, ?_, by simp⟩, by simp, fun k n x y z e chE h => ⟨z, h⟩⟩
    cases first <;> exact h0
  | cons k ks ih =>
    intro first S S' hf hs hk h
    rw [saveKeys] at h
    cases hm : saveKey env reg first k S with
    | mk S1 err =>
      rw [hm] at h
      cases err with
      | some err => cases h
      | none =>
        have hks := saveKey_ok hf (hk k (by simp)) (fun x0 x hdr g1 g2 => by
          obtain ⟨a1, a2, a3, a4, a5, a6⟩ := interp_ok_safe hr hx hs g1 g2
          exact ⟨a1.names, a3, a4⟩) hm
        obtain ⟨n, x, y, e, chE, en, st, _, _⟩ := hks.entry hr hx hs
        obtain ⟨b1, b2, b3, b4, b5, b6⟩ := ih false S1 S' hks.ok st.ok (fun k' hk' => hk k' (by simp [hk'])) h
        refine ⟨b1, b2, b3.trans st.keys, ?_, ?_, ?_⟩
        · intro ch a h0
          obtain ⟨ch1, a1, _, _, _, _, _, h1, h2, h3, _⟩ := hks.ex
          rw [h1] at h0
          injection h0 with h0
          injection h0 with h0 h0'
          subst h0 h0'
          obtain ⟨ch', c1, c2⟩ := b4 _ _ h3
          refine ⟨ch', ?_, ?_⟩
          · rw [c1]
            cases first <;> rfl
          · rw [c2, Dict.keys_set, if_neg]
            · simp
            · intro hc
              rw [(Dict.has_iff_mem _ _).2 hc] at h2
              cases h2
        · intro k' hk'
          rcases List.mem_cons.1 hk' with rfl | hk'
          · obtain ⟨z', hz'⟩ := b6 _ _ _ _ _ _ _ en
            exact ⟨n, x, y, z', e, chE, hz'⟩
          · exact b5 k' hk'
        · intro k' n' x' y' z' e' chE' he
          obtain ⟨z1, hz1⟩ := he.step hr hx hs hks
          exact b6 _ _ _ _ _ _ _ hz1

end
end S2N
