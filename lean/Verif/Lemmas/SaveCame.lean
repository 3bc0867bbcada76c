import Verif.Lemmas.SaveRead
/-
The scans that `Writer.save` wrote are what their interpretation made of them.
-/
namespace S2N
open Py H5 Eznx Writer Spec Props

section
variable [UniDB]

/-- interpretation of a scan without #O lines leaves the names of the positioners -/
theorem interp_keepO (env : Env) {reg : List HKey} (hr : reg.Perm HKey.all) (c : ScanCtx)
    (h : c.scan.interpreted = true ∨ ofKind .O (scanLines c.scan.raw) = []) : (interpretScan env reg c).1.hdr.O = c.hdr.O := by
  rcases h with h | h
  · rw [interp_done h]
  unfold interpretScan
  split
  · rfl
  refine andThen_inv' (P := fun d : ScanCtx => d.hdr.O = c.hdr.O) ?_ fun c1 hc1 => ?_
  · refine forEach_pres (scanLine env reg) (fun c => c.hdr.O) (scanLines c.scan.raw) ?_ _
    intro a ha c
    rw [scanLine_eq]
    cases hk : effKey reg a with
    | none => rfl
    | some k =>
      have hO : k ≠ .O := by
        rintro rfl
        have := (effKey_iff reg hr a (scanLines_no_nl _ a ha) .O (by simp) (by simp)).1 hk
        have hm : a ∈ ofKind .O (scanLines _) := List.mem_filter.2 ⟨ha, this⟩
        rw [h] at hm
        cases hm
      by_cases hD : k = .D
      · subst hD
        show ((procObj env .D a c.scan).1, _).2 = _
        refine andThen_inv' (P := fun d : ScanCtx => d.hdr.O = c.hdr.O) rfl fun c1 hc1 => ?_
        unfold dateHdr
        simp only
        split
        · exact hc1
        · split
          · refine eval_inv (P := fun d : ScanCtx => d.hdr.O = c.hdr.O) hc1 fun _ _ => ?_
            refine eval_inv (P := fun d : ScanCtx => d.hdr.O = c.hdr.O) hc1 fun _ _ => ?_
            split
            · refine eval_inv (P := fun d : ScanCtx => d.hdr.O = c.hdr.O) hc1 fun _ _ => ?_
              exact eval_inv (P := fun d : ScanCtx => d.hdr.O = c.hdr.O) hc1 fun _ _ => hc1
            · exact hc1
          · exact hc1
      · show (procScan env k a c).1.hdr.O = _
        rw [ps_hdr env k a c hO hD]
  · refine andThen_inv' (P := fun d : ScanCtx => d.hdr.O = c.hdr.O) ?_ fun c2 h2 => h2
    have := forEach_pres (runPost env) (fun c => c.hdr) c1.scan.post.values (fun f _ c => pp_hdr env f c) c1
    rw [this]
    exact hc1

/-- no scan of the file has #O lines -/
def NoNames (s : Sdf) : Prop := ∀ p ∈ s.scans, ofKind .O (scanLines p.2.raw) = []

/-- the header differs at most in what scans set -/
def HdrStep (s : Sdf) (a b : Obj) : Prop := HdrLike a b ∧ (NoNames s → b.O = a.O)

theorem HdrStep.refl (s : Sdf) (a : Obj) : HdrStep s a a := ⟨HdrLike.refl a, fun _ => rfl⟩

theorem HdrStep.trans {s : Sdf} {a b c : Obj} (h : HdrStep s a b) (k : HdrStep s b c) : HdrStep s a c :=
  ⟨h.1.trans k.1, fun n => (k.2 n).trans (h.2 n)⟩

/-- the headers after a pass of the loop -/
theorem headers_step {s s' : Sdf} {x0 x y hdr : Obj} (R : Obj → Obj → Prop) (hR : ∀ a, R a a)
    (h : R (s.headerOf x0) hdr) (hxh : x.hdrIdx = x0.hdrIdx) (hyh : y.hdrIdx = x.hdrIdx) (n m : Str)
    (hs' : s' = (s.putScan n ⟨x, hdr⟩).putScan m ⟨y, hdr⟩) (w : Obj) : R (s.headerOf w) (s'.headerOf w) := by
  rw [hs']
  show R _ ((((s.headers.set x.hdrIdx hdr).set y.hdrIdx hdr)).getD w.hdrIdx _)
  rw [hyh, hxh, List.set_set, List.getD_eq_getElem?_getD]
  by_cases e : x0.hdrIdx = w.hdrIdx
  · have hw : s.headerOf w = s.headerOf x0 := by unfold Sdf.headerOf; rw [e]
    rw [hw]
    by_cases hl : w.hdrIdx < s.headers.length
    · rw [e, List.getElem?_set_self hl]
      exact h
    · have : (s.headers.set x0.hdrIdx hdr)[w.hdrIdx]? = none := by
        rw [List.getElem?_eq_none_iff, List.length_set]; omega
      rw [this]
      have : s.headerOf x0 = Obj.newHeader s.fileName [] := by
        unfold Sdf.headerOf
        rw [e, List.getD_eq_getElem?_getD, List.getElem?_eq_none (by omega)]
        rfl
      rw [this]
      exact hR _
  · rw [List.getElem?_set_ne e]
    unfold Sdf.headerOf
    rw [List.getD_eq_getElem?_getD]
    exact hR _

/-- `z` is the scan `x0` interpreted with a header that differs from that of the file at most in what scans set -/
def CameFrom (env : Env) (reg : List HKey) (s : Sdf) (x0 z : Obj) : Prop :=
  ∃ hdr, HdrStep s (s.headerOf x0) hdr ∧ (interpretScan env reg ⟨x0, hdr⟩).2 = none ∧
    (∃ L, z = { (interpretScan env reg ⟨x0, hdr⟩).1.scan with L := L }) ∧
    (NotMesh z → z = (interpretScan env reg ⟨x0, hdr⟩).1.scan)

/-- every scan of `s0` is in `s`, as it was or interpreted -/
def AllCame (env : Env) (reg : List HKey) (s0 s : Sdf) : Prop :=
  (∀ w : Obj, HdrStep s0 (s0.headerOf w) (s.headerOf w)) ∧
  (∀ n x0, s0.scans.get? n = some x0 → ∃ z, s.scans.get? n = some z ∧ (z = x0 ∨ CameFrom env reg s0 x0 z)) ∧
  s.scans.keys = s0.scans.keys

theorem AllCame.refl (env : Env) (reg : List HKey) (s : Sdf) : AllCame env reg s s :=
  ⟨fun _ => HdrStep.refl _ _, fun _ x0 h => ⟨x0, h, .inl rfl⟩, rfl⟩

theorem CameFrom.interpreted {env : Env} {reg : List HKey} {s x0 z} (hc : CameFrom env reg s x0 z) :
    z.interpreted = true := by
  obtain ⟨hdr, _, h2, ⟨L, h3⟩, _⟩ := hc
  rw [h3]
  exact interp_interpreted (env := env) (reg := reg) h2

theorem fileOk_root (a : Dict AVal) : FileOk [HNode.group [] a] := by
  refine ⟨?_, ⟨[], _, rfl⟩, ?_⟩
  · intro i ch a hi
    match i with
    | 0 =>
      simp only [List.getElem?_cons_zero, Option.some.injEq, HNode.group.injEq] at hi
      obtain ⟨rfl, _⟩ := hi
      simp [Dict.keys]
    | i + 1 => simp at hi
  · intro i ch a hi n j hj
    match i with
    | 0 =>
      simp only [List.getElem?_cons_zero, Option.some.injEq, HNode.group.injEq] at hi
      obtain ⟨rfl, _⟩ := hi
      simp at hj
    | i + 1 => simp at hi

theorem AllCame.step {env : Env} {reg : List HKey} (hr : reg.Perm HKey.all) (hx : SchemaNames env) {first : Bool}
    {k : Ref} {s0 : Sdf} {S S' : SState} (hs : SdfOk S.sdf) (h : KeySaved env reg first k S S')
    (ha : AllCame env reg s0 S.sdf) : AllCame env reg s0 S'.sdf := by
  obtain ⟨ch, a, chE, x0, x, hdr, y, h1, h2, h3, h4, h5, h6, h7, h8, h9, h10, hran, h11⟩ := h.ex
  obtain ⟨n, hn, st⟩ := sdf_step hr hx hs h6 h7 h8 h9
  have hsame : NotMesh x → y = x := by
    intro hm
    by_cases hd : H5Fn.scanData ∈ x.h5.values
    · obtain ⟨pre, x1, t', y1, _, _, h14, h15, _⟩ := h11 _ _ _ _ _ groupW_data hd (onlyBy_data _) (by decide)
      obtain ⟨rfl, rfl⟩ := h14 rfl
      exact saveData_same hm h15
    · exact h10 hd
  obtain ⟨L, hy⟩ := h8
  have hnm : NotMesh y → NotMesh x := by
    intro hm
    rw [hy] at hm
    exact hm
  have hid := interp_ident env reg ⟨x0, S.sdf.headerOf x0⟩
  rw [h7] at hid
  have hxh : x.hdrIdx = x0.hdrIdx := congrArg Ident.hdrIdx hid
  have hstep : HdrStep s0 (S.sdf.headerOf x0) hdr := by
    have e1 := interp_hdrLike env reg ⟨x0, S.sdf.headerOf x0⟩
    rw [h7] at e1
    refine ⟨e1, fun hno => ?_⟩
    have e2 := interp_keepO env hr ⟨x0, S.sdf.headerOf x0⟩ (by
      have hmem : n ∈ s0.scans.keys := by
        rw [← ha.2.2]
        exact List.mem_map.2 ⟨_, Dict.mem_of_get? hn, rfl⟩
      obtain ⟨u0, hu0⟩ : ∃ u0, s0.scans.get? n = some u0 := by
        cases e : s0.scans.get? n with
        | none => exact absurd hmem ((Dict.get?_eq_none_iff _ _).1 e)
        | some u => exact ⟨u, rfl⟩
      obtain ⟨z, hz, hor⟩ := ha.2.1 n u0 hu0
      rw [hn] at hz
      injection hz with hz
      subst hz
      rcases hor with e0 | hc
      · subst e0
        exact .inr (hno _ (Dict.mem_of_get? hu0))
      · exact .inl hc.interpreted)
    rw [h7] at e2
    exact e2
  refine ⟨fun w => (ha.1 w).trans (headers_step (HdrStep s0) (HdrStep.refl s0) hstep hxh (by rw [hy]) _ _ h9 w), ?_,
    st.keys.trans ha.2.2⟩
  intro m u0 hu
  obtain ⟨z, hz, hor⟩ := ha.2.1 m u0 hu
  by_cases hmn : n = m
  · subst hmn
    refine ⟨y, by rw [st.get, if_pos rfl], .inr ?_⟩
    rw [hn] at hz
    injection hz with hz
    subst hz
    rcases hor with e0 | hc
    · subst e0
      refine ⟨S.sdf.headerOf x0, ha.1 x0, by rw [h7], ⟨L, by rw [h7]; exact hy⟩, ?_⟩
      intro hm
      rw [h7]
      exact hsame (hnm hm)
    · have e1 := st.again _ hn hc.interpreted
      obtain ⟨hdr0, c1, c2, ⟨L0, c3⟩, c4⟩ := hc
      refine ⟨hdr0, c1, c2, ⟨L, by rw [hy, e1, c3]⟩, ?_⟩
      intro hm
      rw [hsame (hnm hm), e1]
      refine c4 ?_
      rw [← e1]
      exact hnm hm
  · exact ⟨z, by rw [st.get, if_neg hmn]; exact hz, hor⟩

theorem saveKeys_came {env : Env} {reg : List HKey} (hr : reg.Perm HKey.all) (hx : SchemaNames env) (s0 : Sdf) :
    ∀ (ks : List Ref) (first : Bool) (S S' : SState), FileOk S.h5 → SdfOk S.sdf →
      (∀ k ∈ ks, Plain (p!"S" ++ k.text)) → AllCame env reg s0 S.sdf → saveKeys env reg first ks S = (S', none) →
      AllCame env reg s0 S'.sdf := by
  intro ks
  induction ks with
  | nil =>
    intro first S S' hf hs _ ha h
    have : S' = S := by
      unfold saveKeys Res.ok at h
      injection h with h _
      exact h.symm
    subst this
    exact ha
  | cons k ks ih =>
    intro first S S' hf hs hk ha h
    rw [saveKeys] at h
    cases hm : saveKey env reg first k S with
    | mk S1 err =>
      rw [hm] at h
      cases err with
      | some err => cases h
      | none =>
        have hks := saveKey_ok hf (hk k (by simp)) (fun x0 x hdr g1 g2 => by
          obtain ⟨a1, a2, a3, a4, a5, a6⟩ := interp_ok_safe hr hx hs g1 g2
          exact ⟨a1.names, a3, a4⟩) hm
        obtain ⟨n, x, y, e, chE, en, st, _, _⟩ := hks.entry hr hx hs
        exact ih false S1 S' hks.ok st.ok (fun k' hk' => hk k' (by simp [hk'])) (ha.step hr hx hs hks) h

/-- After `save` returned, every scan that was saved is what its interpretation made of it. -/
theorem save_came {env : Env} {reg : List HKey} (hr : reg.Perm HKey.all) (hx : SchemaNames env) {v : Versions}
    {ks : List Ref} {s : Sdf} {r : SState} (hs : SdfOk s) (hk : ∀ k ∈ ks, Plain (p!"S" ++ k.text))
    (h : save env reg v ks s = (r, none)) : AllCame env reg s r.sdf := by
  have h0 := h
  unfold save at h
  cases e : rootAttributes v s with
  | error err => rw [e] at h; cases h
  | ok a0 =>
    rw [e] at h
    simp only [Res.eval] at h
    obtain ⟨t, _, h1, h⟩ := run_inv h
    have h1 : addAttributes root a0 H5.empty = (t, .ok ()) := h1
    rw [addAttributes_eq a0 (h := root) (show H5.empty[0]? = some (.group [] []) from rfl)] at h1
    injection h1 with h1 _
    have ht : t = [.group [] (Dict.update [] a0)] := by rw [← h1]; rfl
    subst ht
    exact saveKeys_came hr hx s ks true _ _ (fileOk_root _) hs hk (AllCame.refl env reg s) h

end
end S2N
