import Verif.Spec.History
import Verif.Props.Grown
import Verif.Props.Read
import Verif.Props.Arrive
/-
C110: what was done with an open data file before does not show in the NeXus files that are saved, nor in the attributes.
-/
namespace S2N.Props
open S2N S2N.Py S2N.Spec S2N.H5 S2N.Writer Eznx

/-! ### what the writers give back -/

/-- if the computation ends, its value has the property -/
def Ret {α : Type} (m : HM α) (P : α → Prop) : Prop := ∀ s s' a, m s = (s', .ok a) → P a

theorem Ret.bind {α β : Type} {m : HM α} {f : α → HM β} {P : β → Prop} (h : ∀ a, Ret (f a) P) : Ret (m >>= f) P := by
  intro s s' b hb
  obtain ⟨t, r, _, h2⟩ := HM.bind_inv hb
  exact h r t s' b h2

theorem Ret.andThen {α β : Type} {m : HM α} {f : α → HM β} {Q : α → Prop} {P : β → Prop} (hm : Ret m Q) (h : ∀ a, Q a → Ret (f a) P) :
    Ret (HM.andThen m f) P := by
  intro s s' b hb
  unfold HM.andThen at hb
  rcases hq : m s with ⟨t, _ | a⟩
  · rw [hq] at hb; cases hb
  · rw [hq] at hb
    exact h a (hm s t a hq) t s' b hb

theorem Ret.pure {α : Type} {a : α} {P : α → Prop} (h : P a) : Ret (Pure.pure a : HM α) P := by
  intro s s' b hb
  cases hb
  exact h

theorem Ret.ret {α : Type} {a : α} {P : α → Prop} (h : P a) : Ret (HM.ret a) P := by
  intro s s' b hb
  cases hb
  exact h

theorem Ret.triv {α : Type} (m : HM α) : Ret m (fun _ => True) := fun _ _ _ _ => trivial

section
variable [UniDB]

/-- a scan with other labels -/
def OnlyL (x y : Obj) : Prop := (∃ L, y = { x with L := L }) ∧ (NotMesh x → y = x)

theorem OnlyL.refl (x : Obj) : OnlyL x x := ⟨⟨x.L, rfl⟩, fun _ => rfl⟩

theorem OnlyL.trans {x y z : Obj} (h : OnlyL x y) (k : OnlyL y z) : OnlyL x z := by
  obtain ⟨⟨L, rfl⟩, h2⟩ := h
  obtain ⟨⟨L', rfl⟩, k2⟩ := k
  refine ⟨⟨L', rfl⟩, fun hn => ?_⟩
  rw [k2 hn]; exact h2 hn

theorem ret_mesh (g : HRef) (x : Obj) : Ret (mesh g x) (fun a => ∃ L, a.2.2 = { x with L := L }) := by
  unfold mesh
  refine Ret.bind fun a => ?_
  obtain ⟨w1, n1, w2, n2⟩ := a
  refine Ret.bind fun label1 => Ret.bind fun label2 => Ret.bind fun i1 => Ret.bind fun _ => Ret.bind fun axis1 => ?_
  simp only
  split
  · refine Ret.bind fun b => ?_
    obtain ⟨sg, ax⟩ := b
    exact Ret.bind fun _ => Ret.bind fun _ => Ret.pure ⟨x.L, rfl⟩
  · refine Ret.bind fun _ => Ret.bind fun _ => Ret.bind fun _ => Ret.bind fun _ => Ret.bind fun _ => Ret.bind fun _ => Ret.bind fun _ =>
      Ret.bind fun _ => Ret.bind fun _ => Ret.bind fun _ => Ret.bind fun _ => Ret.bind fun _ => Ret.pure ⟨_, rfl⟩

theorem ret_saveData (g : HRef) (x : Obj) : Ret (saveData g x) (OnlyL x) := by
  intro s s' y h
  refine ⟨?_, fun hn => saveData_same hn h⟩
  obtain ⟨m, ws, h1, h2⟩ := saveData_run h
  cases hk : kindOf m with
  | mesh =>
    rw [hk] at h2
    obtain ⟨sg, ax, t, h3, h4⟩ := h2
    exact ret_mesh g x _ _ _ h3
  | hkl => rw [hk] at h2; exact ⟨x.L, by rw [h2.1]⟩
  | other => rw [hk] at h2; exact ⟨x.L, by rw [h2.1]⟩

theorem ret_runWriter (f : H5Fn) (e : HRef) (hdr x : Obj) : Ret (runWriter f e hdr x) (OnlyL x) := by
  have hk : ∀ m : HM Unit, Ret (HM.andThen m fun _ => HM.ret x) (OnlyL x) :=
    fun m => Ret.andThen (Ret.triv m) fun _ _ => Ret.ret (OnlyL.refl x)
  cases f <;> first | exact hk _ | exact Ret.ret (OnlyL.refl x) | exact Ret.bind fun _ => ret_saveData _ x

theorem ret_runWriters (e : HRef) (hdr : Obj) : ∀ (fs : List H5Fn) (x : Obj), Ret (runWriters e hdr fs x) (OnlyL x)
  | [], x => Ret.ret (OnlyL.refl x)
  | f :: fs, x => Ret.andThen (ret_runWriter f e hdr x) fun y hy s s' z hz =>
      hy.trans (ret_runWriters e hdr fs y s s' z hz)

theorem ret_saveScan (e : HRef) (hdr x : Obj) : Ret (saveScan e hdr x) (OnlyL x) := by
  unfold saveScan
  refine Ret.bind fun _ => Ret.bind fun _ => Ret.bind fun _ => Ret.bind fun _ => Ret.bind fun _ => Ret.bind fun _ => Ret.bind fun _ =>
    Ret.bind fun _ => ?_
  intro s s' y h
  obtain ⟨t, r, h1, h2⟩ := HM.bind_inv h
  have := ret_runWriters e hdr _ _ _ _ _ h1
  have h3 : Ret (do additions e; Pure.pure r) (fun y => y = r) := Ret.bind fun _ => Ret.pure rfl
  rw [h3 _ _ _ h2]; exact this

/-! ### one file object after the history -/

/-- nothing that the scans of the file say is kept in their headers -/
structure Unshared (s : Sdf) : Prop where
  names : ∀ n x, s.scans.get? n = some x → ofKind .O (scanLines x.raw) = []
  dated : ∀ n x, s.scans.get? n = some x → strip (s.headerOf x).date ≠ []

/-- the file object `t` has the scans of `s`; some were read -/
structure Past (env : Env) (reg : List HKey) (s t : Sdf) : Prop where
  headers : t.headers = s.headers
  name : t.fileName = s.fileName
  file : t.specFile = s.specFile
  keys : t.scans.keys = s.scans.keys
  scan : ∀ n x, s.scans.get? n = some x → ∃ y, t.scans.get? n = some y ∧
    (y = x ∨ interpretScan env reg ⟨x, s.headerOf x⟩ = (⟨y, s.headerOf x⟩, none))

theorem Past.headerOf {env : Env} {reg : List HKey} {s t : Sdf} (h : Past env reg s t) (x : Obj) : t.headerOf x = s.headerOf x := by
  unfold Sdf.headerOf
  rw [h.headers, h.name]

omit [UniDB] in
theorem headerOf_idx {s : Sdf} {x y : Obj} (h : x.hdrIdx = y.hdrIdx) : s.headerOf x = s.headerOf y := by
  unfold Sdf.headerOf; rw [h]

omit [UniDB] in
theorem get_of_keys {s t : Sdf} (h : t.scans.keys = s.scans.keys) {n : Str} {y : Obj} (hy : t.scans.get? n = some y) :
    ∃ x, s.scans.get? n = some x := by
  have h1 : t.scans.has n = true := by unfold Dict.has; rw [hy]; rfl
  have h2 : s.scans.has n = true := by
    rw [Dict.has_iff_mem, ← h, ← Dict.has_iff_mem]; exact h1
  unfold Dict.has at h2
  cases e : s.scans.get? n with
  | none => rw [e] at h2; cases h2
  | some x => exact ⟨x, rfl⟩

/-- what an interpretation of the scan gives, before and after -/
theorem Past.interp {env : Env} {reg : List HKey} {s t : Sdf} (h : Past env reg s t) {n : Str} {x y : Obj}
    (hx : s.scans.get? n = some x) (hy : t.scans.get? n = some y) :
    x.ident = y.ident ∧ interpretScan env reg ⟨y, t.headerOf y⟩ = interpretScan env reg ⟨x, s.headerOf x⟩ := by
  obtain ⟨y', h1, h2⟩ := h.scan n x hx
  rw [hy] at h1
  injection h1 with h1
  subst h1
  rw [h.headerOf]
  rcases h2 with rfl | h2
  · exact ⟨rfl, rfl⟩
  · have hid := interp_ident env reg ⟨x, s.headerOf x⟩
    have hin := interp_interpreted (env := env) (reg := reg) (c := ⟨x, s.headerOf x⟩) (by rw [h2])
    rw [h2] at hid hin ⊢
    have e : s.headerOf y = s.headerOf x := headerOf_idx (congrArg Ident.hdrIdx hid)
    rw [e]
    exact ⟨hid.symm, interp_done hin⟩

/-- a scan of the file was read -/
theorem Past.put {env : Env} {reg : List HKey} {s t : Sdf} (h : Past env reg s t) {n : Str} {x X : Obj}
    (hx : s.scans.get? n = some x) (hi : interpretScan env reg ⟨x, s.headerOf x⟩ = (⟨X, s.headerOf x⟩, none)) :
    Past env reg s (t.putScan n ⟨X, s.headerOf x⟩) := by
  have hid := interp_ident env reg ⟨x, s.headerOf x⟩
  rw [hi] at hid
  have hI : X.hdrIdx = x.hdrIdx := congrArg Ident.hdrIdx hid
  refine ⟨?_, h.name, h.file, ?_, ?_⟩
  · show t.headers.set X.hdrIdx (s.headerOf x) = _
    rw [hI, h.headers]
    exact set_getD _ _ _
  · show (t.scans.set n X).keys = _
    rw [Dict.keys_set, h.keys, if_pos]
    have : s.scans.has n = true := by unfold Dict.has; rw [hx]; rfl
    exact (Dict.has_iff_mem _ _).1 this
  · intro m z hz
    show ∃ y, (t.scans.set n X).get? m = some y ∧ _
    rw [Dict.get?_set]
    by_cases e : n = m
    · subst e
      rw [hx] at hz
      injection hz with hz
      subst hz
      exact ⟨X, by simp, .inr hi⟩
    · rw [if_neg e]; exact h.scan m z hz

/-- one pass of the loop of `save` -/
theorem Past.saveKey {env : Env} {reg : List HKey} (hr : reg.Perm HKey.all) {s : Sdf} (hu : Unshared s)
    (hnm : ∀ n x, s.scans.get? n = some x → x.scanNum = n) {S : SState} (h : Past env reg s S.sdf) (f : Bool) {k : Ref}
    (hk : ∀ x, s.getScan k = .ok (some x) → (interpretScan env reg ⟨x, s.headerOf x⟩).2 = none ∧ NotBy x meshMacros) :
    Past env reg s (saveKey env reg f k S).1.sdf := by
  unfold Writer.saveKey SState.run
  rcases openEntry k S.h5 with ⟨t1, _ | e⟩
  · exact h
  simp only
  cases hg : S.sdf.getScan k with
  | error err => exact h
  | ok o =>
    cases o with
    | none => exact h
    | some y =>
      simp only [Res.eval]
      obtain ⟨n, g1, g2⟩ := _root_.S2N.getScan_name hg
      obtain ⟨x, hx⟩ := get_of_keys h.keys g1
      have hx' : s.getScan k = .ok (some x) := by rw [g2 s h.keys.symm, hx]
      obtain ⟨hok, hnb⟩ := hk x hx'
      obtain ⟨hid, hi⟩ := h.interp hx g1
      have hid2 := interp_ident env reg ⟨x, s.headerOf x⟩
      have hh := interp_hdr_keep (env := env) (reg := reg) hr ⟨x, s.headerOf x⟩ (hu.names n x hx) (hu.dated n x hx)
      rw [hi]
      generalize hgen : interpretScan env reg ⟨x, s.headerOf x⟩ = c at hok hid2 hh
      obtain ⟨⟨X, hdr⟩, err⟩ := c
      simp only at hok hid2 hh
      subst hok hh
      have hyn : y.scanNum = n := by rw [← hnm n x hx]; exact (congrArg Ident.scanNum hid).symm
      have hXn : X.scanNum = n := by rw [← hnm n x hx]; exact congrArg Ident.scanNum hid2
      have p1 := h.put hx hgen
      simp only
      rw [hyn]
      rcases hm : saveScan e (s.headerOf x) X t1 with ⟨t2, _ | z⟩
      · exact p1
      · have hz : z = X := by
          refine (ret_saveScan e (s.headerOf x) X _ _ _ hm).2 (notMesh_of ?_)
          intro m hmm
          unfold macroOf
          rw [show X.scanCmd = x.scanCmd from congrArg Ident.scanCmd hid2]
          exact hnb m hmm
        subst hz
        simp only
        rw [hXn]
        have p2 := p1.put hx hgen
        rcases closeEntry f k e t2 with ⟨t3, _ | _⟩
        · exact p2
        · exact p2

theorem Past.saveKeys {env : Env} {reg : List HKey} (hr : reg.Perm HKey.all) {s : Sdf} (hu : Unshared s)
    (hnm : ∀ n x, s.scans.get? n = some x → x.scanNum = n) :
    ∀ (ks : List Ref) (f : Bool) (S : SState), Past env reg s S.sdf →
      (∀ k ∈ ks, ∀ x, s.getScan k = .ok (some x) → (interpretScan env reg ⟨x, s.headerOf x⟩).2 = none ∧ NotBy x meshMacros) →
      Past env reg s (saveKeys env reg f ks S).1.sdf := by
  intro ks
  induction ks with
  | nil => intro f S h _; exact h
  | cons k ks ih =>
    intro f S h hk
    rw [Writer.saveKeys]
    have h1 := h.saveKey hr hu hnm f (hk k (by simp))
    unfold Res.andThen
    split
    · exact ih false _ h1 (fun k' hk' => hk k' (by simp [hk']))
    · exact h1

/-- the history of a file object only reads scans -/
theorem past_history {env : Env} {reg : List HKey} (hr : reg.Perm HKey.all) {s : Sdf} (hu : Unshared s)
    (hnm : ∀ n x, s.scans.get? n = some x → x.scanNum = n) {t : Sdf} (h : History env reg s t) : Past env reg s t := by
  induction h with
  | opened => exact ⟨rfl, rfl, rfl, rfl, fun n x hx => ⟨x, hx, .inl rfl⟩⟩
  | @read t n attr _ hn ih =>
    unfold Sdf.access
    cases hy : t.scans.get? n with
    | none => exact ih
    | some y =>
      obtain ⟨x, hx⟩ := get_of_keys ih.keys hy
      obtain ⟨hid, hi⟩ := ih.interp hx hy
      have hh := interp_hdr_keep (env := env) (reg := reg) hr ⟨x, s.headerOf x⟩ (hu.names n x hx) (hu.dated n x hx)
      simp only
      unfold readAttr
      split
      · rw [hi]
        have hok := hn x hx
        have hid2 := interp_ident env reg ⟨x, s.headerOf x⟩
        generalize hgen : interpretScan env reg ⟨x, s.headerOf x⟩ = c at hok hid2 hh
        obtain ⟨⟨X, hdr⟩, err⟩ := c
        simp only at hok hid2 hh
        subst hok hh
        have := ih.put hx hgen
        unfold Sdf.putScan at this
        simp only at this ⊢
        rw [show X.hdrIdx = y.hdrIdx from (congrArg Ident.hdrIdx hid2).trans (congrArg Ident.hdrIdx hid)] at this
        exact this
      · refine ⟨?_, ih.name, ih.file, ?_, ?_⟩
        · show t.headers.set y.hdrIdx (t.headerOf y) = _
          rw [← ih.headers]; exact set_getD _ _ _
        · show (t.scans.set n y).keys = _
          rw [Dict.keys_set, ih.keys, if_pos]
          have : s.scans.has n = true := by unfold Dict.has; rw [hx]; rfl
          exact (Dict.has_iff_mem _ _).1 this
        · intro m z hz
          show ∃ y', (t.scans.set n y).get? m = some y' ∧ _
          rw [Dict.get?_set]
          by_cases e : n = m
          · subst e
            rw [if_pos rfl, ← hy]; exact ih.scan n z hz
          · rw [if_neg e]; exact ih.scan m z hz
  | @saved t v ks _ hk ih =>
    unfold save
    cases rootAttributes v t with
    | error e => exact ih
    | ok a =>
      simp only [Res.eval]
      unfold SState.run
      rcases addAttributes root a H5.empty with ⟨h5, _ | _⟩
      · exact ih
      · exact Past.saveKeys hr hu hnm ks true _ ih hk

/-! ### two file objects side by side -/

/-- two file objects whose scans give the same when they are read -/
structure Like (env : Env) (reg : List HKey) (s t : Sdf) : Prop where
  headers : t.headers = s.headers
  name : t.fileName = s.fileName
  file : t.specFile = s.specFile
  keys : t.scans.keys = s.scans.keys
  scan : ∀ n x, s.scans.get? n = some x → ∃ y, t.scans.get? n = some y ∧ y.ident = x.ident ∧
    interpretScan env reg ⟨y, s.headerOf y⟩ = interpretScan env reg ⟨x, s.headerOf x⟩

theorem Like.headerOf {env : Env} {reg : List HKey} {s t : Sdf} (h : Like env reg s t) (x : Obj) : t.headerOf x = s.headerOf x := by
  unfold Sdf.headerOf
  rw [h.headers, h.name]

theorem Past.like {env : Env} {reg : List HKey} {s t : Sdf} (h : Past env reg s t) : Like env reg s t := by
  refine ⟨h.headers, h.name, h.file, h.keys, fun n x hx => ?_⟩
  obtain ⟨y, hy, _⟩ := h.scan n x hx
  obtain ⟨h1, h2⟩ := h.interp hx hy
  rw [h.headerOf] at h2
  exact ⟨y, hy, h1.symm, h2⟩

/-- the same scan is put into both -/
theorem Like.put {env : Env} {reg : List HKey} {s t : Sdf} (h : Like env reg s t) (n : Str) {X hdr : Obj}
    (hh : hdr = s.headerOf X) : Like env reg (s.putScan n ⟨X, hdr⟩) (t.putScan n ⟨X, hdr⟩) ∧
      (s.putScan n ⟨X, hdr⟩).headers = s.headers := by
  have e : (s.putScan n ⟨X, hdr⟩).headers = s.headers := by
    show s.headers.set X.hdrIdx hdr = _
    rw [hh]; exact set_getD _ _ _
  have eh : ∀ x, (s.putScan n ⟨X, hdr⟩).headerOf x = s.headerOf x := by
    intro x
    unfold Sdf.headerOf
    rw [e]; rfl
  refine ⟨⟨?_, h.name, h.file, ?_, ?_⟩, e⟩
  · rw [e]
    show t.headers.set X.hdrIdx hdr = _
    rw [hh, h.headers]; exact set_getD _ _ _
  · show (t.scans.set n X).keys = (s.scans.set n X).keys
    rw [Dict.keys_set, Dict.keys_set, h.keys]
  · intro m x hx
    show ∃ y, (t.scans.set n X).get? m = some y ∧ _
    have hx : (s.scans.set n X).get? m = some x := hx
    rw [Dict.get?_set] at hx ⊢
    by_cases e : n = m
    · rw [if_pos e] at hx ⊢
      exact ⟨x, hx, rfl, rfl⟩
    · rw [if_neg e] at hx ⊢
      obtain ⟨y, h1, h2, h3⟩ := h.scan m x hx
      exact ⟨y, h1, h2, by rw [eh, eh]; exact h3⟩

omit [UniDB] in
theorem Like.unshared_put [UniDB] {s : Sdf} (hu : Unshared s) {n : Str} {x X hdr : Obj}
    (hx : s.scans.get? n = some x) (hraw : X.raw = x.raw) (hidx : X.hdrIdx = x.hdrIdx) (hh : hdr = s.headerOf X) :
    ∀ n', Unshared (s.putScan n' ⟨X, hdr⟩) := by
  intro n'
  have e : (s.putScan n' ⟨X, hdr⟩).headers = s.headers := by
    show s.headers.set X.hdrIdx hdr = _
    rw [hh]; exact set_getD _ _ _
  have eh : ∀ x, (s.putScan n' ⟨X, hdr⟩).headerOf x = s.headerOf x := by
    intro x
    unfold Sdf.headerOf
    rw [e]; rfl
  constructor
  · intro m z hz
    have hz : (s.scans.set n' X).get? m = some z := hz
    rw [Dict.get?_set] at hz
    split at hz
    · injection hz with hz
      subst hz
      rw [hraw]; exact hu.names n x hx
    · exact hu.names m z hz
  · intro m z hz
    rw [eh]
    have hz : (s.scans.set n' X).get? m = some z := hz
    rw [Dict.get?_set] at hz
    split at hz
    · injection hz with hz
      subst hz
      rw [headerOf_idx hidx]; exact hu.dated n x hx
    · exact hu.dated m z hz

/-- one pass of the loop of `save` -/
theorem Like.saveKey {env : Env} {reg : List HKey} (hr : reg.Perm HKey.all) {s t : Sdf} (hu : Unshared s) (h : Like env reg s t)
    (h5 : H5) (f : Bool) (k : Ref) :
    (saveKey env reg f k ⟨t, h5⟩).1.h5 = (saveKey env reg f k ⟨s, h5⟩).1.h5 ∧
    (saveKey env reg f k ⟨t, h5⟩).2 = (saveKey env reg f k ⟨s, h5⟩).2 ∧
    ((saveKey env reg f k ⟨s, h5⟩).2 = none → Unshared (saveKey env reg f k ⟨s, h5⟩).1.sdf ∧
      Like env reg (saveKey env reg f k ⟨s, h5⟩).1.sdf (saveKey env reg f k ⟨t, h5⟩).1.sdf) := by
  unfold Writer.saveKey SState.run
  simp only
  rcases openEntry k h5 with ⟨t1, _ | e⟩
  · exact ⟨rfl, rfl, fun h => by cases h⟩
  simp only
  by_cases hx : ∃ x, s.getScan k = .ok (some x)
  · obtain ⟨x, hx⟩ := hx
    obtain ⟨n, g1, g2⟩ := _root_.S2N.getScan_name hx
    obtain ⟨y, hy, hid, hi⟩ := h.scan n x g1
    have hy' : t.getScan k = .ok (some y) := by rw [g2 t h.keys, hy]
    rw [hx, hy']
    simp only [Res.eval]
    rw [h.headerOf, hi, show y.scanNum = x.scanNum from congrArg Ident.scanNum hid]
    have hid2 := interp_ident env reg ⟨x, s.headerOf x⟩
    have hh := interp_hdr_keep (env := env) (reg := reg) hr ⟨x, s.headerOf x⟩ (hu.names n x g1) (hu.dated n x g1)
    generalize hgen : interpretScan env reg ⟨x, s.headerOf x⟩ = c at hid2 hh
    obtain ⟨⟨X, hdr⟩, err⟩ := c
    simp only at hid2 hh
    cases err with
    | some err => exact ⟨rfl, rfl, fun h => by cases h⟩
    | none =>
      simp only
      have hI : X.hdrIdx = x.hdrIdx := congrArg Ident.hdrIdx hid2
      have hR : X.raw = x.raw := congrArg Ident.raw hid2
      have hhX : hdr = s.headerOf X := by rw [hh]; exact headerOf_idx hI.symm
      obtain ⟨l1, le1⟩ := h.put x.scanNum (X := X) (hdr := hdr) hhX
      have u1 := Like.unshared_put hu g1 hR hI hhX x.scanNum
      rcases hm : saveScan e hdr X t1 with ⟨t2, _ | z⟩
      · exact ⟨rfl, rfl, fun h => by cases h⟩
      · obtain ⟨⟨L, hL⟩, _⟩ := ret_saveScan e hdr X _ _ _ hm
        have hz : z.hdrIdx = X.hdrIdx ∧ z.raw = X.raw := by rw [hL]; exact ⟨rfl, rfl⟩
        have hhz : hdr = (s.putScan x.scanNum ⟨X, hdr⟩).headerOf z := by
          have e : (s.putScan x.scanNum ⟨X, hdr⟩).headerOf X = s.headerOf X := by
            unfold Sdf.headerOf
            rw [le1]; rfl
          rw [headerOf_idx hz.1, e]; exact hhX
        have l2 := (l1.put z.scanNum (X := z) (hdr := hdr) hhz).1
        have u2 := Like.unshared_put u1 (n := x.scanNum) (x := X) (X := z) (hdr := hdr)
          (Dict.get?_set_self _ _ _) hz.2 hz.1 hhz z.scanNum
        simp only
        rcases closeEntry f k e t2 with ⟨t3, _ | _⟩
        · exact ⟨rfl, rfl, fun h => by cases h⟩
        · exact ⟨rfl, rfl, fun _ => ⟨u2, l2⟩⟩
  · have hn : ∀ x, s.getScan k ≠ .ok (some x) := fun x e => hx ⟨x, e⟩
    rw [getScan_nothing h.keys hn]
    cases hg : s.getScan k with
    | error err => exact ⟨rfl, rfl, fun h => by cases h⟩
    | ok o =>
      cases o with
      | some x => exact absurd hg (hn x)
      | none => exact ⟨rfl, rfl, fun h => by cases h⟩

theorem Like.saveKeys {env : Env} {reg : List HKey} (hr : reg.Perm HKey.all) :
    ∀ (ks : List Ref) (f : Bool) (s t : Sdf) (h5 : H5), Unshared s → Like env reg s t →
      (saveKeys env reg f ks ⟨t, h5⟩).1.h5 = (saveKeys env reg f ks ⟨s, h5⟩).1.h5 ∧
      (saveKeys env reg f ks ⟨t, h5⟩).2 = (saveKeys env reg f ks ⟨s, h5⟩).2 := by
  intro ks
  induction ks with
  | nil => intro f s t h5 _ _; exact ⟨rfl, rfl⟩
  | cons k ks ih =>
    intro f s t h5 hu h
    rw [Writer.saveKeys, Writer.saveKeys]
    obtain ⟨h1, h2, h3⟩ := h.saveKey hr hu h5 f k
    unfold Res.andThen
    rw [h2]
    cases hs : (Writer.saveKey env reg f k ⟨s, h5⟩).2 with
    | some err => exact ⟨h1, by simp only; rw [h2, hs]⟩
    | none =>
      simp only
      obtain ⟨u, l⟩ := h3 hs
      generalize Writer.saveKey env reg f k ⟨s, h5⟩ = a at h1 u l
      generalize Writer.saveKey env reg f k ⟨t, h5⟩ = b at h1 l
      obtain ⟨⟨a1, a2⟩, a3⟩ := a
      obtain ⟨⟨b1, b2⟩, b3⟩ := b
      simp only at h1 u l
      subst h1
      exact ih false _ _ _ u l

theorem Like.save {env : Env} {reg : List HKey} (hr : reg.Perm HKey.all) {s t : Sdf} (hu : Unshared s) (h : Like env reg s t)
    (v : Versions) (ks : List Ref) :
    (save env reg v ks t).1.h5 = (save env reg v ks s).1.h5 ∧ (save env reg v ks t).2 = (save env reg v ks s).2 := by
  have hra : rootAttributes v t = rootAttributes v s := by
    unfold rootAttributes
    rw [h.headers, h.file]
  unfold Writer.save
  rw [hra]
  cases rootAttributes v s with
  | error e => exact ⟨rfl, rfl⟩
  | ok a =>
    simp only [Res.eval]
    unfold SState.run
    rcases addAttributes root a H5.empty with ⟨h5, _ | _⟩
    · exact ⟨rfl, rfl⟩
    · exact Like.saveKeys hr ks true s t h5 hu h

/-! ### C110 -/

/-- a file with #O lines in its headers only (and no #P lines there) -/
theorem unshared_of_open {env : Env} {reg : List HKey} (hr : reg.Perm HKey.all) {name : Str} {f stat : FileSt} {s : Sdf}
    (ho : Sdf.openFile env reg name f stat = .ok s) {texts : List Str} (ht : dissectFile f.node = .ok texts)
    (hP : ∀ t ∈ texts, isHeaderText t = true → ∀ l ∈ splitlines t, hKind .P l = false)
    (hO : ∀ t ∈ texts, isScanText t = true → ofKind .O (scanLines t) = []) :
    Unshared s ∧ ∀ n x, s.scans.get? n = some x → x.scanNum = n := by
  refine ⟨⟨fun n x hx => ?_, fun n x hx => open_dated hr ho ht hP hx⟩, fun n x hx => ?_⟩
  · obtain ⟨h1, h2⟩ := open_raw hr ho ht (n, x) (Dict.mem_of_get? hx)
    exact hO _ h1 h2
  · obtain ⟨_, _, _, _, h⟩ := C03_scans env reg hr name f stat s ho
    exact h n x (Dict.mem_of_get? hx)

/-- **C110**: what was done with an open file before does not show in a NeXus file that is saved: after any reading of attributes and
any saves (of scans that are no meshes), successful or not, `save` with a list of scans writes the same file as it would have written
at the start, or raises the same exception. -/
theorem C110_save {env : Env} {reg : List HKey} (hr : reg.Perm HKey.all) {name : Str} {f stat : FileSt} {s : Sdf}
    (ho : Sdf.openFile env reg name f stat = .ok s) {texts : List Str} (ht : dissectFile f.node = .ok texts)
    (hP : ∀ t ∈ texts, isHeaderText t = true → ∀ l ∈ splitlines t, hKind .P l = false)
    (hO : ∀ t ∈ texts, isScanText t = true → ofKind .O (scanLines t) = [])
    {t : Sdf} (h : History env reg s t) (v : Versions) (ks : List Ref) :
    (save env reg v ks t).1.h5 = (save env reg v ks s).1.h5 ∧ (save env reg v ks t).2 = (save env reg v ks s).2 := by
  obtain ⟨hu, hnm⟩ := unshared_of_open hr ho ht hP hO
  exact (past_history hr hu hnm h).like.save hr hu v ks

/-- **C110**: nor does it show in the attributes that are read: after the history, reading an attribute of a scan (that can be
interpreted) gives the scan as at the start. -/
theorem C110_read {env : Env} {reg : List HKey} (hr : reg.Perm HKey.all) {name : Str} {f stat : FileSt} {s : Sdf}
    (ho : Sdf.openFile env reg name f stat = .ok s) {texts : List Str} (ht : dissectFile f.node = .ok texts)
    (hP : ∀ t ∈ texts, isHeaderText t = true → ∀ l ∈ splitlines t, hKind .P l = false)
    (hO : ∀ t ∈ texts, isScanText t = true → ofKind .O (scanLines t) = [])
    {t : Sdf} (h : History env reg s t) {n : Str} {attr : Str} (ha : attr ∈ lazyAttributes) :
    (t.access env reg n attr).1.scans.get? n = (s.access env reg n attr).1.scans.get? n ∧
      (t.access env reg n attr).2 = (s.access env reg n attr).2 ∧ t.headers = s.headers := by
  obtain ⟨hu, hnm⟩ := unshared_of_open hr ho ht hP hO
  have hp := past_history hr hu hnm h
  cases hx : s.scans.get? n with
  | none =>
    have ht' : t.scans.get? n = none := by
      cases hy : t.scans.get? n with
      | none => rfl
      | some y =>
        obtain ⟨x, hx'⟩ := get_of_keys hp.keys hy
        rw [hx] at hx'; cases hx'
    unfold Sdf.access
    rw [hx, ht']
    exact ⟨by rw [show (Res.raise t PyErr.KeyError).1 = t from rfl, show (Res.raise s PyErr.KeyError).1 = s from rfl, hx, ht'],
      rfl, hp.headers⟩
  | some x =>
    obtain ⟨y, hy, hyx⟩ := hp.scan n x hx
    have hf : Fresh x := C70_untouched env reg hr name f stat s ho texts ht hP (n, x) (Dict.mem_of_get? hx)
    unfold Sdf.access
    rw [hx, hy]
    simp only
    rw [Dict.get?_set_self, Dict.get?_set_self, hp.headerOf]
    have hlz : x.lazy = true := by obtain ⟨_, _, _, _, _, _, _, _, _, e⟩ := hf; rw [e]; rfl
    have e1 : readAttr env reg attr ⟨x, s.headerOf x⟩ = interpretScan env reg ⟨x, s.headerOf x⟩ := by
      unfold readAttr
      rw [if_pos ⟨ha, hlz⟩]
    rcases hyx with rfl | hi
    · exact ⟨rfl, rfl, hp.headers⟩
    · have hm := interpret_marks env reg ⟨x, s.headerOf x⟩ (fresh_interpreted hf) (by rw [hi])
      rw [e1, hi]
      rw [hi] at hm
      have e2 : readAttr env reg attr ⟨y, s.headerOf y⟩ = (⟨y, s.headerOf y⟩, none) := by
        unfold readAttr
        rw [if_neg (by rintro ⟨_, h⟩; simp only at h hm; rw [hm.2] at h; cases h)]
        rfl
      rw [e2]
      exact ⟨rfl, rfl, hp.headers⟩

end
end S2N.Props
