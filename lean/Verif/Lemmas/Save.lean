import Verif.Lemmas.Section
import Verif.Lemmas.Safe
/-
`Writer.save`, scan by scan.
-/
namespace S2N
open Py H5 Eznx Writer Spec

section
variable [UniDB]

/-! ## The writers of one scan -/

/-- no other writer of the list uses the name -/
def OnlyBy (f : H5Fn) (N : Str) (fs : List H5Fn) : Prop :=
  ∀ f' ∈ fs, f' = f ∨ (N ∉ usedBy f' ∧ (f' = .unrec → ∀ i, p!"unrecognized_" ++ natStr i ≠ N))

theorem plain_append {a b : Str} (ha : Plain a) (hb : ∀ x ∈ b, x ≠ '/' ∧ x.toNat < 128) (h : 2 ≤ a.length) :
    Plain (a ++ b) := by
  refine ⟨by intro e; simp at e; rw [e.1] at h; simp at h, ?_, ?_⟩
  · intro e
    have := congrArg List.length e
    simp at this
    omega
  · intro x hx
    rcases List.mem_append.1 hx with e | e
    · exact ha.chars x e
    · exact hb x e

/-- a section written by a writer of the scan -/
theorem rest_section {f : H5Fn} {N cls : Str} {attr : Dict AVal} {body : HRef → Obj → HM Obj}
    (hf : GroupW f N cls attr body) {c : Scope} (hX : ∀ n, ¬ c.X n) {e : HRef} (hid : e.id = c.e) (hp : e.path = [c.E])
    {hdr x y : Obj} {s s' : H5} (hi : H5.Inv c s) (hent : Entry c s) (hh : RelNames hdr) (hr : RelNames x)
    (ho : OnlyBy f N x.h5.values) (hN : N ∉ usedByAdditions) (hmem : f ∈ x.h5.values)
    (h : saveScanRest e hdr x s = (s', .ok y)) :
    ∃ pre x1 t' y1 ch' a', (∃ L, x1 = { x with L := L }) ∧ (∃ L, y1 = { x with L := L }) ∧
      (∃ L, y = { y1 with L := L }) ∧ (f = .scanData → x1 = x ∧ y = y1) ∧
    body ⟨pre.length, [c.E, N]⟩ x1 (pre ++ [.group [] (Dict.update [(p!"NX_class", AVal.str cls)] attr)]) = (t', .ok y1) ∧
    c.e < pre.length ∧ pre.length < t'.length ∧ (∀ i, pre.length ≤ i → i < t'.length → s'[i]? = t'[i]?) ∧
    s'[c.e]? = some (.group ch' a') ∧ ch'.get? N = some pre.length ∧
    H5.Inv (c.sec N pre.length t'.length) s' := by
  have hok : Ok c e := ⟨by rw [hid]; exact hi.notD, .inl ⟨hid, hp⟩⟩
  have hfirst : Conf c (do
      let _ ← writeDataset e p!"title" (.str x.S) []
      let nums ← HM.lift (splitScanNumberString x.scanNum)
      let ds ← writeDataset e p!"scan_number" (.num (.int (nums.getD 0 0))) []
      addAttributes ds (attr1 p!"spec_name" p!"SCAN_N")
      HM.onlyIf (decide (0 < nums.getD 1 0)) (addAttributes ds [(p!"repeat", .num (.int (nums.getD 1 0)))])
      let _ ← writeDataset e p!"command" (.str x.scanCmd) []
      let _ ← runWriters e hdr hdr.h5.values hdr
      pure ()) (fun _ => True) := by
    refine Conf.bind' (conf_wd hok (by decide) (hX _) _ _) fun _ _ => ?_
    refine Conf.bind' (conf_lift _) fun nums _ => ?_
    refine Conf.bind' (conf_wd hok (by decide) (hX _) _ _) fun ds hds => ?_
    refine Conf.bind' (conf_addAttributes hds.1.1 hds.2 _) fun _ _ => ?_
    refine Conf.bind' (Conf.onlyIf fun _ => conf_addAttributes hds.1.1 hds.2 _) fun _ _ => ?_
    refine Conf.bind' (conf_wd hok (by decide) (hX _) _ _) fun _ _ => ?_
    refine Conf.bind' (conf_runWriters hi.plain hok hdr _ _ hh fun f _ => ⟨fun n _ => hX n, fun _ _ => hX _⟩) fun _ _ => ?_
    exact Conf.pure' trivial
  have hsplit : ∃ t, (do
      let _ ← writeDataset e p!"title" (.str x.S) []
      let nums ← HM.lift (splitScanNumberString x.scanNum)
      let ds ← writeDataset e p!"scan_number" (.num (.int (nums.getD 0 0))) []
      addAttributes ds (attr1 p!"spec_name" p!"SCAN_N")
      HM.onlyIf (decide (0 < nums.getD 1 0)) (addAttributes ds [(p!"repeat", .num (.int (nums.getD 1 0)))])
      let _ ← writeDataset e p!"command" (.str x.scanCmd) []
      let _ ← runWriters e hdr hdr.h5.values hdr
      pure () : HM Unit) s = (t, .ok ()) ∧
      (do let x ← runWriters e hdr x.h5.values x
          additions e
          pure x) t = (s', .ok y) := by
    unfold saveScanRest at h
    obtain ⟨t1, r1, h1, h⟩ := HM.bind_inv h
    obtain ⟨t2, r2, h2, h⟩ := HM.bind_inv h
    obtain ⟨t3, r3, h3, h⟩ := HM.bind_inv h
    obtain ⟨t4, r4, h4, h⟩ := HM.bind_inv h
    obtain ⟨t5, r5, h5, h⟩ := HM.bind_inv h
    obtain ⟨t6, r6, h6, h⟩ := HM.bind_inv h
    obtain ⟨t7, r7, h7, h⟩ := HM.bind_inv h
    refine ⟨t7, ?_, h⟩
    rw [HM.bind_ok h1, HM.bind_ok h2, HM.bind_ok h3, HM.bind_ok h4, HM.bind_ok h5, HM.bind_ok h6, HM.bind_ok h7]
    rfl
  obtain ⟨t, h1, h2⟩ := hsplit
  obtain ⟨a1, a2, _⟩ := hfirst s hi
  rw [h1] at a1 a2
  obtain ⟨t2, y', h3, h4⟩ := HM.bind_inv h2
  obtain ⟨e1, _, h5⟩ := HM.bind_pure_inv h4
  subst e1
  obtain ⟨t1, ch, a, x1, t', y1, r1, r2, r3, r3', r4, r5, r6, r7, r8, r9, r10, r11, ch', a', r12, r13⟩ :=
    section_written hf hX hid hp hdr _ x a1 (a2.entry hent) hr ho hmem h3
  have hok' := H5.Scope.ok_sec hid hp r10
  obtain ⟨b1, b2, _⟩ := conf_additions hok' (fun n hn (e : n = N) => hN (e ▸ hn)) t2 r10
  rw [h5] at b1 b2
  obtain ⟨ch2, k1, k2⟩ := b2.keep ch' a' r12
  have hl : (t1.set c.e (.group (ch.set N t1.length) a)).length = t1.length := by simp
  refine ⟨t1.set c.e (.group (ch.set N t1.length) a), x1, t', y1, ch2, a', r2, r6, r3, r3', ?_, ?_, ?_, ?_, k1, ?_, ?_⟩
  · rw [hl]; exact r4
  · rw [hl]; exact r8.elt
  · rw [hl]; exact r5
  · rw [hl]
    intro i hi1 hi2
    rw [b2.eq i (.inr ⟨hi1, hi2⟩), r11.eq i (.inr ⟨hi1, hi2⟩)]
  · rw [hl, k2 N rfl]; exact r13
  · rw [hl]; exact b1

/-- the writer of the data -/
theorem groupW_data : GroupW .scanData p!"data" p!"NXdata" (attr1 p!"description" p!"SPEC scan data") saveData where
  plain := by decide
  run := fun _ _ _ => rfl
  view := fun pre g x s s' y V A hg hv h => by
    obtain ⟨V', sg, ax, hv'⟩ := saveData_view hg h hv
    exact ⟨_, _, hv'⟩

omit [UniDB] in
theorem unrec_ne_data (i : Nat) : p!"unrecognized_" ++ natStr i ≠ p!"data" := by
  intro e
  have := congrArg List.head? e
  simp at this

theorem onlyBy_data (fs : List H5Fn) : OnlyBy .scanData p!"data" fs := by
  intro f _
  by_cases h : f = .scanData
  · exact .inl h
  · refine .inr ⟨?_, fun _ => unrec_ne_data⟩
    cases f <;> first | decide | exact absurd rfl h

/-! ## One scan of the list -/

omit [UniDB] in
/-- the links of the file are independent of the attributes -/
theorem H5.Inv.attrs {c : Scope} {s : H5} (h : H5.Inv c s) {k : Nat} {ch : Dict Nat} {a : Dict AVal}
    (h0 : s[k]? = some (.group ch a)) (a' : Dict AVal) : H5.Inv c (s.set k (.group ch a')) := by
  have hl := lt_of_get? h0
  have hget : ∀ (i : Nat) (ch1 : Dict Nat) (a1 : Dict AVal), (s.set k (HNode.group ch a'))[i]? = some (HNode.group ch1 a1) →
      ∃ a2, s[i]? = some (HNode.group ch1 a2) := by
    intro i ch1 a1 hg
    rw [set_get? _ _ _ _ hl] at hg
    by_cases e : i = k
    · subst e
      rw [if_pos rfl] at hg
      injection hg with hg
      injection hg with hg _
      subst hg
      exact ⟨a, h0⟩
    · rw [if_neg e] at hg
      exact ⟨a1, hg⟩
  constructor
  · intro i ch1 a1 hg
    obtain ⟨a2, hg⟩ := hget i ch1 a1 hg
    obtain ⟨h1, h2⟩ := h.wf i ch1 a2 hg
    exact ⟨h1, fun n j hm => by rw [List.length_set]; exact h2 n j hm⟩
  · exact h.rootD
  · exact h.notD
  · exact h.plain
  · obtain ⟨ch0, a0, e0, e1⟩ := h.entry
    by_cases e : 0 = k
    · subst e
      rw [h0] at e0
      injection e0 with e0
      injection e0 with e0 _
      subst e0
      exact ⟨ch, a', by rw [set_get? _ _ _ _ hl, if_pos rfl], e1⟩
    · exact ⟨ch0, a0, by rw [set_get? _ _ _ _ hl, if_neg e]; exact e0, e1⟩
  · intro i hi; rw [List.length_set]; exact h.lt i hi
  · rw [List.length_set]; exact h.elt
  · intro i hi ch1 a1 hg
    obtain ⟨a2, hg⟩ := hget i ch1 a1 hg
    exact h.closed i hi ch1 a2 hg

/-- a file with a root group, in which all links are in order and none points to the root -/
structure FileOk (s : H5) : Prop where
  wf : WF s
  root : ∃ ch a, s[0]? = some (.group ch a)
  noRoot : ∀ (i : Nat) (ch : Dict Nat) (a : Dict AVal), s[i]? = some (HNode.group ch a) → ∀ n j, (n, j) ∈ ch → j ≠ 0

/-- the scope of a new entry `E` that becomes the node `n` -/
def entryScope (E : Str) (n : Nat) : Scope := { e := n, E := E, D := fun i => i < n, X := fun _ => False }

/-- the attributes of the group of a new entry -/
def entryAttrs : Dict AVal := [(p!"NX_class", .str p!"NXentry")]

/-- the dataset `experiment_description` -/
def experimentNode : HNode := .dset (.text [p!"SPEC scan"]) [(p!"description", .str p!"SPEC data file scan")]

omit [UniDB] in
/-- a new entry -/
theorem openEntry_ok {s s' : H5} (hs : FileOk s) {key : Ref} (hk : Plain (p!"S" ++ key.text)) {e : HRef}
    (h : openEntry key s = (s', .ok e)) :
    ∃ ch a, s[0]? = some (.group ch a) ∧ ch.has (p!"S" ++ key.text) = false ∧ e = ⟨s.length, [p!"S" ++ key.text]⟩ ∧
      s' = s.set 0 (.group (ch.set (p!"S" ++ key.text) s.length) a) ++
        [.group [(p!"experiment_description", s.length + 1)] entryAttrs, experimentNode] ∧
      H5.Inv (entryScope (p!"S" ++ key.text) s.length) s' := by
  obtain ⟨ch, a, h0⟩ := hs.root
  have hl := lt_of_get? h0
  unfold openEntry at h
  obtain ⟨t1, e1, h1, h2⟩ := HM.bind_inv h
  cases hh : ch.has (p!"S" ++ key.text) with
  | true =>
    rw [makeGroup_exists (h := root) h0 hk.single hh] at h1
    cases h1
  | false =>
    rw [makeGroup_eq (h := root) h0 hk.single hh] at h1
    injection h1 with h1 he
    injection he with he
    have hgrp : t1[e1.id]? = some (.group [] entryAttrs) := by
      rw [← h1, ← he]
      show (s.set 0 (.group (ch.set (p!"S" ++ key.text) s.length) a) ++ [HNode.group [] entryAttrs])[s.length]? = _
      rw [List.getElem?_append_right (by simp)]
      simp
    obtain ⟨rfl, r, h3⟩ := HM.bind_pure_inv h2
    rw [makeDataset_eq hgrp (show Plain p!"experiment_description" by decide).single rfl rfl] at h3
    injection h3 with h3 _
    have hs' : s' = s.set 0 (.group (ch.set (p!"S" ++ key.text) s.length) a) ++
        [.group [(p!"experiment_description", s.length + 1)] entryAttrs,
         .dset (.text [p!"SPEC scan"]) [(p!"description", .str p!"SPEC data file scan")]] := by
      rw [← h3, ← h1, ← he]
      show (s.set 0 (HNode.group (ch.set (p!"S" ++ key.text) s.length) a) ++ [HNode.group [] entryAttrs]).set s.length _ ++ _ = _
      rw [List.set_append_right _ _ (by simp)]
      simp
      exact ⟨rfl, rfl, rfl⟩
    refine ⟨ch, a, h0, hh, he.symm, hs', ?_⟩
    have hg : ∀ i, s'[i]? = if i = 0 then some (.group (ch.set (p!"S" ++ key.text) s.length) a) else
        if i = s.length then some (.group [(p!"experiment_description", s.length + 1)] entryAttrs) else
        if i = s.length + 1 then some (.dset (.text [p!"SPEC scan"]) [(p!"description", .str p!"SPEC data file scan")]) else s[i]? := by
      intro i
      rw [hs']
      by_cases e : i < s.length
      · rw [List.getElem?_append_left (by simpa using e), set_get? _ _ _ _ hl]
        rw [if_neg (show ¬ i = s.length by omega), if_neg (show ¬ i = s.length + 1 by omega)]
      · have e0 : ¬ i = 0 := by omega
        rw [if_neg e0, List.getElem?_append_right (by simp; omega)]
        simp only [List.length_set]
        by_cases e1 : i = s.length
        · rw [if_pos e1, e1]; simp
        · rw [if_neg e1]
          by_cases e2 : i = s.length + 1
          · rw [if_pos e2, e2]; simp
          · rw [if_neg e2, List.getElem?_eq_none (by simp; omega), List.getElem?_eq_none (by omega)]
    have hlen : s'.length = s.length + 2 := by rw [hs']; simp
    constructor
    · intro i ch1 a1 hi
      rw [hg] at hi
      rw [hlen]
      split at hi
      · injection hi with hi
        injection hi with hi _
        subst hi
        refine ⟨Dict.nodup_keys_set _ _ _ (hs.wf _ _ _ h0).1, fun n j hm => ?_⟩
        rcases Dict.mem_set hm with e | e
        · injection e with _ e; omega
        · have := (hs.wf _ _ _ h0).2 n j e; omega
      · split at hi
        · injection hi with hi
          injection hi with hi _
          subst hi
          refine ⟨by simp [Dict.keys], fun n j hm => ?_⟩
          simp at hm
          omega
        · split at hi
          · cases hi
          · exact ⟨(hs.wf _ _ _ hi).1, fun n j hm => by have := (hs.wf _ _ _ hi).2 n j hm; omega⟩
    · exact hl
    · exact Nat.lt_irrefl _
    · exact hk
    · refine ⟨_, _, (hg 0).trans (if_pos rfl), Dict.get?_set_self _ _ _⟩
    · intro i hi
      have hi : i < s.length := hi
      omega
    · show s.length < s'.length
      omega
    · intro i hi ch1 a1 hgi n j hm
      have hi : ¬ i < s.length := hi
      show j ≠ s.length ∧ (j < s.length → _)
      rw [hg, if_neg (show ¬ i = 0 by omega)] at hgi
      split at hgi
      · injection hgi with hgi
        injection hgi with hgi _
        subst hgi
        simp at hm
        have hj := hm.2
        exact ⟨by omega, fun h => by omega⟩
      · split at hgi
        · cases hgi
        · have := lt_of_get? hgi
          exact absurd this hi

/-- the attributes of the data group of a scan without data -/
def noDataAttrs : Dict AVal := Dict.update [(p!"NX_class", AVal.str p!"NXdata")] [(p!"signal", .str p!"no_y_data"),
    (p!"axes", .str p!"no_x_data"), (p!"no_x_data_indices", .nums [.int 0])]

/-- the attributes of the placeholders -/
def noDataNote : Dict AVal := [(p!"units", .str p!"none"), (p!"long_name", .str p!"no data points in this scan")]

/-- the group written for a scan without data -/
def NoDataAt (s : H5) (g : Nat) : Prop :=
  ∃ i j : Nat, s[g]? = some (HNode.group [(p!"no_x_data", i), (p!"no_y_data", j)] noDataAttrs) ∧ 0 < i ∧ 0 < j ∧
    s[i]? = some (HNode.dset (.nums ⟨[.int 0, .int 1], [2]⟩) noDataNote) ∧
    s[j]? = some (HNode.dset (.nums ⟨[.int 0, .int 1], [2]⟩) noDataNote)

omit [UniDB] in
/-- the group written for a scan without data -/
theorem noData_ok {s s' : H5} {e : HRef} {ch : Dict Nat} {a : Dict AVal} (he : s[e.id]? = some (.group ch a))
    (hd : ch.has p!"data" = false) {r : Unit} (h : noData e s = (s', .ok r)) :
    s'[e.id]? = some (.group (ch.set p!"data" s.length) a) ∧ (∀ i, i < s.length → i ≠ e.id → s'[i]? = s[i]?) ∧
    s.length ≤ s'.length ∧ NoDataAt s' s.length := by
  have hl := lt_of_get? he
  unfold noData at h
  obtain ⟨t1, g, h1, h⟩ := HM.bind_inv h
  rw [makeGroup_eq he (show Plain p!"data" by decide).single hd] at h1
  injection h1 with h1 hg
  injection hg with hg
  have h1 : s.set e.id (HNode.group (ch.set p!"data" s.length) a) ++ [HNode.group [] noDataAttrs] = t1 := h1
  have hg1 : t1[g.id]? = some (HNode.group [] noDataAttrs) := by
    rw [← h1, ← hg]
    show (s.set e.id (HNode.group (ch.set p!"data" s.length) a) ++ [HNode.group [] noDataAttrs])[s.length]? = _
    rw [List.getElem?_append_right (by simp)]
    simp
  have hgl : g.id = s.length := by rw [← hg]
  have ht1 : t1.length = s.length + 1 := by rw [← h1]; simp
  obtain ⟨t2, r2, h2, h⟩ := HM.bind_inv h
  rw [makeDataset_eq hg1 (show Plain p!"no_x_data" by decide).single rfl rfl] at h2
  injection h2 with h2 _
  obtain ⟨_, r', h⟩ := HM.bind_pure_inv h
  have hg2 : t2[g.id]? = some (HNode.group (Dict.set [] p!"no_x_data" t1.length) noDataAttrs) := by
    rw [← h2, List.getElem?_append_left (by simp; omega), set_get? _ _ _ _ (by omega), if_pos rfl]
  have ht2 : t2.length = s.length + 2 := by rw [← h2]; simp; omega
  rw [makeDataset_eq hg2 (show Plain p!"no_y_data" by decide).single (by rfl) rfl] at h
  injection h with h _
  have hold : ∀ i, i < s.length → s'[i]? = (s.set e.id (HNode.group (ch.set p!"data" s.length) a))[i]? := by
    intro i hi
    rw [← h, List.getElem?_append_left (by simp; omega), set_get? _ _ _ _ (by omega), if_neg (by omega), ← h2,
      List.getElem?_append_left (by simp; omega), set_get? _ _ _ _ (by omega), if_neg (by omega), ← h1,
      List.getElem?_append_left (by simp; omega)]
  refine ⟨?_, ?_, ?_, ?_⟩
  · rw [hold _ hl, set_get? _ _ _ _ hl, if_pos rfl]
  · intro i hi hne
    rw [hold _ hi, set_get? _ _ _ _ hl, if_neg hne]
  · rw [← h]; simp; omega
  · refine ⟨t1.length, t2.length, ?_, by omega, by omega, ?_, ?_⟩
    · rw [← h, List.getElem?_append_left (by simp; omega), set_get? _ _ _ _ (by omega), if_pos hgl.symm]
      rfl
    · rw [← h, List.getElem?_append_left (by simp; omega), set_get? _ _ _ _ (by omega), if_neg (by omega), ← h2,
        List.getElem?_append_right (by simp)]
      simp
      exact ⟨rfl, rfl⟩
    · rw [← h, List.getElem?_append_right (by simp)]
      simp
      exact ⟨rfl, rfl⟩

/-- The section `N` of the entry `n`, called `E`, as the body of its writer left it. -/
def Sectioned (E : Str) (n : Nat) (f : H5Fn) (N cls : Str) (attr : Dict AVal) (body : HRef → Obj → HM Obj)
    (x y : Obj) (chE : Dict Nat) (s' : H5) : Prop :=
  ∃ pre x1 t' y1, (∃ L, x1 = { x with L := L }) ∧ (∃ L, y1 = { x with L := L }) ∧
    (f = .scanData → x1 = x ∧ y = y1) ∧
    body ⟨pre.length, [E, N]⟩ x1 (pre ++ [.group [] (Dict.update [(p!"NX_class", AVal.str cls)] attr)]) = (t', .ok y1) ∧
    n < pre.length ∧ pre.length < t'.length ∧ (∀ i, pre.length ≤ i → i < t'.length → s'[i]? = t'[i]?) ∧
    chE.get? N = some pre.length

/-- The run of the writers on the entry `n`, called `E`, whose members became `chE`. -/
def Ran (E : Str) (n : Nat) (hdr x y : Obj) (chE : Dict Nat) (s' : H5) : Prop :=
  ∃ t1 t2 chT aT, saveScanRest ⟨n, [E]⟩ hdr x t1 = (t2, .ok y) ∧ H5.Inv (entryScope E n) t1 ∧
    t1[n]? = some (.group [(p!"experiment_description", n + 1)] [(p!"NX_class", .str p!"NXentry"), (p!"default", .str p!"data")]) ∧
    RelNames hdr ∧ RelNames x ∧ t2[n]? = some (.group chT aT) ∧ (∀ m j, chT.get? m = some j → chE.get? m = some j) ∧
    (∀ m, m ≠ p!"data" → chE.get? m = chT.get? m) ∧ (∀ i, n < i → i < t2.length → s'[i]? = t2[i]?) ∧
    t1.length = n + 2 ∧ t1[n + 1]? = some experimentNode

/-- What one pass of the loop does to the file. -/
structure KeySaved (env : Env) (reg : List HKey) (first : Bool) (k : Ref) (S S' : SState) : Prop where
  ok : FileOk S'.h5
  lt : S.h5.length < S'.h5.length
  old : ∀ i, 0 < i → i < S.h5.length → S'.h5[i]? = S.h5[i]?
  ex : ∃ ch a chE x0 x hdr y, S.h5[0]? = some (.group ch a) ∧ ch.has (p!"S" ++ k.text) = false ∧
    S'.h5[0]? = some (.group (ch.set (p!"S" ++ k.text) S.h5.length)
      (if first then a.set p!"default" (.str (p!"S" ++ k.text)) else a)) ∧
    S'.h5[S.h5.length]? = some (.group chE [(p!"NX_class", .str p!"NXentry"), (p!"default", .str p!"data")]) ∧
    (∃ g chG aG, chE.get? p!"data" = some g ∧ S'.h5[g]? = some (.group chG aG) ∧
      aG.get? p!"NX_class" = some (.str p!"NXdata") ∧ (.scanData ∉ x.h5.values → NoDataAt S'.h5 g)) ∧
    S.sdf.getScan k = .ok (some x0) ∧
    interpretScan env reg ⟨x0, S.sdf.headerOf x0⟩ = (⟨x, hdr⟩, none) ∧ (∃ L, y = { x with L := L }) ∧
    S'.sdf = (S.sdf.putScan x0.scanNum ⟨x, hdr⟩).putScan y.scanNum ⟨y, hdr⟩ ∧
    (.scanData ∉ x.h5.values → y = x) ∧
    Ran (p!"S" ++ k.text) S.h5.length hdr x y chE S'.h5 ∧
    ∀ f N cls attr body, GroupW f N cls attr body → f ∈ x.h5.values → OnlyBy f N x.h5.values → N ∉ usedByAdditions →
      Sectioned (p!"S" ++ k.text) S.h5.length f N cls attr body x y chE S'.h5

theorem runWriters_same {e : HRef} {hdr : Obj} : ∀ (fs : List H5Fn) (x y : Obj) {s s' : H5}, .scanData ∉ fs →
    runWriters e hdr fs x s = (s', .ok y) → y = x
  | [], x, y, s, s', _, h => (HM.ret_inv h).1
  | f :: fs, x, y, s, s', hn, h => by
    rw [runWriters] at h
    obtain ⟨t, x1, h1, h2⟩ := HM.andThen_inv h
    have e1 := runWriter_same (fun e => hn (by simp [e])) h1
    subst e1
    exact runWriters_same fs _ y (fun e => hn (by simp [e])) h2

theorem rest_same {e : HRef} {hdr x y : Obj} {s s' : H5} (hn : .scanData ∉ x.h5.values)
    (h : saveScanRest e hdr x s = (s', .ok y)) : y = x := by
  unfold saveScanRest at h
  obtain ⟨t1, r1, h1, h⟩ := HM.bind_inv h
  obtain ⟨t2, r2, h2, h⟩ := HM.bind_inv h
  obtain ⟨t3, r3, h3, h⟩ := HM.bind_inv h
  obtain ⟨t4, r4, h4, h⟩ := HM.bind_inv h
  obtain ⟨t5, r5, h5, h⟩ := HM.bind_inv h
  obtain ⟨t6, r6, h6, h⟩ := HM.bind_inv h
  obtain ⟨t7, r7, h7, h⟩ := HM.bind_inv h
  obtain ⟨t8, r8, h8, h⟩ := HM.bind_inv h
  obtain ⟨rfl, _⟩ := HM.bind_pure_inv h
  exact runWriters_same _ _ _ hn h8

omit [UniDB] in
theorem run_inv {α : Type} {m : HM α} {s : SState} {f : α → SState → Res SState} {r : SState}
    (h : s.run m f = (r, none)) : ∃ t a, m s.h5 = (t, .ok a) ∧ f a { s with h5 := t } = (r, none) := by
  unfold SState.run at h
  cases e : m s.h5 with
  | mk t x =>
    rw [e] at h
    cases x with
    | ok a => exact ⟨t, a, rfl, h⟩
    | error err => cases h

omit [UniDB] in
theorem getScan_mem {s : Sdf} {k : Ref} {x : Obj} (h : s.getScan k = .ok (some x)) :
    ∃ n, s.scans.get? n = some x := by
  unfold Sdf.getScan at h
  split at h
  · cases h
  · split at h
    · split at h
      · cases h
      · split at h
        · cases h
        · split at h
          · cases h
          · split at h
            · cases h
            · rename_i n _
              injection h with h
              exact ⟨n, h⟩
    · injection h with h
      exact ⟨_, h⟩

/-- one pass of the loop, from the writers on -/
theorem closeEntry_ok {E : Str} {n : Nat} {first : Bool} {k : Ref} (hE : E = p!"S" ++ k.text) {s s' : H5} {r : Unit}
    (hi : H5.Inv (entryScope E n) s) (hent : Entry (entryScope E n) s)
    (h : closeEntry first k ⟨n, [E]⟩ s = (s', .ok r)) :
    ∃ ch a chE aE chE', s[0]? = some (.group ch a) ∧ s[n]? = some (.group chE aE) ∧
      H5.Inv (entryScope E n) s' ∧ s.length ≤ s'.length ∧
      s'[0]? = some (.group ch (if first then a.set p!"default" (.str E) else a)) ∧
      (∀ i, i ≠ 0 → i ≠ n → i < s.length → s'[i]? = s[i]?) ∧
      s'[n]? = some (.group chE' aE) ∧ (∀ m j, chE.get? m = some j → chE'.get? m = some j) ∧
      (∀ m, m ≠ p!"data" → chE'.get? m = chE.get? m) ∧
      (chE.has p!"data" = false → ∃ g, chE'.get? p!"data" = some g ∧ NoDataAt s' g) := by
  obtain ⟨ch, a, h0, _⟩ := hi.entry
  obtain ⟨chE, aE, he⟩ := hent
  have he : s[n]? = some (.group chE aE) := he
  have hn0 : (0 : Nat) ≠ n := fun e => hi.notD (show (entryScope E n).D n from e ▸ hi.rootD)
  have hnl : n < s.length := hi.elt
  unfold closeEntry at h
  obtain ⟨t, _, h1, h2⟩ := HM.bind_inv h
  have ht : t = s.set 0 (.group ch (if first then a.set p!"default" (.str E) else a)) := by
    cases first with
    | true =>
      have h1 : addAttributes root (attr1 p!"default" (p!"S" ++ k.text)) s = (t, .ok _) := h1
      rw [addAttributes_eq _ (h := root) h0] at h1
      injection h1 with h1 _
      rw [← h1, ← hE]
      rfl
    | false =>
      obtain ⟨_, e⟩ := HM.ret_inv h1
      rw [e]
      exact (set_same h0).symm
  have hit : H5.Inv (entryScope E n) t := by rw [ht]; exact hi.attrs h0 _
  have hget : ∀ i, i ≠ 0 → t[i]? = s[i]? := by
    intro i hne
    rw [ht, set_get? _ _ _ _ (lt_of_get? h0), if_neg hne]
  have ht0 : t[0]? = some (.group ch (if first then a.set p!"default" (.str E) else a)) := by
    rw [ht, set_get? _ _ _ _ (lt_of_get? h0), if_pos rfl]
  have htl : t.length = s.length := by rw [ht]; simp
  have hte : t[(⟨n, [E]⟩ : HRef).id]? = some (.group chE aE) := by rw [← he]; exact hget n hn0.symm
  obtain ⟨t2, b, h3, h4⟩ := HM.andThen_inv h2
  rw [contains_eq hte (show Plain p!"data" by decide).single] at h3
  injection h3 with h3 hb
  injection hb with hb
  subst h3
  refine ⟨ch, a, chE, aE, ?_⟩
  cases hd : chE.has p!"data" with
  | true =>
    rw [← hb, hd] at h4
    obtain ⟨_, e⟩ := HM.ret_inv h4
    subst e
    exact ⟨chE, h0, he, hit, Nat.le_of_eq htl.symm, ht0, fun i hne _ _ => hget i hne, hte, fun m j h => h,
      fun _ _ => rfl, by simp⟩
  | false =>
    rw [← hb, hd] at h4
    have h4 : noData ⟨n, [E]⟩ t = (s', .ok _) := h4
    obtain ⟨a1, a2, a3, a4⟩ := noData_ok hte hd h4
    have hok : Ok (entryScope E n) ⟨n, [E]⟩ := ⟨hi.notD, .inl ⟨rfl, rfl⟩⟩
    obtain ⟨b1, _, _⟩ := conf_noData hok (fun h => h) t hit
    rw [h4] at b1
    refine ⟨chE.set p!"data" t.length, h0, he, b1, by omega, ?_, ?_, a1, ?_,
      fun m hm => Dict.get?_set_ne _ _ (Ne.symm hm), fun _ => ⟨t.length, Dict.get?_set_self _ _ _, a4⟩⟩
    · rw [a2 0 (by rw [htl]; exact lt_of_get? h0) hn0, ht0]
    · intro i hne hne2 hil
      rw [a2 i (by omega) hne2, hget i hne]
    · intro m j hm
      by_cases e : m = p!"data"
      · subst e
        have : chE.has p!"data" = true := by simp [Dict.has, hm]
        rw [this] at hd
        cases hd
      · rw [Dict.get?_set_ne _ _ (fun h => e h.symm), hm]

theorem saveKey_ok {env : Env} {reg : List HKey} {first : Bool} {k : Ref} {S S' : SState} (hok : FileOk S.h5)
    (hk : Plain (p!"S" ++ k.text))
    (hsafe : ∀ x0 x hdr, S.sdf.getScan k = .ok (some x0) →
      interpretScan env reg ⟨x0, S.sdf.headerOf x0⟩ = (⟨x, hdr⟩, none) →
      RelNames x ∧ RelNames hdr ∧ .scanData ∉ hdr.h5.values)
    (h : saveKey env reg first k S = (S', none)) : KeySaved env reg first k S S' := by
  unfold saveKey at h
  obtain ⟨t, e, h1, h⟩ := run_inv h
  obtain ⟨ch, a, o1, o2, o3, o4, o5⟩ := openEntry_ok hok hk h1
  cases hg : S.sdf.getScan k with
  | error err =>
    simp only [hg, Res.eval] at h
    cases h
  | ok o =>
    simp only [hg, Res.eval] at h
    cases o with
    | none => cases h
    | some x0 =>
      simp only at h
      cases hi : interpretScan env reg ⟨x0, S.sdf.headerOf x0⟩ with
      | mk c err =>
        rw [hi] at h
        simp only at h
        cases err with
        | some err => cases h
        | none =>
          simp only at h
          obtain ⟨x, hdr⟩ := c
          obtain ⟨r1, r2, r3⟩ := hsafe x0 x hdr hg hi
          obtain ⟨t2, y, h2, h⟩ := run_inv h
          simp only at h2 h
          obtain ⟨t3, _, h3, h⟩ := run_inv h
          simp only at h3 h
          have hS' : S' = ⟨(S.sdf.putScan x0.scanNum ⟨x, hdr⟩).putScan y.scanNum ⟨y, hdr⟩, t3⟩ := by
            unfold Res.ok at h
            injection h with h _
            exact h.symm
          subst o3
          have hl0 := lt_of_get? o1
          have htn : t[S.h5.length]? = some (.group [(p!"experiment_description", S.h5.length + 1)] entryAttrs) := by
            rw [o4, List.getElem?_append_right (by simp)]; simp
          have ht0 : t[0]? = some (.group (ch.set (p!"S" ++ k.text) S.h5.length) a) := by
            rw [o4, List.getElem?_append_left (by simpa using hl0), set_get? _ _ _ _ hl0, if_pos rfl]
          have hti : ∀ i, 0 < i → i < S.h5.length → t[i]? = S.h5[i]? := by
            intro i h0 hi
            rw [o4, List.getElem?_append_left (by simpa using hi), set_get? _ _ _ _ hl0, if_neg (by omega)]
          rw [saveScan_eq] at h2
          obtain ⟨t1, _, h4, h5⟩ := HM.bind_inv h2
          rw [addAttributes_eq _ (h := ⟨S.h5.length, [p!"S" ++ k.text]⟩) htn] at h4
          injection h4 with h4 _
          have hAttr : (HNode.group [(p!"experiment_description", S.h5.length + 1)] entryAttrs).withAttrs
            (Dict.update (HNode.group [(p!"experiment_description", S.h5.length + 1)] entryAttrs).attrs (attr1 p!"default" p!"data")) =
            HNode.group [(p!"experiment_description", S.h5.length + 1)]
              [(p!"NX_class", .str p!"NXentry"), (p!"default", .str p!"data")] := rfl
          rw [hAttr] at h4
          have hnl := lt_of_get? htn
          have i1 : H5.Inv (entryScope (p!"S" ++ k.text) S.h5.length) t1 := by
            rw [← h4]; exact o5.attrs htn _
          have e1 : t1[S.h5.length]? = some (.group [(p!"experiment_description", S.h5.length + 1)]
              [(p!"NX_class", .str p!"NXentry"), (p!"default", .str p!"data")]) := by
            rw [← h4, set_get? _ _ _ _ hnl, if_pos rfl]
          have t1i : ∀ i, i ≠ S.h5.length → t1[i]? = t[i]? := by
            intro i hne
            rw [← h4, set_get? _ _ _ _ hnl, if_neg hne]
          have ex1 : t1.length = S.h5.length + 2 := by rw [← h4, o4]; simp
          have ex2 : t1[S.h5.length + 1]? = some experimentNode := by
            rw [t1i _ (by omega), o4, List.getElem?_append_right (by simp)]; simp
          have hok1 : Ok (entryScope (p!"S" ++ k.text) S.h5.length) ⟨S.h5.length, [p!"S" ++ k.text]⟩ :=
            ⟨o5.notD, .inl ⟨rfl, rfl⟩⟩
          obtain ⟨i2, s2, q2⟩ := conf_saveScanRest (fun _ _ h => h) o5.plain hok1 hdr x r2 r1
            (fun _ _ => ⟨fun _ _ h => h, fun _ _ h => h⟩) (fun _ _ => ⟨fun _ _ h => h, fun _ _ h => h⟩) (fun _ _ h => h) t1 i1
          rw [h5] at i2 s2 q2
          obtain ⟨L, hL⟩ := q2 y rfl
          obtain ⟨chE2, k1, _⟩ := s2.keep _ _ e1
          obtain ⟨ch', a', chE, aE, chE', c1, c2, c3, c4, c5, c6, c7, c8, c8', c9⟩ := closeEntry_ok rfl i2 ⟨_, _, k1⟩ h3
          have k1 : t2[S.h5.length]? = some _ := k1
          rw [k1] at c2
          injection c2 with c2
          injection c2 with c2 c2'
          subst c2 c2'
          have hn0 : (0 : Nat) ≠ S.h5.length := by omega
          have h20 : t2[0]? = some (.group (ch.set (p!"S" ++ k.text) S.h5.length) a) := by
            rw [s2.eq 0 hl0, t1i 0 hn0, ht0]
          rw [h20] at c1
          injection c1 with c1
          injection c1 with c1 c1'
          subst c1 c1'
          have hle : S.h5.length < t2.length := i2.elt
          have c4 : t2.length ≤ t3.length := c4
          have c6 : ∀ i, i ≠ 0 → i ≠ S.h5.length → i < t2.length → t3[i]? = t2[i]? := c6
          have hold : ∀ i, 0 < i → i < S.h5.length → t3[i]? = S.h5[i]? := by
            intro i h0 hi
            rw [c6 i (by omega) (by omega) (by omega), s2.eq i hi, t1i i (by omega), hti i h0 hi]
          have hsec : ∀ f N cls attr body, GroupW f N cls attr body → f ∈ x.h5.values → OnlyBy f N x.h5.values →
              N ∉ usedByAdditions → Sectioned (p!"S" ++ k.text) S.h5.length f N cls attr body x y chE' t3 := by
            intro f N cls attr body hf hm ho hN
            obtain ⟨pre, x1, t', y1, chx, ax, p1, p2, p3, p4, p5, p6, p7, p8, p9, p10, p11⟩ :=
              rest_section hf (c := entryScope (p!"S" ++ k.text) S.h5.length) (fun _ h => h) rfl rfl i1 ⟨_, _, e1⟩ r2 r1 ho hN hm h5
            have p9 : t2[S.h5.length]? = some _ := p9
            rw [k1] at p9
            injection p9 with p9
            injection p9 with p9 _
            subst p9
            refine ⟨pre, x1, t', y1, p1, p2, p4, p5, p6, p7, ?_, c8 _ _ p10⟩
            intro i hi1 hi2
            have p6 : S.h5.length < pre.length := p6
            have hlt : i < t2.length := p11.lt i (.inr ⟨hi1, hi2⟩)
            rw [c6 i (by omega) (by omega) hlt, p8 i hi1 hi2]
          rw [hS']
          refine ⟨?_, ?_, hold, ch, a, chE', x0, x, hdr, y, o1, o2, c5, c7, ?_, hg, hi, ⟨L, hL⟩, rfl, ?_,
            ⟨t1, t2, _, _, h5, i1, e1, r2, r1, k1, c8, c8', fun i h1 h2 => c6 i (by omega) (by omega) h2, ex1, ex2⟩, hsec⟩
          · refine ⟨c3.wf, ⟨_, _, c5⟩, ?_⟩
            intro i ch1 a1 hg1 n j hm
            by_cases hin : i < S.h5.length
            · by_cases hi0 : i = 0
              · subst hi0
                rw [show (SState.mk ((S.sdf.putScan x0.scanNum ⟨x, hdr⟩).putScan y.scanNum ⟨y, hdr⟩) t3).h5 = t3 from rfl, c5] at hg1
                injection hg1 with hg1
                injection hg1 with hg1 _
                subst hg1
                rcases Dict.mem_set hm with e | e
                · injection e with _ e; omega
                · exact hok.noRoot 0 ch a o1 n j e
              · exact hok.noRoot i ch1 a1 (by rw [← hold i (by omega) hin]; exact hg1) n j hm
            · intro hj
              have := (c3.closed i hin ch1 a1 hg1 n j hm).2
              rw [hj] at this
              exact (this hl0).2
          · show S.h5.length < t3.length
            omega
          · by_cases hm : .scanData ∈ x.h5.values
            · obtain ⟨pre, x1, t', y1, _, _, p3, p4, p5, p6, p7, p8⟩ :=
                hsec _ _ _ _ _ groupW_data hm (onlyBy_data _) (by decide)
              obtain ⟨V', sg, ax, hv⟩ := saveData_view (pre := pre) (g := ⟨pre.length, [p!"S" ++ k.text, p!"data"]⟩) rfl p4 (View.fresh _ _)
              obtain ⟨chG, hG, _⟩ := hv.node
              refine ⟨pre.length, chG, _, p8, by rw [← hG]; exact p7 _ (Nat.le_refl _) p6, ?_, fun h => absurd hm h⟩
              rw [dataAttrs_class]
              rfl
            · have i1X : H5.Inv { entryScope (p!"S" ++ k.text) S.h5.length with X := fun n => n = p!"data" } t1 :=
                ⟨i1.wf, i1.rootD, i1.notD, i1.plain, i1.entry, i1.lt, i1.elt,
                  fun i hi ch a hg n j hm => ⟨(i1.closed i hi ch a hg n j hm).1,
                    fun hd => absurd ((i1.closed i hi ch a hg n j hm).2 hd).2 (fun h => h)⟩⟩
              have hav : ∀ fs : List H5Fn, .scanData ∉ fs → ∀ f ∈ fs,
                  Avoids { entryScope (p!"S" ++ k.text) S.h5.length with X := fun n => n = p!"data" } f := by
                intro fs hfs f hf
                rcases onlyBy_data fs f hf with e | e
                · exact absurd (e ▸ hf) hfs
                · exact ⟨fun n hn (e2 : n = p!"data") => e.1 (e2 ▸ hn), fun e2 i h => e.2 e2 i h⟩
              obtain ⟨_, sx, _⟩ := conf_saveScanRest
                (c := { entryScope (p!"S" ++ k.text) S.h5.length with X := fun n => n = p!"data" })
                (by intro n hn (e : n = p!"data"); revert hn; rw [e]; decide) o5.plain
                (e := ⟨S.h5.length, [p!"S" ++ k.text]⟩) ⟨o5.notD, .inl ⟨rfl, rfl⟩⟩ hdr x r2 r1
                (hav _ r3) (hav _ hm) (by intro n hn (e : n = p!"data"); revert hn; rw [e]; decide) t1 i1X
              rw [h5] at sx
              obtain ⟨chX, kx1, kx2⟩ := sx.keep _ _ e1
              have kx1 : t2[S.h5.length]? = some _ := kx1
              rw [k1] at kx1
              injection kx1 with kx1
              injection kx1 with kx1 _
              have hnone : chE2.get? p!"data" = none := by
                rw [kx1, kx2 _ rfl]; rfl
              obtain ⟨g, g1, g2⟩ := c9 (by simp [Dict.has, hnone])
              obtain ⟨i, j, g3, _⟩ := id g2
              exact ⟨g, _, _, g1, g3, rfl, fun _ => g2⟩
          · intro hm
            exact rest_same hm h5

end
end S2N
