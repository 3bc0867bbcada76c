import Verif.Lemmas.SaveRead
import Verif.Props.Refresh
/-
C40, C41, C43, C45: the file that `Writer.save` writes.
-/
namespace S2N.Props
open S2N S2N.Py S2N.Spec
open Writer Eznx

section
variable [UniDB]

theorem plain_entry {k : Ref} (h : PlainText k.text) : H5.Plain (p!"S" ++ k.text) := by
  refine ⟨by simp, ?_, ?_⟩
  · intro e
    have := congrArg List.head? e
    simp at this
  · intro c hc
    rcases List.mem_append.1 hc with h1 | h1
    · have : c = 'S' := by simpa using h1
      subst this
      decide
    · exact h c h1

theorem Savable.ok {s : Sdf} (h : Savable s) : SdfOk s := ⟨h.safe, h.named⟩

/-! ## C40: one entry per scan -/

omit [UniDB] in
theorem rootAttributes_default {v : Versions} {s : Sdf} {a : Dict AVal} (h : rootAttributes v s = .ok a) :
    (Dict.update [] a).get? p!"default" = none := by
  unfold rootAttributes at h
  split at h
  · cases h
  · split at h
    · split at h
      · cases h
      · injection h with h
        subst h
        split <;> rfl
    · cases h

/-- C40: if `save(file, [n1, ...])` returns, then the root group has exactly the entries `S<n1>`, ... in
this order, all different; `default` names the first; every entry is an NXentry with an NXdata group
`data`, which is its default; and every number named a scan of the file. -/
theorem C40_entries {env : Env} {reg : List HKey} (hr : reg.Perm HKey.all) (hx : SchemaNames env) {v : Versions}
    {ks : List Ref} {s : Sdf} {r : SState} (hs : Savable s) (hk : ∀ k ∈ ks, PlainText k.text)
    (h : save env reg v ks s = (r, none)) :
    childrenAt r.h5 [] = ks.map entryName ∧ (ks.map entryName).Nodup ∧
    attrAt r.h5 [] p!"default" = ks.head?.map (fun k => .str (entryName k)) ∧
    ∀ k ∈ ks, attrAt r.h5 [entryName k] p!"NX_class" = some (.str p!"NXentry") ∧
      attrAt r.h5 [entryName k] p!"default" = some (.str p!"data") ∧
      attrAt r.h5 [entryName k, p!"data"] p!"NX_class" = some (.str p!"NXdata") ∧
      ∃ x, s.getScan k = .ok (some x) := by
  obtain ⟨h1, h2, h3, ⟨ch, a, a0, h4, h5, h6, h7⟩, h8⟩ := save_ok hr hx (Savable.ok hs)
    (fun k hk' => plain_entry (hk k hk')) h
  have hroot : objAt r.h5 [] = some (.group ch a) := h5
  refine ⟨?_, ?_, ?_, ?_⟩
  · unfold childrenAt; rw [hroot]; exact h7
  · have := (h1.wf _ _ _ h5).1
    rw [h7] at this
    exact this
  · unfold attrAt
    rw [hroot]
    show a.get? _ = _
    rw [h6]
    cases ks with
    | nil =>
      exact rootAttributes_default h4
    | cons k ks => exact Dict.get?_set_self ..
  · intro k hk'
    obtain ⟨n, x, y, z, e, chE, en⟩ := h8 k hk'
    obtain ⟨g, chG, aG, d1, d2, d3, d4⟩ := en.data
    have ho : objAt r.h5 [entryName k] = some (.group chE [(p!"NX_class", .str p!"NXentry"), (p!"default", .str p!"data")]) := by
      unfold objAt entryName; rw [en.walk]; exact en.entry
    have ho2 : objAt r.h5 [entryName k, p!"data"] = some (.group chG aG) := by
      unfold objAt entryName; rw [en.walk, walk_one en.entry d1]; exact d3
    refine ⟨?_, ?_, ?_, ?_⟩
    · unfold attrAt; rw [ho]; rfl
    · unfold attrAt; rw [ho]; rfl
    · unfold attrAt; rw [ho2]; exact d4
    · have hnm : n ∈ s.scans.keys := by
        rw [← h3]; exact List.mem_map.2 ⟨_, Dict.mem_of_get? en.now, rfl⟩
      obtain ⟨x', hx'⟩ := Option.isSome_iff_exists.1 (show (s.scans.get? n).isSome = true from (Dict.has_iff_mem _ _).2 hnm)
      exact ⟨x', by rw [en.key s h3.symm, hx']⟩

/-! ## C41, C45: columns, signal and axes -/

/-- the attributes of the group `data` before `save_data` -/
def dataGroup : Dict AVal := [(p!"NX_class", .str p!"NXdata"), (p!"description", .str p!"SPEC scan data")]

theorem mem_values_get {α : Type} {d : Dict α} {k : Str} {v : α} (h : d.get? k = some v) : v ∈ d.values :=
  List.mem_map.2 ⟨_, Dict.mem_of_get? h, rfl⟩

/-- the group `data` as `save_data` left it -/
theorem data_section {k : Ref} {S : SState} {m : Str} {x y z : Obj} {e : Nat} {chE : Dict Nat}
    (h : EntryOf k S m x y z e chE) (hd : x.data ≠ []) :
    ∃ pre t, AtGroup pre ⟨pre.length, [entryName k, p!"data"]⟩ ∧
      saveData ⟨pre.length, [entryName k, p!"data"]⟩ x (pre ++ [.group [] dataGroup]) = (t, .ok y) ∧
      (∀ V A, S2N.View pre V A t → childrenAt S.h5 [entryName k, p!"data"] = Dict.keys V ∧
        (∀ a, attrAt S.h5 [entryName k, p!"data"] a = A.get? a) ∧
        ∀ n, datasetAt S.h5 [entryName k, p!"data", n] = Dict.get? V n) := by
  obtain ⟨pre, x1, t, y1, _, _, h1, h2, h3, h4, h5, h6⟩ :=
    h.sections _ _ _ _ _ groupW_data (mem_values_get (h.dscan.data hd)) (onlyBy_data _) (by decide)
  obtain ⟨rfl, rfl⟩ := h1 rfl
  refine ⟨pre, t, rfl, h2, fun V A hv => ?_⟩
  obtain ⟨a1, _, a3, a4⟩ := h.read hv h5 h6
  exact ⟨a1, a3, a4⟩

omit [UniDB] in
theorem dataAttrs_get (sg ax : Str) (A : Dict AVal) :
    ((dataAttrs sg ax).foldl Dict.update A).get? p!"signal" = some (.str sg) ∧
    ((dataAttrs sg ax).foldl Dict.update A).get? p!"axes" =
      some (if ax.contains ':' then .strs ((splitC ':' ax).map ascii) else .str ax) ∧
    (ax.contains ':' = false → ((dataAttrs sg ax).foldl Dict.update A).get? (ax ++ p!"_indices") = some (.nums [.int 0])) ∧
    (ax.contains ':' = true → ∀ n ∈ (splitC ':' ax).map ascii,
      ((dataAttrs sg ax).foldl Dict.update A).get? (n ++ p!"_indices") = some (.nums [.int 0])) := by
  have hset : ∀ (A : Dict AVal) (k k' : Str) (v : AVal), k ≠ k' →
      (A.update [(k, v)]).get? k' = A.get? k' := by
    intro A k k' v hk
    rw [Dict.update_cons, Dict.update_nil, Dict.get?_set_ne _ _ hk]
  have hi : ∀ n k : Str, k.getLast? ≠ some 's' ∨ k = p!"axes" → n ++ p!"_indices" ≠ k := by
    intro n k hk hn
    rcases hk with hk | hk
    · rw [← hn] at hk
      simp at hk
    · have := congrArg List.reverse (hn.trans hk)
      simp at this
  have hl : ∀ (k : Str) (_ : k.getLast? ≠ some 's' ∨ k = p!"axes") (ns : List Str) (A : Dict AVal),
      ((ns.map (fun n => [(n ++ p!"_indices", AVal.nums [.int 0])])).foldl Dict.update A).get? k =
        A.get? k := by
    intro k hk ns
    induction ns with
    | nil => intro A; rfl
    | cons n ns ih =>
      intro A
      rw [List.map_cons, List.foldl_cons, ih, hset _ _ _ _ (hi n k hk)]
  have hin : ∀ (ns : List Str) (A : Dict AVal) (n : Str),
      n ∈ ns ∨ A.get? (n ++ p!"_indices") = some (AVal.nums [.int 0]) →
      ((ns.map (fun n => [(n ++ p!"_indices", AVal.nums [.int 0])])).foldl Dict.update A).get? (n ++ p!"_indices") =
        some (.nums [.int 0]) := by
    intro ns
    induction ns with
    | nil => intro A n h; rcases h with h | h; cases h; exact h
    | cons m ns ih =>
      intro A n h
      rw [List.map_cons, List.foldl_cons]
      refine ih _ n ?_
      by_cases hm : m = n
      · subst hm
        right
        rw [Dict.update_cons, Dict.update_nil, Dict.get?_set_self]
      · rcases h with h | h
        · rcases List.mem_cons.1 h with h | h
          · exact absurd h.symm hm
          · exact .inl h
        · right
          rw [hset _ _ _ _ (fun e => hm (List.append_cancel_right e))]
          exact h
  have s1 : ∀ (A : Dict AVal) (u v : AVal), (A.update [(p!"signal", u), (p!"axes", v)]).get? p!"signal" = some u := by
    intro A u v
    rw [Dict.update_cons, Dict.update_cons, Dict.update_nil, Dict.get?_set_ne _ _ (show p!"axes" ≠ p!"signal" by decide),
      Dict.get?_set_self]
  have s2 : ∀ (A : Dict AVal) (u v : AVal), (A.update [(p!"signal", u), (p!"axes", v)]).get? p!"axes" = some v := by
    intro A u v
    rw [Dict.update_cons, Dict.update_cons, Dict.update_nil, Dict.get?_set_self]
  have n1 : p!"signal".getLast? ≠ some 's' ∨ p!"signal" = p!"axes" := .inl (by decide)
  have n2 : p!"axes".getLast? ≠ some 's' ∨ p!"axes" = p!"axes" := .inr rfl
  unfold dataAttrs
  cases hc : ax.contains ':' with
  | true =>
    simp only [if_true, List.foldl_cons]
    refine ⟨?_, ?_, fun h => (by cases h), fun _ n hn => hin _ _ n (.inl hn)⟩
    · rw [hl _ n1, s1]
    · rw [hl _ n2, s2]
  | false =>
    simp only [Bool.false_eq_true, if_false, List.foldl_cons, List.foldl_nil]
    refine ⟨?_, ?_, fun _ => ?_, fun h => (by cases h)⟩
    · rw [hset _ _ _ _ (hi ax _ n1), s1]
    · rw [hset _ _ _ _ (hi ax _ n2), s2]
    · rw [Dict.update_cons, Dict.update_nil, Dict.get?_set_self]

theorem clean_no_colon {l n : Str} (h : cleanName l = .ok n) : n.contains ':' = false := by
  have hv := (C32_valid l n h).1
  cases hc : n.contains ':' with
  | false => rfl
  | true =>
    have := hv ':' (by simpa using hc)
    exact absurd this (by rw [show isWord ':' = false from rfl]; simp)

theorem notMesh_of {x : Obj} (h : NotBy x meshMacros) : NotMesh x := by
  intro m ws hw hm
  exact h m hm (by unfold macroOf; rw [hw]; rfl)

/-- the entry of a scan that is no mesh, in terms of the scan as it is afterwards -/
theorem entry_of {env : Env} {reg : List HKey} (hr : reg.Perm HKey.all) (hx : SchemaNames env) {v : Versions}
    {ks : List Ref} {s : Sdf} {r : SState} (hs : Savable s) (hk : ∀ k ∈ ks, PlainText k.text)
    (h : save env reg v ks s = (r, none)) {k : Ref} (hm : k ∈ ks) {z : Obj} (hz : r.sdf.getScan k = .ok (some z)) :
    ∃ n x y e chE, EntryOf k r n x y z e chE := by
  obtain ⟨_, _, _, _, h8⟩ := save_ok hr hx (Savable.ok hs) (fun k hk' => plain_entry (hk k hk')) h
  obtain ⟨n, x, y, z', e, chE, en⟩ := h8 k hm
  rw [en.key _ rfl, en.now] at hz
  injection hz with hz
  injection hz with hz
  subst hz
  exact ⟨n, x, y, e, chE, en⟩

theorem entry_of_notMesh {k : Ref} {r : SState} {n : Str} {x y z : Obj} {e : Nat} {chE : Dict Nat}
    (en : EntryOf k r n x y z e chE) (h : NotBy z meshMacros) : z = x := by
  refine en.same (notMesh_of ?_)
  obtain ⟨L, hL⟩ := en.z_eq
  rw [hL] at h
  exact h

omit [UniDB] in
theorem mcaOf_spectra (x : Obj) : (spectra x).Perm (mcaOf x) := by
  unfold spectra mcaOf
  cases x.data.get? p!"_mca_" with
  | none => exact .refl _
  | some c =>
    cases c with
    | col _ => exact .refl _
    | mca m => exact sortBy_perm _ _

omit [UniDB] in
theorem spectrumOps_label {x : Obj} {axis : Str} {kv : Str × List (List Num)} {o : DsOp}
    (h : o ∈ spectrumOps x axis kv) : o.1 ∈ mcaLabels kv.1 := by
  unfold spectrumOps at h
  simp only [List.mem_cons, List.not_mem_nil, or_false] at h
  unfold mcaLabels
  rcases h with rfl | rfl | rfl <;> simp

/-- the run of `save_data` for a scan that is no mesh -/
theorem oneD_section {k : Ref} {r : SState} {m : Str} {x y : Obj} {e : Nat} {chE : Dict Nat}
    (h : EntryOf k r m x y x e chE) (hn : NotBy x meshMacros) (hd : x.data ≠ []) :
    ∃ w ws sg ax0 ax qs, splitWs x.scanCmd = w :: ws ∧
      (∀ l ∈ x.L.getD [], ∃ xs, x.data.get? l = some (.col xs)) ∧
      (∃ l, x.columnLast = some l ∧ cleanName l = .ok sg) ∧
      (∃ l, x.columnFirst = some l ∧ cleanName l = .ok ax0) ∧
      (if w ∈ hklMacros then hklAxes x.scanCmd = .ok ax else ax = ax0) ∧
      List.Forall₂ OpPut (oneDOps x ax0) qs ∧
      childrenAt r.h5 [entryName k, p!"data"] = Dict.keys (Sets.puts [] qs) ∧
      (∀ a, attrAt r.h5 [entryName k, p!"data"] a = ((dataAttrs sg ax).foldl Dict.update dataGroup).get? a) ∧
      ∀ n, datasetAt r.h5 [entryName k, p!"data", n] = Dict.get? (Sets.puts [] qs) n := by
  obtain ⟨pre, t, hat, h1, h2⟩ := data_section h hd
  obtain ⟨w, ws, hw, h3⟩ := saveData_run h1
  have hnm := notMesh_of hn w ws hw
  have hv0 := S2N.View.fresh pre dataGroup
  unfold kindOf at h3
  rw [if_neg hnm] at h3
  by_cases hh : w ∈ hklMacros
  · rw [if_pos (show w ∈ [p!"hscan", p!"kscan", p!"lscan", p!"hklscan"] from hh)] at h3
    obtain ⟨_, sg, ax0, ax, t1, h4, h5, h6⟩ := h3
    obtain ⟨a1, a2, a3, a4⟩ := oneD_eff hat h4
    obtain ⟨qs, a5, a6⟩ := a4 _ _ hv0
    obtain ⟨b1, b2, b3⟩ := h2 _ _ (dataAttributes_eff hat a6 h6)
    exact ⟨w, ws, sg, ax0, ax, qs, hw, a1, a2, a3, by rw [if_pos hh]; exact h5, a5, b1, b2, b3⟩
  · rw [if_neg (show w ∉ [p!"hscan", p!"kscan", p!"lscan", p!"hklscan"] from hh)] at h3
    obtain ⟨_, sg, ax0, t1, h4, h6⟩ := h3
    obtain ⟨a1, a2, a3, a4⟩ := oneD_eff hat h4
    obtain ⟨qs, a5, a6⟩ := a4 _ _ hv0
    obtain ⟨b1, b2, b3⟩ := h2 _ _ (dataAttributes_eff hat a6 h6)
    exact ⟨w, ws, sg, ax0, ax0, qs, hw, a1, a2, a3, by rw [if_neg hh], a5, b1, b2, b3⟩

/-- C41: after `save` returned, every column of a scan that is no mesh (and that has data) is in the
group `data` of its entry: under its cleaned name, with exactly its values, and with its label as
`spec_name`; provided that no other dataset of the scan has the same cleaned name. -/
theorem C41_columns {env : Env} {reg : List HKey} (hr : reg.Perm HKey.all) (hx : SchemaNames env) {v : Versions}
    {ks : List Ref} {s : Sdf} {r : SState} (hs : Savable s) (hk : ∀ k ∈ ks, PlainText k.text)
    (h : save env reg v ks s = (r, none)) {k : Ref} (hm : k ∈ ks) {z : Obj} (hz : r.sdf.getScan k = .ok (some z))
    (hn : NotBy z meshMacros) (hd : z.data ≠ []) {label : Str} (hl : label ∈ z.L.getD []) (ho : OwnName z label) :
    ∃ n xs a, cleanName label = .ok n ∧ z.data.get? label = some (.col xs) ∧
      datasetAt r.h5 [entryName k, p!"data", n] = some (.nums ⟨xs.map .flt, [xs.length]⟩, a) ∧
      a.get? p!"spec_name" = some (.str label) := by
  obtain ⟨m, x, y, e, chE, en⟩ := entry_of hr hx hs hk h hm hz
  have hzx := entry_of_notMesh en hn
  subst hzx
  obtain ⟨w, ws, sg, ax0, ax, qs, hw, h1, h2, h3, h4, h5, h6, h7, h8⟩ := oneD_section en hn hd
  obtain ⟨xs, hxs⟩ := h1 label hl
  have hop : columnOp z label ∈ oneDOps z ax0 :=
    List.mem_append_left _ (List.mem_map.2 ⟨label, hl, rfl⟩)
  obtain ⟨n, d, g1, g2, g3⟩ := put_of_op h5 hop (fun o' ho' he => by
    rcases List.mem_append.1 ho' with h9 | h9
    · obtain ⟨l', hl', rfl⟩ := List.mem_map.1 h9
      rw [show l' = label from ho.columns l' hl' he]
    · obtain ⟨kv, hkv, h10⟩ := List.mem_flatMap.1 h9
      exact absurd he (ho.spectra kv.1 (List.mem_map.2 ⟨kv, (mcaOf_spectra z).mem_iff.1 hkv, rfl⟩) o'.1
        (spectrumOps_label h10))) (V := []) (by simp [Dict.keys])
  have hval : colValues z label = xs := by unfold colValues; rw [hxs]
  have hd2 : d = .nums ⟨xs.map .flt, [xs.length]⟩ := by
    have : (columnOp z label).2.1 = flts xs := by unfold columnOp; rw [hval]
    rw [this] at g2
    unfold flts PData.toH at g2
    injection g2 with g2
    rw [← g2, unify_flt]
    simp
  refine ⟨n, xs, _, g1, hxs, by rw [h8, g3, hd2], ?_⟩
  rfl

/-- C41: ... and the group `data` has the attributes `signal`, the cleaned name of the last column, and
`axes`, the cleaned name of the first column, unless the scan is one in reciprocal space (C45). -/
theorem C41_signal_axes {env : Env} {reg : List HKey} (hr : reg.Perm HKey.all) (hx : SchemaNames env) {v : Versions}
    {ks : List Ref} {s : Sdf} {r : SState} (hs : Savable s) (hk : ∀ k ∈ ks, PlainText k.text)
    (h : save env reg v ks s = (r, none)) {k : Ref} (hm : k ∈ ks) {z : Obj} (hz : r.sdf.getScan k = .ok (some z))
    (hn : NotBy z meshMacros) (hd : z.data ≠ []) :
    ∃ first last sg ax, z.columnFirst = some first ∧ z.columnLast = some last ∧
      cleanName last = .ok sg ∧ cleanName first = .ok ax ∧
      attrAt r.h5 [entryName k, p!"data"] p!"signal" = some (.str sg) ∧
      (NotBy z hklMacros → attrAt r.h5 [entryName k, p!"data"] p!"axes" = some (.str ax) ∧
        attrAt r.h5 [entryName k, p!"data"] (ax ++ p!"_indices") = some (.nums [.int 0])) := by
  obtain ⟨m, x, y, e, chE, en⟩ := entry_of hr hx hs hk h hm hz
  have hzx := entry_of_notMesh en hn
  subst hzx
  obtain ⟨w, ws, sg, ax0, ax, qs, hw, h1, ⟨cl, h2, h2'⟩, ⟨cf, h3, h3'⟩, h4, h5, h6, h7, h8⟩ := oneD_section en hn hd
  obtain ⟨d1, d2, d3, _⟩ := dataAttrs_get sg ax dataGroup
  refine ⟨cf, cl, sg, ax0, h3, h2, h2', h3', by rw [h7, d1], fun hnh => ?_⟩
  have hh : w ∉ hklMacros := fun hh => hnh w hh (by unfold macroOf; rw [hw]; rfl)
  rw [if_neg hh] at h4
  subst h4
  have hc := clean_no_colon h3'
  rw [h7, h7, d2, d3 hc, hc]
  exact ⟨rfl, rfl⟩

/-- C45: the attribute `axes` of an hscan, kscan, lscan or hklscan names those of H, K, L whose start
and end differ in the command of the scan (it is the empty text if none does). -/
theorem C45_axes {env : Env} {reg : List HKey} (hr : reg.Perm HKey.all) (hx : SchemaNames env) {v : Versions}
    {ks : List Ref} {s : Sdf} {r : SState} (hs : Savable s) (hk : ∀ k ∈ ks, PlainText k.text)
    (h : save env reg v ks s = (r, none)) {k : Ref} (hm : k ∈ ks) {z : Obj} (hz : r.sdf.getScan k = .ok (some z))
    (hd : z.data ≠ []) {w : Str} (hw : macroOf z = some w) (hh : w ∈ hklMacros) :
    ∃ h0 hN k0 kN l0 lN rest, splitWs z.scanCmd = w :: h0 :: hN :: k0 :: kN :: l0 :: lN :: rest ∧
      attrAt r.h5 [entryName k, p!"data"] p!"axes" =
        some (axesAttr (moving [(p!"H", h0, hN), (p!"K", k0, kN), (p!"L", l0, lN)])) := by
  have hn : NotBy z meshMacros := by
    intro m hm' e
    rw [hw] at e
    injection e with e
    subst e
    revert hm' hh
    unfold hklMacros meshMacros
    intro hh hm'
    simp only [List.mem_cons, List.not_mem_nil, or_false] at hh hm'
    rcases hm' with rfl | rfl <;> exact absurd hh (by decide)
  obtain ⟨m, x, y, e, chE, en⟩ := entry_of hr hx hs hk h hm hz
  have hzx := entry_of_notMesh en hn
  subst hzx
  obtain ⟨w', ws, sg, ax0, ax, qs, hw', h1, _, _, h4, h5, h6, h7, h8⟩ := oneD_section en hn hd
  have : w' = w := by
    unfold macroOf at hw
    rw [hw'] at hw
    injection hw
  subst this
  rw [if_pos hh] at h4
  obtain ⟨_, d2, _, _⟩ := dataAttrs_get sg ax dataGroup
  unfold hklAxes at h4
  rw [hw'] at h4
  split at h4
  · rename_i h0 hN k0 kN l0 lN heq
    injection h4 with h4
    have hws : ws = h0 :: hN :: k0 :: kN :: l0 :: lN :: ws.drop 6 := by
      have := List.take_append_drop 6 ws
      rw [show ws.take 6 = [h0, hN, k0, kN, l0, lN] from heq] at this
      exact this.symm
    refine ⟨h0, hN, k0, kN, l0, lN, ws.drop 6, by rw [hw', ← hws], ?_⟩
    rw [h7, d2, ← h4]
    by_cases e1 : h0 = hN <;> by_cases e2 : k0 = kN <;> by_cases e3 : l0 = lN <;>
      simp only [e1, e2, e3, ne_eq, not_true_eq_false, if_true, if_false, not_false_eq_true, moving, List.filter, decide_true,
        decide_false] <;> rfl
  · cases h4

omit [UniDB] in
theorem keys_puts (qs : Sets) : ∀ (V : Sets) (n : Str), n ∈ Dict.keys (V.puts qs) → n ∈ Dict.keys V ∨ ∃ q ∈ qs, q.1 = n := by
  induction qs with
  | nil => intro V n h; exact .inl h
  | cons q qs ih =>
    intro V n h
    rcases ih _ n (show n ∈ Dict.keys (Sets.puts (V.put q.1 q.2.1 q.2.2) qs) from h) with h1 | ⟨q', h1, h2⟩
    · have : Dict.keys (Sets.put V q.1 q.2.1 q.2.2) = Dict.keys (Dict.del V q.1) ++ [q.1] := by
        unfold Sets.put; simp [Dict.keys]
      rw [this] at h1
      rcases List.mem_append.1 h1 with h2 | h2
      · rw [Dict.keys_del] at h2
        exact .inl (List.mem_of_mem_erase h2)
      · exact .inr ⟨q, by simp, (List.mem_singleton.1 h2).symm⟩
    · exact .inr ⟨q', by simp [h1], h2⟩

theorem op_of_put {ops : List DsOp} {qs : Sets} (h : List.Forall₂ OpPut ops qs) : ∀ q ∈ qs, ∃ o ∈ ops, OpPut o q := by
  induction h with
  | nil => intro q hq; cases hq
  | cons h1 h2 ih =>
    intro q hq
    rcases List.mem_cons.1 hq with rfl | hq
    · exact ⟨_, by simp, h1⟩
    · obtain ⟨o, a, b⟩ := ih q hq
      exact ⟨o, by simp [a], b⟩

/-- C41: ... and there is nothing else in the group `data`: every member has the cleaned name of a
column or of a label of a spectrum. -/
theorem C41_nothing_else {env : Env} {reg : List HKey} (hr : reg.Perm HKey.all) (hx : SchemaNames env) {v : Versions}
    {ks : List Ref} {s : Sdf} {r : SState} (hs : Savable s) (hk : ∀ k ∈ ks, PlainText k.text)
    (h : save env reg v ks s = (r, none)) {k : Ref} (hm : k ∈ ks) {z : Obj} (hz : r.sdf.getScan k = .ok (some z))
    (hn : NotBy z meshMacros) (hd : z.data ≠ []) {n : Str} (hc : n ∈ childrenAt r.h5 [entryName k, p!"data"]) :
    ∃ l ∈ z.L.getD [] ++ (mcaOf z).keys.flatMap mcaLabels, cleanName l = .ok n := by
  obtain ⟨m, x, y, e, chE, en⟩ := entry_of hr hx hs hk h hm hz
  have hzx := entry_of_notMesh en hn
  subst hzx
  obtain ⟨w, ws, sg, ax0, ax, qs, hw, h1, h2, h3, h4, h5, h6, h7, h8⟩ := oneD_section en hn hd
  rw [h6] at hc
  rcases keys_puts _ _ _ hc with h9 | ⟨q, h9, h10⟩
  · simp [Dict.keys] at h9
  · obtain ⟨o, ho, hp⟩ := op_of_put h5 q h9
    refine ⟨o.1, ?_, by rw [hp.1, h10]⟩
    rcases List.mem_append.1 ho with h11 | h11
    · obtain ⟨l', hl', rfl⟩ := List.mem_map.1 h11
      exact List.mem_append_left _ hl'
    · obtain ⟨kv, hkv, h12⟩ := List.mem_flatMap.1 h11
      exact List.mem_append_right _ (List.mem_flatMap.2 ⟨kv.1,
        List.mem_map.2 ⟨kv, (mcaOf_spectra z).mem_iff.1 hkv, rfl⟩, spectrumOps_label h12⟩)

/-! ## C43: spectra -/

omit [UniDB] in
theorem nodup_map_inj {α β : Type} {f : α → β} {l : List α} (h : (l.map f).Nodup) {a b : α} (ha : a ∈ l) (hb : b ∈ l)
    (e : f a = f b) : a = b := by
  induction l with
  | nil => cases ha
  | cons c l ih =>
    rw [List.map_cons, List.nodup_cons] at h
    rcases List.mem_cons.1 ha with ha' | ha' <;> rcases List.mem_cons.1 hb with hb' | hb'
    · rw [ha', hb']
    · subst ha'
      exact absurd (e ▸ List.mem_map.2 ⟨b, hb', rfl⟩) h.1
    · subst hb'
      exact absurd (e ▸ List.mem_map.2 ⟨a, ha', rfl⟩) h.1
    · exact ih h.2 ha' hb'

omit [UniDB] in
theorem mcaLabels_inj {k k' l : Str} (h : l ∈ mcaLabels k) (h' : l ∈ mcaLabels k') (hk : k ≠ k')
    {β : Type} {f : Str → β} {ks : List Str} (hm : k ∈ ks) (hm' : k' ∈ ks) (hn : ((ks.flatMap mcaLabels).map f).Nodup) : False := by
  have hn' : (ks.flatMap mcaLabels).Nodup := List.Nodup.of_map _ hn
  clear hn
  induction ks with
  | nil => cases hm
  | cons c ks ih =>
    rw [List.flatMap_cons, List.nodup_append] at hn'
    obtain ⟨_, h2, h3⟩ := hn'
    rcases List.mem_cons.1 hm with e1 | e1 <;> rcases List.mem_cons.1 hm' with e2 | e2
    · exact hk (e1.trans e2.symm)
    · exact h3 l (e1 ▸ h) l (List.mem_flatMap.2 ⟨k', e2, h'⟩) rfl
    · exact h3 l (e2 ▸ h') l (List.mem_flatMap.2 ⟨k, e1, h⟩) rfl
    · exact ih e1 e2 h2

/-- the three datasets of a detector -/
theorem spectrum_stored {k : Ref} {r : SState} {m : Str} {x y : Obj} {e : Nat} {chE : Dict Nat}
    (h : EntryOf k r m x y x e chE) (hn : NotBy x meshMacros) (hd : x.data ≠ []) (ho : OwnSpectra x)
    {key : Str} {rows : List (List Num)} (hk : (mcaOf x).get? key = some rows) :
    ∃ ax0, ∀ o ∈ spectrumOps x ax0 (key, rows), ∃ n d a, cleanName o.1 = .ok n ∧ o.2.1.toH = .ok d ∧
      datasetAt r.h5 [entryName k, p!"data", n] = some (d, a) := by
  obtain ⟨w, ws, sg, ax0, ax, qs, hw, h1, h2, h3, h4, h5, h6, h7, h8⟩ := oneD_section h hn hd
  refine ⟨ax0, fun o hop => ?_⟩
  have hmem := Dict.mem_of_get? hk
  have hkey : key ∈ (mcaOf x).keys := List.mem_map.2 ⟨_, hmem, rfl⟩
  have hop' : o ∈ oneDOps x ax0 :=
    List.mem_append_right _ (List.mem_flatMap.2 ⟨(key, rows), (mcaOf_spectra x).mem_iff.2 hmem, hop⟩)
  have hlab := spectrumOps_label hop
  obtain ⟨n, d, g1, g2, g3⟩ := put_of_op h5 hop' (fun o' ho' he => by
    rcases List.mem_append.1 ho' with h9 | h9
    · obtain ⟨l', hl', rfl⟩ := List.mem_map.1 h9
      exact absurd he (ho.columns key hkey o.1 hlab l' hl')
    · obtain ⟨kv, hkv, h10⟩ := List.mem_flatMap.1 h9
      have hkv' := (mcaOf_spectra x).mem_iff.1 hkv
      have hkey' : kv.1 ∈ (mcaOf x).keys := List.mem_map.2 ⟨kv, hkv', rfl⟩
      have hlab' := spectrumOps_label h10
      have heq : o'.1 = o.1 := nodup_map_inj ho.spectra (List.mem_flatMap.2 ⟨_, hkey', hlab'⟩)
        (List.mem_flatMap.2 ⟨_, hkey, hlab⟩) he
      have hkk : kv.1 = key := by
        by_contra hne
        exact mcaLabels_inj (heq ▸ hlab') hlab hne hkey' hkey ho.spectra
      have hkv2 : kv = (key, rows) := by
        obtain ⟨k1, v1⟩ := kv
        simp only at hkk
        subst hkk
        have := (Dict.mem_iff_get? _ ho.keys k1 v1).1 hkv'
        rw [hk] at this
        injection this with this
        rw [this]
      subst hkv2
      have hops : (spectrumOps x ax0 (key, rows)).map (·.1) = mcaLabels key := by
        simp [spectrumOps, mcaLabels]
      refine nodup_map_inj (f := (·.1)) ?_ h10 hop heq
      rw [hops]
      unfold mcaLabels
      simp)
    (V := []) (by simp [Dict.keys])
  exact ⟨n, d, _, g1, g2, by rw [h8, g3]⟩

omit [UniDB] in
theorem unify_toFlt (l : List Num) : (unify l).map Num.toFlt = l.map Num.toFlt := by
  unfold unify
  split
  · simp [Num.toFlt]
  · rfl

/-- C43: the spectra of a scan that is no mesh, with a calibration `#@CALIB a b c` that is not zero:
the spectra are stored with their values, one row for each, the channel numbers are 1, 2, ..., and the
scaled axis is `a + k (b + k c)` for the channels `k` = 1, 2, ...; provided that the datasets of the
scan have different names. -/
theorem C43_calibrated {env : Env} {reg : List HKey} (hr : reg.Perm HKey.all) (hx : SchemaNames env) {v : Versions}
    {ks : List Ref} {s : Sdf} {r : SState} (hs : Savable s) (hk : ∀ k ∈ ks, PlainText k.text)
    (h : save env reg v ks s = (r, none)) {k : Ref} (hm : k ∈ ks) {z : Obj} (hz : r.sdf.getScan k = .ok (some z))
    (hn : NotBy z meshMacros) (hd : z.data ≠ []) (ho : OwnSpectra z) {key : Str} {row : List Num} {rows : List (List Num)}
    (hkey : (mcaOf z).get? key = some (row :: rows)) {mca : McaInfo} (hmca : z.mca = some mca) {a b c : PyFloat}
    (hcal : mca.calib = some (a, b, c)) (h0 : ¬ (a = .fin 0 ∧ b = .fin 0 ∧ c = .fin 0)) :
    ∃ n1 n2 n3, cleanName (p!"_" ++ key ++ p!"_") = .ok n1 ∧ cleanName (p!"_" ++ key ++ p!"_channel_") = .ok n2 ∧
      cleanName (p!"_" ++ key ++ p!"_channel_scaled_x") = .ok n3 ∧
      (∃ vals at1, datasetAt r.h5 [entryName k, p!"data", n1] =
        some (.nums ⟨vals, [rows.length + 1, row.length]⟩, at1) ∧ vals.map Num.toFlt = (row :: rows).flatten.map Num.toFlt) ∧
      (∃ at2, datasetAt r.h5 [entryName k, p!"data", n2] =
        some (.nums ⟨(List.range row.length).map (fun i : Nat => .int ((i : Int) + 1)), [row.length]⟩, at2)) ∧
      (∃ at3, datasetAt r.h5 [entryName k, p!"data", n3] =
        some (.nums ⟨(List.range row.length).map (fun i : Nat => .flt (PyFloat.add a (PyFloat.mul (.fin ((i : Rat) + 1))
          (PyFloat.add b (PyFloat.mul (.fin ((i : Rat) + 1)) c))))), [row.length]⟩, at3)) := by
  obtain ⟨m, x, y, e, chE, en⟩ := entry_of hr hx hs hk h hm hz
  have hzx := entry_of_notMesh en hn
  subst hzx
  obtain ⟨ax0, hops⟩ := spectrum_stored en hn hd ho hkey
  obtain ⟨n1, d1, a1, c1, t1, g1⟩ := hops _ (List.mem_cons_self ..)
  obtain ⟨n2, d2, a2, c2, t2, g2⟩ := hops _ (List.mem_cons_of_mem _ (List.mem_cons_self ..))
  obtain ⟨n3, d3, a3, c3, t3, g3⟩ := hops _ (List.mem_cons_of_mem _ (List.mem_cons_of_mem _ (List.mem_cons_self ..)))
  refine ⟨n1, n2, n3, c1, ?_, ?_, ⟨unify (row :: rows).flatten, a1, ?_, unify_toFlt _⟩, ⟨a2, ?_⟩, ⟨a3, ?_⟩⟩
  · rw [← c2]; simp
  · rw [← c3]; simp
  · rw [g1]
    simp only [PData.toH] at t1
    split at t1
    · injection t1 with t1
      rw [← t1]
    · cases t1
  · rw [g2]
    simp only [PData.toH] at t2
    injection t2 with t2
    have e1 : unify (upTo row.length) = upTo row.length := by
      unfold unify upTo
      rw [if_neg (by simp)]
    rw [← t2, List.headD_cons, e1]
    simp [upTo]
  · rw [g3]
    simp only [PData.toH] at t3
    injection t3 with t3
    have e1 : calibration z = some (a, b, c) := by
      unfold calibration
      rw [hmca]
      simp only
      rw [hcal]
      simp only
      rw [if_neg]
      rintro ⟨rfl, rfl, rfl⟩
      exact h0 ⟨rfl, rfl, rfl⟩
    have e2 : scaledX z row.length = ((List.range row.length).map (fun i => PyFloat.poly a b c (i + 1))).map .flt := by
      unfold scaledX
      rw [e1]
      simp
    rw [← t3, List.headD_cons, e2, unify_flt]
    simp [PyFloat.poly]

/-- C43: without a calibration, or with one that is zero, the scaled axis is not the channel numbers:
it is 1 for every channel. -/
theorem C43_uncalibrated {env : Env} {reg : List HKey} (hr : reg.Perm HKey.all) (hx : SchemaNames env) {v : Versions}
    {ks : List Ref} {s : Sdf} {r : SState} (hs : Savable s) (hk : ∀ k ∈ ks, PlainText k.text)
    (h : save env reg v ks s = (r, none)) {k : Ref} (hm : k ∈ ks) {z : Obj} (hz : r.sdf.getScan k = .ok (some z))
    (hn : NotBy z meshMacros) (hd : z.data ≠ []) (ho : OwnSpectra z) {key : Str} {row : List Num} {rows : List (List Num)}
    (hkey : (mcaOf z).get? key = some (row :: rows))
    (hcal : ∀ mca a b c, z.mca = some mca → mca.calib = some (a, b, c) → a = .fin 0 ∧ b = .fin 0 ∧ c = .fin 0) :
    ∃ n3 at3, cleanName (p!"_" ++ key ++ p!"_channel_scaled_x") = .ok n3 ∧
      datasetAt r.h5 [entryName k, p!"data", n3] = some (.nums ⟨List.replicate row.length (.int 1), [row.length]⟩, at3) := by
  obtain ⟨m, x, y, e, chE, en⟩ := entry_of hr hx hs hk h hm hz
  have hzx := entry_of_notMesh en hn
  subst hzx
  obtain ⟨ax0, hops⟩ := spectrum_stored en hn hd ho hkey
  obtain ⟨n3, d3, a3, c3, t3, g3⟩ := hops _ (List.mem_cons_of_mem _ (List.mem_cons_of_mem _ (List.mem_cons_self ..)))
  refine ⟨n3, a3, by rw [← c3]; simp, ?_⟩
  rw [g3]
  simp only [PData.toH] at t3
  injection t3 with t3
  have e1 : calibration z = none := by
    unfold calibration
    cases e1 : z.mca with
    | none => rfl
    | some mca =>
      simp only
      cases e2 : mca.calib with
      | none => rfl
      | some abc =>
        obtain ⟨a, b, c⟩ := abc
        obtain ⟨rfl, rfl, rfl⟩ := hcal mca a b c e1 e2
        simp
  have e2 : scaledX z row.length = List.replicate row.length (.int 1) := by unfold scaledX; rw [e1]
  have e3 : unify (List.replicate row.length (Num.int 1)) = List.replicate row.length (Num.int 1) := by
    unfold unify
    rw [if_neg]
    rw [List.any_eq_true]
    rintro ⟨a, ha, hb⟩
    rw [(List.mem_replicate.1 ha).2] at hb
    cases hb
  rw [← t3, List.headD_cons, e2, e3]
  simp

/-! ## Examples -/

/-- a check of the hypothesis `Savable` -/
def relNamesB (x : Obj) : Bool :=
  (Dict.keys (x.counterXref.getD [])).all (fun k => decide (Relative k)) &&
  (Dict.keys (x.positionerXref.getD [])).all (fun k => decide (Relative k)) && x.diff.isNone && x.uxmlRoot.isNone

/-- a check of the hypothesis `Savable` -/
def moreWritersB (x : Obj) : Bool :=
  (decide (.uxml ∈ x.h5.values) == x.uxmlRoot.isSome) && ((x.metadata.getD []).isEmpty || decide (.metadata ∈ x.h5.values)) &&
  (x.positioner.isEmpty || decide (.positioners ∈ x.h5.values)) &&
  ((x.mca.bind (·.calib)).isNone || decide (.calib ∈ x.h5.values)) &&
  ((x.mca.bind (·.chann)).isNone || decide (.chann ∈ x.h5.values)) &&
  ((x.mca.bind (·.ctime)).isNone || decide (.ctime ∈ x.h5.values)) &&
  (decide (.VA ∈ x.h5.values) == (decide (x.kind = .header) && x.VA.isSome)) &&
  (decide (.VD ∈ x.h5.values) == (decide (x.kind = .header) && x.VD.isSome)) &&
  (decide (.VE ∈ x.h5.values) == (decide (x.kind = .header) && x.VE.isSome)) &&
  ((x.tempSP.isNone && x.degcSP.isNone) || decide (.temperature ∈ x.h5.values)) &&
  (decide (x.VA.getD []).keys.Nodup && decide (x.VD.getD []).keys.Nodup && decide (x.VE.getD []).keys.Nodup &&
    decide (x.metadata.getD []).keys.Nodup && decide x.positioner.keys.Nodup && decide (x.G.getD []).keys.Nodup)

theorem moreWriters_of_b {x : Obj} (h : moreWritersB x = true) : MoreWriters x := by
  unfold moreWritersB at h
  simp only [Bool.and_eq_true, decide_eq_true_eq, beq_iff_eq, Bool.or_eq_true, List.isEmpty_iff, Option.isNone_iff_eq_none] at h
  obtain ⟨⟨⟨⟨⟨⟨⟨⟨⟨⟨h1, h2⟩, h3⟩, h4⟩, h5⟩, h6⟩, h7⟩, h8⟩, h9⟩, h10⟩, ⟨⟨⟨⟨h11, h12⟩, h13⟩, h14⟩, h15⟩, h16⟩ := h
  have opt : ∀ {α : Type} {p : Prop} [Decidable p] (o : Option α), decide p = o.isSome → (p ↔ o ≠ none) := by
    intro α p _ o h
    cases o <;> simp_all
  have optk : ∀ {α : Type} {p q : Prop} [Decidable p] [Decidable q] (o : Option α), decide p = (decide q && o.isSome) →
      (p ↔ q ∧ o ≠ none) := by
    intro α p q _ _ o h
    cases o <;> by_cases q <;> simp_all
  exact ⟨opt _ h1, fun hn => h2.resolve_left hn, fun hn => h3.resolve_left hn, fun hn => h4.resolve_left hn,
    fun hn => h5.resolve_left hn, fun hn => h6.resolve_left hn, optk _ h7, optk _ h8, optk _ h9,
    fun hn => h10.resolve_left (fun q => hn.elim (· q.1) (· q.2)), h11, h12, h13, h14, h15, h16⟩

/-- a check of the hypothesis `Savable` -/
def writersB (k : Kind) (x : Obj) : Bool :=
  decide (x.kind = k) && decide (x.h5.keys.Nodup) && x.h5.all (fun p => decide (p.1 = labelOf p.2)) &&
  (decide (.comments ∈ x.h5.values) == (decide (k = .scan) && !x.comments.isEmpty)) &&
  (!decide (.date ∈ x.h5.values ∨ .geometry ∈ x.h5.values) || decide (k = .scan)) && (decide (.hkl ∈ x.h5.values) == x.Q.isSome) &&
  ((x.M.getD []).isEmpty || decide (.monitor ∈ x.h5.values)) && ((x.T.getD []).isEmpty || decide (.countTime ∈ x.h5.values)) &&
  (decide (.userResults ∈ x.h5.values) == x.R.isSome) && (decide (.userReserved ∈ x.h5.values) == x.U.isSome) &&
  (decide (.unrec ∈ x.h5.values) == x.unrecognized.isSome) && (decide (.MD ∈ x.h5.values) == !(x.MD.getD []).isEmpty) &&
  (x.counterXref.isNone || decide (labelOf .counterJ ∈ x.h5.keys)) &&
  (x.positionerXref.isNone || decide (labelOf .positionerXref ∈ x.h5.keys)) &&
  (!x.interpreted || decide (.date ∈ x.h5.values)) &&
  (decide (x.counterXref.getD []).keys.Nodup && decide (x.positionerXref.getD []).keys.Nodup && decide (x.MD.getD []).keys.Nodup) && moreWritersB x

theorem writers_of_b {k : Kind} {x : Obj} (h : writersB k x = true) : Writers k x := by
  unfold writersB at h
  simp only [Bool.and_eq_true, List.all_eq_true, decide_eq_true_eq, beq_iff_eq, Bool.or_eq_true, Bool.not_eq_true'] at h
  obtain ⟨⟨⟨⟨⟨⟨⟨⟨⟨⟨⟨⟨⟨⟨⟨⟨h1, h2⟩, h3⟩, h4⟩, h5⟩, h6⟩, h7⟩, h8⟩, h9⟩, h10⟩, h11⟩, h12⟩, h13⟩, h14⟩, h15⟩, ⟨h16, h17⟩, h18⟩, h19⟩ := h
  have opt : ∀ {α : Type} {p : Prop} [Decidable p] (o : Option α), decide p = o.isSome → (p ↔ o ≠ none) := by
    intro α p _ o h
    cases o <;> simp_all
  refine ⟨h1, h2, h3, ?_, ?_, opt _ h6, ?_, ?_, opt _ h9, opt _ h10, opt _ h11, ?_, ?_, ?_, ?_, ⟨h16, h17, h18⟩, moreWriters_of_b h19⟩
  · rw [← decide_eq_true_eq (p := _ ∈ _), h4]
    cases x.comments <;> simp
  · intro hd
    rcases h5 with h5 | h5
    · rw [decide_eq_false_iff_not] at h5; exact absurd hd h5
    · exact h5
  · intro hn
    rcases h7 with h | h
    · exact absurd (List.isEmpty_iff.1 h) hn
    · exact h
  · intro hn
    rcases h8 with h | h
    · exact absurd (List.isEmpty_iff.1 h) hn
    · exact h
  · rw [← decide_eq_true_eq (p := _ ∈ _), h12]
    cases x.MD.getD [] <;> simp
  · intro hn
    rcases h13 with h | h
    · rw [Option.isNone_iff_eq_none] at h; exact absurd h hn
    · exact h
  · intro hn
    rcases h14 with h | h
    · rw [Option.isNone_iff_eq_none] at h; exact absurd h hn
    · exact h
  · intro hi _
    rcases h15 with h | h
    · rw [hi] at h; cases h
    · exact h

/-- a check of the hypothesis `Savable` -/
def savableB (s : Sdf) : Bool :=
  s.headers.all (fun h => relNamesB h && decide (.scanData ∉ h.h5.values)) &&
  s.headers.all (writersB .header) && s.scans.all (fun p => writersB .scan p.2) &&
  s.scans.all (fun p => relNamesB p.2 && (p.2.j.getD []).all (fun row => row.all (fun w => decide (Relative w))) &&
    (p.2.o.getD []).all (fun row => row.all (fun w => decide (Relative w))) &&
    (scanLines p.2.raw).all (fun l => !(isKind .j l || isKind .o l) ||
      (splitWs (stripFirstWord l)).all (fun w => decide (Relative w))) &&
    decide (p.2.data = [] ∧ .scanData ∉ p.2.post.values ∧ p.2.post.get? p!"diffractometer geometry" = none ∧
      p.2.h5.get? p!"diffractometer geometry" = none ∧ p.2.G.getD [] = []) && (p.2.h5.get? p!"scan_data").isNone && decide (p.2.scanNum = p.1)) &&
  decide s.scans.keys.Nodup

omit [UniDB] in
theorem relNames_of_b {x : Obj} (h : relNamesB x = true) : RelNames x := by
  unfold relNamesB at h
  simp only [Bool.and_eq_true, List.all_eq_true, decide_eq_true_eq, Option.isNone_iff_eq_none] at h
  obtain ⟨⟨⟨h1, h2⟩, h3⟩, h4⟩ := h
  exact ⟨h1, h2, (fun d hd => by rw [h3] at hd; cases hd), (fun d hd => by rw [h3] at hd; cases hd), fun _ _ _ _ hd => by rw [h4] at hd; cases hd⟩

theorem savable_of_b {s : Sdf} (h : savableB s = true) : Savable s := by
  unfold savableB at h
  simp only [Bool.and_eq_true, List.all_eq_true, decide_eq_true_eq, Option.isNone_iff_eq_none] at h
  obtain ⟨⟨⟨⟨h1, w1⟩, w2⟩, h2⟩, h3⟩ := h
  refine ⟨⟨fun x hx => relNames_of_b (h1 x hx).1, fun x hx => (h1 x hx).2, fun p hp => ?_, fun p hp => ?_,
    fun x hx => writers_of_b (w1 x hx), fun p hp => writers_of_b (w2 p hp)⟩, h3,
    fun p hp => (h2 p hp).2⟩
  · obtain ⟨⟨⟨⟨⟨⟨a1, a2⟩, a3⟩, a4⟩, a5⟩, a6⟩, a7⟩ := h2 p hp
    refine ⟨relNames_of_b a1, a2, a3, fun l hl hk w hw => ?_⟩
    have := a4 l hl
    simp only [Bool.or_eq_true, Bool.not_eq_true', Bool.or_eq_false_iff, List.all_eq_true, decide_eq_true_eq] at this
    rcases this with this | this
    · rcases hk with hk | hk
      · rw [this.1] at hk; cases hk
      · rw [this.2] at hk; cases hk
    · exact this w hw
  · obtain ⟨⟨⟨⟨⟨⟨a1, a2⟩, a3⟩, a4⟩, a5⟩, a6⟩, a7⟩ := h2 p hp
    refine ⟨fun f hf => ?_, fun hne => absurd a5.1 hne, fun hne => absurd a6 hne, fun hm => absurd hm a5.2.1,
      ⟨(fun f hf => by rw [a5.2.2.1] at hf; cases hf), fun hne => absurd a5.2.2.2.1 hne, fun hne => absurd a5.2.2.2.2 hne,
        fun _ hne => absurd a5.2.2.2.2 hne⟩⟩
    rw [a6] at hf
    cases hf

end

/-- an environment whose XML schema accepts nothing -/
def saveEnv : Env := { demoEnv with xmlValid := fun _ => false }

theorem saveEnv_schema : SchemaNames saveEnv := fun _ _ _ _ h => by cases h

/-- a file with a scan of one column axis and spectra, one in reciprocal space and one without data -/
def saveText : Str := demoHead ++ join p!"\n" [[], p!"#S 1 ascan  th 0 1 2 1", p!"#D Wed Jun 16 18:24:36 2010",
  p!"#j0 Det_1  mon", p!"#@CALIB 1 2 3", p!"#N 2", p!"#L two theta  I0", p!"@A 7 8", p!"0.5 1", p!"@A 9 10.5", p!"1.5 3",
  [], p!"#S 2 hklscan  1 1  0 2  3 3  10 1", p!"#D Wed Jun 16 18:25:36 2010", p!"#N 4", p!"#L H  K  L  I", p!"1 0 3 5",
  [], p!"#S 3 ascan  th 0 1 2 1", p!"#D Wed Jun 16 18:26:36 2010", p!"#C no data", []]

/-- versions of the libraries -/
def saveVersions : Versions := ⟨p!"2021.1.8", p!"3.0", p!"1.12", p!"1.20"⟩

/-- the file object -/
def savedFile : Except PyErr Sdf :=
  @Sdf.openFile asciiDB saveEnv HKey.all p!"demo.dat" (fileAt saveText 1) (fileAt saveText 1)

/-- what the examples look at after a save -/
def saveDemo (ks : List Ref) : Option (Bool × Option PyErr × H5 × Sdf) :=
  match savedFile with
  | .error _ => none
  | .ok s =>
    let r := @save asciiDB saveEnv HKey.all saveVersions ks s
    some (@savableB asciiDB s, r.2, r.1.h5, r.1.sdf)

/-- C40, C41, C43, C45: the hypotheses are met by this file, saved as 1, 3, 2: `Savable` holds, the
save returns, scans 1 and 2 have data, scan 1 is an ordinary scan whose labels have their own names, with
calibrated spectra, scan 2 is a scan in reciprocal space. -/
theorem C40_nonvacuous : letI : UniDB := asciiDB
    ∃ s r z1 z2, Savable s ∧ save saveEnv HKey.all saveVersions [.str p!"1", .int 3, .str p!"2"] s = (r, none) ∧
      r.sdf.getScan (.str p!"1") = .ok (some z1) ∧ r.sdf.getScan (.str p!"2") = .ok (some z2) ∧
      macroOf z1 = some p!"ascan" ∧ macroOf z2 = some p!"hklscan" ∧ z1.data ≠ [] ∧ z2.data ≠ [] ∧
      OwnName z1 p!"two theta" ∧ OwnSpectra z1 ∧ (mcaOf z1).get? p!"mca" = some [[.int 7, .int 8], [.flt (.fin 9), .flt (.fin (21/2))]] ∧
      (∃ m, z1.mca = some m ∧ m.calib = some (.fin 1, .fin 2, .fin 3)) := by
  letI : UniDB := asciiDB
  have hd : (match saveDemo [.str p!"1", .int 3, .str p!"2"] with
    | none => false
    | some (b, e, _, sdf) =>
      b && e.isNone &&
      (match sdf.getScan (.str p!"1"), sdf.getScan (.str p!"2") with
      | .ok (some z1), .ok (some z2) =>
        decide (macroOf z1 = some p!"ascan") && decide (macroOf z2 = some p!"hklscan") && decide (z1.data ≠ []) &&
        decide (z2.data ≠ []) &&
        decide (∀ l ∈ z1.L.getD [], cleanName l = cleanName p!"two theta" → l = p!"two theta") &&
        decide (∀ key ∈ (mcaOf z1).keys, ∀ l ∈ mcaLabels key, cleanName l ≠ cleanName p!"two theta") &&
        decide (∀ key ∈ (mcaOf z1).keys, ∀ l ∈ mcaLabels key, ∀ l' ∈ z1.L.getD [], cleanName l' ≠ cleanName l) &&
        decide (((mcaOf z1).keys.flatMap mcaLabels).map cleanName).Nodup && decide (mcaOf z1).keys.Nodup &&
        decide ((mcaOf z1).get? p!"mca" = some [[.int 7, .int 8], [.flt (.fin 9), .flt (.fin (21/2))]]) &&
        decide (z1.mca.map (·.calib) = some (some (.fin 1, .fin 2, .fin 3)))
      | _, _ => false)) = true := by decide +kernel
  unfold saveDemo at hd
  cases hs : savedFile with
  | error e => rw [hs] at hd; cases hd
  | ok s =>
    rw [hs] at hd
    simp only at hd
    cases hr : save saveEnv HKey.all saveVersions [.str p!"1", .int 3, .str p!"2"] s with
    | mk r e =>
      rw [hr] at hd
      simp only at hd
      cases h1 : r.sdf.getScan (.str p!"1") with
      | error e => rw [h1] at hd; simp at hd
      | ok o1 =>
        cases h2 : r.sdf.getScan (.str p!"2") with
        | error e => rw [h1, h2] at hd; simp at hd
        | ok o2 =>
          rw [h1, h2] at hd
          cases o1 with
          | none => simp at hd
          | some z1 =>
            cases o2 with
            | none => simp at hd
            | some z2 =>
              simp only [Bool.and_eq_true, decide_eq_true_eq, Option.isNone_iff_eq_none] at hd
              obtain ⟨⟨b1, b2⟩, ⟨⟨⟨⟨⟨⟨⟨⟨⟨⟨c1, c2⟩, c3⟩, c4⟩, c5⟩, c6⟩, c7⟩, c8⟩, c9⟩, c10⟩, c11⟩⟩ := hd
              subst b2
              refine ⟨s, r, z1, z2, savable_of_b b1, hr, h1, h2, c1, c2, c3, c4, ⟨c5, c6⟩, ⟨c7, c8, c9⟩, c10, ?_⟩
              cases hm : z1.mca with
              | none => rw [hm] at c11; cases c11
              | some m =>
                rw [hm] at c11
                injection c11 with c11
                exact ⟨m, rfl, c11⟩

/-- C40: the file of the example. -/
theorem C40_example :
    (saveDemo [.str p!"1", .int 3, .str p!"2"]).map (fun r => (childrenAt r.2.2.1 [], attrAt r.2.2.1 [] p!"default")) =
      some ([p!"S1", p!"S3", p!"S2"], some (.str p!"S1")) ∧
    (saveDemo [.str p!"1", .int 3, .str p!"2"]).map (fun r =>
      (childrenAt r.2.2.1 [p!"S1", p!"data"], attrAt r.2.2.1 [p!"S2", p!"data"] p!"axes")) =
      some ([p!"two_theta", p!"I0", p!"_mca_", p!"_mca_channel_", p!"_mca_channel_scaled_x"], some (.str p!"K")) ∧
    (saveDemo [.str p!"1", .int 3, .str p!"2"]).map (fun r => childrenAt r.2.2.1 [p!"S3", p!"data"]) =
      some [p!"no_x_data", p!"no_y_data"] := by decide +kernel

/-- C40: a scan cannot be saved twice under the same name, and not a scan that is not in the file. -/
theorem C40_refused : (saveDemo [.int 1, .str p!"1"]).map (fun r => r.2.1) = some (some .ValueError) ∧
    (saveDemo [.int 7]).map (fun r => r.2.1) = some (some .AttributeError) := by decide +kernel

end S2N.Props
