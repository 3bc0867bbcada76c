import Verif.Props.Save
/-
C42: meshes in the file that `Writer.save` writes.
-/
namespace S2N.Props
open S2N S2N.Py S2N.Spec
open Writer Eznx

section
variable [UniDB]

omit [UniDB] in
theorem keys_put {V : Sets} {m : Str} {v : HData} {a : Dict AVal} {n : Str} (h : n ∈ Dict.keys (V.put m v a)) :
    n ∈ Dict.keys V ∨ n = m := by
  have : Dict.keys (Sets.put V m v a) = Dict.keys (Dict.del V m) ++ [m] := by
    unfold Sets.put; simp [Dict.keys]
  rw [this] at h
  rcases List.mem_append.1 h with h2 | h2
  · rw [Dict.keys_del] at h2
    exact .inl (List.mem_of_mem_erase h2)
  · exact .inr (List.mem_singleton.1 h2)

/-- which columns of a mesh are written -/
theorem meshColumns_run {pre : List HNode} {g : HRef} (hg : AtGroup pre g) {x : Obj} {shape : List Nat} :
    ∀ (labels : List Str) {s s' : H5} {r : Unit} {V : Sets} {A : Dict AVal}, S2N.View pre V A s →
    HM.each (meshColumn g x shape) labels s = (s', .ok r) →
    ∃ ops qs, List.Forall₂ OpPut ops qs ∧ S2N.View pre (V.puts qs) A s' ∧
      (∀ o ∈ ops, ∃ l ∈ labels, o = meshOp x shape l ∧ ∃ xs, x.data.get? l = some (.col xs)) ∧
      ∀ l ∈ labels, H5.Single l → meshOp x shape l ∈ ops ∨ l ∈ Dict.keys V ∨
        ∃ l' ∈ labels, l' ≠ l ∧ x.data.has l' = true ∧ cleanName l' = .ok l
  | [], s, s', r, V, A, hv, h => by
    obtain ⟨_, rfl⟩ := HM.ret_inv h
    exact ⟨[], [], .nil, hv, by simp, by simp⟩
  | a :: ls, s, s', r, V, A, hv, h => by
    obtain ⟨t, h1, h2⟩ := HM.each_inv_cons h
    obtain ⟨b, hb, a1, a2⟩ := meshColumn_eff hg h1
    cases b with
    | true =>
      have e := a1 rfl
      subst e
      obtain ⟨ops, qs, b1, b2, b3, b4⟩ := meshColumns_run hg ls hv h2
      refine ⟨ops, qs, b1, b2, fun o ho => ?_, fun l hl hs => ?_⟩
      · obtain ⟨l, hl, he⟩ := b3 o ho
        exact ⟨l, by simp [hl], he⟩
      · rcases List.mem_cons.1 hl with rfl | hl
        · obtain ⟨ch, hn, _⟩ := hv.node
          rw [H5.contains_eq (h := g) (by rw [hg]; exact hn) hs] at hb
          simp only [Prod.mk.injEq, Except.ok.injEq, true_and] at hb
          obtain ⟨ch', tail, e1, e2, e3, e4⟩ := hv
          have : ch' = ch := by
            rw [e1] at hn
            simpa using hn
          subst this
          right; left
          rw [← Dict.forall2_keys (fun _ _ h => h.1) e4]
          exact (Dict.has_iff_mem _ _).1 hb
        · rcases b4 l hl hs with h3 | h3 | ⟨l', h3, h4⟩
          · exact .inl h3
          · exact .inr (.inl h3)
          · exact .inr (.inr ⟨l', by simp [h3], h4⟩)
    | false =>
      obtain ⟨⟨xs, hxs⟩, he⟩ := a2 rfl
      obtain ⟨qs1, c1, c2⟩ := he V A hv
      obtain ⟨ops, qs, b1, b2, b3, b4⟩ := meshColumns_run hg ls c2 h2
      cases c1 with
      | cons d1 d2 =>
        rename_i q qs0
        cases d2
        refine ⟨meshOp x shape a :: ops, q :: qs, .cons d1 b1, b2, fun o ho => ?_, fun l hl hs => ?_⟩
        · rcases List.mem_cons.1 ho with rfl | ho
          · exact ⟨a, by simp, rfl, xs, hxs⟩
          · obtain ⟨l, hl, he⟩ := b3 o ho
            exact ⟨l, by simp [hl], he⟩
        · rcases List.mem_cons.1 hl with rfl | hl
          · exact .inl (by simp)
          · rcases b4 l hl hs with h3 | h3 | ⟨l', h3, h4⟩
            · exact .inl (by simp [h3])
            · rcases keys_put (show l ∈ Dict.keys (Sets.put V q.1 q.2.1 q.2.2) from h3) with h4 | h4
              · exact .inr (.inl h4)
              · by_cases hal : a = l
                · subst hal
                  exact .inl (by simp)
                · refine .inr (.inr ⟨a, by simp, hal, by simp [Dict.has, hxs], ?_⟩)
                  rw [h4]
                  exact d1.1
            · exact .inr (.inr ⟨l', by simp [h3], h4⟩)

omit [UniDB] in
theorem everyNth_go (n : Nat) (hn : 0 < n) : ∀ (l : List PyFloat) (s j : Nat),
    (((List.range' s l.length).zip l).filterMap (fun p => if p.1 % n = 0 then some p.2 else none))[j]? =
      l[j * n + (n - s % n) % n]?
  | [], s, j => by simp
  | a :: t, s, j => by
    have ih := everyNth_go n hn t (s + 1)
    have hlt := Nat.mod_lt s hn
    have hs : (s + 1) % n = if s % n + 1 = n then 0 else s % n + 1 := by
      split
      · next h => rw [Nat.add_mod]; by_cases h1 : n = 1
                  · subst h1; simp [Nat.mod_one]
                  · rw [Nat.mod_eq_of_lt (show 1 < n by omega), h, Nat.mod_self]
      · next h =>
        rw [Nat.add_mod, Nat.mod_eq_of_lt (show 1 < n by omega), Nat.mod_eq_of_lt (by omega)]
    rw [List.length_cons, List.range'_succ, List.zip_cons_cons, List.filterMap_cons]
    by_cases h0 : s % n = 0
    · simp only [if_pos h0]
      cases j with
      | zero => simp [h0]
      | succ j =>
        rw [List.getElem?_cons_succ, ih j, hs, h0]
        have e1 : (j + 1) * n + (n - 0) % n = (j * n + n - 1) + 1 := by
          rw [Nat.sub_zero, Nat.mod_self, Nat.succ_mul]; omega
        rw [e1, List.getElem?_cons_succ]
        congr 1
        split
        · next h => rw [Nat.sub_zero, Nat.mod_self]; omega
        · rw [Nat.mod_eq_of_lt (by omega)]; omega
    · simp only [if_neg h0]
      rw [ih j, hs]
      have e1 : j * n + (n - s % n) % n = (j * n + (n - s % n - 1)) + 1 := by
        rw [Nat.mod_eq_of_lt (by omega)]; omega
      rw [e1, List.getElem?_cons_succ]
      congr 2
      split
      · next h => rw [Nat.sub_zero, Nat.mod_self]; omega
      · rw [Nat.mod_eq_of_lt (by omega)]; omega

omit [UniDB] in
theorem everyNth_get {n : Int} (hn : 0 < n) {l r : List PyFloat} (h : everyNth n l = .ok r) :
    ∀ j, r[j]? = l[j * n.toNat]? := by
  intro j
  obtain ⟨m, rfl⟩ := Int.eq_ofNat_of_zero_le (Int.le_of_lt hn)
  have hm : 0 < m := by omega
  unfold everyNth at h
  rw [if_neg (by omega)] at h
  injection h with h
  have := everyNth_go m hm l 0 j
  rw [Nat.zero_mod, Nat.sub_zero, Nat.mod_self, Nat.add_zero] at this
  rw [← h, Int.toNat_natCast, ← this, List.range_eq_range']
  congr 2
  funext p
  have : ((p.1 : Int) % (m : Int) = 0) ↔ (p.1 % m = 0) := by omega
  simp only [this]

/-- No other column of the scan and no spectrum has a label with the same cleaned name. -/
structure OwnColumn (x : Obj) (label : Str) : Prop where
  columns : ∀ l ∈ x.data.keys, cleanName l = cleanName label → l = label
  spectra : ∀ key ∈ (mcaOf x).keys, ∀ l ∈ mcaLabels key, cleanName l ≠ cleanName label

omit [UniDB] in
theorem meshSpectraOps_label {axes : Str} : ∀ (items : List (Str × List (List Num))) (shape : List Nat) (o : DsOp),
    o ∈ meshSpectraOps axes shape items → ∃ kv ∈ items, o.1 ∈ mcaLabels kv.1
  | [], _, o, h => by simp [meshSpectraOps] at h
  | kv :: rest, shape, o, h => by
    unfold meshSpectraOps at h
    simp only [List.mem_cons] at h
    rcases h with rfl | rfl | h
    · exact ⟨kv, by simp, by simp [mcaLabels]⟩
    · exact ⟨kv, by simp, by simp [mcaLabels]⟩
    · obtain ⟨kv', h1, h2⟩ := meshSpectraOps_label rest _ o h
      exact ⟨kv', by simp [h1], h2⟩

/-- what `save_data` wrote for a mesh with enough points -/
theorem mesh_section {k : Ref} {r : SState} {n : Str} {x y z : Obj} {e : Nat} {chE : Dict Nat}
    (en : EntryOf k r n x y z e chE) (hd : x.data ≠ []) {w : Str} (hw : macroOf x = some w) (hm : w ∈ meshMacros) :
    ∃ w1 n1 w2 n2 l1 i1 a1, meshWords x.scanCmd = .ok (w1, n1, w2, n2) ∧ meshLabel x w1 0 = .ok l1 ∧
      Py.int n1 = .ok i1 ∧ x.data.get? l1 = some (.col a1) ∧
      (¬ (a1.length : Int) < i1 → ∃ l2 a2 ax2 labels' labels c3 ops sg, meshLabel x w2 1 = .ok l2 ∧
        x.data.get? l2 = some (.col a2) ∧ everyNth (i1 + 1) a2 = .ok ax2 ∧
        pyRemove l1 (x.L.getD []) = .ok labels' ∧ pyRemove l2 labels' = .ok labels ∧
        (∀ o ∈ c3, startsWith x.scanCmd p!"hkl" = true ∧ o.1 ≠ l1 ∧ o.1 ≠ l2 ∧ o.1 ∈ [p!"H", p!"K", p!"L"] ∧
          x.data.has o.1 = true) ∧
        (∀ o ∈ ops, ∃ l ∈ labels, o = meshOp x [(pySlice a1 (some 0) (some (i1 + 1))).length, ax2.length] l ∧
          ∃ xs, x.data.get? l = some (.col xs)) ∧
        (∀ l ∈ labels, H5.Single l → OwnColumn x l → l ≠ l1 → l ≠ l2 →
          (startsWith x.scanCmd p!"hkl" = true → l ∉ [p!"H", p!"K", p!"L"]) →
          meshOp x [(pySlice a1 (some 0) (some (i1 + 1))).length, ax2.length] l ∈ ops) ∧
        (∃ cl, x.columnLast = some cl ∧ cleanName cl = .ok sg) ∧
        ∃ qs, List.Forall₂ OpPut (c3 ++ ([(l1, flts (pySlice a1 (some 0) (some (i1 + 1))), []), (l2, flts ax2, [])] ++
            (ops ++ meshSpectraOps (l1 ++ p!":" ++ l2) [(pySlice a1 (some 0) (some (i1 + 1))).length, ax2.length]
              (spectra x)))) qs ∧
          (∀ a, attrAt r.h5 [entryName k, p!"data"] a =
            ((dataAttrs sg (l1 ++ p!":" ++ l2)).foldl Dict.update dataGroup).get? a) ∧
          ∀ m, datasetAt r.h5 [entryName k, p!"data", m] = Dict.get? (Sets.puts [] qs) m) := by
  obtain ⟨pre, t, hat, h1, h2⟩ := data_section en hd
  obtain ⟨m, ws, hws, h3⟩ := saveData_run h1
  have hmw : m = w := by
    unfold macroOf at hw
    rw [hws] at hw
    injection hw
  subst hmw
  have hk : kindOf m = .mesh := by
    unfold kindOf
    rw [if_pos (show m ∈ [p!"mesh", p!"hklmesh"] from hm)]
  rw [hk] at h3
  simp only at h3
  obtain ⟨sg, ax, t1, h4, h5⟩ := h3
  have hv0 : S2N.View pre [] dataGroup (pre ++ [.group [] dataGroup]) := View.fresh pre dataGroup
  rcases mesh_run hat h4 with ⟨w1, n1, w2, n2, l1, l2, i1, i2, a1, a2, ax2, labels', labels, t1', t2, t3, r1, r2, r3,
      r4, r5, r6, r7, r8, r9, r10, r11, r12, r13, r14, r15, r16, r17, r18⟩ |
    ⟨w1, n1, w2, n2, l1, i1, a1, r1, r2, r3, r4, r5, _⟩
  · refine ⟨w1, n1, w2, n2, l1, i1, a1, r1, r2, r4, r6, fun _ => ?_⟩
    obtain ⟨c3, hc3, he3⟩ : ∃ c3 : List DsOp, (∀ o ∈ c3, startsWith x.scanCmd p!"hkl" = true ∧ o.1 ≠ l1 ∧ o.1 ≠ l2 ∧
        o.1 ∈ [p!"H", p!"K", p!"L"] ∧ x.data.has o.1 = true) ∧
        Eff pre c3 (pre ++ [.group [] dataGroup]) t1' := by
      rcases constantAxis_eff hat r12 with ⟨_, e⟩ | ⟨hh, l3, v, vs, e1, e2, e3⟩
      · exact ⟨[], by simp, e ▸ Eff.refl _ _⟩
      · have := List.mem_of_mem_head? (Option.mem_def.2 e1)
        obtain ⟨f1, f2⟩ := List.mem_filter.1 this
        simp only [Bool.not_eq_true', Bool.or_eq_false_iff, beq_eq_false_iff_ne] at f2
        refine ⟨_, ?_, e3⟩
        intro o ho
        rw [List.mem_singleton.1 ho]
        exact ⟨hh, f2.1, f2.2, f1, by simp [Dict.has, e2]⟩
    obtain ⟨qs1, p1, v1⟩ := (he3.trans r13) _ _ hv0
    obtain ⟨ops, qs2, p2, v2, o1, o2⟩ := meshColumns_run hat labels v1 r14
    obtain ⟨qs3, p3, v3⟩ := r18 _ _ v2
    simp only at r15 r16 r17
    rw [r16] at h5 p3
    obtain ⟨b1, b2, b3⟩ := h2 _ _ (dataAttributes_eff hat v3 h5)
    refine ⟨l2, a2, ax2, labels', labels, c3, ops, sg, r3, r8, r9, r10, r11, hc3, o1, ?_, r15, qs1 ++ (qs2 ++ qs3),
      ?_, b2, ?_⟩
    · intro l hl hs ho hn1 hn2 hn3
      rcases o2 l hl hs with h6 | h6 | ⟨l', h6, h7, h8, h9⟩
      · exact h6
      · exfalso
        rcases keys_puts _ _ _ h6 with h7 | ⟨q, h7, h8⟩
        · simp [Dict.keys] at h7
        · obtain ⟨o, ho1, ho2⟩ := op_of_put p1 _ h7
          have hcl : cleanName o.1 = .ok l := by rw [ho2.1, h8]
          have hid := C32_idempotent _ _ hcl
          have hkey : ∀ l', x.data.has l' = true → cleanName l' = .ok l → l' = l := fun l' h1 h2 =>
            ho.columns l' ((Dict.has_iff_mem _ _).1 h1) (by rw [h2, hid])
          rcases List.mem_append.1 ho1 with h9 | h9
          · obtain ⟨g1, g2, g3, g4, g5⟩ := hc3 o h9
            have := hkey _ g5 hcl
            exact hn3 g1 (this ▸ g4)
          · simp only [List.mem_cons, List.not_mem_nil, or_false] at h9
            rcases h9 with rfl | rfl
            · exact hn1 (hkey l1 (by simp [Dict.has, r6]) hcl).symm
            · exact hn2 (hkey l2 (by simp [Dict.has, r8]) hcl).symm
      · exfalso
        have hid := C32_idempotent _ _ h9
        exact h7 (ho.columns l' ((Dict.has_iff_mem _ _).1 h8) (by rw [h9, hid]))
    · have := List.rel_append p1 (List.rel_append p2 p3)
      simpa [List.append_assoc] using this
    · intro m'
      rw [b3, puts_append, puts_append]
  · exact ⟨w1, n1, w2, n2, l1, i1, a1, r1, r2, r3, r4, fun h => absurd r5 h⟩

/-- C42, what holds.  After `save` returned, a `mesh` or `hklmesh` scan with at least `n1` points
(`n1`, the number of intervals of the first axis, is the fifth word of its command) is stored thus:
the first axis has the first `n1 + 1` values of its column, the second axis every `n1 + 1`-th value of
its column, every other column is stored in the shape (length of first axis, length of second axis)
with its values in the order of acquisition, filled up with NaN; `signal` names the last column and
`axes` the two axes.  `L0` are the labels of the scan when it was written.
Not so, and therefore missing: element (i, j) of a column is not the observation at positions i and j
of the axes, see `C42_transposed`. -/
theorem C42_mesh_partial {env : Env} {reg : List HKey} (hr : reg.Perm HKey.all) (hx : SchemaNames env) {v : Versions}
    {ks : List Ref} {s : Sdf} {r : SState} (hs : Savable s) (hk : ∀ k ∈ ks, PlainText k.text)
    (h : save env reg v ks s = (r, none)) {k : Ref} (hm : k ∈ ks) {z : Obj} (hz : r.sdf.getScan k = .ok (some z))
    {w : Str} (hw : macroOf z = some w) (hmw : w ∈ meshMacros) (hd : z.data ≠ []) :
    ∃ w1 s1 e1 n1 w2 s2 e2 n2 t i1 l1 a1, splitWs z.scanCmd = [w, w1, s1, e1, n1, w2, s2, e2, n2, t] ∧
      parseInt n1 = some i1 ∧ (z.data.has w1 = true → l1 = w1) ∧ z.data.get? l1 = some (.col a1) ∧
      (0 ≤ i1 → i1 ≤ a1.length → a1 ≠ [] → ∃ (l2 : Str) (a2 : List PyFloat) (L0 : List Str) (axis1 axis2 : List PyFloat) (last sg : Str),
        (z.data.has w2 = true → l2 = w2) ∧
        z.data.get? l2 = some (.col a2) ∧ (∀ l ∈ z.L.getD [], l ∈ L0) ∧
        axis1 = a1.take (i1.toNat + 1) ∧ (∀ j : Nat, axis2[j]? = a2[j * (i1.toNat + 1)]?) ∧
        (L0.Nodup → l1 ≠ l2 → OwnColumn z l1 → ∃ n a, cleanName l1 = .ok n ∧
          datasetAt r.h5 [entryName k, p!"data", n] = some (.nums ⟨axis1.map .flt, [axis1.length]⟩, a)) ∧
        (L0.Nodup → l1 ≠ l2 → OwnColumn z l2 → ∃ n a, cleanName l2 = .ok n ∧
          datasetAt r.h5 [entryName k, p!"data", n] = some (.nums ⟨axis2.map .flt, [axis2.length]⟩, a)) ∧
        (∀ label ∈ L0, label ≠ l1 → label ≠ l2 → label ≠ [] → label ≠ p!"." → '/' ∉ label →
          (p!"hkl" <+: z.scanCmd → label ∉ [p!"H", p!"K", p!"L"]) → OwnColumn z label →
          ∃ n xs flat a, cleanName label = .ok n ∧ z.data.get? label = some (.col xs) ∧
            datasetAt r.h5 [entryName k, p!"data", n] = some (.nums ⟨flat, [axis1.length, axis2.length]⟩, a) ∧
            a.get? p!"spec_name" = some (.str label) ∧
            flat.length = axis1.length * axis2.length ∧
            ∀ q, q < flat.length → flat[q]? = some (.flt (xs.getD q .nan))) ∧
        z.columnLast = some last ∧ cleanName last = .ok sg ∧
        attrAt r.h5 [entryName k, p!"data"] p!"signal" = some (.str sg) ∧
        (':' ∉ l1 → ':' ∉ l2 →
          attrAt r.h5 [entryName k, p!"data"] p!"axes" = some (.strs [ascii l1, ascii l2]))) := by
  obtain ⟨m, x, y, e, chE, en⟩ := entry_of hr hx hs hk h hm hz
  obtain ⟨Lz, hLz⟩ := en.z_eq
  have hzd : z.data = x.data := by rw [hLz]
  have hzc : z.scanCmd = x.scanCmd := by rw [hLz]
  have hzl : z.columnLast = x.columnLast := by rw [hLz]
  have hown : ∀ l, OwnColumn z l → OwnColumn x l := by
    rintro l ⟨h1, h2⟩
    rw [hLz] at h1 h2
    exact ⟨h1, h2⟩
  obtain ⟨w1, n1, w2, n2, l1, i1, a1, h1, h2, h3, h4, h5⟩ :=
    mesh_section en (hzd ▸ hd) (w := w) (by unfold macroOf at hw ⊢; rw [← hzc]; exact hw) hmw
  obtain ⟨w0, s1, e1, s2, e2, t, hsp⟩ : ∃ w0 s1 e1 s2 e2 t, splitWs x.scanCmd = [w0, w1, s1, e1, n1, w2, s2, e2, n2, t] := by
    unfold meshWords at h1
    split at h1
    · next hsp =>
      injection h1 with h1
      simp only [Prod.mk.injEq] at h1
      obtain ⟨rfl, rfl, rfl, rfl⟩ := h1
      exact ⟨_, _, _, _, _, _, hsp⟩
    · cases h1
  have hw0 : w0 = w := by
    unfold macroOf at hw
    rw [hzc, hsp] at hw
    injection hw
  subst hw0
  have hlab : ∀ {w : Str} {i : Nat} {l : Str}, meshLabel x w i = .ok l → x.data.has w = true → l = w := by
    intro w i l h1 h2
    unfold meshLabel at h1
    rw [if_pos h2] at h1
    injection h1 with h1
    exact h1.symm
  have hi1 : parseInt n1 = some i1 := by
    unfold Py.int at h3
    split at h3
    · next e => injection h3 with h3; rw [e, h3]
    · cases h3
  refine ⟨w1, s1, e1, n1, w2, s2, e2, n2, t, i1, l1, a1, by rw [hzc, hsp], hi1, fun hh => hlab h2 (hzd ▸ hh),
    by rw [hzd, h4], fun hi0 hi2 hne1 => ?_⟩
  obtain ⟨l2, a2, ax2, labels', labels, c3, ops, sg, g1, g2, g3, g4, g5, g6, g7, g8, ⟨last, g9, g10⟩, qs, g11, g12, g13⟩ :=
    h5 (by omega)
  have hax1 : pySlice a1 (some 0) (some (i1 + 1)) = a1.take (i1.toNat + 1) := by
    have : pyBound a1.length 0 = 0 := by simp [pyBound]
    unfold pySlice
    simp only [this, List.drop_zero]
    unfold pyBound
    rw [if_neg (by omega), show (i1 + 1).toNat = i1.toNat + 1 by omega, ← List.take_eq_take_min]
  rw [hax1] at g7 g8 g11
  have hyx : ∀ l ∈ z.L.getD [], l ∈ x.L.getD [] := by
    intro l hl
    obtain ⟨pre, t, hat, q1, _⟩ := data_section en (hzd ▸ hd)
    exact saveData_sub hat q1 l (en.sub l hl)
  obtain ⟨rfl, hl1⟩ : labels' = (x.L.getD []).erase l1 ∧ l1 ∈ x.L.getD [] := by
    unfold pyRemove at g4
    split at g4
    · next hh => injection g4 with g4; exact ⟨g4.symm, hh⟩
    · cases g4
  obtain ⟨rfl, hl2⟩ : labels = ((x.L.getD []).erase l1).erase l2 ∧ l2 ∈ (x.L.getD []).erase l1 := by
    unfold pyRemove at g5
    split at g5
    · next hh => injection g5 with g5; exact ⟨g5.symm, hh⟩
    · cases g5
  have hk1 : l1 ∈ x.data.keys := (Dict.has_iff_mem _ _).1 (by simp [Dict.has, h4])
  have hk2 : l2 ∈ x.data.keys := (Dict.has_iff_mem _ _).1 (by simp [Dict.has, g2])
  have hsp : ∀ {l : Str}, OwnColumn x l → ∀ o ∈ meshSpectraOps (l1 ++ p!":" ++ l2)
      [(a1.take (i1.toNat + 1)).length, ax2.length] (spectra x), cleanName o.1 ≠ cleanName l := by
    intro l ho o h6
    obtain ⟨kv, q1, q2⟩ := meshSpectraOps_label _ _ _ h6
    exact ho.spectra kv.1 (List.mem_map.2 ⟨kv, (mcaOf_spectra x).mem_iff.1 q1, rfl⟩) _ q2
  have hops : ∀ o ∈ ops, o.1 ∈ ((x.L.getD []).erase l1).erase l2 ∧ o.1 ∈ x.data.keys ∧
      o = meshOp x [(a1.take (i1.toNat + 1)).length, ax2.length] o.1 := by
    intro o h6
    obtain ⟨l, q1, rfl, xs, q2⟩ := g7 o h6
    exact ⟨q1, (Dict.has_iff_mem _ _).1 (by simp [Dict.has, meshOp, q2]), rfl⟩
  have hnum : ∀ {xs : List PyFloat} {d : HData}, (flts xs).toH = .ok d → d = .nums ⟨xs.map .flt, [xs.length]⟩ := by
    intro xs d h6
    unfold flts PData.toH at h6
    injection h6 with h6
    rw [← h6, unify_flt]
    simp
  obtain ⟨d1, d2, d3, d4⟩ := dataAttrs_get sg (l1 ++ p!":" ++ l2) dataGroup
  refine ⟨l2, a2, x.L.getD [], a1.take (i1.toNat + 1), ax2, last, sg, fun hh => hlab g1 (hzd ▸ hh), by rw [hzd, g2], hyx, rfl,
    ?_, ?_, ?_, ?_, by rw [hzl, g9], g10, by rw [g12, d1], ?_⟩
  · intro j
    rw [everyNth_get (by omega) g3, show (i1 + 1).toNat = i1.toNat + 1 by omega]
  · intro hnd hne ho
    have ho := hown _ ho
    obtain ⟨n, d, q1, q2, q3⟩ := put_of_op g11 (o := (l1, flts (a1.take (i1.toNat + 1)), [])) (by simp)
      (fun o' ho' he => by
        simp only at he
        rcases List.mem_append.1 ho' with h6 | h6
        · obtain ⟨_, q2, _, _, q5⟩ := g6 o' h6
          exact absurd (ho.columns _ ((Dict.has_iff_mem _ _).1 q5) he) q2
        · rcases List.mem_append.1 h6 with h6 | h6
          · simp only [List.mem_cons, List.not_mem_nil, or_false] at h6
            rcases h6 with rfl | rfl
            · rfl
            · exact absurd (ho.columns _ hk2 he).symm hne
          · rcases List.mem_append.1 h6 with h6 | h6
            · obtain ⟨q1, q2, q3⟩ := hops o' h6
              have := ho.columns _ q2 he
              rw [this] at q1
              exact absurd (List.mem_of_mem_erase q1) (List.Nodup.not_mem_erase hnd)
            · exact absurd he (hsp ho o' h6)) (V := []) (by simp [Dict.keys])
    exact ⟨n, _, q1, by rw [g13, q3, hnum q2]⟩
  · intro hnd hne ho
    have ho := hown _ ho
    obtain ⟨n, d, q1, q2, q3⟩ := put_of_op g11 (o := (l2, flts ax2, [])) (by simp)
      (fun o' ho' he => by
        simp only at he
        rcases List.mem_append.1 ho' with h6 | h6
        · obtain ⟨_, _, q2, _, q5⟩ := g6 o' h6
          exact absurd (ho.columns _ ((Dict.has_iff_mem _ _).1 q5) he) q2
        · rcases List.mem_append.1 h6 with h6 | h6
          · simp only [List.mem_cons, List.not_mem_nil, or_false] at h6
            rcases h6 with rfl | rfl
            · exact absurd (ho.columns _ hk1 he) hne
            · rfl
          · rcases List.mem_append.1 h6 with h6 | h6
            · obtain ⟨q1, q2, q3⟩ := hops o' h6
              have := ho.columns _ q2 he
              rw [this] at q1
              exact absurd q1 (List.Nodup.not_mem_erase (hnd.erase _))
            · exact absurd he (hsp ho o' h6)) (V := []) (by simp [Dict.keys])
    exact ⟨n, _, q1, by rw [g13, q3, hnum q2]⟩
  · intro label hl hn1 hn2 hne hdot hslash hhkl ho
    have ho := hown _ ho
    have hl' : label ∈ ((x.L.getD []).erase l1).erase l2 :=
      (List.mem_erase_of_ne hn2).2 ((List.mem_erase_of_ne hn1).2 hl)
    have hhkl' : startsWith x.scanCmd p!"hkl" = true → label ∉ [p!"H", p!"K", p!"L"] := fun hh =>
      hhkl (by rw [hzc]; exact List.isPrefixOf_iff_prefix.1 hh)
    have hmem := g8 label hl' ⟨hne, hdot, hslash⟩ ho hn1 hn2 hhkl'
    obtain ⟨l0, _, q0, xs, hxs⟩ := g7 _ hmem
    have hl0 : l0 = label := (congrArg Prod.fst q0).symm
    subst hl0
    obtain ⟨n, d, q1, q2, q3⟩ := put_of_op g11
      (o := meshOp x [(a1.take (i1.toNat + 1)).length, ax2.length] l0)
      (List.mem_append_right _ (List.mem_append_right _ (List.mem_append_left _ hmem)))
      (fun o' ho' he => by
        have he : cleanName o'.1 = cleanName l0 := he
        rcases List.mem_append.1 ho' with h6 | h6
        · obtain ⟨q1, _, _, q4, q5⟩ := g6 o' h6
          exact absurd (ho.columns _ ((Dict.has_iff_mem _ _).1 q5) he ▸ q4) (hhkl' q1)
        · rcases List.mem_append.1 h6 with h6 | h6
          · simp only [List.mem_cons, List.not_mem_nil, or_false] at h6
            rcases h6 with rfl | rfl
            · exact absurd (ho.columns _ hk1 he).symm hn1
            · exact absurd (ho.columns _ hk2 he).symm hn2
          · rcases List.mem_append.1 h6 with h6 | h6
            · obtain ⟨q1, q2, q3⟩ := hops o' h6
              have := ho.columns _ q2 he
              rw [q3, this]
            · exact absurd he (hsp ho o' h6)) (V := []) (by simp [Dict.keys])
    have hd2 : d = .nums (reshapeData (.flt .nan) (xs.map .flt) [(a1.take (i1.toNat + 1)).length, ax2.length]) := by
      have hv : colValues x l0 = xs := by unfold colValues; rw [hxs]
      have q2' : PData.toH (.nd (reshapeData (.flt .nan) ((colValues x l0).map .flt)
        [(a1.take (i1.toNat + 1)).length, ax2.length])) = .ok d := q2
      rw [hv] at q2'
      obtain ⟨b, bs, rfl⟩ := List.exists_cons_of_ne_nil hne1
      exact (Except.ok.inj (show Except.ok (HData.nums _) = Except.ok d from q2')).symm
    obtain ⟨c1, c2⟩ := C36_size (Num.flt .nan) (xs.map .flt) [(a1.take (i1.toNat + 1)).length, ax2.length]
    have c3 := C36_values (Num.flt .nan) (xs.map .flt) [(a1.take (i1.toNat + 1)).length, ax2.length]
    refine ⟨n, xs, (reshapeData (.flt .nan) (xs.map .flt) [(a1.take (i1.toNat + 1)).length, ax2.length]).flat, _, q1,
      by rw [hzd, hxs], by rw [g13, q3, hd2]; rfl, rfl, by rw [c1]; simp, ?_⟩
    intro q hq
    rw [c1] at hq
    rw [c3 q hq]
    congr 1
    rw [List.getD_eq_getElem?_getD, List.getD_eq_getElem?_getD, List.getElem?_map]
    cases xs[q]? <;> rfl
  · intro hc1 hc2
    have hcont : (l1 ++ p!":" ++ l2).contains ':' = true := by simp
    have hsplit : splitC ':' (l1 ++ p!":" ++ l2) = [l1, l2] := by
      have hj := splitC_join ':' [l1, l2] (by simp) (by simp [hc1, hc2])
      have he : join [':'] [l1, l2] = l1 ++ p!":" ++ l2 := by simp [join]
      rw [he] at hj
      exact hj
    rw [g12, d2, hcont, hsplit]
    rfl

end

/-- a mesh of 2 by 3 points; the counter `I` counts the points as they were measured -/
def meshText : Str := demoHead ++ join p!"\n" [[], p!"#S 1 mesh  a 0 1 1 b 0 2 2 1", p!"#D Wed Jun 16 18:24:36 2010",
  p!"#N 3", p!"#L a  b  I", p!"0 0 1", p!"1 0 2", p!"0 1 3", p!"1 1 4", p!"0 2 5", p!"1 2 6", []]

/-- the file object -/
def meshFile : Except PyErr Sdf :=
  @Sdf.openFile asciiDB saveEnv HKey.all p!"demo.dat" (fileAt meshText 1) (fileAt meshText 1)

/-- what the examples look at after a save -/
def meshDemo : Option (Bool × Option PyErr × H5 × Sdf) :=
  match meshFile with
  | .error _ => none
  | .ok s =>
    let r := @save asciiDB saveEnv HKey.all saveVersions [.int 1] s
    some (@savableB asciiDB s, r.2, r.1.h5, r.1.sdf)

/-- C42: the hypotheses are met by this file. -/
theorem C42_nonvacuous : letI : UniDB := asciiDB
    ∃ s r z, Savable s ∧ save saveEnv HKey.all saveVersions [.int 1] s = (r, none) ∧
      r.sdf.getScan (.int 1) = .ok (some z) ∧ macroOf z = some p!"mesh" ∧ z.data ≠ [] ∧ z.L = some [p!"I"] ∧
      OwnColumn z p!"a" ∧ OwnColumn z p!"I" := by
  letI : UniDB := asciiDB
  have hd : (match meshDemo with
    | none => false
    | some (b, e, _, sdf) =>
      b && e.isNone &&
      (match sdf.getScan (.int 1) with
      | .ok (some z) =>
        decide (macroOf z = some p!"mesh") && decide (z.data ≠ []) && decide (z.L = some [p!"I"]) &&
        decide (∀ l ∈ z.data.keys, cleanName l = cleanName p!"a" → l = p!"a") &&
        decide (∀ key ∈ (mcaOf z).keys, ∀ l ∈ mcaLabels key, cleanName l ≠ cleanName p!"a") &&
        decide (∀ l ∈ z.data.keys, cleanName l = cleanName p!"I" → l = p!"I") &&
        decide (∀ key ∈ (mcaOf z).keys, ∀ l ∈ mcaLabels key, cleanName l ≠ cleanName p!"I")
      | _ => false)) = true := by decide +kernel
  unfold meshDemo at hd
  cases hs : meshFile with
  | error e => rw [hs] at hd; cases hd
  | ok s =>
    rw [hs] at hd
    simp only at hd
    cases hr : save saveEnv HKey.all saveVersions [.int 1] s with
    | mk r e =>
      rw [hr] at hd
      simp only at hd
      cases h1 : r.sdf.getScan (.int 1) with
      | error e => rw [h1] at hd; simp at hd
      | ok o1 =>
        rw [h1] at hd
        cases o1 with
        | none => simp at hd
        | some z =>
          simp only [Bool.and_eq_true, decide_eq_true_eq, Option.isNone_iff_eq_none] at hd
          obtain ⟨⟨b1, b2⟩, ⟨⟨⟨⟨⟨⟨c1, c2⟩, c3⟩, c4⟩, c5⟩, c6⟩, c7⟩⟩ := hd
          subst b2
          exact ⟨s, r, z, savable_of_b b1, hr, h1, c1, c2, c3, ⟨c4, c5⟩, ⟨c6, c7⟩⟩

/-- C42 does not hold as stated: in this file the element (0, 1) of `I` is 2, the observation at a = 1
and b = 0; the observation at a = 0 and b = 1 is 3. -/
theorem C42_transposed :
    meshDemo.map (fun r => (datasetAt r.2.2.1 [p!"S1", p!"data", p!"a"]).map (·.1)) =
      some (some (.nums ⟨[.flt (.fin 0), .flt (.fin 1)], [2]⟩)) ∧
    meshDemo.map (fun r => (datasetAt r.2.2.1 [p!"S1", p!"data", p!"b"]).map (·.1)) =
      some (some (.nums ⟨[.flt (.fin 0), .flt (.fin 1), .flt (.fin 2)], [3]⟩)) ∧
    meshDemo.map (fun r => (datasetAt r.2.2.1 [p!"S1", p!"data", p!"I"]).map (·.1)) =
      some (some (.nums ⟨[1, 2, 3, 4, 5, 6].map (fun i => .flt (.fin i)), [2, 3]⟩)) := by decide +kernel

/-- A mesh cannot be saved a second time from the same file object: the first time removed the labels
of the axes from the scan. -/
theorem C42_second_save : meshDemo.map (fun r =>
    (@save asciiDB saveEnv HKey.all saveVersions [.int 1] r.2.2.2).2) = some (some .ValueError) := by decide +kernel

end S2N.Props
