import Verif.Spec.LeftBehind
import Verif.Props.Save
/-
C106: what a conversion that raises an exception leaves in the file.
-/
namespace S2N.Props
open S2N S2N.Py S2N.Spec
open Writer Eznx H5

section
variable [UniDB]

/-! ### one scan -/

omit [UniDB] in
/-- a new entry cannot be made only if there is one of this name -/
theorem openEntry_fails {s s' : H5} (hs : FileOk s) {key : Ref} (hk : Plain (p!"S" ++ key.text)) {err : PyErr}
    (h : openEntry key s = (s', .error err)) :
    ∃ ch a, s[0]? = some (.group ch a) ∧ ch.has (p!"S" ++ key.text) = true ∧ s' = s ∧ err = .ValueError := by
  obtain ⟨ch, a, h0⟩ := hs.root
  unfold openEntry at h
  cases hh : ch.has (p!"S" ++ key.text) with
  | true =>
    rw [HM.bind_err (makeGroup_exists (h := root) h0 hk.single hh _ _)] at h
    injection h with h1 h2
    injection h2 with h2
    exact ⟨ch, a, h0, hh, h1.symm, h2.symm⟩
  | false =>
    rw [HM.bind_ok (makeGroup_eq (h := root) h0 hk.single hh _ _)] at h
    have h2 : (s.set 0 (.group (ch.set (p!"S" ++ key.text) s.length) a) ++ [HNode.group [] entryAttrs])[s.length]? =
        some (.group [] entryAttrs) := by
      rw [List.getElem?_append_right (by simp)]
      simp
    have h3 := makeDataset_eq (h := ⟨s.length, [p!"S" ++ key.text]⟩) (d := .str p!"SPEC scan") h2
      (show Plain p!"experiment_description" by decide).single rfl rfl
      (attr1 p!"description" p!"SPEC data file scan")
    have h4 := (HM.bind_ok (f := fun _ => (pure ⟨s.length, [p!"S" ++ key.text]⟩ : HM HRef)) h3).symm.trans h
    cases h4

omit [UniDB] in
/-- the placeholder can be written in a group without `data` -/
theorem noData_total {s : H5} {e : HRef} {ch : Dict Nat} {a : Dict AVal} (he : s[e.id]? = some (.group ch a))
    (hd : ch.has p!"data" = false) : ∃ t, noData e s = (t, .ok ()) := by
  have hl := lt_of_get? he
  unfold noData
  have hg1 := makeGroup_eq he (show Plain p!"data" by decide).single hd p!"NXdata" [(p!"signal", .str p!"no_y_data"),
    (p!"axes", .str p!"no_x_data"), (p!"no_x_data_indices", .nums [.int 0])]
  have h2 : (s.set e.id (HNode.group (ch.set p!"data" s.length) a) ++ [HNode.group [] noDataAttrs])[s.length]? =
      some (HNode.group [] noDataAttrs) := by
    rw [List.getElem?_append_right (by simp)]
    simp
  have h3 := makeDataset_eq (h := ⟨s.length, e.path ++ [p!"data"]⟩) h2 (d := .nums [.int 0, .int 1])
    (show Plain p!"no_x_data" by decide).single rfl rfl
    [(p!"units", .str p!"none"), (p!"long_name", .str p!"no data points in this scan")]
  refine ⟨_, (HM.bind_ok hg1).trans ((HM.bind_ok h3).trans ((HM.bind_ok (makeDataset_eq
    (h := ⟨s.length, e.path ++ [p!"data"]⟩) (ch := Dict.set [] p!"no_x_data" (s.length + 1)) (a := noDataAttrs) ?_
    (show Plain p!"no_y_data" by decide).single (by rfl) (d := .nums [.int 0, .int 1]) rfl
    [(p!"units", .str p!"none"), (p!"long_name", .str p!"no data points in this scan")])).trans rfl))⟩
  rw [List.getElem?_append_left (by simp), set_get? _ _ _ _ (by simp), if_pos rfl]
  simp

omit [UniDB] in
/-- once the scan is written, the loop body does not fail -/
theorem closeEntry_total {E : Str} {n : Nat} {first : Bool} {k : Ref} {s : H5}
    (hi : H5.Inv (entryScope E n) s) (hent : Entry (entryScope E n) s) :
    ∃ t, closeEntry first k ⟨n, [E]⟩ s = (t, .ok ()) := by
  obtain ⟨ch, a, h0, _⟩ := hi.entry
  obtain ⟨chE, aE, he⟩ := hent
  have he : s[n]? = some (.group chE aE) := he
  have hn0 : (0 : Nat) ≠ n := fun e => hi.notD (show (entryScope E n).D n from e ▸ hi.rootD)
  unfold closeEntry
  have h1 : ∃ t, HM.onlyIf first (addAttributes root (attr1 p!"default" (p!"S" ++ k.text))) s = (t, .ok ()) ∧
      t[n]? = some (.group chE aE) := by
    cases first with
    | true =>
      refine ⟨_, addAttributes_eq _ (h := root) h0, ?_⟩
      exact (set_get? _ _ _ _ (lt_of_get? h0)).trans ((if_neg hn0.symm).trans he)
    | false => exact ⟨s, rfl, he⟩
  obtain ⟨t, h1, h2⟩ := h1
  rw [HM.bind_ok h1]
  rw [HM.andThen_ok (contains_eq (h := ⟨n, [E]⟩) h2 (show Plain p!"data" by decide).single)]
  cases hd : chE.has p!"data" with
  | true => exact ⟨t, rfl⟩
  | false => exact noData_total (e := ⟨n, [E]⟩) h2 hd

/-- what is left if a pass of the loop raises -/
theorem saveKey_fails {env : Env} {reg : List HKey} {first : Bool} {k : Ref} {S S' : SState} {err : PyErr} (hok : FileOk S.h5)
    (hk : Plain (p!"S" ++ k.text))
    (hsafe : ∀ x0 x hdr, S.sdf.getScan k = .ok (some x0) →
      interpretScan env reg ⟨x0, S.sdf.headerOf x0⟩ = (⟨x, hdr⟩, none) →
      RelNames x ∧ RelNames hdr ∧ .scanData ∉ hdr.h5.values)
    (h : saveKey env reg first k S = (S', some err)) :
    ∃ ch a, S.h5[0]? = some (.group ch a) ∧
      ((ch.has (p!"S" ++ k.text) = true ∧ S' = S ∧ err = .ValueError) ∨
       (ch.has (p!"S" ++ k.text) = false ∧
        S'.h5[0]? = some (.group (ch.set (p!"S" ++ k.text) S.h5.length) a) ∧
        ∀ i, 0 < i → i < S.h5.length → S'.h5[i]? = S.h5[i]?)) := by
  unfold saveKey at h
  unfold SState.run at h
  cases h1 : openEntry k S.h5 with
  | mk t r =>
    rw [h1] at h
    cases r with
    | error e =>
      obtain ⟨ch, a, o1, o2, o3, o4⟩ := openEntry_fails hok hk h1
      simp only [Res.raise] at h
      injection h with h2 h3
      injection h3 with h3
      refine ⟨ch, a, o1, .inl ⟨o2, ?_, h3 ▸ o4⟩⟩
      rw [← h2, o3]
    | ok e =>
      obtain ⟨ch, a, o1, o2, o3, o4, o5⟩ := openEntry_ok hok hk h1
      refine ⟨ch, a, o1, .inr ⟨o2, ?_⟩⟩
      subst o3
      have hl0 := lt_of_get? o1
      have htn : t[S.h5.length]? = some (.group [(p!"experiment_description", S.h5.length + 1)] entryAttrs) := by
        rw [o4, List.getElem?_append_right (by simp)]; simp
      have ht0 : t[0]? = some (.group (ch.set (p!"S" ++ k.text) S.h5.length) a) := by
        rw [o4, List.getElem?_append_left (by simpa using hl0), set_get? _ _ _ _ hl0, if_pos rfl]
      have hti : ∀ i, 0 < i → i < S.h5.length → t[i]? = S.h5[i]? := by
        intro i h0 hi
        rw [o4, List.getElem?_append_left (by simpa using hi), set_get? _ _ _ _ hl0, if_neg (by omega)]
      simp only at h
      cases hg : S.sdf.getScan k with
      | error err =>
        simp only [hg, Res.eval, Res.raise] at h
        injection h with h _
        rw [← h]
        exact ⟨ht0, hti⟩
      | ok o =>
        simp only [hg, Res.eval] at h
        cases o with
        | none =>
          simp only [Res.raise] at h
          injection h with h _
          rw [← h]
          exact ⟨ht0, hti⟩
        | some x0 =>
          simp only at h
          cases hi : interpretScan env reg ⟨x0, S.sdf.headerOf x0⟩ with
          | mk c err =>
            rw [hi] at h
            simp only at h
            cases err with
            | some err =>
              simp only [Res.raise] at h
              injection h with h _
              rw [← h]
              exact ⟨ht0, hti⟩
            | none =>
              simp only at h
              obtain ⟨x, hdr⟩ := c
              obtain ⟨r1, r2, r3⟩ := hsafe x0 x hdr hg hi
              simp only at h
              rw [saveScan_eq] at h
              have hnl := lt_of_get? htn
              rw [HM.bind_ok (addAttributes_eq _ (h := ⟨S.h5.length, [p!"S" ++ k.text]⟩) htn)] at h
              have hAttr : (HNode.group [(p!"experiment_description", S.h5.length + 1)] entryAttrs).withAttrs
                (Dict.update (HNode.group [(p!"experiment_description", S.h5.length + 1)] entryAttrs).attrs (attr1 p!"default" p!"data")) =
                HNode.group [(p!"experiment_description", S.h5.length + 1)]
                  [(p!"NX_class", .str p!"NXentry"), (p!"default", .str p!"data")] := rfl
              rw [hAttr] at h
              generalize ht1 : t.set (HRef.mk S.h5.length [p!"S" ++ k.text]).id _ = t1 at h
              have i1 : H5.Inv (entryScope (p!"S" ++ k.text) S.h5.length) t1 := by
                rw [← ht1]; exact o5.attrs htn _
              have e1 : t1[S.h5.length]? = some (.group [(p!"experiment_description", S.h5.length + 1)]
                  [(p!"NX_class", .str p!"NXentry"), (p!"default", .str p!"data")]) := by
                rw [← ht1, set_get? _ _ _ _ hnl, if_pos rfl]
              have t1i : ∀ i, i ≠ S.h5.length → t1[i]? = t[i]? := by
                intro i hne
                rw [← ht1, set_get? _ _ _ _ hnl, if_neg hne]
              have hok1 : Ok (entryScope (p!"S" ++ k.text) S.h5.length) ⟨S.h5.length, [p!"S" ++ k.text]⟩ :=
                ⟨o5.notD, .inl ⟨rfl, rfl⟩⟩
              obtain ⟨i2, s2, q2⟩ := conf_saveScanRest (fun _ _ h => h) o5.plain hok1 hdr x r2 r1
                (fun _ _ => ⟨fun _ _ h => h, fun _ _ h => h⟩) (fun _ _ => ⟨fun _ _ h => h, fun _ _ h => h⟩) (fun _ _ h => h) t1 i1
              cases h5 : saveScanRest ⟨S.h5.length, [p!"S" ++ k.text]⟩ hdr x t1 with
              | mk t2 r =>
                rw [h5] at h i2 s2
                cases r with
                | error e =>
                  simp only [Res.raise] at h
                  injection h with h _
                  rw [← h]
                  refine ⟨?_, fun i h0 hi => ?_⟩
                  · exact (s2.eq 0 hl0).trans ((t1i 0 (by omega)).trans ht0)
                  · exact (s2.eq i hi).trans ((t1i i (by omega)).trans (hti i h0 hi))
                | ok y =>
                  simp only at h
                  obtain ⟨chE2, k1, _⟩ := s2.keep _ _ e1
                  obtain ⟨t3, h6⟩ := closeEntry_total (first := first) (k := k) i2 ⟨_, _, k1⟩
                  simp only [h6] at h
                  cases h

/-- what is left if the loop raises: it did the scans `pre` and raised at `k` -/
theorem saveKeys_fails {env : Env} {reg : List HKey} (hr : reg.Perm HKey.all) (hx : SchemaNames env) {err : PyErr} :
    ∀ (ks : List Ref) (first : Bool) (S S' : SState), FileOk S.h5 → SdfOk S.sdf →
      (∀ k ∈ ks, Plain (p!"S" ++ k.text)) → saveKeys env reg first ks S = (S', some err) →
      ∃ pre k post P, ks = pre ++ k :: post ∧ saveKeys env reg first pre S = (P, none) ∧ FileOk P.h5 ∧
        ∃ first', saveKey env reg first' k P = (S', some err) ∧ SdfOk P.sdf := by
  intro ks
  induction ks with
  | nil => intro first S S' _ _ _ h; cases h
  | cons k ks ih =>
    intro first S S' hf hs hk h
    rw [saveKeys] at h
    cases hm : saveKey env reg first k S with
    | mk S1 e =>
      rw [hm] at h
      cases e with
      | some e =>
        have h : (S1, some e) = (S', some err) := h
        injection h with h1 h2
        subst h1
        exact ⟨[], k, ks, S, rfl, rfl, hf, first, by rw [hm, h2], hs⟩
      | none =>
        have hks := saveKey_ok hf (hk k (by simp)) (fun x0 x hdr g1 g2 => by
          obtain ⟨a1, a2, a3, a4, a5, a6⟩ := interp_ok_safe hr hx hs g1 g2
          exact ⟨a1.names, a3, a4⟩) hm
        obtain ⟨n, x, y, e, chE, en, st, _, _⟩ := hks.entry hr hx hs
        obtain ⟨pre, k', post, P, b1, b2, b3, b4⟩ := ih false S1 S' hks.ok st.ok (fun k' hk' => hk k' (by simp [hk'])) h
        refine ⟨k :: pre, k', post, P, by rw [b1]; rfl, ?_, b3, b4⟩
        rw [saveKeys, hm]
        exact b2

/-! ### the file -/

omit [UniDB] in
theorem walk_old {s s' : H5} (hw : FileOk s) (h : ∀ i, 0 < i → i < s.length → s'[i]? = s[i]?) :
    ∀ (path : List Str) (i : Nat), 0 < i → i < s.length → walk s' i path = walk s i path ∧
      ∀ j, walk s i path = some j → 0 < j ∧ j < s.length := by
  intro path
  induction path with
  | nil =>
    intro i h0 h1
    refine ⟨rfl, fun j hj => ?_⟩
    simp only [walk, Option.some.injEq] at hj
    omega
  | cons n cs ih =>
    intro i h0 h1
    unfold walk
    rw [h i h0 h1]
    cases hs : s[i]? with
    | none => exact ⟨rfl, fun j hj => by simp at hj⟩
    | some node =>
      cases node with
      | dset d a => exact ⟨rfl, fun j hj => by simp at hj⟩
      | group ch a =>
        simp only
        cases hn : ch.get? n with
        | none => exact ⟨rfl, fun j hj => by simp at hj⟩
        | some k =>
          simp only
          have hm := Dict.mem_of_get? hn
          have hk0 := hw.noRoot i ch a hs n k hm
          exact ih k (by omega) ((hw.wf i ch a hs).2 n k hm)

theorem leftBehind_of {env : Env} {reg : List HKey} (hr : reg.Perm HKey.all) (hx : SchemaNames env) {first : Bool} {k : Ref}
    {P S' : SState} {err : PyErr} (hf : FileOk P.h5) (hs : SdfOk P.sdf) (hk : Plain (p!"S" ++ k.text))
    (h : saveKey env reg first k P = (S', some err)) : LeftBehind k P.h5 S'.h5 := by
  obtain ⟨ch, a, h0, h1⟩ := saveKey_fails hf hk (fun x0 x hdr g1 g2 => by
    obtain ⟨a1, a2, a3, a4, a5, a6⟩ := interp_ok_safe hr hx hs g1 g2
    exact ⟨a1.names, a3, a4⟩) h
  have hroot : objAt P.h5 [] = some (.group ch a) := h0
  rcases h1 with ⟨_, e, _⟩ | ⟨h1, h2, h3⟩
  · rw [e]
    exact ⟨rfl, .inl rfl, fun _ _ _ => rfl⟩
  · have hroot' : objAt S'.h5 [] = some (.group (ch.set (entryName k) P.h5.length) a) := h2
    have hnk : entryName k ∉ Dict.keys ch := fun hc => by
      rw [show ch.has (p!"S" ++ k.text) = true from (Dict.has_iff_mem _ _).2 hc] at h1
      cases h1
    refine ⟨?_, .inr ?_, ?_⟩
    · unfold groupAt; rw [hroot, hroot']
    · unfold childrenAt
      rw [hroot, hroot']
      refine ⟨hnk, ?_⟩
      show Dict.keys (ch.set (entryName k) P.h5.length) = Dict.keys ch ++ [entryName k]
      rw [Dict.keys_set, if_neg hnk]
    · intro n path hn
      have hne : n ≠ entryName k := by
        rcases hn with hn | hn
        · exact hn
        · intro e
          unfold childrenAt at hn
          rw [hroot, e] at hn
          exact hnk hn
      unfold objAt walk
      rw [h0, h2]
      simp only
      rw [Dict.get?_set_ne _ _ (by exact hne.symm)]
      cases hc : ch.get? n with
      | none => rfl
      | some j =>
        simp only
        have hm := Dict.mem_of_get? hc
        have hj0 := hf.noRoot 0 ch a h0 n j hm
        obtain ⟨w1, w2⟩ := walk_old hf h3 path j (by omega) ((hf.wf 0 ch a h0).2 n j hm)
        rw [w1]
        cases hw : walk P.h5 j path with
        | none => rfl
        | some i => exact h3 i (w2 i hw).1 (w2 i hw).2

omit [UniDB] in
theorem fileOk_root (a : Dict AVal) : FileOk [HNode.group [] a] := by
  refine ⟨?_, ⟨[], _, rfl⟩, ?_⟩
  · intro i ch b hi
    match i with
    | 0 =>
      simp only [List.getElem?_cons_zero, Option.some.injEq, HNode.group.injEq] at hi
      obtain ⟨rfl, _⟩ := hi
      simp [Dict.keys]
    | i + 1 => simp at hi
  · intro i ch b hi n j hj
    match i with
    | 0 =>
      simp only [List.getElem?_cons_zero, Option.some.injEq, HNode.group.injEq] at hi
      obtain ⟨rfl, _⟩ := hi
      simp at hj
    | i + 1 => simp at hi

theorem save_eq {env : Env} {reg : List HKey} {v : Versions} {s : Sdf} {a : Dict AVal} (h : rootAttributes v s = .ok a)
    (ks : List Ref) : save env reg v ks s = saveKeys env reg true ks ⟨s, [.group [] (Dict.update [] a)]⟩ := by
  unfold save
  rw [h]
  simp only [Res.eval, SState.run]
  rw [addAttributes_eq a (h := root) (show H5.empty[0]? = some (.group [] []) from rfl)]
  rfl

/-- C106: if `save(file, [n1, ...])` raises, then either the data file has nothing for the attributes of the root (no
header with an epoch) and the NeXus file is an empty group, or there is a scan `k` of the list at which it raised: the
scans before `k` can be saved, and the file is as after saving just these, except for an entry `S<k>` that may be
there; nothing of the scans after `k` is in it. -/
theorem C106_left {env : Env} {reg : List HKey} (hr : reg.Perm HKey.all) (hx : SchemaNames env) {v : Versions}
    {ks : List Ref} {s : Sdf} {r : SState} {err : PyErr} (hs : Savable s) (hk : ∀ k ∈ ks, PlainText k.text)
    (h : save env reg v ks s = (r, some err)) :
    (rootAttributes v s = .error err ∧ groupAt r.h5 [] = some [] ∧ childrenAt r.h5 [] = [] ∧ r.sdf = s) ∨
    ∃ pre k post p, ks = pre ++ k :: post ∧ save env reg v pre s = (p, none) ∧ LeftBehind k p.h5 r.h5 := by
  cases ha : rootAttributes v s with
  | error e =>
    unfold save at h
    rw [ha] at h
    simp only [Res.eval, Res.raise] at h
    injection h with h1 h2
    injection h2 with h2
    subst h1 h2
    exact .inl ⟨rfl, rfl, rfl, rfl⟩
  | ok a =>
    right
    rw [save_eq ha] at h
    obtain ⟨pre, k, post, P, h1, h2, h3, first, h4, h5⟩ := saveKeys_fails hr hx ks true _ _ (fileOk_root _) (Savable.ok hs)
      (fun k hk' => plain_entry (hk k hk')) h
    refine ⟨pre, k, post, P, h1, by rw [save_eq ha]; exact h2, ?_⟩
    exact leftBehind_of hr hx h3 h5 (plain_entry (hk k (by rw [h1]; simp))) h4

/-- C106: so the scans before the failing one are complete: the root has exactly their entries, perhaps followed by the
one that failed, names the first of them as the default (and nothing, if the first scan failed), and each is an
NXentry with its data group. -/
theorem C106_complete {env : Env} {reg : List HKey} (hr : reg.Perm HKey.all) (hx : SchemaNames env) {v : Versions}
    {ks : List Ref} {s : Sdf} {r : SState} {err : PyErr} (hs : Savable s) (hk : ∀ k ∈ ks, PlainText k.text)
    (h : save env reg v ks s = (r, some err)) (ha : ∃ a, rootAttributes v s = .ok a) :
    ∃ pre k post, ks = pre ++ k :: post ∧
      (childrenAt r.h5 [] = pre.map entryName ∨ childrenAt r.h5 [] = (pre ++ [k]).map entryName) ∧
      attrAt r.h5 [] p!"default" = pre.head?.map (fun k => .str (entryName k)) ∧
      ∀ k' ∈ pre, attrAt r.h5 [entryName k'] p!"NX_class" = some (.str p!"NXentry") ∧
        attrAt r.h5 [entryName k', p!"data"] p!"NX_class" = some (.str p!"NXdata") := by
  obtain ⟨a, ha⟩ := ha
  rcases C106_left hr hx hs hk h with ⟨e, _⟩ | ⟨pre, k, post, p, h1, h2, h3⟩
  · rw [ha] at e; cases e
  · obtain ⟨c1, c2, c3, c4⟩ := C40_entries hr hx hs (fun k' hk' => hk k' (by rw [h1]; simp [hk'])) h2
    have hat : ∀ n path key, n ∈ childrenAt p.h5 [] → attrAt r.h5 (n :: path) key = attrAt p.h5 (n :: path) key := by
      intro n path key hn
      unfold attrAt
      rw [h3.others n path (.inr hn)]
    refine ⟨pre, k, post, h1, ?_, ?_, ?_⟩
    · rcases h3.entries with e | ⟨_, e⟩
      · left; rw [e, c1]
      · right; rw [e, c1]; simp
    · rw [← c3]
      have hg := h3.attrs
      unfold groupAt at hg
      unfold attrAt
      have hpr : ∃ ch a, objAt p.h5 [] = some (.group ch a) := by
        obtain ⟨f1, _⟩ := save_ok hr hx (Savable.ok hs)
          (fun k' hk' => plain_entry (hk k' (by rw [h1]; simp [hk']))) h2
        exact f1.root
      obtain ⟨ch, a, hpr⟩ := hpr
      rw [hpr] at hg ⊢
      cases ho : objAt r.h5 [] with
      | none => rw [ho] at hg; cases hg
      | some node =>
        rw [ho] at hg
        cases node with
        | dset d b => cases hg
        | group ch' b =>
          simp only [Option.some.injEq] at hg
          rw [hg]
          rfl
    · intro k' hk'
      have hm : entryName k' ∈ childrenAt p.h5 [] := by rw [c1]; exact List.mem_map.2 ⟨k', hk', rfl⟩
      obtain ⟨d1, _, d3, _⟩ := c4 k' hk'
      exact ⟨by rw [hat _ _ _ hm]; exact d1, by rw [hat _ _ _ hm]; exact d3⟩

theorem saveKeys_append {env : Env} {reg : List HKey} (post : List Ref) : ∀ (pre : List Ref) (first : Bool) (S P : SState),
    saveKeys env reg first pre S = (P, none) → pre ≠ [] →
    saveKeys env reg first (pre ++ post) S = saveKeys env reg false post P := by
  intro pre
  induction pre with
  | nil => intro _ _ _ _ h; exact absurd rfl h
  | cons k ks ih =>
    intro first S P h _
    rw [List.cons_append, saveKeys]
    rw [saveKeys] at h
    cases hm : saveKey env reg first k S with
    | mk S1 e =>
      rw [hm] at h
      cases e with
      | some e => cases h
      | none =>
        have h : saveKeys env reg false ks S1 = (P, none) := h
        show saveKeys env reg false (ks ++ post) S1 = _
        cases ks with
        | nil =>
          have : S1 = P := by
            unfold saveKeys Res.ok at h
            injection h
          rw [this]
          rfl
        | cons k' ks' => exact ih false S1 P h (by simp)

/-- C106: a scan named twice always raises, and the file keeps exactly what was written before its second turn. -/
theorem C106_twice {env : Env} {reg : List HKey} (hr : reg.Perm HKey.all) (hx : SchemaNames env) {v : Versions}
    {pre post : List Ref} {k : Ref} {s : Sdf} {p : SState} (hs : Savable s) (hk : ∀ k' ∈ pre ++ [k], PlainText k'.text)
    (hp : save env reg v pre s = (p, none)) (htwice : ∃ k' ∈ pre, entryName k' = entryName k) :
    save env reg v (pre ++ k :: post) s = (p, some .ValueError) := by
  obtain ⟨k', hk', hn⟩ := htwice
  obtain ⟨f1, _, _, ⟨ch, a, a0, f2, f3, _, f4⟩, _⟩ := save_ok hr hx (Savable.ok hs)
    (fun k' hk' => plain_entry (hk k' (by simp [hk']))) hp
  rw [save_eq f2] at hp ⊢
  rw [saveKeys_append _ _ _ _ _ hp (by intro e; rw [e] at hk'; cases hk'), saveKeys]
  have hh : ch.has (p!"S" ++ k.text) = true := by
    refine (Dict.has_iff_mem _ _).2 ?_
    rw [f4]
    exact List.mem_map.2 ⟨k', hk', hn⟩
  have h1 : openEntry k p.h5 = (p.h5, .error .ValueError) := by
    unfold openEntry
    rw [HM.bind_err (makeGroup_exists (h := root) f3 (plain_entry (hk k (by simp))).single hh _ _)]
  have h2 : saveKey env reg false k p = (p, some .ValueError) := by
    unfold saveKey SState.run
    rw [h1]
    rfl
  rw [h2]
  rfl

theorem save_next {env : Env} {reg : List HKey} {v : Versions} {pre post : List Ref} {k : Ref} {s : Sdf} {p : SState}
    (hp : save env reg v pre s = (p, none)) :
    save env reg v (pre ++ k :: post) s =
      (saveKey env reg (decide (pre = [])) k p).andThen (saveKeys env reg false post) := by
  cases ha : rootAttributes v s with
  | error e =>
    unfold save at hp
    rw [ha] at hp
    cases hp
  | ok a =>
    rw [save_eq ha] at hp ⊢
    cases pre with
    | nil =>
      have hp : (_, none) = (p, none) := hp
      injection hp with hp
      rw [hp]
      rfl
    | cons k' ks =>
      rw [saveKeys_append _ _ _ _ _ hp (by simp), saveKeys]
      rfl

/-- C106: a scan that is not in the data file raises, and leaves an entry that has only the description of the
experiment: neither data nor a default. -/
theorem C106_missing {env : Env} {reg : List HKey} (hr : reg.Perm HKey.all) (hx : SchemaNames env) {v : Versions}
    {pre post : List Ref} {k : Ref} {s : Sdf} {p : SState} (hs : Savable s) (hk : ∀ k' ∈ pre ++ [k], PlainText k'.text)
    (hp : save env reg v pre s = (p, none)) (hnew : ∀ k' ∈ pre, entryName k' ≠ entryName k)
    (hmiss : ∀ x, s.getScan k ≠ .ok (some x)) :
    ∃ r err, save env reg v (pre ++ k :: post) s = (r, some err) ∧ r.sdf = p.sdf ∧
      childrenAt r.h5 [] = (pre ++ [k]).map entryName ∧
      childrenAt r.h5 [entryName k] = [p!"experiment_description"] ∧
      groupAt r.h5 [entryName k] = some [(p!"NX_class", .str p!"NXentry")] := by
  obtain ⟨f1, f0, f5, ⟨ch, a, a0, f2, f3, _, f4⟩, _⟩ := save_ok hr hx (Savable.ok hs)
    (fun k' hk' => plain_entry (hk k' (by simp [hk']))) hp
  have hpk := plain_entry (hk k (by simp))
  have hh : ch.has (p!"S" ++ k.text) = false := by
    cases hc : ch.has (p!"S" ++ k.text) with
    | false => rfl
    | true =>
      have := (Dict.has_iff_mem _ _).1 hc
      rw [f4] at this
      obtain ⟨k', h1, h2⟩ := List.mem_map.1 this
      exact absurd h2 (hnew k' h1)
  have hmiss' : ∀ x, p.sdf.getScan k ≠ .ok (some x) := by
    intro x hx'
    obtain ⟨n, h1, h2⟩ := S2N.getScan_name hx'
    have hnm : n ∈ s.scans.keys := by rw [← f5]; exact List.mem_map.2 ⟨_, Dict.mem_of_get? h1, rfl⟩
    obtain ⟨y, hy⟩ := Option.isSome_iff_exists.1 (show (s.scans.get? n).isSome = true from (Dict.has_iff_mem _ _).2 hnm)
    exact hmiss y (by rw [h2 s f5.symm, hy])
  cases h1 : openEntry k p.h5 with
  | mk t q =>
    cases q with
    | error e =>
      obtain ⟨ch', a', o1, o2, _⟩ := openEntry_fails f1 hpk h1
      rw [f3] at o1
      injection o1 with o1
      injection o1 with o1 _
      rw [← o1, hh] at o2
      cases o2
    | ok e =>
      obtain ⟨ch', a', o1, o2, o3, o4, o5⟩ := openEntry_ok f1 hpk h1
      rw [f3] at o1
      injection o1 with o1
      injection o1 with o1 o1'
      subst o1 o1'
      have hl0 := lt_of_get? f3
      have htn : t[p.h5.length]? = some (.group [(p!"experiment_description", p.h5.length + 1)] entryAttrs) := by
        rw [o4, List.getElem?_append_right (by simp)]; simp
      have ht0 : t[0]? = some (.group (ch.set (p!"S" ++ k.text) p.h5.length) a) := by
        rw [o4, List.getElem?_append_left (by simpa using hl0), set_get? _ _ _ _ hl0, if_pos rfl]
      have hke : ∃ err, saveKey env reg (decide (pre = [])) k p = (⟨p.sdf, t⟩, some err) := by
        unfold saveKey SState.run
        rw [h1]
        simp only
        cases hg : p.sdf.getScan k with
        | error err => exact ⟨err, rfl⟩
        | ok o =>
          cases o with
          | none => exact ⟨_, rfl⟩
          | some x => exact absurd hg (hmiss' x)
      obtain ⟨err, hke⟩ := hke
      refine ⟨⟨p.sdf, t⟩, err, by rw [save_next hp, hke]; rfl, rfl, ?_, ?_, ?_⟩
      · have : objAt t [] = some (.group (ch.set (entryName k) p.h5.length) a) := ht0
        unfold childrenAt
        rw [this]
        show Dict.keys (ch.set (entryName k) p.h5.length) = _
        rw [Dict.keys_set, if_neg, f4]
        · simp [entryName]
        · intro hc
          rw [show ch.has (p!"S" ++ k.text) = true from (Dict.has_iff_mem _ _).2 hc] at hh
          cases hh
      all_goals
        have hw : objAt t [entryName k] = some (.group [(p!"experiment_description", p.h5.length + 1)] entryAttrs) := by
          unfold objAt entryName
          rw [walk_one ht0 (Dict.get?_set_self _ _ _)]
          exact htn
      · unfold childrenAt; rw [hw]; rfl
      · unfold groupAt; rw [hw]; rfl

end

/-! ### an example -/

/-- C106: the hypotheses are met by the file of C40, saved as 1, 3, 7, 2: scan 7 does not exist; the conversion raises,
S1 and S3 are there with their data, S7 has only its description, and S2 is not there.  With 1, 3, 1, 2 the file has
S1 and S3. -/
theorem C106_nonvacuous : letI : UniDB := asciiDB
    (∃ s r, Savable s ∧ save saveEnv HKey.all saveVersions [.str p!"1", .int 3, .int 7, .str p!"2"] s =
      (r, some .AttributeError) ∧ (∃ a, rootAttributes saveVersions s = .ok a) ∧ childrenAt r.h5 [] = [p!"S1", p!"S3", p!"S7"] ∧
      childrenAt r.h5 [p!"S7"] = [p!"experiment_description"] ∧
      childrenAt r.h5 [p!"S1", p!"data"] =
        [p!"two_theta", p!"I0", p!"_mca_", p!"_mca_channel_", p!"_mca_channel_scaled_x"] ∧
      attrAt r.h5 [] p!"default" = some (.str p!"S1")) ∧
    (saveDemo [.str p!"1", .int 3, .int 1, .str p!"2"]).map (fun r => (r.2.1, childrenAt r.2.2.1 [])) =
      some (some .ValueError, [p!"S1", p!"S3"]) := by
  letI : UniDB := asciiDB
  have hd : (match savedFile with
    | .error _ => false
    | .ok s =>
      let r := save saveEnv HKey.all saveVersions [.str p!"1", .int 3, .int 7, .str p!"2"] s
      savableB s && decide (r.2 = some .AttributeError) && decide (childrenAt r.1.h5 [] = [p!"S1", p!"S3", p!"S7"]) &&
      decide (childrenAt r.1.h5 [p!"S7"] = [p!"experiment_description"]) &&
      decide (childrenAt r.1.h5 [p!"S1", p!"data"] =
        [p!"two_theta", p!"I0", p!"_mca_", p!"_mca_channel_", p!"_mca_channel_scaled_x"]) &&
      decide (attrAt r.1.h5 [] p!"default" = some (.str p!"S1")) &&
      (match rootAttributes saveVersions s with | .ok _ => true | .error _ => false)) = true := by decide +kernel
  refine ⟨?_, by decide +kernel⟩
  cases hs : savedFile with
  | error e => rw [hs] at hd; cases hd
  | ok s =>
    rw [hs] at hd
    simp only [Bool.and_eq_true, decide_eq_true_eq] at hd
    obtain ⟨⟨⟨⟨⟨⟨h1, h2⟩, h3⟩, h4⟩, h5⟩, h6⟩, h7⟩ := hd
    cases hsv : save saveEnv HKey.all saveVersions [.str p!"1", .int 3, .int 7, .str p!"2"] s with
    | mk r e =>
      rw [hsv] at h2 h3 h4 h5 h6
      refine ⟨s, r, savable_of_b h1, by rw [hsv, ← h2], ?_, h3, h4, h5, h6⟩
      cases ha : rootAttributes saveVersions s with
      | ok a => exact ⟨a, rfl⟩
      | error e => rw [ha] at h7; cases h7

end S2N.Props
