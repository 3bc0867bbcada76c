import Verif.Lemmas.LiveData
/-
The writer of UXML documents does not raise.
-/
namespace S2N
open Py H5 Eznx Writer Spec

variable {E : Str} {e : Nat} {I S : Option Nat} {b : Book} {s s' : H5}

/-- a path stays if a group gets a member -/
theorem Path.grow {p : Nat} {n : Str} {j : Nat} (st : Step p n j s s') (hf : child s p n = none) : ∀ {q : List Str} {i k : Nat},
    Path s i q k → Path s' i q k := by
  intro q i k h
  induction h with
  | nil => exact .nil _
  | @cons i j' k m ns ch h hj t ih =>
    by_cases hp : i = p
    · subst hp
      obtain ⟨ch', h1, h2, h3⟩ := st.here ch h
      refine .cons h1 ?_ ih
      rw [h3]
      · exact hj
      · intro q
        rw [child_eq h, ← q, hj] at hf
        cases hf
    · exact .cons ((st.old i (kids_lt h) hp).trans h) hj ih

theorem Path.snoc {i j k : Nat} {q : List Str} {n : Str} (h : Path s i q j) (hc : child s j n = some k) : Path s i (q ++ [n]) k := by
  induction h with
  | nil i => exact Path.step hc (.nil _)
  | cons h hj t ih => exact .cons h hj (ih hc)

/-- what is known while the elements of a document are written; the group "UXML" is the group `c` -/
structure Walk (E : Str) (e : Nat) (I S : Option Nat) (b : Book) (c : Nat) (u : UState) (s : H5) : Prop where
  live : Live E e I S b s
  own : ∀ g, c ≤ g → Own e I S g
  ids : ∀ kv ∈ u.unique, kv.2.id < s.length ∧ Path s 0 kv.2.path kv.2.id ∧ ∀ c ∈ kv.2.path, Plain c
  tgt : ∀ t ∈ u.target, c ≤ t.2.1.id ∧ IsGroup s t.2.1.id ∧ Plain t.2.2 ∧ child s t.2.1.id t.2.2 = none
  apart : ∀ t ∈ u.target, ∀ t' ∈ u.target, t.2.1.id = t'.2.1.id → t.2.2 = t'.2.2 → t.1 = t'.1
  keys : u.target.keys.Nodup

/-- what may change when elements with the names `N` of the group `i` are written -/
structure Moved (i : Nat) (N : Str → Prop) (s : H5) (u : UState) (s' : H5) (u' : UState) : Prop where
  len : s.length ≤ s'.length
  here : ∀ m, ¬N m → child s' i m = child s i m
  old : ∀ j, j < s.length → j ≠ i → kids s' j = kids s j
  grp : ∀ j, IsGroup s j → IsGroup s' j
  path : ∀ q k, Path s 0 q k → Path s' 0 q k
  tgt : ∀ t ∈ u'.target, t ∈ u.target ∨ s.length ≤ t.2.1.id ∨ (t.2.1.id = i ∧ N t.2.2)

theorem Moved.refl (i : Nat) (N : Str → Prop) (s : H5) (u : UState) : Moved i N s u s u :=
  ⟨Nat.le_refl _, fun _ _ => rfl, fun _ _ _ => rfl, fun _ h => h, fun _ _ h => h, fun _ h => .inl h⟩

theorem Moved.trans {i : Nat} {N : Str → Prop} {t : H5} {u v w : UState} (h : Moved i N s u t v) (k : Moved i N t v s' w) : Moved i N s u s' w := by
  refine ⟨Nat.le_trans h.len k.len, fun m hm => (k.here m hm).trans (h.here m hm),
    fun j hj hne => (k.old j (Nat.lt_of_lt_of_le hj h.len) hne).trans (h.old j hj hne), fun j hj => k.grp j (h.grp j hj),
    fun q j hq => k.path q j (h.path q j hq), fun x hx => ?_⟩
  have := h.len
  rcases k.tgt x hx with q | q | q
  · exact h.tgt x q
  · exact .inr (.inl (by omega))
  · exact .inr (.inr q)

theorem Moved.mono {i : Nat} {N M : Str → Prop} {u v : UState} (h : Moved i N s u s' v) (k : ∀ m, N m → M m) : Moved i M s u s' v :=
  ⟨h.len, fun m hm => h.here m (fun q => hm (k m q)), h.old, h.grp, h.path, fun t ht => by
    rcases h.tgt t ht with q | q | q
    · exact .inl q
    · exact .inr (.inl q)
    · exact .inr (.inr ⟨q.1, k _ q.2⟩)⟩

/-- there is room for the name `nm` in the group `i` -/
def Room (i : Nat) (nm : Str) (u : UState) (s : H5) : Prop :=
  child s i nm = none ∧ ∀ t ∈ u.target, t.2.1.id = i → t.2.2 ≠ nm

/-- a member with a name for which there is room -/
theorem Walk.step {c : Nat} {u : UState} (h : Walk E e I S b c u s) {i : Nat} (hc : c ≤ i) (hi : IsGroup s i) {nm : Str} {j : Nat} (hr : Room i nm u s)
    (st : Step i nm j s s') : Walk E e I S b c u s' ∧ Moved i (· = nm) s u s' u := by
  refine ⟨⟨h.live.far st (h.own i hc), h.own, fun kv hkv => ?_, fun t ht => ?_, h.apart, h.keys⟩, ⟨st.len, fun m hm => ?_, st.old,
    fun j hj => st.group hj, fun q k hq => hq.grow st hr.1, fun t ht => .inl ht⟩⟩
  · obtain ⟨q1, q2, q3⟩ := h.ids kv hkv
    exact ⟨Nat.lt_of_lt_of_le q1 st.len, q2.grow st hr.1, q3⟩
  · obtain ⟨q1, q2, q3, q4⟩ := h.tgt t ht
    refine ⟨q1, st.group q2, q3, ?_⟩
    by_cases hne : t.2.1.id = i
    · rw [hne]
      have := hr.2 t ht hne
      obtain ⟨ch, hch⟩ := hi
      obtain ⟨ch', h1, -, h3⟩ := st.here ch hch
      rw [child_eq h1, h3 _ this, ← child_eq hch, ← hne]
      exact q4
    · rw [st.other q2.lt hne]
      exact q4
  · obtain ⟨ch, hch⟩ := hi
    obtain ⟨ch', h1, -, h3⟩ := st.here ch hch
    rw [child_eq h1, h3 _ hm, child_eq hch]

theorem Walk.stay {c : Nat} {u : UState} (h : Walk E e I S b c u s) (st : Stay s s') (i : Nat) (N : Str → Prop) :
    Walk E e I S b c u s' ∧ Moved i N s u s' u := by
  refine ⟨⟨h.live.stay st, h.own, fun kv hkv => ?_, fun t ht => ?_, h.apart, h.keys⟩, ⟨Nat.le_of_eq st.len.symm, fun m _ => st.child i m, fun j _ _ => st.old j,
    fun j hj => st.group hj, fun q k hq => hq.stay st, fun t ht => .inl ht⟩⟩
  · obtain ⟨q1, q2, q3⟩ := h.ids kv hkv
    exact ⟨by rw [st.len]; exact q1, q2.stay st, q3⟩
  · obtain ⟨q1, q2, q3, q4⟩ := h.tgt t ht
    exact ⟨q1, st.group q2, q3, by rw [st.child]; exact q4⟩

/-- an object with an id -/
theorem Walk.remember {c : Nat} {u : UState} (h : Walk E e I S b c u s) {o : HRef} (h1 : o.id < s.length) (h2 : Path s 0 o.path o.id)
    (h3 : ∀ c ∈ o.path, Plain c) (uid : Option Str) : Walk E e I S b c (remember uid o u) s := by
  cases uid with
  | none => exact h
  | some k =>
    refine ⟨h.live, h.own, fun kv hkv => ?_, h.tgt, h.apart, h.keys⟩
    rcases Dict.mem_set hkv with q | q
    · rw [q]; exact ⟨h1, h2, h3⟩
    · exact h.ids kv q

theorem remember_target (uid : Option Str) (o : HRef) (u : UState) : (remember uid o u).target = u.target := by cases uid <;> rfl

/-- a hard link to be made -/
theorem Walk.target {c : Nat} {u : UState} (h : Walk E e I S b c u s) {o : HRef} (hc : c ≤ o.id) (hi : IsGroup s o.id) {nm : Str} (hp : Plain nm)
    (hr : Room o.id nm u s) (k : Str) : Walk E e I S b c { u with target := u.target.set k (o, nm) } s := by
  refine ⟨h.live, h.own, h.ids, fun t ht => ?_, fun t ht t' ht' q1 q2 => ?_, Dict.nodup_keys_set _ _ _ h.keys⟩
  · rcases Dict.mem_set ht with q | q
    · rw [q]; exact ⟨hc, hi, hp, hr.1⟩
    · exact h.tgt t q
  · rcases Dict.mem_set ht with q | q <;> rcases Dict.mem_set ht' with q' | q'
    · rw [q, q']
    · rw [q] at q1 q2
      exact absurd q2.symm (hr.2 t' q' q1.symm)
    · rw [q'] at q1 q2
      exact absurd q2 (hr.2 t q q1)
    · exact h.apart t q t' q' q1 q2

/-- there is still room for another name -/
theorem Room.moved {i : Nat} {N : Str → Prop} {u u' : UState} {nm : Str} (h : Room i nm u s) (hi : i < s.length) (m : Moved i N s u s' u') (hn : ¬N nm) :
    Room i nm u' s' := by
  refine ⟨(m.here nm hn).trans h.1, fun t ht q1 q2 => ?_⟩
  rcases m.tgt t ht with q | q | q
  · exact h.2 t q q1 q2
  · omega
  · exact hn (q2 ▸ q.2)

theorem value_fits {n : XmlNode} {v : HData} (h : XmlValue n v) : ∃ d, uxmlValue ((attrOf n p!"type").getD p!"str") (textOf n) = .ok d ∧ ∃ y, d.toH = .ok y := by
  rcases h with ⟨h1, t, i, h2, h3, -⟩ | ⟨h1, t, i, h2, h3, -⟩ | ⟨h1, -⟩
  · rw [h1, h2]
    refine ⟨.num (.int i), ?_, toH_num _⟩
    unfold uxmlValue
    rw [if_pos rfl]
    simp only [Py.int, h3]
  · rw [h1, h2]
    refine ⟨.num (.flt i), ?_, toH_num _⟩
    unfold uxmlValue
    rw [if_neg (by decide), if_pos rfl]
    simp only [Py.float, h3]
  · rw [h1]
    refine ⟨.str ((textOf n).getD p!"None"), ?_, toH_str _⟩
    unfold uxmlValue
    rw [if_neg (by decide), if_neg (by decide), if_pos rfl]

theorem runs_createGroup (h : WF s) {r : HRef} (hi : IsGroup s r.id) {n : Str} (hn : Single n) (hf : child s r.id n = none) :
    Runs (createGroup r n) s fun o s' => o = ⟨s.length, r.path ++ [n]⟩ ∧ Step r.id n s.length s s' ∧ s'.length = s.length + 1 ∧
      kids s' s.length = some [] := by
  obtain ⟨ch, hr⟩ := hi
  rw [child_eq hr] at hf
  obtain ⟨b, hb⟩ := kids_inv hr
  have hk := (h _ _ _ hb).1
  have hh : ch.has n = false := by simp [Dict.has, hf]
  obtain ⟨q1, q2, q3⟩ := step_new h hb (ch' := ch.set n s.length) (Dict.nodup_keys_set _ _ _ hk)
    (Dict.get?_set_self _ _ _) (fun m hm => Dict.get?_set_ne _ _ hm.symm)
    (fun m j hj => by
      rcases Dict.mem_set hj with q | q
      · injection q with _ q; omega
      · exact Nat.le_of_lt ((h _ _ _ hb).2 m j q))
    (node := .group [] []) (by intro _ _ e; injection e with e _; exact e.symm)
  exact ⟨_, _, create_eq _ hb hn hh, rfl, q1, q2, kids_eq q3⟩

/-- `makeLink` in a group -/
theorem runs_linkIn (h : WF s) {r : HRef} (hi : IsGroup s r.id) {m : Str} (hp : Plain m) (hm : child s r.id m = none)
    {o : HRef} (hQ : ∀ c ∈ o.path, Plain c) (ho : Path s 0 o.path o.id) (hol : o.id < s.length) :
    Runs (makeLink r o m) s fun _ s' => Step r.id m o.id s s' := by
  unfold makeLink
  refine Runs.bind (P := fun _ s' => Stay s s') ?_ fun _ s1 st => ?_
  · refine Runs.andThen (P := fun _ s' => s' = s) ⟨_, _, rfl, rfl⟩ fun b s1 e => ?_
    subst e
    exact Runs.onlyIf (fun _ => runs_setAttr h hol _ _) fun _ => Stay.refl h
  refine Runs.bind (P := fun o' s' => o'.id = o.id ∧ s' = s1) ⟨⟨o.id, root.path ++ o.path⟩, s1, ?_, rfl, rfl⟩ fun o' s2 e => ?_
  · unfold H5.get HM.lookE
    beta_reduce
    rw [base_name, comps_name hQ, show root.id = 0 from rfl, (ho.stay st).walk]
  · obtain ⟨e1, rfl⟩ := e
    obtain ⟨ch, hch⟩ := hi
    rw [child_eq hch] at hm
    rw [ascii_plain hp]
    refine (runs_setLink st.wf ((st.old _).trans hch) hp.single hm (by rw [e1, st.len]; exact hol)).mono ?_
    rintro _ s' ⟨q1, q2⟩
    rw [e1] at q1
    exact ⟨q1.wf, by rw [q2, st.len]; exact Nat.le_refl _, fun c hc => q1.here c ((st.old _).trans hc),
      fun i hi hne => (q1.old i (by rw [st.len]; exact hi) hne).trans (st.old i)⟩

theorem mem_placesAll {p : List Str} {n : XmlNode} : ∀ {ns : List XmlNode}, n ∈ ns → p ++ [nameIn n] ∈ (placesAll p ns).map (·.1)
  | x :: ns, h => by
    rw [placesAll, List.map_append]
    rcases List.mem_cons.1 h with rfl | h
    · refine List.mem_append_left _ ?_
      cases n; rw [places]; exact List.mem_cons_self ..
    · exact List.mem_append_right _ (mem_placesAll h)

mutual
theorem node_lives {c : Nat} : ∀ (n : XmlNode) (s : H5) (h : HRef) (p : List Str) (u : UState), (∀ x ∈ places p n, ElementFits x.2) →
    ((places p n).map (·.1)).Nodup → Walk E e I S b c u s → c ≤ h.id → IsGroup s h.id → Path s 0 h.path h.id → (∀ c ∈ h.path, Plain c) →
    Room h.id (nameIn n) u s →
    Runs (uxmlNode h n u) s fun u' s' => Walk E e I S b c u' s' ∧ Moved h.id (· = nameIn n) s u s' u'
  | .mk tag attrib text children => by
    intro s h p u hok hnd hw hc hi hpath hplain hroom
    rw [places] at hok hnd
    have hfit := hok _ (List.mem_cons_self ..)
    obtain ⟨hpl, hname⟩ := node_name hfit.1
    simp only at hpl hname
    generalize hnm : nameIn (.mk tag attrib text children) = nm at hpl hname hroom hok hnd ⊢
    have hname' : attrib.get? p!"name" = some nm := hname
    have hna : nameAttr attrib s = (s, .ok nm) := by unfold nameAttr needAttr; rw [hname']; rfl
    rw [uxmlNode]
    rcases hfit.2 with ⟨ht, v, hv⟩ | ⟨ht, hcl⟩ | ht
    · have ht : tag = p!"dataset" := ht
      rw [if_pos ht]
      refine Runs.bind (P := fun n s' => n = nm ∧ s' = s) ⟨_, _, hna, rfl, rfl⟩ ?_
      rintro _ _ ⟨e1, e2⟩
      rw [e1, e2]
      obtain ⟨d, hd, y, hy⟩ := value_fits hv
      refine Runs.lift hd ?_
      obtain ⟨ch, hch⟩ := hi
      have hf := hroom.1
      rw [child_eq hch] at hf
      refine Runs.bind (runs_makeDataset hw.live.wf hch hpl.single hf hy _) ?_
      rintro o s1 ⟨rfl, st, hl, -⟩
      obtain ⟨w1, m1⟩ := hw.step hc ⟨ch, hch⟩ hroom st
      refine Runs.pure ⟨w1.remember (by simp [hl]) ?_ (plain_snoc hplain hpl) _, ?_⟩
      · exact (m1.path _ _ hpath).snoc (st.child ⟨ch, hch⟩).2.1
      · exact ⟨m1.len, m1.here, m1.old, m1.grp, m1.path, by rw [remember_target]; exact m1.tgt⟩
    · have ht : tag = p!"group" := ht
      rw [if_neg (by rw [ht]; decide), if_pos ht]
      rw [if_pos ht] at hok hnd
      refine Runs.bind (P := fun n s' => n = nm ∧ s' = s) ⟨_, _, hna, rfl, rfl⟩ ?_
      rintro _ _ ⟨e1, e2⟩
      rw [e1, e2]
      refine Runs.bind (runs_createGroup hw.live.wf hi hpl.single hroom.1) ?_
      rintro o s1 ⟨rfl, st, hl, hk⟩
      obtain ⟨w1, m1⟩ := hw.step hc hi hroom st
      obtain ⟨cls, hcls⟩ := Option.ne_none_iff_exists'.1 hcl
      have hcls : attrib.get? p!"NX_class" = some cls := hcls
      refine Runs.bind (P := fun n s' => n = cls ∧ s' = s1) ⟨cls, s1, by unfold needAttr; rw [hcls]; rfl, rfl, rfl⟩ ?_
      rintro _ _ ⟨e1, e2⟩
      rw [e1, e2]
      refine Runs.bind (runs_setAttr w1.live.wf (r := ⟨s.length, h.path ++ [_]⟩) (by simp [hl]) _ _) ?_
      intro _ s2 st2
      obtain ⟨w2, m2⟩ := w1.stay st2 h.id (· = nm)
      refine Runs.bind (runs_addAttributes w2.live.wf (r := ⟨s.length, h.path ++ [_]⟩) (by rw [st2.len]; simp [hl]) _) ?_
      intro _ s3 st3
      obtain ⟨w3, m3⟩ := w2.stay st3 h.id (· = nm)
      have hk3 : kids s3 s.length = some [] := ((st3.old _).trans (st2.old _)).trans hk
      have hcl : c ≤ s.length := Nat.le_of_lt (Nat.lt_of_le_of_lt hc hi.lt)
      have m4 := (m1.trans m2).trans m3
      have hp3 : Path s3 0 (h.path ++ [nm]) s.length :=
        (((m1.path _ _ hpath).snoc (st.child hi).2.1).stay st2).stay st3
      have w4 := w3.remember (o := ⟨s.length, h.path ++ [nm]⟩) (by rw [st3.len, st2.len]; simp [hl]) hp3 (plain_snoc hplain hpl) (attrib.get? p!"unique_id")
      refine (nodes_lives children s3 ⟨s.length, h.path ++ [nm]⟩ (p ++ [nm]) _ (fun x hx => hok x (List.mem_cons_of_mem _ hx)) (List.nodup_cons.1 hnd).2 w4
        hcl ⟨_, hk3⟩ hp3 (plain_snoc hplain hpl) (fun n' hn' => ⟨child_nil hk3 _, fun t ht q => ?_⟩)).mono ?_
      · rw [remember_target] at ht
        have := (hw.tgt t ht).2.1.lt
        simp only at q
        omega
      · rintro u' s' ⟨w5, m5⟩
        have hlen : s.length < s3.length := by rw [st3.len, st2.len, hl]; omega
        refine ⟨w5, ⟨Nat.le_trans (Nat.le_of_lt hlen) m5.len, fun m hm => ?_, fun j hj hne => ?_, fun j hj => m5.grp j (m4.grp j hj),
          fun q k hq => m5.path q k (m4.path q k hq), fun t ht => ?_⟩⟩
        · rw [← m4.here m hm]
          have := hi.lt
          unfold child
          rw [m5.old h.id (by omega) (by simp only; omega)]
        · rw [m5.old j (by omega) (by simp only; omega)]
          exact m4.old j hj hne
        · rcases m5.tgt t ht with q | q | q
          · rw [remember_target] at q; exact .inl q
          · exact .inr (.inl (by omega))
          · exact .inr (.inl (by rw [q.1]; exact Nat.le_refl _))
    · have ht : tag = p!"hardlink" := ht
      rw [if_neg (by rw [ht]; decide), if_neg (by rw [ht]; decide), if_pos ht]
      cases htt : attrib.get? p!"target_id" with
      | none => exact Runs.ret ⟨hw, .refl _ _ _ _⟩
      | some t =>
        refine Runs.andThen (P := fun n s' => n = nm ∧ s' = s) ⟨_, _, hna, rfl, rfl⟩ ?_
        rintro _ _ ⟨e1, e2⟩
        rw [e1, e2]
        refine Runs.ret ⟨hw.target hc hi hpl hroom t, ⟨Nat.le_refl _, fun _ _ => rfl, fun _ _ _ => rfl, fun _ h => h, fun _ _ h => h, fun x hx => ?_⟩⟩
        rcases Dict.mem_set hx with q | q
        · rw [q]; exact .inr (.inr ⟨rfl, rfl⟩)
        · exact .inl q

theorem nodes_lives {c : Nat} : ∀ (ns : List XmlNode) (s : H5) (h : HRef) (p : List Str) (u : UState), (∀ x ∈ placesAll p ns, ElementFits x.2) →
    ((placesAll p ns).map (·.1)).Nodup → Walk E e I S b c u s → c ≤ h.id → IsGroup s h.id → Path s 0 h.path h.id → (∀ c ∈ h.path, Plain c) →
    (∀ n ∈ ns, Room h.id (nameIn n) u s) →
    Runs (uxmlNodes h ns u) s fun u' s' => Walk E e I S b c u' s' ∧ Moved h.id (fun m => ∃ n ∈ ns, nameIn n = m) s u s' u'
  | [] => by
    intro s h p u _ _ hw _ _ _ _ _
    rw [uxmlNodes]
    exact Runs.ret ⟨hw, .refl _ _ _ _⟩
  | n :: ns => by
    intro s h p u hok hnd hw hc hi hpath hplain hroom
    rw [uxmlNodes]
    rw [placesAll] at hok hnd
    rw [List.map_append, List.nodup_append] at hnd
    refine Runs.andThen (node_lives n s h p u (fun x hx => hok x (List.mem_append_left _ hx)) hnd.1 hw hc hi hpath hplain
      (hroom n (List.mem_cons_self ..))) ?_
    rintro u1 s1 ⟨w1, m1⟩
    refine (nodes_lives ns s1 h p u1 (fun x hx => hok x (List.mem_append_right _ hx)) hnd.2.1 w1 hc (m1.grp _ hi) (m1.path _ _ hpath) hplain
      (fun n' hn' => (hroom n' (List.mem_cons_of_mem _ hn')).moved hi.lt m1 (fun q => ?_))).mono ?_
    · have h1 : p ++ [nameIn n] ∈ (places p n).map (·.1) := by
        cases n; rw [places]; exact List.mem_cons_self ..
      have h2 : p ++ [nameIn n'] ∈ (placesAll p ns).map (·.1) := mem_placesAll hn'
      rw [q] at h2
      exact hnd.2.2 _ h1 _ h2 rfl
    · rintro u' s' ⟨w2, m2⟩
      exact ⟨w2, (m1.mono (fun m q => ⟨n, List.mem_cons_self .., q.symm⟩)).trans
        (m2.mono (fun m ⟨n', q1, q2⟩ => ⟨n', List.mem_cons_of_mem _ q1, q2⟩))⟩
end

/-- the hard links -/
theorem links_live {un : Dict HRef} : ∀ (L : List (Str × HRef × Str)) (s : H5), Live E e I S b s →
    (∀ kv ∈ un, kv.2.id < s.length ∧ Path s 0 kv.2.path kv.2.id ∧ ∀ c ∈ kv.2.path, Plain c) →
    (∀ t ∈ L, Own e I S t.2.1.id ∧ IsGroup s t.2.1.id ∧ Plain t.2.2 ∧ child s t.2.1.id t.2.2 = none) →
    (∀ t ∈ L, ∀ t' ∈ L, t.2.1.id = t'.2.1.id → t.2.2 = t'.2.2 → t.1 = t'.1) → (Dict.keys L).Nodup →
    Runs (HM.each (fun t : Str × HRef × Str =>
      match un.get? t.1 with
      | some src => makeLink t.2.1 src t.2.2
      | none => HM.ret ()) L) s fun _ s' => Live E e I S b s'
  | [], s, h, _, _, _, _ => Runs.ret h
  | t :: L, s, h, hu, ht, ha, hk => by
    rw [HM.each]
    have hk2 := List.nodup_cons.1 hk
    refine Runs.andThen (P := fun _ s' => Live E e I S b s' ∧ (∀ kv ∈ un, kv.2.id < s'.length ∧ Path s' 0 kv.2.path kv.2.id ∧ ∀ c ∈ kv.2.path, Plain c) ∧
      ∀ t ∈ L, Own e I S t.2.1.id ∧ IsGroup s' t.2.1.id ∧ Plain t.2.2 ∧ child s' t.2.1.id t.2.2 = none) ?_ ?_
    · obtain ⟨q1, q2, q3, q4⟩ := ht t (List.mem_cons_self ..)
      cases hg : un.get? t.1 with
      | none => exact Runs.ret ⟨h, hu, fun t' ht' => ht t' (List.mem_cons_of_mem _ ht')⟩
      | some src =>
        obtain ⟨r1, r2, r3⟩ := hu _ (Dict.mem_of_get? hg)
        refine (runs_linkIn h.wf q2 q3 q4 r3 r2 r1).mono ?_
        intro _ s' st
        refine ⟨h.far st q1, fun kv hkv => ?_, fun t' ht' => ?_⟩
        · obtain ⟨a1, a2, a3⟩ := hu kv hkv
          exact ⟨Nat.lt_of_lt_of_le a1 st.len, a2.grow st q4, a3⟩
        · obtain ⟨a1, a2, a3, a4⟩ := ht t' (List.mem_cons_of_mem _ ht')
          refine ⟨a1, st.group a2, a3, ?_⟩
          by_cases hne : t'.2.1.id = t.2.1.id
          · have hn : t'.2.2 ≠ t.2.2 := fun q => hk2.1 
              (List.mem_map.2 ⟨t', ht', ha t' (List.mem_cons_of_mem _ ht') t (List.mem_cons_self ..) hne q⟩)
            rw [hne] at a4 ⊢
            obtain ⟨ch, hch⟩ := q2
            obtain ⟨ch', h1, -, h3⟩ := st.here ch hch
            rw [child_eq h1, h3 _ hn, ← child_eq hch]
            exact a4
          · rw [st.other a2.lt hne]
            exact a4
    · rintro _ s1 ⟨l1, u1, t1⟩
      exact links_live L s1 l1 u1 t1 (fun x hx y hy => ha x (List.mem_cons_of_mem _ hx) y (List.mem_cons_of_mem _ hy)) hk2.2

theorem live_uxml (h : Live E e I S b s) (hf : p!"UXML" ∉ b.top) {x : Obj} (hx : DocumentFits x.uxmlRoot) :
    Runs (wUxml ⟨e, [E]⟩ x) s fun _ s' => Done .uxml E e b s' := by
  obtain ⟨root, hr, hfit, hnd⟩ := hx
  obtain ⟨t, at', te, ch⟩ := root
  unfold wUxml
  have hown := h.own
  refine Runs.bind (h.make (ordinary_lit (by decide) (by decide)) hf _ _) ?_
  rintro g s1 ⟨rfl, hk, v, hv, w⟩
  rw [hr]
  simp only
  have hge : ∀ g, s.length ≤ g → Own e I S g := by
    intro g hg
    have h0 := h.zero
    have h1 := h.group.lt
    refine ⟨by omega, by omega, fun q => ?_, fun q => ?_⟩
    · have := (h.hub _ q).1.lt; omega
    · have := (h.samp _ q).1.lt; omega
  have hw : Walk E e I S (b.add p!"UXML") s.length {} s1 :=
    ⟨w.live, hge, fun _ q => absurd q List.not_mem_nil, fun _ q => absurd q List.not_mem_nil, fun _ q => absurd q List.not_mem_nil, List.nodup_nil⟩
  have hp : Path s1 0 [E, p!"UXML"] s.length := Path.step w.live.root (Path.step ((w.ent _).trans hv) (.nil _))
  have hpl : ∀ c ∈ [E, p!"UXML"], Plain c := by
    intro c hc
    rcases List.mem_cons.1 hc with rfl | hc
    · exact h.plain
    · rw [List.mem_singleton.1 hc]; decide
  refine Runs.bind (nodes_lives ch s1 ⟨s.length, [E, p!"UXML"]⟩ [] {} hfit hnd hw (Nat.le_refl _) ⟨_, hk⟩ hp hpl
    (fun n _ => ⟨child_nil hk _, fun _ q => absurd q List.not_mem_nil⟩)) ?_
  rintro u s2 ⟨w2, -⟩
  unfold uxmlLinks
  refine (links_live u.target s2 w2.live w2.ids (fun t ht => ?_) w2.apart w2.keys).mono fun _ s' q => ⟨_, _, _, q, (Grow.refl _ _).add (.inl (by decide))⟩
  obtain ⟨q1, q2⟩ := w2.tgt t ht
  exact ⟨hge _ q1, q2⟩

end S2N
