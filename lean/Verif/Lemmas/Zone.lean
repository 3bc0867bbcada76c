import Verif.Lemmas.Tree
/-
Groups that are linked in the group "instrument" of an entry.
-/
namespace S2N
open Py H5 Eznx Writer Spec

/-- the entry gets a new member with one of the names -/
theorem Held.add {c : Scope} {X : Str → Prop} {K : Nat → Prop} {v : Str → Option Nat} {s : H5} (hh : Held c X K v s)
    {ch ch' : Dict Nat} {a : Dict AVal} (he : s[c.e]? = some (.group ch a))
    {N : Str} (hN : X N) (hd : (Dict.keys ch').Nodup) (hg : ch'.get? N = some s.length)
    (ho : ∀ n, n ≠ N → ch'.get? n = ch.get? n)
    (hm' : ∀ n j, (n, j) ∈ ch' → (n, j) = (N, s.length) ∨ ((n, j) ∈ ch ∧ n ≠ N))
    (node : HNode) (hn : ∀ c1 a1, node = .group c1 a1 → c1 = []) :
    Held c X (fun i => K i ∨ i = s.length) (upd v N (some s.length)) (s.set c.e (.group ch' a) ++ [node]) := by
  have hel := lt_of_get? he
  have hget := get?_set_snoc hel (.group ch' a) node
  obtain ⟨ch0, a0, e1, e2⟩ := hh.entry
  rw [he] at e1
  injection e1 with e1
  injection e1 with e1 _
  subst e1
  have hlt : ∀ i, K i → i < s.length := fun i hi => hh.inv.lt i (.inr hi)
  refine ⟨hh.grow (.inl rfl) he (fun _ => hN) hd hm' node hn, hh.root, ⟨ch', a, ?_, ?_⟩, ?_, ?_, ?_⟩
  · rw [hget, if_pos rfl]
  · intro n hn
    by_cases e : n = N
    · rw [e, upd_self, hg]
    · rw [upd_ne _ _ e, ho n e, e2 n hn]
  · intro n m i hn hm h1 h2
    by_cases e : n = N <;> by_cases e' : m = N
    · rw [e, e']
    · rw [e, upd_self] at h1
      rw [upd_ne _ _ e'] at h2
      injection h1 with h1
      have := hlt i (hh.mem m i hm h2)
      omega
    · rw [e', upd_self] at h2
      rw [upd_ne _ _ e] at h1
      injection h2 with h2
      have := hlt i (hh.mem n i hn h1)
      omega
    · rw [upd_ne _ _ e] at h1
      rw [upd_ne _ _ e'] at h2
      exact hh.inj n m i hn hm h1 h2
  · intro n i hn h1
    by_cases e : n = N
    · rw [e, upd_self] at h1
      injection h1 with h1
      exact .inr h1.symm
    · rw [upd_ne _ _ e] at h1
      exact .inl (hh.mem n i hn h1)
  · rintro i (hi | hi) hD
    · exact hh.apart i hi hD
    · have := hh.inv.lt i (.inl hD)
      omega

/-- a new group of the entry -/
theorem Held.addGroup {c : Scope} {X : Str → Prop} {N : Str} {K : Nat → Prop} {v : Str → Option Nat} {s s' : H5}
    (h : Held c X K v s) (hN : X N) {e : HRef} (hid : e.id = c.e) (hs : Single N) {cls : Str} {a : Dict AVal} {r : HRef}
    (hw : makeGroup e N cls a s = (s', .ok r)) :
    v N = none ∧ r = ⟨s.length, e.path ++ [N]⟩ ∧ s'.length = s.length + 1 ∧
      s'[s.length]? = some (.group [] (Dict.update [(p!"NX_class", AVal.str cls)] a)) ∧
      Held c X (fun i => K i ∨ i = s.length) (upd v N (some s.length)) s' ∧
      ∀ i, i ≠ c.e → i < s.length → s'[i]? = s[i]? := by
  obtain ⟨ch, a0, he, hv⟩ := h.entry
  have he' : s[e.id]? = some (.group ch a0) := by rw [hid]; exact he
  have hf : ch.has N = false := by
    cases hf : ch.has N with
    | false => rfl
    | true => rw [makeGroup_exists he' hs hf] at hw; cases hw
  have hg0 : ch.get? N = none := (Dict.get?_eq_none_iff _ _).2 ((Dict.not_has_iff _ _).1 hf)
  rw [makeGroup_eq he' hs hf, hid] at hw
  injection hw with h1 h2
  injection h2 with h2
  have hel := lt_of_get? he
  have hk := h.add he hN (ch' := ch.set N s.length) (Dict.nodup_keys_set _ _ _ (h.inv.wf _ _ _ he).1) (Dict.get?_set_self _ _ _)
    (fun n hn => Dict.get?_set_ne _ _ hn.symm) (fun n j hm => by
      by_cases hnN : n = N
      · subst hnN
        left
        have h1 := (Dict.mem_iff_get? _ (Dict.nodup_keys_set _ _ s.length (h.inv.wf _ _ _ he).1) _ _).1 hm
        rw [Dict.get?_set_self] at h1
        injection h1 with h1
        rw [h1]
      · right
        rcases Dict.mem_set hm with e | e
        · injection e with e; exact absurd e hnN
        · exact ⟨e, hnN⟩)
    (.group [] (Dict.update [(p!"NX_class", AVal.str cls)] a)) (by intro c1 a1 e; injection e with e _; exact e.symm)
  rw [h1] at hk
  refine ⟨(hv N hN).symm.trans hg0, h2.symm, by rw [← h1]; simp, ?_, hk, ?_⟩
  · rw [← h1, get?_set_snoc hel, if_neg (by omega), if_pos rfl]
  · intro i hi hil
    rw [← h1, get?_set_snoc hel, if_neg hi, if_neg (by omega)]

/-- the name of the group of links -/
abbrev inst : Str := p!"instrument"

/-- The names `X` of the entry refer to the nodes `v`; the names `XI` of its group "instrument", if there is one, to
the nodes `u`; the nodes `K` are reached only by these names. -/
structure Zone (c : Scope) (X XI : Str → Prop) (K : Nat → Prop) (v u : Str → Option Nat) (s : H5) : Prop where
  held : Held c (fun n => X n ∨ n = inst) (fun i => K i ∨ v inst = some i) v s
  hub : ∀ I, v inst = some I → ¬ K I ∧ ∃ ch a, s[I]? = some (HNode.group ch a) ∧ (∀ n, XI n → ch.get? n = u n) ∧
    ∀ n j, (n, j) ∈ ch → j ≠ c.e ∧ j ≠ I ∧ ¬ c.D j ∧ (K j → XI n)
  noHub : v inst = none → ∀ n, XI n → u n = none

/-- the scope of the work elsewhere -/
def zoneScope (c : Scope) (X : Str → Prop) (K : Nat → Prop) (v : Str → Option Nat) : Scope :=
  c.slots (fun n => X n ∨ n = inst) (fun i => K i ∨ v inst = some i)

/-- work elsewhere -/
theorem Zone.step {c : Scope} {X XI : Str → Prop} {K : Nat → Prop} {v u : Str → Option Nat} {s s' : H5}
    (h : Zone c X XI K v u s) {α : Type} {m : HM α} {Q : α → Prop} (hm : Conf (zoneScope c X K v) m Q)
    {r : Except PyErr α} (hr : m s = (s', r)) :
    Zone c X XI K v u s' ∧ (∀ i, K i → s'[i]? = s[i]?) ∧ ∀ a, r = .ok a → Q a := by
  obtain ⟨h1, h2, h3⟩ := h.held.step hm hr
  refine ⟨⟨h1, fun I hI => ?_, h.noHub⟩, fun i hi => h2 i (.inl hi), h3⟩
  obtain ⟨k1, ch, a, k2, k3⟩ := h.hub I hI
  exact ⟨k1, ch, a, (h2 I (.inr hI)).trans k2, k3⟩

/-- nothing has one of the names -/
theorem Zone.start {c : Scope} (hX : ∀ n, ¬ c.X n) {X XI : Str → Prop} {s : H5} (h : H5.Inv c s) {ch : Dict Nat}
    {a : Dict AVal} (he : s[c.e]? = some (.group ch a)) (hN : ∀ n, X n ∨ n = inst → ch.get? n = none) :
    Zone c X XI (fun _ => False) (fun _ => none) (fun _ => none) s := by
  have := Held.start hX (X := fun n => X n ∨ n = inst) h he hN
  refine ⟨?_, by simp, by simp⟩
  have e : (fun (i : Nat) => False ∨ (none : Option Nat) = some i) = fun _ => False := by funext i; simp
  rw [e]; exact this

/-- the entry itself may be used -/
theorem Zone.ok {c : Scope} {X XI : Str → Prop} {K : Nat → Prop} {v u : Str → Option Nat} {s : H5}
    (h : Zone c X XI K v u s) {e : HRef} (hid : e.id = c.e) (hp : e.path = [c.E]) : Ok (zoneScope c X K v) e :=
  ⟨by rw [hid]; exact h.held.inv.notD, .inl ⟨hid, hp⟩⟩

/-- the members of the group "instrument" change; nothing else -/
theorem Zone.hubSet {c : Scope} {X XI : Str → Prop} {K : Nat → Prop} {v u u' : Str → Option Nat} {s : H5}
    (h : Zone c X XI K v u s) {I : Nat} (hI : v inst = some I) {ch ch' : Dict Nat} {a a' : Dict AVal}
    (he : s[I]? = some (.group ch a)) (hd : (Dict.keys ch').Nodup)
    (hm : ∀ n j, (n, j) ∈ ch' → (n, j) ∈ ch ∨ (j < s.length ∧ j ≠ c.e ∧ j ≠ I ∧ ¬ c.D j ∧ (K j → XI n)))
    (hu : ∀ n, XI n → ch'.get? n = u' n) : Zone c X XI K v u' (s.set I (.group ch' a')) := by
  have hl := lt_of_get? he
  have hv := h.held.inv
  have hget := fun j => set_get? s I j (.group ch' a') hl
  obtain ⟨hK, ch0, a0, e0, -, e2⟩ := h.hub I hI
  rw [he] at e0
  injection e0 with e0
  injection e0 with e0 _
  subst e0
  have hkI : (fun i => K i ∨ v inst = some i) I := .inr hI
  refine ⟨⟨⟨?_, hv.rootD, hv.notD, hv.plain, ?_, ?_, ?_, ?_⟩, h.held.root, ?_, h.held.inj, h.held.mem, h.held.apart⟩, ?_, ?_⟩
  · intro i c1 a1 hg
    rw [hget] at hg
    rw [List.length_set]
    split at hg
    · injection hg with hg
      injection hg with hg _
      subst hg
      refine ⟨hd, fun n j hj => ?_⟩
      rcases hm n j hj with q | q
      · exact (hv.wf _ _ _ he).2 n j q
      · exact q.1
    · exact hv.wf _ _ _ hg
  · obtain ⟨c0, a0, e1, e2⟩ := hv.entry
    refine ⟨c0, a0, ?_, e2⟩
    rw [hget, if_neg (Ne.symm (h.held.ne_root hkI)), e1]
  · intro j hj; rw [List.length_set]; exact hv.lt j hj
  · rw [List.length_set]; exact hv.elt
  · intro j hj c1 a1 hs
    rw [hget] at hs
    split at hs
    · next e => exact absurd (.inr (.inr (e ▸ hI))) hj
    · exact hv.closed j hj c1 a1 hs
  · obtain ⟨c0, a0, e1, e2⟩ := h.held.entry
    refine ⟨c0, a0, ?_, e2⟩
    rw [hget, if_neg (Ne.symm (h.held.ne_entry hkI)), e1]
  · intro I2 hI2
    rw [hI] at hI2
    injection hI2 with hI2
    subst hI2
    refine ⟨hK, ch', a', by rw [hget, if_pos rfl], hu, fun n j hj => ?_⟩
    rcases hm n j hj with q | q
    · exact e2 n j q
    · exact q.2
  · intro q; rw [hI] at q; cases q

/-- a new object, not linked yet -/
theorem Zone.append {c : Scope} {X XI : Str → Prop} {K : Nat → Prop} {v u : Str → Option Nat} {s : H5}
    (h : Zone c X XI K v u s) (node : HNode) (hn : ∀ ch a, node = .group ch a → ch = []) :
    Zone c X XI K v u (s ++ [node]) := by
  have hconf : Conf (zoneScope c X K v) (fun s => (s ++ [node], (.ok () : Except PyErr Unit))) (fun _ => True) := fun s hs => by
    obtain ⟨h1, h2⟩ := hs.append node hn
    exact ⟨h1, h2, fun _ _ => trivial⟩
  exact (h.step hconf rfl).1

/-- a node outside -/
def Far (c : Scope) (X : Str → Prop) (K : Nat → Prop) (v : Str → Option Nat) (s : H5) (i : Nat) : Prop :=
  ¬ (zoneScope c X K v).D i ∧ i ≠ c.e ∧ i < s.length

theorem Zone.fresh {c : Scope} {X XI : Str → Prop} {K : Nat → Prop} {v u : Str → Option Nat} {s : H5}
    (h : Zone c X XI K v u s) : ¬ (zoneScope c X K v).D s.length ∧ s.length ≠ c.e := by
  refine ⟨fun q => Nat.lt_irrefl _ (h.held.inv.lt _ q), fun q => ?_⟩
  have := h.held.inv.elt
  have : c.e < s.length := this
  omega

/-- a member of the group "instrument" -/
theorem Zone.member {c : Scope} {X XI : Str → Prop} {K : Nat → Prop} {v u : Str → Option Nat} {s : H5}
    (h : Zone c X XI K v u s) {I : Nat} (hI : v inst = some I) {ch : Dict Nat} {a : Dict AVal}
    (he : s[I]? = some (.group ch a)) {n : Str} {j : Nat} (hn : ¬ XI n) (hj : ch.get? n = some j) : Far c X K v s j := by
  obtain ⟨hK, ch0, a0, e0, -, e2⟩ := h.hub I hI
  rw [he] at e0
  injection e0 with e0
  injection e0 with e0 _
  subst e0
  obtain ⟨q1, q2, q3, q4⟩ := e2 n j (Dict.mem_of_get? hj)
  refine ⟨?_, q1, (h.held.inv.wf _ _ _ he).2 n j (Dict.mem_of_get? hj)⟩
  rintro (q | q | q)
  · exact q3 q
  · exact hn (q4 q)
  · rw [hI] at q; injection q with q; exact q2 q.symm

/-- a dataset written in the group "instrument" -/
theorem Zone.hubWrite {c : Scope} {X XI : Str → Prop} {K : Nat → Prop} {v u : Str → Option Nat} {s s' : H5}
    (h : Zone c X XI K v u s) {ins : HRef} (hI : v inst = some ins.id) {n : Str} (hs : Single n) (hn : ¬ XI n)
    {d : PData} {a : Dict AVal} {r : HRef} (hw : writeDataset ins n d a s = (s', .ok r)) :
    Zone c X XI K v u s' ∧ (∀ i, i ≠ ins.id → i < s.length → s'[i]? = s[i]?) ∧ s.length < s'.length := by
  obtain ⟨hK, ch, a0, e0, e1, e2⟩ := h.hub _ hI
  have hl := lt_of_get? e0
  have hnd := (h.held.inv.wf _ _ _ e0).1
  cases hd : d.toH with
  | error e =>
    exfalso
    unfold writeDataset at hw
    obtain ⟨t, _, w1, w2⟩ := HM.bind_inv hw
    unfold makeDataset at w2
    obtain ⟨q, w3, w4⟩ := HM.bind_lift_inv w2
    rw [hd] at w3; cases w3
  | ok y =>
    rw [writeDataset_eq e0 hnd hs hd] at hw
    injection hw with h1 h2
    have hz := (h.append (.dset y (Dict.update [] (noteAttrs d a))) (by intro _ _ e; cases e)).hubSet hI
      (ch' := (ch.del n).set n s.length) (a' := a0) (u' := u) (by rw [List.getElem?_append_left hl]; exact e0)
      (Dict.nodup_keys_set _ _ _ (Dict.nodup_keys_del _ _ hnd))
      (by
        intro m j hm
        rcases Dict.mem_set hm with q | q
        · injection q with q1 q2
          subst q1 q2
          right
          obtain ⟨f1, f2⟩ := h.fresh
          refine ⟨by simp, f2, by omega, fun q => f1 (.inl q), fun q => absurd (.inr (.inl q)) f1⟩
        · exact .inl (Dict.mem_del q))
      (by
        intro m hm
        have hmn : m ≠ n := fun q => hn (q ▸ hm)
        rw [Dict.get?_set_ne _ _ hmn.symm, Dict.get?_del_ne _ hmn]
        exact e1 m hm)
    rw [List.set_append_left _ _ hl, h1] at hz
    refine ⟨hz, fun i hi hil => ?_, by rw [← h1]; simp⟩
    rw [← h1, get?_set_snoc hl, if_neg hi, if_neg (by omega)]

/-! ### refs outside, whatever their path is -/

theorem conf_far_create {c : Scope} {h : HRef} (hd : ¬ c.D h.id) (he : h.id ≠ c.e) {name : Str} (ha : absolute name = false)
    (node : HNode) (hn : ∀ ch a, node = .group ch a → ch = []) :
    Conf c (create h name node) (fun r => ¬ c.D r.id ∧ r.id ≠ c.e) := by
  intro s hs
  have hb : base h name = h := by simp [H5.base, ha]
  unfold create
  rw [hb]
  have hsl : ¬ c.D s.length := fun hd => absurd (hs.lt _ hd) (Nat.lt_irrefl _)
  have hse : s.length ≠ c.e := fun e => absurd hs.elt (by omega)
  cases hl : link s.length (s ++ [node]) h.id (comps name) with
  | error e => exact ⟨hs, Same.refl c s, fun a ha => by cases ha⟩
  | ok s' =>
    obtain ⟨h1, s1⟩ := hs.append node hn
    obtain ⟨h2, s2⟩ := link_scope hsl hse _ h1 (by simp) hd (fun e => absurd e he) hl
    refine ⟨h2, s1.trans s2, fun a ha => ?_⟩
    injection ha with ha
    subst ha
    exact ⟨hsl, hse⟩

theorem conf_far_write {c : Scope} {h : HRef} (hd : ¬ c.D h.id) (he : h.id ≠ c.e) {name : Str} (ha : absolute name = false)
    (d : PData) (a : Dict AVal) : Conf c (writeDataset h name d a) (fun r => ¬ c.D r.id ∧ r.id ≠ c.e) := by
  unfold writeDataset
  refine Conf.bind' (Q := fun _ => True) ?_ fun _ _ => ?_
  · refine Conf.andThen (conf_contains c h name) fun b _ => Conf.onlyIf fun _ => ?_
    apply Conf.change
    intro s s' hs hl
    have hb : base h name = h := by simp [H5.base, ha]
    rw [hb] at hl
    exact unlink_scope _ hs hd (fun e => absurd e he) hl
  · unfold makeDataset
    refine Conf.bind' (Conf.lift (Q := fun _ => True) fun _ _ => trivial) fun d _ => ?_
    refine Conf.bind' (conf_far_create hd he ha _ (by intro ch a e; cases e)) fun g hg => ?_
    refine Conf.bind' (conf_addAttributes hg.1 hg.2 _) fun _ _ => ?_
    exact Conf.pure' hg

/-! ### the group "instrument" -/

/-- a group opened in the group "instrument" -/
theorem Zone.hubOpen {c : Scope} {X XI : Str → Prop} {K : Nat → Prop} {v u : Str → Option Nat} {s s' : H5}
    (h : Zone c X XI K v u s) {ins : HRef} (hI : v inst = some ins.id) {n : Str} (hs : Single n) (hn : ¬ XI n)
    {cls : Str} {a : Dict AVal} {r : HRef} (hw : openGroup ins n cls a s = (s', .ok r)) :
    Zone c X XI K v u s' ∧ (∀ i, K i → s'[i]? = s[i]?) ∧ Far c X K v s' r.id ∧ r.path = ins.path ++ [n] := by
  obtain ⟨hK, ch, a0, e0, e1, e2⟩ := h.hub _ hI
  have hl := lt_of_get? e0
  have hnd := (h.held.inv.wf _ _ _ e0).1
  cases hg : ch.get? n with
  | some j =>
    have hj := h.member hI e0 hn hg
    obtain ⟨node, hnode⟩ : ∃ node, s[j]? = some node := ⟨_, List.getElem?_eq_getElem hj.2.2⟩
    rw [openGroup_old e0 hs hg hnode] at hw
    injection hw with h1 h2
    injection h2 with h2
    obtain ⟨k1, k2, -⟩ := h.step (conf_addAttributes (h := ⟨j, []⟩) hj.1 hj.2.1 a) (addAttributes_eq a (h := ⟨j, []⟩) hnode)
    rw [h1] at k1 k2
    refine ⟨k1, k2, ?_⟩
    rw [← h2]
    exact ⟨⟨hj.1, hj.2.1, by rw [← h1, List.length_set]; exact hj.2.2⟩, rfl⟩
  | none =>
    have hf : ch.has n = false := by simp [Dict.has, hg]
    rw [openGroup_new e0 hs hf, makeGroup_eq e0 hs hf] at hw
    injection hw with h1 h2
    injection h2 with h2
    obtain ⟨f1, f2⟩ := h.fresh
    have hz := (h.append (.group [] (Dict.update [(p!"NX_class", AVal.str cls)] a)) (by intro _ _ e; injection e with e _; exact e.symm)).hubSet hI
      (ch' := ch.set n s.length) (a' := a0) (u' := u) (by rw [List.getElem?_append_left hl]; exact e0)
      (Dict.nodup_keys_set _ _ _ hnd)
      (by
        intro m j hm
        rcases Dict.mem_set hm with q | q
        · injection q with q1 q2
          subst q1 q2
          right
          refine ⟨by simp, f2, by omega, fun q => f1 (.inl q), fun q => absurd (.inr (.inl q)) f1⟩
        · exact .inl q)
      (by
        intro m hm
        have hmn : m ≠ n := fun q => hn (q ▸ hm)
        rw [Dict.get?_set_ne _ _ hmn.symm]
        exact e1 m hm)
    rw [List.set_append_left _ _ hl, h1] at hz
    refine ⟨hz, fun i hi => ?_, ?_⟩
    · have : i < s.length := h.held.inv.lt i (.inr (.inl hi))
      rw [← h1, get?_set_snoc hl, if_neg (show ¬ i = ins.id from fun q => hK (q ▸ hi)), if_neg (by omega)]
    · rw [← h2]
      exact ⟨⟨f1, f2, by rw [← h1]; simp⟩, rfl⟩

/-- the group "instrument" opened -/
theorem Zone.openHub {c : Scope} {X XI : Str → Prop} {K : Nat → Prop} {v u : Str → Option Nat} {s s' : H5}
    (h : Zone c X XI K v u s) {e : HRef} (hid : e.id = c.e) {cls : Str} {r : HRef}
    (hw : openGroup e inst cls [] s = (s', .ok r)) :
    ∃ v', Zone c X XI K v' u s' ∧ v' inst = some r.id ∧ r.path = e.path ++ [inst] ∧ (∀ n, n ≠ inst → v' n = v n) ∧
      (∀ I, v inst = some I → v' inst = some I) ∧
      (∀ i, i ≠ c.e → i < s.length → s'[i]? = s[i]?) ∧ ∀ i, Far c X K v s i → Far c X K v' s' i := by
  obtain ⟨ch, a0, he, hv⟩ := h.held.entry
  have he' : s[e.id]? = some (.group ch a0) := by rw [hid]; exact he
  have hs : Single inst := (by decide : Plain inst).single
  cases hg : ch.get? inst with
  | some I =>
    have hvI : v inst = some I := (hv inst (.inr rfl)).symm.trans hg
    obtain ⟨hK, ch1, a1, e1, -, -⟩ := h.hub _ hvI
    rw [openGroup_old he' hs hg e1] at hw
    injection hw with h1 h2
    injection h2 with h2
    have hsame : s' = s := by
      rw [← h1, Dict.update_nil, HNode.withAttrs_self, set_same e1]
    subst hsame
    subst h2
    exact ⟨v, h, hvI, rfl, fun _ _ => rfl, fun _ q => q, fun _ _ _ => rfl, fun _ q => q⟩
  | none =>
    have hvI : v inst = none := (hv inst (.inr rfl)).symm.trans hg
    have hf : ch.has inst = false := by simp [Dict.has, hg]
    rw [openGroup_new he' hs hf] at hw
    obtain ⟨g1, g2, g3, g4, g5, g6⟩ := h.held.addGroup (N := inst) (.inr rfl) hid hs hw
    obtain ⟨f1, f2⟩ := h.fresh
    have hKe : (fun i => (K i ∨ v inst = some i) ∨ i = s.length) = fun i => K i ∨ upd v inst (some s.length) inst = some i := by
      funext i
      rw [upd_self, hvI]
      simp only [reduceCtorEq, or_false, Option.some.injEq, eq_iff_iff]
      constructor
      · rintro (q | q)
        · exact .inl q
        · exact .inr q.symm
      · rintro (q | q)
        · exact .inl q
        · exact .inr q.symm
    refine ⟨upd v inst (some s.length), ⟨?_, ?_, ?_⟩, ?_, ?_, fun n hn => upd_ne _ _ hn, ?_, g6, ?_⟩
    · rw [hKe] at g5; exact g5
    · intro I hI
      rw [upd_self] at hI
      injection hI with hI
      subst hI
      refine ⟨fun q => f1 (.inr (.inl q)), [], _, g4, fun n hn => ?_, fun n j hm => by cases hm⟩
      exact (h.noHub hvI n hn).symm
    · intro q; rw [upd_self] at q; cases q
    · rw [g2, upd_self]
    · rw [g2]
    · intro I q; rw [hvI] at q; cases q
    · intro i hi
      refine ⟨?_, hi.2.1, by have := hi.2.2; omega⟩
      rintro (q | q | q)
      · exact hi.1 (.inl q)
      · exact hi.1 (.inr (.inl q))
      · rw [upd_self] at q
        injection q with q
        have := hi.2.2
        omega

/-! ### links in the group "instrument" -/

theorem nameOf_three (i j : Nat) (E M : Str) : nameOf ⟨i, [E, inst]⟩ ++ '/' :: M = nameOf ⟨j, [E, inst, M]⟩ := by
  simp [nameOf, join]

/-- where the path "/E/instrument" leads -/
theorem Zone.walk {c : Scope} {X XI : Str → Prop} {K : Nat → Prop} {v u : Str → Option Nat} {s : H5}
    (h : Zone c X XI K v u s) {n : Str} {j : Nat} (hn : X n ∨ n = inst) (hv : v n = some j) (rest : List Str) :
    H5.walk s 0 (c.E :: n :: rest) = H5.walk s j rest := by
  obtain ⟨ch0, a0, e1, e2'⟩ := h.held.inv.entry
  have e2 : ch0.get? c.E = some c.e := e2'
  obtain ⟨ch1, a1, e3, e4⟩ := h.held.entry
  rw [walk_one e1 e2, walk_one e3 ((e4 n hn).trans hv)]

theorem Zone.setLink {c : Scope} {X XI : Str → Prop} {K : Nat → Prop} {v u : Str → Option Nat} {s s' : H5}
    (h : Zone c X XI K v u s) {e : HRef} {I : Nat} (hI : v inst = some I) {M : Str} (hM : Plain M) {obj : HRef} {k : Nat}
    (hw : setLink e (ascii (nameOf ⟨k, [c.E, inst]⟩ ++ '/' :: M)) obj s = (s', .ok ())) :
    obj.id < s.length ∧ ∃ ch a, s[I]? = some (.group ch a) ∧ ch.get? M = none ∧ s' = s.set I (.group (ch.set M obj.id) a) := by
  unfold H5.setLink HM.change at hw
  beta_reduce at hw
  rw [nameOf_three k 0, base_name, comps_name (by
    intro q hq
    simp only [List.mem_cons, List.not_mem_nil, or_false] at hq
    rcases hq with rfl | rfl | rfl
    · exact h.held.inv.plain
    · decide
    · exact hM)] at hw
  cases ho : s[obj.id]? with
  | none => rw [ho] at hw; cases hw
  | some node =>
    rw [ho] at hw
    obtain ⟨ch0, a0, e1, e2'⟩ := h.held.inv.entry
    have e2 : ch0.get? c.E = some c.e := e2'
    obtain ⟨ch1, a1, e3, e4⟩ := h.held.entry
    have e5 := (e4 inst (.inr rfl)).trans hI
    obtain ⟨hK, ch, a, e6, -, -⟩ := h.hub _ hI
    have e1' : s[root.id]? = some (.group ch0 a0) := e1
    simp only [H5.link, e1', e2, e3, e5, e6] at hw
    refine ⟨lt_of_get? ho, ch, a, e6, ?_⟩
    cases hg : ch.has M with
    | true => rw [hg] at hw; cases hw
    | false =>
      rw [hg] at hw
      refine ⟨(Dict.get?_eq_none_iff _ _).2 ((Dict.not_has_iff _ _).1 hg), ?_⟩
      have hw2 : (s.set I (.group (ch.set M obj.id) a), (Except.ok () : Except PyErr Unit)) = (s', .ok ()) := hw
      injection hw2 with hw2 _
      exact hw2.symm

/-- something outside linked in the group "instrument" -/
theorem Zone.linkFar {c : Scope} {X XI : Str → Prop} {K : Nat → Prop} {v u : Str → Option Nat} {s s' : H5}
    (h : Zone c X XI K v u s) {e g : HRef} {ins : HRef} (hI : v inst = some ins.id) (hp : ins.path = [c.E, inst])
    (hg : Ok (zoneScope c X K v) g) (hge : g.id ≠ c.e) {M : Str} (hM : Plain M) (hn : ¬ XI M)
    (hw : makeLink e g (nameOf ins ++ '/' :: M) s = (s', .ok ())) :
    Zone c X XI K v u s' ∧ ∀ i, K i → s'[i]? = s[i]? := by
  obtain ⟨I, P⟩ := ins
  simp only at hp hI
  subst hp
  unfold makeLink at hw
  obtain ⟨s1, _, w1, w2⟩ := HM.bind_inv hw
  obtain ⟨s2, obj, w3, w4⟩ := HM.bind_inv w2
  obtain ⟨k1, k2, -⟩ := h.step (Conf.andThen (conf_hasAttr _ _ _) fun _ _ => Conf.onlyIf fun _ => conf_setAttr hg.1 hge _ _) w1
  obtain ⟨n, q, hq, hx⟩ := comps_ascii_name (c := zoneScope c X K v) h.held.inv.plain hg hge [] (Or.inl rfl)
  rw [List.append_nil] at hq
  have ha : absolute (ascii (nameOf g)) = true := by
    have := absolute_nameOf g []
    rwa [List.append_nil] at this
  obtain ⟨k3, k4, k5⟩ := k1.step (conf_get_abs e ha hq hx) w3
  obtain ⟨o1, o2⟩ := k5 obj rfl
  obtain ⟨l1, ch, a, l2, l3, l4⟩ := k3.setLink hI hM w4
  have hKI : ¬ K I := (k3.hub _ hI).1
  have e1 : ∀ n, XI n → ch.get? n = u n := by
    obtain ⟨_, ch0, a0, e0, e1, e2⟩ := k3.hub _ hI
    rw [l2] at e0
    injection e0 with e0
    injection e0 with e0 _
    subst e0
    exact e1
  have hz := k3.hubSet hI (ch' := ch.set M obj.id) (a' := a) (u' := u) l2 (Dict.nodup_keys_set _ _ _ (k3.held.inv.wf _ _ _ l2).1)
    (by
      intro m j hm
      rcases Dict.mem_set hm with q | q
      · injection q with q1 q2
        subst q1 q2
        right
        refine ⟨l1, o2, ?_, fun q => o1 (.inl q), fun q => absurd (.inr (.inl q)) o1⟩
        intro q
        exact o1 (.inr (.inr (q ▸ hI)))
      · exact .inl q)
    (by
      intro m hm
      have hmn : m ≠ M := fun q => hn (q ▸ hm)
      rw [Dict.get?_set_ne _ _ hmn.symm]
      exact e1 m hm)
  rw [← l4] at hz
  refine ⟨hz, fun i hi => ?_⟩
  rw [l4, set_get? _ _ _ _ (lt_of_get? l2), if_neg (show ¬ i = I from fun q => hKI (q ▸ hi)), k4 i hi, k2 i hi]

/-- what was known stays -/
def Kept (c : Scope) (X XI : Str → Prop) (K : Nat → Prop) (v u : Str → Option Nat) (s s' : H5) : Prop :=
  ∃ v', Zone c X XI K v' u s' ∧ (∀ n, n ≠ inst → v' n = v n) ∧ (∀ I, v inst = some I → v' inst = some I) ∧
    ∀ i, K i → s'[i]? = s[i]?

theorem Zone.kept {c : Scope} {X XI : Str → Prop} {K : Nat → Prop} {v u : Str → Option Nat} {s s' : H5}
    (h : Zone c X XI K v u s') (hK : ∀ i, K i → s'[i]? = s[i]?) : Kept c X XI K v u s s' :=
  ⟨v, h, fun _ _ => rfl, fun _ q => q, hK⟩

theorem Zone.conf {c : Scope} {X XI : Str → Prop} {K : Nat → Prop} {v u : Str → Option Nat} {s s' : H5}
    (h : Zone c X XI K v u s) {α : Type} {m : HM α} {Q : α → Prop} (hm : Conf (zoneScope c X K v) m Q)
    {r : Except PyErr α} (hr : m s = (s', r)) : Kept c X XI K v u s s' :=
  let ⟨k1, k2, _⟩ := h.step hm hr
  k1.kept k2

theorem Kept.trans {c : Scope} {X XI : Str → Prop} {K : Nat → Prop} {v v' u : Str → Option Nat} {s t w : H5}
    (hv : ∀ n, n ≠ inst → v' n = v n) (hi : ∀ I, v inst = some I → v' inst = some I) (hk : ∀ i, K i → t[i]? = s[i]?)
    (h : Kept c X XI K v' u t w) : Kept c X XI K v u s w := by
  obtain ⟨v2, h1, h2, h3, h4⟩ := h
  exact ⟨v2, h1, fun n hn => (h2 n hn).trans (hv n hn), fun I q => h3 I (hi I q), fun i hi => (h4 i hi).trans (hk i hi)⟩

/-! ### references -/

theorem conf_le {c : Scope} {α : Type} {m : HM α} {Q : α → Prop} (hm : Conf c m Q) {s s' : H5} (h : H5.Inv c s)
    {r : Except PyErr α} (hw : m s = (s', r)) : s.length ≤ s'.length := by
  have := (hm s h).2.1.le
  rwa [hw] at this

/-- a reference to something outside -/
def Near (c : Scope) (X : Str → Prop) (K : Nat → Prop) (v : Str → Option Nat) (s : H5) (g : HRef) : Prop :=
  Ok (zoneScope c X K v) g ∧ g.id ≠ c.e ∧ g.id < s.length

section
variable [UniDB]

/-- a group of the entry opened -/
theorem Zone.openAt {c : Scope} {X XI : Str → Prop} {K : Nat → Prop} {v u : Str → Option Nat} {s s' : H5}
    (h : Zone c X XI K v u s) {e : HRef} (hid : e.id = c.e) (hp : e.path = [c.E]) {N : Str} (hN : Plain N) (h1 : ¬ X N)
    (h2 : N ≠ inst) {cls : Str} {a : Dict AVal} {g : HRef} (hw : openGroup e N cls a s = (s', .ok g)) :
    Zone c X XI K v u s' ∧ (∀ i, K i → s'[i]? = s[i]?) ∧ Near c X K v s' g := by
  have h1' : ¬ (zoneScope c X K v).X N := by rintro (q | q); exacts [h1 q, h2 q]
  have hc := conf_og (h.ok hid hp) hN h1' cls a
  obtain ⟨k1, k2, k3⟩ := h.step hc hw
  obtain ⟨g1, g2⟩ := k3 g rfl
  refine ⟨k1, k2, g1, g2, ?_⟩
  have hle := conf_le hc h.held.inv hw
  obtain ⟨ch, a0, he, -⟩ := h.held.entry
  have he' : s[e.id]? = some (.group ch a0) := by rw [hid]; exact he
  cases hg : ch.get? N with
  | some j =>
    have hj := (h.held.inv.wf _ _ _ he).2 N j (Dict.mem_of_get? hg)
    obtain ⟨node, hnode⟩ : ∃ node, s[j]? = some node := ⟨_, List.getElem?_eq_getElem hj⟩
    rw [openGroup_old he' hN.single hg hnode] at hw
    injection hw with q1 q2
    injection q2 with q2
    rw [← q2]
    exact Nat.lt_of_lt_of_le hj hle
  | none =>
    have hf : ch.has N = false := by simp [Dict.has, hg]
    rw [openGroup_new he' hN.single hf, makeGroup_eq he' hN.single hf] at hw
    injection hw with q1 q2
    injection q2 with q2
    rw [← q2, ← q1]
    simp

/-- a group of the entry made -/
theorem Zone.makeAt {c : Scope} {X XI : Str → Prop} {K : Nat → Prop} {v u : Str → Option Nat} {s s' : H5}
    (h : Zone c X XI K v u s) {e : HRef} (hid : e.id = c.e) (hp : e.path = [c.E]) {N : Str} (hN : Plain N) (h1 : ¬ X N)
    (h2 : N ≠ inst) {cls : Str} {a : Dict AVal} {g : HRef} (hw : makeGroup e N cls a s = (s', .ok g)) :
    Zone c X XI K v u s' ∧ (∀ i, K i → s'[i]? = s[i]?) ∧ Near c X K v s' g := by
  obtain ⟨ch, a0, he, -⟩ := h.held.entry
  have he' : s[e.id]? = some (.group ch a0) := by rw [hid]; exact he
  cases hf : ch.has N with
  | true => rw [makeGroup_exists he' hN.single hf] at hw; cases hw
  | false => exact h.openAt hid hp hN h1 h2 ((openGroup_new he' hN.single hf cls a).trans hw)

/-- work elsewhere, with a reference -/
theorem Near.le {c : Scope} {X : Str → Prop} {K : Nat → Prop} {v : Str → Option Nat} {s s' : H5} {g : HRef}
    (h : Near c X K v s g) (hl : s.length ≤ s'.length) : Near c X K v s' g :=
  ⟨h.1, h.2.1, Nat.lt_of_lt_of_le h.2.2 hl⟩

/-- a group linked in the group "instrument" -/
theorem Zone.linkTo {c : Scope} {X XI : Str → Prop} {K : Nat → Prop} {v u : Str → Option Nat} {s t s' : H5}
    (h : Zone c X XI K v u s) {e g ins : HRef} (hid : e.id = c.e) (hp : e.path = [c.E]) (hg : Near c X K v s g) {cls M : Str}
    (hM : Plain M) (h2 : ¬ XI M) (h3 : openGroup e inst cls [] s = (t, .ok ins))
    (h4 : makeLink e g (nameOf ins ++ '/' :: M) t = (s', .ok ())) : Kept c X XI K v u s s' := by
  obtain ⟨v', z1, z2, z3, z4, z5, z6, z7⟩ := h.openHub hid h3
  have hf := z7 g.id ⟨hg.1.1, hg.2⟩
  obtain ⟨y1, y2⟩ := z1.linkFar (e := e) z2 (by rw [z3, hp]; rfl) ⟨hf.1, hg.1.2⟩ hf.2.1 hM h2 h4
  refine (y1.kept y2).trans z4 z5 fun i hi => z6 i ?_ (h.held.inv.lt i (.inr (.inl hi)))
  exact h.held.ne_entry (K := fun i => K i ∨ v inst = some i) (.inl hi)


theorem zone_metadata {c : Scope} {X XI : Str → Prop} {K : Nat → Prop} {v u : Str → Option Nat} {s s' : H5}
    (h : Zone c X XI K v u s) {e : HRef} (hid : e.id = c.e) (hp : e.path = [c.E]) (x : Obj)
    (h1 : ¬ X p!"metadata") (h2 : ¬ XI p!"metadata") (hw : wMetadata e x s = (s', .ok ())) : Kept c X XI K v u s s' := by
  unfold wMetadata at hw
  rcases hm : x.metadata with _ | (_ | ⟨kv, d⟩)
  · rw [hm] at hw
    obtain ⟨_, rfl⟩ := HM.ret_inv hw
    exact h.kept fun _ _ => rfl
  · rw [hm] at hw
    obtain ⟨_, rfl⟩ := HM.ret_inv hw
    exact h.kept fun _ _ => rfl
  · rw [hm] at hw
    obtain ⟨s1, g, w1, w2⟩ := HM.bind_inv hw
    obtain ⟨s2, _, w3, w4⟩ := HM.bind_inv w2
    obtain ⟨s3, ins, w5, w6⟩ := HM.bind_inv w4
    obtain ⟨k1, k2, k3⟩ := h.makeAt hid hp (by decide) h1 (by decide) w1
    have hc := conf_saveDict k3.1 k3.2.1 ((kv :: d).map (fun kv => (kv.1, mData kv.2)))
    obtain ⟨k4, k5, -⟩ := k1.step hc w3
    exact (k4.linkTo hid hp (k3.le (conf_le hc k1.held.inv w3)) (by decide : Plain p!"metadata") h2 w5 w6).trans (fun _ _ => rfl)
      (fun _ q => q) fun i hi => (k5 i hi).trans (k2 i hi)

theorem zone_positioners {c : Scope} {X XI : Str → Prop} {K : Nat → Prop} {v u : Str → Option Nat} {s s' : H5}
    (h : Zone c X XI K v u s) {e : HRef} (hid : e.id = c.e) (hp : e.path = [c.E]) (hdr x : Obj)
    (h1 : ¬ X p!"positioners") (h2 : ¬ XI p!"positioners") (hw : wPositioners e hdr x s = (s', .ok ())) :
    Kept c X XI K v u s s' := by
  unfold wPositioners at hw
  obtain ⟨s1, g, w1, w2⟩ := HM.bind_inv hw
  obtain ⟨s2, _, w3, w4⟩ := HM.bind_inv w2
  obtain ⟨s3, ins, w5, w6⟩ := HM.bind_inv w4
  obtain ⟨k1, k2, k3⟩ := h.makeAt hid hp (by decide) h1 (by decide) w1
  have hc := Conf.each ((List.range x.positioner.length).zip x.positioner) fun p _ =>
    conf_wPositioner k3.1 k3.2.1 hdr.positionerXref p
  obtain ⟨k4, k5, -⟩ := k1.step hc w3
  exact (k4.linkTo hid hp (k3.le (conf_le hc k1.held.inv w3)) (by decide : Plain p!"positioners") h2 w5 w6).trans (fun _ _ => rfl)
    (fun _ q => q) fun i hi => (k5 i hi).trans (k2 i hi)

/-- the members of the group "instrument" that are not protected -/
theorem Zone.getHub {c : Scope} {X XI : Str → Prop} {K : Nat → Prop} {v u : Str → Option Nat} {s s' : H5}
    (h : Zone c X XI K v u s) {ins g : HRef} (hI : v inst = some ins.id) {n : Str} (hs : Single n) (hn : ¬ XI n)
    (hw : H5.get ins n s = (s', .ok g)) : s' = s ∧ Far c X K v s g.id := by
  obtain ⟨hK, ch, a0, e0, e1, e2⟩ := h.hub _ hI
  cases hg : ch.get? n with
  | none => rw [get_missing e0 hs (by simp [Dict.has, hg])] at hw; cases hw
  | some j =>
    rw [get_eq e0 hs hg] at hw
    injection hw with q1 q2
    injection q2 with q2
    subst q2
    exact ⟨q1.symm, h.member hI e0 hn hg⟩

/-- the group of the MCA linked in the group "instrument" -/
theorem Zone.linkMca {c : Scope} {X XI : Str → Prop} {K : Nat → Prop} {v u : Str → Option Nat} {s s' : H5}
    (h : Zone c X XI K v u s) {e g ins : HRef} (hid : e.id = c.e) (hp : e.path = [c.E]) (hg : Near c X K v s g)
    (h2 : ¬ XI p!"MCA") (hw : linkMca e g s = (s', .ok ins)) :
    ∃ v', Zone c X XI K v' u s' ∧ v' inst = some ins.id ∧ (∀ n, n ≠ inst → v' n = v n) ∧
      (∀ I, v inst = some I → v' inst = some I) ∧ (∀ i, K i → s'[i]? = s[i]?) := by
  unfold Writer.linkMca at hw
  obtain ⟨s1, i1, w1, w2⟩ := HM.bind_inv hw
  obtain ⟨v', z1, z2, z3, z4, z5, z6, z7⟩ := h.openHub hid w1
  have hf := z7 g.id ⟨hg.1.1, hg.2⟩
  have hK : ∀ i, K i → s1[i]? = s[i]? := fun i hi => z6 i
    (h.held.ne_entry (K := fun i => K i ∨ v inst = some i) (.inl hi)) (h.held.inv.lt i (.inr (.inl hi)))
  obtain ⟨s2, _, w3, w4⟩ := HM.bind_inv w2
  obtain ⟨q1, q2⟩ := HM.pure_inv w4
  subst q1 q2
  obtain ⟨s3, b, w5, w6⟩ := HM.andThen_inv w3
  obtain rfl := contains_state w5
  cases b with
  | true =>
    have : s' = s3 := by
      have w6 : (s3, (Except.ok () : Except PyErr Unit)) = (s', .ok ()) := w6
      injection w6 with w6 _
      exact w6.symm
    subst this
    exact ⟨v', z1, z2, z4, z5, hK⟩
  | false =>
    obtain ⟨y1, y2⟩ := z1.linkFar (e := e) z2 (by rw [z3, hp]; rfl) ⟨hf.1, hg.1.2⟩ hf.2.1 (by decide : Plain p!"MCA") h2 w6
    exact ⟨v', y1, z2, z4, z5, fun i hi => (y2 i hi).trans (hK i hi)⟩

theorem zone_chann {c : Scope} {X XI : Str → Prop} {K : Nat → Prop} {v u : Str → Option Nat} {s s' : H5}
    (h : Zone c X XI K v u s) {e : HRef} (hid : e.id = c.e) (hp : e.path = [c.E]) (x : Obj)
    (h1 : ¬ X p!"MCA") (h2 : ¬ XI p!"MCA") (hw : wChann e x s = (s', .ok ())) : Kept c X XI K v u s s' := by
  unfold wChann at hw
  cases hm : x.mca with
  | none =>
    rw [hm] at hw
    obtain ⟨_, rfl⟩ := HM.ret_inv hw
    exact h.kept fun _ _ => rfl
  | some m =>
    rw [hm] at hw
    obtain ⟨s1, g, w1, w2⟩ := HM.bind_inv hw
    obtain ⟨s2, _, w3, w4⟩ := HM.bind_inv w2
    obtain ⟨s3, ins, w5, w6⟩ := HM.bind_inv w4
    obtain ⟨s4, t, w7, w8⟩ := HM.bind_inv w6
    obtain ⟨k1, k2, k3⟩ := h.openAt hid hp (by decide) h1 (by decide) w1
    have hc : Conf (zoneScope c X K v) (HM.ifSome m.chann fun c => do
      let _ ← writeDataset g p!"number_saved" (.num (.int c.1)) []
      let _ ← writeDataset g p!"first_saved" (.num (.int c.2.1)) []
      let _ ← writeDataset g p!"last_saved" (.num (.int c.2.2.1)) []
      let _ ← writeDataset g p!"reduction_coef" (one c.2.2.2) []
      pure ()) (fun _ => True) := by
      refine Conf.ifSome fun _ _ => ?_
      refine Conf.bind' (conf_wdl k3.1 k3.2.1 (by decide) _ _) fun _ _ => ?_
      refine Conf.bind' (conf_wdl k3.1 k3.2.1 (by decide) _ _) fun _ _ => ?_
      refine Conf.bind' (conf_wdl k3.1 k3.2.1 (by decide) _ _) fun _ _ => ?_
      refine Conf.bind' (conf_wdl k3.1 k3.2.1 (by decide) _ _) fun _ _ => ?_
      exact Conf.pure' trivial
    obtain ⟨k4, k5, -⟩ := k1.step hc w3
    obtain ⟨v', z1, z2, z4, z5, z6⟩ := k4.linkMca hid hp (k3.le (conf_le hc k1.held.inv w3)) h2 w5
    obtain ⟨rfl, hf⟩ := z1.getHub z2 (by decide : Plain p!"MCA").single h2 w7
    obtain ⟨k6, k7, -⟩ := z1.step (conf_setAttr hf.1 hf.2.1 _ _) w8
    exact (k6.kept k7).trans z4 z5 fun i hi => ((z6 i hi).trans (k5 i hi)).trans (k2 i hi)

theorem zone_ctime {c : Scope} {X XI : Str → Prop} {K : Nat → Prop} {v u : Str → Option Nat} {s s' : H5}
    (h : Zone c X XI K v u s) {e : HRef} (hid : e.id = c.e) (hp : e.path = [c.E]) (x : Obj)
    (h1 : ¬ X p!"MCA") (h2 : ¬ XI p!"MCA") (hw : wCtime e x s = (s', .ok ())) : Kept c X XI K v u s s' := by
  unfold wCtime at hw
  cases hm : x.mca with
  | none =>
    rw [hm] at hw
    obtain ⟨_, rfl⟩ := HM.ret_inv hw
    exact h.kept fun _ _ => rfl
  | some m =>
    rw [hm] at hw
    obtain ⟨s1, g, w1, w2⟩ := HM.bind_inv hw
    obtain ⟨s2, _, w3, w4⟩ := HM.bind_inv w2
    obtain ⟨s3, ins, w5, w6⟩ := HM.bind_inv w4
    obtain ⟨-, rfl⟩ := HM.pure_inv w6
    obtain ⟨k1, k2, k3⟩ := h.openAt hid hp (by decide) h1 (by decide) w1
    have hc : Conf (zoneScope c X K v) (HM.ifSome m.ctime fun c => do
      let _ ← writeDataset g p!"preset_time" (one c.1) (attr1 p!"units" p!"s")
      let _ ← writeDataset g p!"elapsed_live_time" (one c.2.1) (attr1 p!"units" p!"s")
      let _ ← writeDataset g p!"elapsed_real_time" (one c.2.2) (attr1 p!"units" p!"s")
      pure ()) (fun _ => True) := by
      refine Conf.ifSome fun _ _ => ?_
      refine Conf.bind' (conf_wdl k3.1 k3.2.1 (by decide) _ _) fun _ _ => ?_
      refine Conf.bind' (conf_wdl k3.1 k3.2.1 (by decide) _ _) fun _ _ => ?_
      refine Conf.bind' (conf_wdl k3.1 k3.2.1 (by decide) _ _) fun _ _ => ?_
      exact Conf.pure' trivial
    obtain ⟨k4, k5, -⟩ := k1.step hc w3
    obtain ⟨v', z1, z2, z4, z5, z6⟩ := k4.linkMca hid hp (k3.le (conf_le hc k1.held.inv w3)) h2 w5
    exact (z1.kept fun _ _ => rfl).trans z4 z5 fun i hi => ((z6 i hi).trans (k5 i hi)).trans (k2 i hi)

/-! ### geometry -/

omit [UniDB] in
theorem writeDataset_path {h : HRef} {n : Str} (hn : Single n) {d : PData} {a : Dict AVal} {s s' : H5} {r : HRef}
    (hw : writeDataset h n d a s = (s', .ok r)) : r.path = h.path ++ [n] := by
  unfold writeDataset at hw
  obtain ⟨t, _, _, w2⟩ := HM.bind_inv hw
  unfold makeDataset at w2
  obtain ⟨q, _, w4⟩ := HM.bind_lift_inv w2
  obtain ⟨t2, ds, w5, w6⟩ := HM.bind_inv w4
  obtain ⟨t3, _, _, w8⟩ := HM.bind_inv w6
  obtain ⟨e1, -⟩ := HM.pure_inv w8
  subst e1
  unfold H5.create at w5
  split at w5
  · injection w5 with _ w5
    injection w5 with w5
    rw [← w5, base_single hn, comps_single hn]
  · cases w5

/-- the wavelength, linked in the group "sample" -/
theorem Zone.wavelength {c : Scope} {X XI : Str → Prop} {K : Nat → Prop} {v u : Str → Option Nat} {s s' : H5}
    (h : Zone c X XI K v u s) {e ins : HRef} (hid : e.id = c.e) (hp : e.path = [c.E]) (hI : v inst = some ins.id)
    (hip : ins.path = [c.E, inst]) (h1 : ¬ X p!"sample") (h2 : ¬ XI p!"monochromator") {wl : PyFloat}
    (hw : wWavelength e ins wl s = (s', .ok ())) : Zone c X XI K v u s' ∧ ∀ i, K i → s'[i]? = s[i]? := by
  unfold wWavelength at hw
  obtain ⟨s1, mono, w1, w2⟩ := HM.bind_inv hw
  obtain ⟨s2, ds, w3, w4⟩ := HM.bind_inv w2
  obtain ⟨s3, sample, w5, w6⟩ := HM.bind_inv w4
  obtain ⟨s4, beam, w7, w8⟩ := HM.bind_inv w6
  have hs1 : ¬ (zoneScope c X K v).X p!"sample" := by rintro (q | q); exacts [h1 q, absurd q (by decide)]
  obtain ⟨a1, a2, a3, a4⟩ := h.hubOpen hI (by decide : Plain p!"monochromator").single h2 w1
  have hpw := writeDataset_path (by decide : Plain p!"wavelength").single w3
  obtain ⟨b1, b2, b3⟩ := a1.step (conf_far_write a3.1 a3.2.1 (by decide) _ _) w3
  obtain ⟨b4, b5⟩ := b3 ds rfl
  obtain ⟨c1, c2, c3⟩ := b1.step (conf_og (b1.ok hid hp) (by decide) hs1 _ _) w5
  obtain ⟨c4, c5⟩ := c3 sample rfl
  obtain ⟨d1, d2, d3⟩ := c1.step (conf_ogl c4 c5 (by decide : Plain p!"beam").single _ _) w7
  obtain ⟨d4, d5⟩ := d3 beam rfl
  unfold makeLink at w8
  obtain ⟨s5, _, w9, w10⟩ := HM.bind_inv w8
  obtain ⟨s6, obj, w11, w12⟩ := HM.bind_inv w10
  obtain ⟨e1, e2, -⟩ := d1.step (Conf.andThen (conf_hasAttr _ _ _) fun _ _ => Conf.onlyIf fun _ => conf_setAttr b4 b5 _ _) w9
  obtain ⟨f1, f2⟩ : s6 = s5 ∧ (¬ (zoneScope c X K v).D obj.id ∧ obj.id ≠ c.e) := by
    unfold H5.get HM.lookE at w11
    beta_reduce at w11
    have hn : nameOf ds = nameOf ⟨0, [c.E, inst, p!"monochromator", p!"wavelength"]⟩ := by
      unfold nameOf; rw [hpw, a4, hip]; rfl
    rw [hn, base_name, comps_name (by
      intro q hq
      simp only [List.mem_cons, List.not_mem_nil, or_false] at hq
      rcases hq with rfl | rfl | rfl | rfl
      · exact h.held.inv.plain
      all_goals decide)] at w11
    have hwk := e1.walk (.inr rfl) hI [p!"monochromator", p!"wavelength"]
    obtain ⟨-, ch, a0, g0, -, -⟩ := e1.hub _ hI
    cases hm : ch.get? p!"monochromator" with
    | none =>
      have : H5.walk s5 ins.id [p!"monochromator", p!"wavelength"] = none := by rw [H5.walk, g0]; simp only [hm]
      rw [show root.id = 0 from rfl, hwk, this] at w11
      injection w11 with _ w11
      cases w11
    | some j =>
      have hfar := e1.member hI g0 h2 hm
      rw [show root.id = 0 from rfl, hwk, walk_one g0 hm] at w11
      cases hq : H5.walk s5 j [p!"wavelength"] with
      | none => rw [hq] at w11; injection w11 with _ w11; cases w11
      | some q =>
        rw [hq] at w11
        injection w11 with y1 y2
        injection y2 with y2
        obtain ⟨x1, -, x3⟩ := walk_scope e1.held.inv _ hfar.1 (fun q => absurd q hfar.2.1) hq
        rw [← y2]
        exact ⟨y1.symm, x1, (x3 (by simp)).1⟩
  subst f1
  obtain ⟨n, q, hq, hx⟩ := comps_ascii_name (c := zoneScope c X K v) h.held.inv.plain d4 d5 p!"/incident_wavelength" (Or.inr ⟨_, rfl⟩)
  obtain ⟨g1, g2, -⟩ := e1.step (conf_setLink_abs sample (absolute_nameOf beam p!"/incident_wavelength") hq hx f2.1 f2.2) w12
  exact ⟨g1, fun i hi => (g2 i hi).trans ((e2 i hi).trans ((d2 i hi).trans ((c2 i hi).trans ((b2 i hi).trans (a2 i hi)))))⟩

theorem Zone.hubWrite' {c : Scope} {X XI : Str → Prop} {K : Nat → Prop} {v u : Str → Option Nat} {s s' : H5}
    (h : Zone c X XI K v u s) {ins : HRef} (hI : v inst = some ins.id) {n : Str} (hs : Single n) (hn : ¬ XI n)
    {d : PData} {a : Dict AVal} {r : HRef} (hw : writeDataset ins n d a s = (s', .ok r)) :
    Zone c X XI K v u s' ∧ ∀ i, K i → s'[i]? = s[i]? := by
  obtain ⟨h1, h2, -⟩ := h.hubWrite hI hs hn hw
  refine ⟨h1, fun i hi => h2 i ?_ (h.held.inv.lt i (.inr (.inl hi)))⟩
  rintro rfl
  exact (h.hub _ hI).1 hi

theorem zone_geometry {c : Scope} {X XI : Str → Prop} {K : Nat → Prop} {v u : Str → Option Nat} {s s' : H5}
    (h : Zone c X XI K v u s) {e : HRef} (hid : e.id = c.e) (hp : e.path = [c.E]) (x : Obj) (hr : RelNames x)
    (hG : ¬ X p!"G") (hS : ¬ X p!"sample") (h1 : ¬ XI p!"name") (h2 : ¬ XI p!"monochromator") (h3 : ¬ XI p!"geometry_parameters")
    (hw : wGeometry e x s = (s', .ok ())) : Kept c X XI K v u s s' := by
  unfold wGeometry at hw
  obtain ⟨s1, g, w1, w2⟩ := HM.bind_inv hw
  obtain ⟨s2, G, w3, w4⟩ := HM.bind_inv w2
  obtain ⟨dd, w5, w6⟩ := HM.bind_lift_inv w4
  obtain ⟨s3, _, w7, w8⟩ := HM.bind_inv w6
  obtain ⟨s4, diff, w9, w10⟩ := HM.bind_inv w8
  obtain ⟨-, rfl⟩ := need_inv w3
  obtain ⟨hdiff, rfl⟩ := need_inv w9
  obtain ⟨hg1, hg2⟩ := hr.geometry diff hdiff
  obtain ⟨k1, k2, k3⟩ := h.makeAt hid hp (by decide) hG (by decide) w1
  obtain ⟨k4, k5, -⟩ := k1.step (conf_saveDict k3.1 k3.2.1 dd) w7
  have k6 : ∀ i, K i → s4[i]? = s[i]? := fun i hi => (k5 i hi).trans (k2 i hi)
  by_cases hgp : diff.gpar = []
  · rw [if_pos hgp] at w10
    obtain ⟨-, rfl⟩ := HM.pure_inv w10
    exact k4.kept k6
  · rw [if_neg hgp] at w10
    obtain ⟨t1, ins, a1, b1⟩ := HM.bind_inv w10
    obtain ⟨t2, _, a2, b2⟩ := HM.bind_inv b1
    obtain ⟨t3, _, a3, b3⟩ := HM.bind_inv b2
    obtain ⟨t4, _, a4, b4⟩ := HM.bind_inv b3
    obtain ⟨t5, _, a5, b5⟩ := HM.bind_inv b4
    obtain ⟨t6, _, a6, b6⟩ := HM.bind_inv b5
    obtain ⟨t7, _, a7, b7⟩ := HM.bind_inv b6
    obtain ⟨t8, _, a8, b8⟩ := HM.bind_inv b7
    obtain ⟨t9, note, a9, b9⟩ := HM.bind_inv b8
    obtain ⟨v', z1, z2, z3, z4, z5, z6, -⟩ := k4.openHub hid a1
    have hK : ∀ i, K i → t1[i]? = s4[i]? := fun i hi => z6 i
      (k4.held.ne_entry (K := fun i => K i ∨ v inst = some i) (.inl hi)) (k4.held.inv.lt i (.inr (.inl hi)))
    have hs1 : ¬ (zoneScope c X K v').X p!"sample" := by rintro (q | q); exacts [hS q, absurd q (by decide)]
    have ho := z1.ok hid hp
    obtain ⟨c2, d2⟩ := z1.hubWrite' z2 (by decide : Plain p!"name").single h1 a2
    obtain ⟨c3, d3, -⟩ := c2.step (Conf.ifSome fun l _ => conf_wLattice ho l hs1) a3
    obtain ⟨c4, d4, -⟩ := c3.step (conf_wSample ho (by decide) _ hs1) a4
    obtain ⟨c5, d5, -⟩ := c4.step (conf_wSample ho (by decide) _ hs1) a5
    obtain ⟨c6, d6, -⟩ := c5.step (conf_wSample ho (by decide) _ hs1) a6
    have hcr : Conf (zoneScope c X K v') (HM.onlyIf (!diff.reflections.isEmpty) do
      let sample ← openGroup e p!"sample" p!"NXsample" []
      HM.each (wReflection sample) ((List.range diff.reflections.length).zip diff.reflections)) (fun _ => True) := by
      refine Conf.onlyIf fun _ => ?_
      refine Conf.bind' (conf_og ho (by decide) hs1 _ _) fun sa hsa => ?_
      refine Conf.each _ fun ir hir => conf_wReflection hsa.1 hsa.2 ir ?_
      exact hg2 _ (List.of_mem_zip hir).2
    obtain ⟨c7, d7, -⟩ := c6.step hcr a7
    obtain ⟨c8, d8⟩ : Zone c X XI K v' u t8 ∧ ∀ i, K i → t8[i]? = t7[i]? := by
      cases hwl : diff.wavelength with
      | none =>
        rw [hwl] at a8
        obtain ⟨-, rfl⟩ := HM.ret_inv a8
        exact ⟨c7, fun _ _ => rfl⟩
      | some wl =>
        rw [hwl] at a8
        exact c7.wavelength hid hp z2 (by rw [z3, hp]; rfl) hS h2 a8
    obtain ⟨c9, d9, f9, -⟩ := c8.hubOpen z2 (by decide : Plain p!"geometry_parameters").single h3 a9
    have hce : Conf (zoneScope c X K v') (HM.each (fun kv => do
      let _ ← writeDataset note kv.1 (gData kv.2) (descAttr diff kv.1)
      pure ()) diff.gpar) (fun _ => True) := by
      refine Conf.each _ fun kv hkv => ?_
      refine Conf.bind' (conf_far_write f9.1 f9.2.1 (hg1 kv.1 (List.mem_map_of_mem hkv)) _ _) fun _ _ => ?_
      exact Conf.pure' trivial
    obtain ⟨c10, d10, -⟩ := c9.step hce b9
    refine (c10.kept d10).trans z4 z5 fun i hi => ?_
    exact ((d9 i hi).trans ((d8 i hi).trans ((d7 i hi).trans ((d6 i hi).trans ((d5 i hi).trans ((d4 i hi).trans
      ((d3 i hi).trans ((d2 i hi).trans (hK i hi))))))))).trans (k6 i hi)

end
end S2N
