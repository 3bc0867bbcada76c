import Verif.Lemmas.ZonePosTree
/-
Work on the protected nodes themselves.
-/
namespace S2N
open Py H5 Eznx Writer Spec

section
variable {c : Scope} {X XI : Str → Prop} {K : Nat → Prop} {v u : Str → Option Nat} {s s' : H5}

/-- a new node becomes a member of a protected group or, with a protected name, of the group "instrument" -/
theorem Zone.grow (h : Zone c X XI K v u s) {p : Nat} (hp : K p ∨ v inst = some p) {ch ch' : Dict Nat} {a : Dict AVal}
    (he : s[p]? = some (.group ch a)) {n : Str} (hn : v inst = some p → XI n) (hd : (Dict.keys ch').Nodup)
    (hg : ch'.get? n = some s.length) (ho : ∀ m, m ≠ n → ch'.get? m = ch.get? m)
    (hm : ∀ m j, (m, j) ∈ ch' → (m, j) = (n, s.length) ∨ ((m, j) ∈ ch ∧ m ≠ n)) (node : HNode)
    (hnode : ∀ c1 a1, node = .group c1 a1 → c1 = []) :
    Zone c X XI (fun i => K i ∨ i = s.length) v (if v inst = some p then upd u n (some s.length) else u)
      (s.set p (.group ch' a) ++ [node]) := by
  have hh := h.held
  have hl := lt_of_get? he
  have hget := get?_set_snoc hl (.group ch' a) node
  have hinv := hh.grow (.inr hp) he (N := n) (fun e => absurd e (hh.ne_entry hp)) hd hm node hnode
  have hlt : ∀ i, K i ∨ v inst = some i → i < s.length := fun i hi => hh.inv.lt i (.inr hi)
  refine ⟨?_, ?_, ?_⟩
  · have hKe : (fun i => (K i ∨ v inst = some i) ∨ i = s.length) = fun i => (K i ∨ i = s.length) ∨ v inst = some i := by
      funext i
      exact propext ⟨fun q => by tauto, fun q => by tauto⟩
    rw [hKe] at hinv
    obtain ⟨chE, aE, e1, e2⟩ := hh.entry
    refine ⟨hinv, hh.root, ⟨chE, aE, ?_, e2⟩, hh.inj, fun n i hn h1 => ?_, ?_⟩
    · have hel : c.e < s.length := hh.inv.elt
      rw [hget, if_neg (Ne.symm (hh.ne_entry hp)), if_neg (by omega), e1]
    · rcases hh.mem n i hn h1 with q | q
      · exact .inl (.inl q)
      · exact .inr q
    · rintro i ((hi | hi) | hi) hD
      · exact hh.apart i (.inl hi) hD
      · have := hh.inv.lt i (.inl hD)
        omega
      · exact hh.apart i (.inr hi) hD
  · intro I hI
    obtain ⟨hKI, ch0, a0, e0, e1, e2⟩ := h.hub I hI
    have hIl := lt_of_get? e0
    have hKI' : ¬ (K I ∨ I = s.length) := by
      rintro (q | q)
      · exact hKI q
      · omega
    by_cases hpI : v inst = some p
    · rw [hI] at hpI
      injection hpI with hpI
      subst hpI
      rw [he] at e0
      injection e0 with e0
      injection e0 with e0 e0'
      subst e0 e0'
      rw [if_pos hI]
      refine ⟨hKI', ch', a, by rw [hget, if_pos rfl], fun m hm' => ?_, fun m j hmj => ?_⟩
      · by_cases q : m = n
        · rw [q, upd_self, hg]
        · rw [upd_ne _ _ q, ho m q, e1 m hm']
      · rcases hm m j hmj with q | ⟨q, q'⟩
        · injection q with q1 q2
          subst q1 q2
          obtain ⟨f1, f2⟩ := h.fresh
          exact ⟨f2, by omega, fun q => f1 (.inl q), fun _ => hn hI⟩
        · obtain ⟨q1, q2, q3, q4⟩ := e2 m j q
          refine ⟨q1, q2, q3, ?_⟩
          rintro (r | r)
          · exact q4 r
          · have := (hh.inv.wf _ _ _ he).2 m j q
            omega
    · rw [if_neg hpI]
      have hIp : I ≠ p := fun q => hpI (q ▸ hI)
      refine ⟨hKI', ch0, a0, by rw [hget, if_neg hIp, if_neg (by omega), e0], e1, fun m j hmj => ?_⟩
      obtain ⟨q1, q2, q3, q4⟩ := e2 m j hmj
      refine ⟨q1, q2, q3, ?_⟩
      rintro (r | r)
      · exact q4 r
      · have := (hh.inv.wf _ _ _ e0).2 m j hmj
        omega
  · intro hI
    rw [if_neg (by rw [hI]; simp)]
    exact h.noHub hI

/-- a protected group gets other members: only protected nodes are new -/
theorem Zone.put (h : Zone c X XI K v u s) {p : Nat} (hp : K p) {ch ch' : Dict Nat} {a : Dict AVal}
    (he : s[p]? = some (.group ch a)) (hd : (Dict.keys ch').Nodup)
    (hm : ∀ m j, (m, j) ∈ ch' → (m, j) ∈ ch ∨ K j) : Zone c X XI K v u (s.set p (.group ch' a)) := by
  have hh := h.held
  have hv := hh.inv
  have hl := lt_of_get? he
  have hget := fun j => set_get? s p j (.group ch' a) hl
  have hKp : (fun i => K i ∨ v inst = some i) p := .inl hp
  refine ⟨⟨⟨?_, hv.rootD, hv.notD, hv.plain, ?_, ?_, ?_, ?_⟩, hh.root, ?_, hh.inj, hh.mem, hh.apart⟩, ?_, h.noHub⟩
  · intro i c1 a1 hg
    rw [hget] at hg
    rw [List.length_set]
    split at hg
    · injection hg with hg
      injection hg with hg _
      subst hg
      refine ⟨hd, fun n j hj => ?_⟩
      rcases hm n j hj with q | q
      · exact (hv.wf _ _ _ he).2 n j q
      · exact hv.lt j (.inr (.inl q))
    · exact hv.wf _ _ _ hg
  · obtain ⟨c0, a0, e1, e2⟩ := hv.entry
    refine ⟨c0, a0, ?_, e2⟩
    rw [hget, if_neg (Ne.symm (hh.ne_root hKp)), e1]
  · intro j hj; rw [List.length_set]; exact hv.lt j hj
  · rw [List.length_set]; exact hv.elt
  · intro j hj c1 a1 hs
    rw [hget] at hs
    split at hs
    · next e => exact absurd (.inr (.inl (e ▸ hp))) hj
    · exact hv.closed j hj c1 a1 hs
  · obtain ⟨c0, a0, e1, e2⟩ := hh.entry
    refine ⟨c0, a0, ?_, e2⟩
    rw [hget, if_neg (Ne.symm (hh.ne_entry hKp)), e1]
  · intro I hI
    obtain ⟨hKI, ch0, a0, e0, e1, e2⟩ := h.hub I hI
    refine ⟨hKI, ch0, a0, ?_, e1, e2⟩
    rw [hget, if_neg (show ¬ I = p from fun q => hKI (q ▸ hp)), e0]

/-- a dataset of the entry with a protected name -/
theorem Zone.ownWrite (h : Zone c X XI K v u s) {e : HRef} (hid : e.id = c.e) {N : Str} (hN : X N) (hne : N ≠ inst) (hs : Single N)
    {d : PData} {a : Dict AVal} {r : HRef} (hw : writeDataset e N d a s = (s', .ok r)) :
    ∃ x, d.toH = .ok x ∧ r.id = s.length ∧ s'.length = s.length + 1 ∧
      s'[s.length]? = some (.dset x (Dict.update [] (noteAttrs d a))) ∧
      Zone c X XI (fun i => K i ∨ i = s.length) (upd v N (some s.length)) u s' ∧
      (∀ i, i ≠ c.e → i < s.length → s'[i]? = s[i]?) := by
  obtain ⟨ch, a0, he, hv⟩ := h.held.entry
  have he' : s[e.id]? = some (.group ch a0) := by rw [hid]; exact he
  have hnd := (h.held.inv.wf _ _ _ he).1
  have hl := lt_of_get? he
  cases hx : d.toH with
  | error err =>
    exfalso
    unfold writeDataset at hw
    obtain ⟨t, u, _, h2⟩ := HM.bind_inv hw
    unfold makeDataset at h2
    obtain ⟨z, h3, _⟩ := HM.bind_lift_inv h2
    rw [hx] at h3
    cases h3
  | ok x =>
    rw [writeDataset_eq he' hnd hs hx, hid] at hw
    injection hw with hw hr
    injection hr with hr
    have hget := get?_set_snoc hl (.group ((ch.del N).set N s.length) a0) (.dset x (Dict.update [] (noteAttrs d a)))
    rw [hw] at hget
    have hvi : upd v N (some s.length) inst = v inst := upd_ne _ _ (Ne.symm hne)
    have hadd := h.held.add he (.inl hN) (ch' := (ch.del N).set N s.length) (del_set_nodup hnd) (Dict.get?_set_self _ _ _)
      (fun n hn => by rw [Dict.get?_set_ne _ _ hn.symm, Dict.get?_del_ne _ hn]) (del_set_members hnd)
      (.dset x (Dict.update [] (noteAttrs d a))) (by intro _ _ e; cases e)
    rw [hw] at hadd
    have hframe : ∀ i, i ≠ c.e → i < s.length → s'[i]? = s[i]? := fun i hi hil => by
      rw [hget, if_neg hi, if_neg (by omega)]
    refine ⟨x, rfl, by rw [← hr], by rw [← hw]; simp, by rw [hget, if_neg (by omega), if_pos rfl], ⟨?_, ?_, ?_⟩, hframe⟩
    · have hKe : (fun i => (K i ∨ v inst = some i) ∨ i = s.length) =
          fun i => (K i ∨ i = s.length) ∨ upd v N (some s.length) inst = some i := by
        funext i
        rw [hvi]
        exact propext ⟨fun q => by tauto, fun q => by tauto⟩
      rw [hKe] at hadd; exact hadd
    · intro I hI
      rw [hvi] at hI
      obtain ⟨hK, ch1, a1, e0, e1, e2⟩ := h.hub I hI
      have hIl := lt_of_get? e0
      have hIe : I ≠ c.e := h.held.ne_entry (K := fun i => K i ∨ v inst = some i) (.inr hI)
      refine ⟨?_, ch1, a1, (hframe I hIe hIl).trans e0, e1, fun n j hm => ?_⟩
      · rintro (q | q)
        · exact hK q
        · omega
      · obtain ⟨q1, q2, q3, q4⟩ := e2 n j hm
        refine ⟨q1, q2, q3, ?_⟩
        rintro (q | q)
        · exact q4 q
        · have := (h.held.inv.wf _ _ _ e0).2 n j hm
          omega
    · rw [hvi]; exact h.noHub

/-- a dataset written in a protected group, or with a protected name in the group "instrument" -/
theorem Zone.write (h : Zone c X XI K v u s) {g : HRef} (hp : K g.id ∨ v inst = some g.id) {ch : Dict Nat} {A : Dict AVal}
    (he : s[g.id]? = some (.group ch A)) {n : Str} (hn : v inst = some g.id → XI n) (hs : Single n) {d : PData} {a : Dict AVal} {r : HRef}
    (hw : writeDataset g n d a s = (s', .ok r)) :
    ∃ x, d.toH = .ok x ∧ r = ⟨s.length, g.path ++ [n]⟩ ∧ s'.length = s.length + 1 ∧
      s'[s.length]? = some (.dset x (Dict.update [] (noteAttrs d a))) ∧
      s'[g.id]? = some (.group ((ch.del n).set n s.length) A) ∧
      Zone c X XI (fun i => K i ∨ i = s.length) v (if v inst = some g.id then upd u n (some s.length) else u) s' ∧
      (∀ i, i ≠ g.id → i < s.length → s'[i]? = s[i]?) := by
  have hnd := (h.held.inv.wf _ _ _ he).1
  have hl := lt_of_get? he
  cases hx : d.toH with
  | error err =>
    exfalso
    unfold writeDataset at hw
    obtain ⟨t, u, _, h2⟩ := HM.bind_inv hw
    unfold makeDataset at h2
    obtain ⟨z, h3, _⟩ := HM.bind_lift_inv h2
    rw [hx] at h3
    cases h3
  | ok x =>
    rw [writeDataset_eq he hnd hs hx] at hw
    injection hw with hw hr
    injection hr with hr
    have hget := get?_set_snoc hl (.group ((ch.del n).set n s.length) A) (.dset x (Dict.update [] (noteAttrs d a)))
    rw [hw] at hget
    have hz := h.grow hp he hn (ch' := (ch.del n).set n s.length) (del_set_nodup hnd) (Dict.get?_set_self _ _ _)
      (fun n hn => by rw [Dict.get?_set_ne _ _ hn.symm, Dict.get?_del_ne _ hn]) (del_set_members hnd)
      (.dset x (Dict.update [] (noteAttrs d a))) (by intro _ _ e; cases e)
    rw [hw] at hz
    refine ⟨x, rfl, hr.symm, by rw [← hw]; simp, by rw [hget, if_neg (by omega), if_pos rfl], by rw [hget, if_pos rfl], hz, ?_⟩
    intro i hi hil
    rw [hget, if_neg hi, if_neg (by omega)]

/-- a new group in a protected group, or with a protected name in the group "instrument" -/
theorem Zone.make (h : Zone c X XI K v u s) {g : HRef} (hp : K g.id ∨ v inst = some g.id) {ch : Dict Nat} {A : Dict AVal}
    (he : s[g.id]? = some (.group ch A)) {n : Str} (hn : v inst = some g.id → XI n) (hs : Single n) {cls : Str} {a : Dict AVal}
    {r : HRef} (hw : makeGroup g n cls a s = (s', .ok r)) :
    ch.has n = false ∧ r = ⟨s.length, g.path ++ [n]⟩ ∧ s'.length = s.length + 1 ∧
      s'[s.length]? = some (.group [] (Dict.update [(p!"NX_class", AVal.str cls)] a)) ∧
      s'[g.id]? = some (.group (ch.set n s.length) A) ∧
      Zone c X XI (fun i => K i ∨ i = s.length) v (if v inst = some g.id then upd u n (some s.length) else u) s' ∧
      (∀ i, i ≠ g.id → i < s.length → s'[i]? = s[i]?) := by
  have hnd := (h.held.inv.wf _ _ _ he).1
  have hl := lt_of_get? he
  have hf : ch.has n = false := by
    cases hf : ch.has n with
    | false => rfl
    | true => rw [makeGroup_exists he hs hf] at hw; cases hw
  rw [makeGroup_eq he hs hf] at hw
  injection hw with hw hr
  injection hr with hr
  have hget := get?_set_snoc hl (.group (ch.set n s.length) A) (.group [] (Dict.update [(p!"NX_class", AVal.str cls)] a))
  rw [hw] at hget
  have hz := h.grow hp he hn (ch' := ch.set n s.length) (Dict.nodup_keys_set _ _ _ hnd) (Dict.get?_set_self _ _ _)
    (fun n hn => Dict.get?_set_ne _ _ hn.symm) (set_members hf)
    (.group [] (Dict.update [(p!"NX_class", AVal.str cls)] a)) (by intro _ _ e; injection e with e _; exact e.symm)
  rw [hw] at hz
  refine ⟨hf, hr.symm, by rw [← hw]; simp, by rw [hget, if_neg (by omega), if_pos rfl], by rw [hget, if_pos rfl], hz, ?_⟩
  intro i hi hil
  rw [hget, if_neg hi, if_neg (by omega)]

/-- the same if the group is opened, where nothing has the name -/
theorem Zone.openNew (h : Zone c X XI K v u s) {g : HRef} (hp : K g.id ∨ v inst = some g.id) {ch : Dict Nat} {A : Dict AVal}
    (he : s[g.id]? = some (.group ch A)) {n : Str} (hn : v inst = some g.id → XI n) (hs : Single n) (hf : ch.has n = false)
    {cls : Str} {a : Dict AVal} {r : HRef} (hw : openGroup g n cls a s = (s', .ok r)) :
    r = ⟨s.length, g.path ++ [n]⟩ ∧ s'.length = s.length + 1 ∧
      s'[s.length]? = some (.group [] (Dict.update [(p!"NX_class", AVal.str cls)] a)) ∧
      s'[g.id]? = some (.group (ch.set n s.length) A) ∧
      Zone c X XI (fun i => K i ∨ i = s.length) v (if v inst = some g.id then upd u n (some s.length) else u) s' ∧
      (∀ i, i ≠ g.id → i < s.length → s'[i]? = s[i]?) := by
  rw [openGroup_new he hs hf] at hw
  exact (h.make hp he hn hs hw).2

end
end S2N
