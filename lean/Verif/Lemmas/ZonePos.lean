import Verif.Lemmas.ZoneRun
/-
The group of the positioners.
-/
namespace S2N
open Py H5 Eznx Writer Spec

/-- the tree below the new node `b` of the entry becomes protected -/
theorem Held.tree' {c : Scope} {X : Str → Prop} {K : Nat → Prop} {v : Str → Option Nat} {s s' : H5} {b : Nat}
    (h : Held c X K v s) (hb : s.length = b + 1) (hK : K b) (he : c.e < b) (hlen : s.length ≤ s'.length)
    (hold : ∀ i, i < b → s'[i]? = s[i]?) (hs : Sound b s') :
    Held c X (fun i => K i ∨ (b ≤ i ∧ i < s'.length)) v s' := by
  have hi := h.inv
  refine ⟨⟨?_, .inl h.root, ?_, hi.plain, ?_, ?_, ?_, ?_⟩, h.root, ?_, h.inj, fun n i hn hv => .inl (h.mem n i hn hv), ?_⟩
  · intro i ch a e
    by_cases hib : i < b
    · rw [hold i hib] at e
      have := hi.wf i ch a e
      exact ⟨this.1, fun n j hm => Nat.lt_of_lt_of_le (this.2 n j hm) hlen⟩
    · have := hs i ch a (by omega) e
      exact ⟨this.1, fun n j hm => (this.2 n j hm).2⟩
  · rintro (e | e | e)
    · exact hi.notD (.inl e)
    · exact hi.notD (.inr e)
    · have e : b ≤ c.e ∧ _ := e
      omega
  · obtain ⟨ch, a, e1, e2⟩ := hi.entry
    exact ⟨ch, a, by rw [hold 0 (by omega)]; exact e1, e2⟩
  · rintro i (e | e | e)
    · exact Nat.lt_of_lt_of_le (hi.lt i (.inl e)) hlen
    · exact Nat.lt_of_lt_of_le (hi.lt i (.inr e)) hlen
    · exact e.2
  · exact Nat.lt_of_lt_of_le hi.elt hlen
  · intro i hni ch a e n j hm
    have hib : i < b := by
      by_cases q : i < b
      · exact q
      · exact absurd (.inr (.inr ⟨by omega, lt_of_get? e⟩)) hni
    rw [hold i hib] at e
    have hni' : ¬ (c.slots X K).D i := by
      rintro (q | q)
      · exact hni (.inl q)
      · exact hni (.inr (.inl q))
    obtain ⟨k1, k2⟩ := hi.closed i hni' ch a e n j hm
    refine ⟨k1, ?_⟩
    rintro (q | q | q)
    · exact k2 (.inl q)
    · exact k2 (.inr q)
    · have hj := (hi.wf i ch a e).2 n j hm
      have : j = b := by have := q.1; omega
      exact k2 (.inr (this ▸ hK))
  · obtain ⟨ch, a, e1, e2⟩ := h.entry
    exact ⟨ch, a, by rw [hold _ he]; exact e1, e2⟩
  · rintro i (e | e) hD
    · exact h.apart i e hD
    · have := hi.lt i (.inl hD)
      have : i = b := by have := e.1; omega
      exact h.apart i (this ▸ hK) hD

/-- a new group of the entry with a protected name -/
theorem Zone.newGroup {c : Scope} {X XI : Str → Prop} {K : Nat → Prop} {v u : Str → Option Nat} {s s' : H5}
    (h : Zone c X XI K v u s) {e : HRef} (hid : e.id = c.e) {N : Str} (hN : X N) (hne : N ≠ inst) (hs : Single N) {cls : Str}
    {a : Dict AVal} {r : HRef} (hw : makeGroup e N cls a s = (s', .ok r)) :
    v N = none ∧ r = ⟨s.length, e.path ++ [N]⟩ ∧ s'.length = s.length + 1 ∧ c.e < s.length ∧
      s'[s.length]? = some (.group [] (Dict.update [(p!"NX_class", AVal.str cls)] a)) ∧
      Zone c X XI (fun i => K i ∨ i = s.length) (upd v N (some s.length)) u s' ∧
      (∀ i, K i → s'[i]? = s[i]?) := by
  obtain ⟨g1, g2, g3, g4, g5, g6⟩ := h.held.addGroup (N := N) (.inl hN) hid hs hw
  obtain ⟨f1, f2⟩ := h.fresh
  have hvi : upd v N (some s.length) inst = v inst := upd_ne _ _ (Ne.symm hne)
  have hel : c.e < s.length := h.held.inv.elt
  refine ⟨g1, g2, g3, hel, g4, ⟨?_, ?_, ?_⟩, fun i hi => g6 i
    (h.held.ne_entry (K := fun i => K i ∨ v inst = some i) (.inl hi)) (h.held.inv.lt i (.inr (.inl hi)))⟩
  · have hKe : (fun i => (K i ∨ v inst = some i) ∨ i = s.length) =
        fun i => (K i ∨ i = s.length) ∨ upd v N (some s.length) inst = some i := by
      funext i
      rw [hvi]
      exact propext ⟨fun q => by tauto, fun q => by tauto⟩
    rw [hKe] at g5; exact g5
  · intro I hI
    rw [hvi] at hI
    obtain ⟨hK, ch, a0, e0, e1, e2⟩ := h.hub I hI
    have hIl := lt_of_get? e0
    have hIe : I ≠ c.e := h.held.ne_entry (K := fun i => K i ∨ v inst = some i) (.inr hI)
    refine ⟨?_, ch, a0, (g6 I hIe hIl).trans e0, e1, fun n j hm => ?_⟩
    · rintro (q | q)
      · exact hK q
      · omega
    · obtain ⟨q1, q2, q3, q4⟩ := e2 n j hm
      refine ⟨q1, q2, q3, ?_⟩
      rintro (q | q)
      · exact q4 q
      · have := (h.held.inv.wf _ _ _ e0).2 n j hm
        omega
  · rw [hvi]; exact h.noHub

/-- the tree below the new group becomes protected -/
theorem Zone.tree {c : Scope} {X XI : Str → Prop} {K : Nat → Prop} {v u : Str → Option Nat} {s s' : H5} {b : Nat}
    (h : Zone c X XI K v u s) (hb : s.length = b + 1) (hK : K b) (he : c.e < b) (hlen : s.length ≤ s'.length)
    (hold : ∀ i, i < b → s'[i]? = s[i]?) (hs : Sound b s') :
    Zone c X XI (fun i => K i ∨ (b ≤ i ∧ i < s'.length)) v u s' := by
  have hh := h.held.tree' hb (.inl hK) he hlen hold hs
  refine ⟨?_, ?_, h.noHub⟩
  · have hKe : (fun i => (K i ∨ v inst = some i) ∨ (b ≤ i ∧ i < s'.length)) =
        fun i => (K i ∨ (b ≤ i ∧ i < s'.length)) ∨ v inst = some i := by
      funext i
      exact propext ⟨fun q => by tauto, fun q => by tauto⟩
    rw [hKe] at hh; exact hh
  · intro I hI
    obtain ⟨hKI, ch, a0, e0, e1, e2⟩ := h.hub I hI
    have hIl := lt_of_get? e0
    have hIb : I ≠ b := fun q => hKI (q ▸ hK)
    refine ⟨?_, ch, a0, (hold I (by omega)).trans e0, e1, fun n j hm => ?_⟩
    · rintro (q | q)
      · exact hKI q
      · omega
    · obtain ⟨q1, q2, q3, q4⟩ := e2 n j hm
      refine ⟨q1, q2, q3, ?_⟩
      rintro (q | q)
      · exact q4 q
      · have := (h.held.inv.wf _ _ _ e0).2 n j hm
        have : j = b := by omega
        exact q4 (this ▸ hK)

/-- the attributes of a protected node change -/
theorem Zone.retag {c : Scope} {X XI : Str → Prop} {K : Nat → Prop} {v u : Str → Option Nat} {s : H5} (h : Zone c X XI K v u s)
    {i : Nat} (hi : K i) {n : HNode} (hn : s[i]? = some n) (a : Dict AVal) :
    Zone c X XI K v u (s.set i (n.withAttrs a)) := by
  have hh := h.held.retag (.inl hi) hn a
  refine ⟨hh, ?_, h.noHub⟩
  intro I hI
  obtain ⟨hKI, ch, a0, e0, e1, e2⟩ := h.hub I hI
  refine ⟨hKI, ch, a0, ?_, e1, e2⟩
  rw [set_get? _ _ _ _ (lt_of_get? hn), if_neg (show ¬ I = i from fun q => hKI (q ▸ hi)), e0]

/-- the attributes with the attribute `target`, unless they have one -/
def withTarget (a : Dict AVal) (t : Str) : Dict AVal := if a.has p!"target" then a else a.set p!"target" (.str t)

/-- the link of a protected group in the group "instrument" -/
theorem Zone.linkOwn {c : Scope} {X XI : Str → Prop} {K : Nat → Prop} {v u : Str → Option Nat} {s s' : H5}
    (h : Zone c X XI K v u s) {e g ins : HRef} (hI : v inst = some ins.id) (hp : ins.path = [c.E, inst]) {N : Str} (hX : X N)
    (hN : XI N) (hP : Plain N) (hg : g.path = [c.E, N]) (hv : v N = some g.id) (hK : K g.id) {node : HNode}
    (hn : s[g.id]? = some node) (hw : makeLink e g (nameOf ins ++ '/' :: N) s = (s', .ok ())) :
    u N = none ∧ Zone c X XI K v (upd u N (some g.id)) s' ∧
      s'[g.id]? = some (node.withAttrs (withTarget node.attrs (nameOf g))) ∧ s'.length = s.length ∧
      ∀ i, K i → i ≠ g.id → s'[i]? = s[i]? := by
  obtain ⟨I, P⟩ := ins
  simp only at hp hI
  subst hp
  have hgl := lt_of_get? hn
  have hgI : g.id ≠ I := fun q => (h.hub _ hI).1 (q ▸ hK)
  unfold makeLink at hw
  obtain ⟨s1, _, w1, w2⟩ := HM.bind_inv hw
  obtain ⟨s2, obj, w3, w4⟩ := HM.bind_inv w2
  have hs1 : s1 = s.set g.id (node.withAttrs (withTarget node.attrs (nameOf g))) := by
    obtain ⟨t, b, y1, y2⟩ := HM.andThen_inv w1
    have hb : t = s ∧ b = node.attrs.has p!"target" := by
      unfold H5.hasAttr HM.look at y1
      beta_reduce at y1
      rw [hn] at y1
      injection y1 with q1 q2
      injection q2 with q2
      exact ⟨q1.symm, q2.symm⟩
    obtain ⟨rfl, rfl⟩ := hb
    unfold withTarget
    cases hh : node.attrs.has p!"target" with
    | true =>
      rw [hh] at y2
      obtain ⟨-, rfl⟩ := HM.ret_inv y2
      simp only [if_true]
      rw [HNode.withAttrs_self, set_same hn]
    | false =>
      rw [hh] at y2
      have y2 : setAttr g p!"target" (.str (nameOf g)) t = (s1, .ok ()) := y2
      rw [setAttr_eq hn] at y2
      injection y2 with y2 _
      rw [← y2]
      rfl
  have h1 : Zone c X XI K v u s1 := by rw [hs1]; exact h.retag hK hn _
  have hobj : s2 = s1 ∧ obj.id = g.id := by
    unfold H5.get HM.lookE at w3
    beta_reduce at w3
    rw [base_name, show comps (ascii (nameOf g)) = [c.E, N] by
      have : nameOf g = nameOf ⟨0, [c.E, N]⟩ := by unfold nameOf; rw [hg]
      rw [this]
      exact comps_name (by
        intro q hq
        simp only [List.mem_cons, List.not_mem_nil, or_false] at hq
        rcases hq with rfl | rfl
        · exact h.held.inv.plain
        · exact hP) 0, show root.id = 0 from rfl, h1.walk (.inl hX) hv []] at w3
    injection w3 with q1 q2
    injection q2 with q2
    exact ⟨q1.symm, by rw [← q2]⟩
  obtain ⟨rfl, ho⟩ := hobj
  obtain ⟨l1, ch, a, l2, l3, l4⟩ := h1.setLink (k := I) hI hP w4
  rw [ho] at l4
  obtain ⟨hKI, ch0, a0, e0, e1, e2⟩ := h1.hub _ hI
  rw [l2] at e0
  injection e0 with e0
  injection e0 with e0 _
  subst e0
  have hIl := lt_of_get? l2
  have hlen : s2.length = s.length := by rw [hs1, List.length_set]
  refine ⟨(e1 N hN).symm.trans l3, ?_, ?_, by rw [l4, List.length_set, hlen], ?_⟩
  · rw [l4]
    refine h1.hubSet hI l2 (Dict.nodup_keys_set _ _ _ (h1.held.inv.wf _ _ _ l2).1) ?_ ?_
    · intro m j hm
      rcases Dict.mem_set hm with q | q
      · injection q with q1 q2
        subst q1 q2
        right
        refine ⟨by omega, h.held.ne_entry (K := fun i => K i ∨ v inst = some i) (.inl hK), hgI, ?_, fun _ => hN⟩
        exact h.held.apart _ (.inl hK)
      · exact .inl q
    · intro m hm
      by_cases q : m = N
      · subst q
        rw [Dict.get?_set_self, upd_self]
      · rw [Dict.get?_set_ne _ _ (Ne.symm q), upd_ne _ _ q]
        exact e1 m hm
  · rw [l4, set_get? _ _ _ _ hIl, if_neg hgI, hs1, set_get? _ _ _ _ hgl, if_pos rfl]
  · intro i hi hig
    rw [l4, set_get? _ _ _ _ hIl, if_neg (show ¬ i = I from fun q => hKI (q ▸ hi)), hs1, set_get? _ _ _ _ hgl, if_neg hig]

end S2N
