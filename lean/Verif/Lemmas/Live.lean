import Verif.Lemmas.ZoneSample
import Verif.Lemmas.UxmlLinks
/-
That the writers do not raise: a program logic for success, and what is known of an entry while it is written.
-/
namespace S2N
open Py H5 Eznx Writer Spec

/-! ## Success -/

/-- `m` raises nothing in the state `s`; the result and the state afterwards are as `Q` says -/
def Runs {α : Type} (m : HM α) (s : H5) (Q : α → H5 → Prop) : Prop := ∃ a s', m s = (s', .ok a) ∧ Q a s'

namespace Runs
variable {α β : Type} {s : H5}

theorem andThen {m : HM α} {f : α → HM β} {P : α → H5 → Prop} {Q : β → H5 → Prop} (h : Runs m s P)
    (k : ∀ a s', P a s' → Runs (f a) s' Q) : Runs (HM.andThen m f) s Q := by
  obtain ⟨a, s1, h1, h2⟩ := h
  obtain ⟨b, s2, h3, h4⟩ := k a s1 h2
  exact ⟨b, s2, by rw [HM.andThen_ok h1, h3], h4⟩

theorem bind {m : HM α} {f : α → HM β} {P : α → H5 → Prop} {Q : β → H5 → Prop} (h : Runs m s P)
    (k : ∀ a s', P a s' → Runs (f a) s' Q) : Runs (m >>= f) s Q := andThen h k

theorem mono {m : HM α} {P Q : α → H5 → Prop} (h : Runs m s P) (k : ∀ a s', P a s' → Q a s') : Runs m s Q := by
  obtain ⟨a, s1, h1, h2⟩ := h
  exact ⟨a, s1, h1, k a s1 h2⟩

theorem ret {a : α} {Q : α → H5 → Prop} (h : Q a s) : Runs (HM.ret a) s Q := ⟨a, s, rfl, h⟩

theorem pure {a : α} {Q : α → H5 → Prop} (h : Q a s) : Runs (Pure.pure a : HM α) s Q := ⟨a, s, rfl, h⟩

/-- an expression that raises nothing -/
theorem lift {x : Except PyErr α} {a : α} (hx : x = .ok a) {f : α → HM β} {Q : β → H5 → Prop} (h : Runs (f a) s Q) :
    Runs (HM.lift x >>= f) s Q := by
  subst hx
  exact h

theorem need {o : Option α} {a : α} (hx : o = some a) {f : α → HM β} {Q : β → H5 → Prop} (h : Runs (f a) s Q) :
    Runs (need o >>= f) s Q := by
  subst hx
  exact h

theorem each {f : α → HM Unit} {J : H5 → Prop} : ∀ {l : List α} {s : H5}, J s → (∀ a ∈ l, ∀ s, J s → Runs (f a) s fun _ s' => J s') →
    Runs (HM.each f l) s fun _ s' => J s'
  | [], s, h, _ => ret h
  | a :: l, s, h, hf => by
    refine andThen (hf a (by simp) s h) fun _ s1 h1 => ?_
    exact each h1 fun b hb s hs => hf b (by simp [hb]) s hs

theorem onlyIf {b : Bool} {m : HM Unit} {Q : Unit → H5 → Prop} (h1 : b = true → Runs m s Q) (h0 : b = false → Q () s) :
    Runs (HM.onlyIf b m) s Q := by
  cases b with
  | true => exact h1 rfl
  | false => exact ret (h0 rfl)

theorem ifSome {o : Option α} {f : α → HM Unit} {Q : Unit → H5 → Prop} (h1 : ∀ a, o = some a → Runs (f a) s Q)
    (h0 : o = none → Q () s) : Runs (HM.ifSome o f) s Q := by
  cases o with
  | some a => exact h1 a rfl
  | none => exact ret (h0 rfl)

/-- a step whose result does not matter -/
theorem drop {m : HM α} {Q : Unit → H5 → Prop} (h : Runs m s fun _ s' => Q () s') : Runs (m >>= fun _ => Pure.pure ()) s Q :=
  bind h fun _ _ h => pure h

end Runs

/-! ## Steps -/

/-- the members of a group -/
def kids (s : H5) (i : Nat) : Option (Dict Nat) :=
  match s[i]? with
  | some (.group ch _) => some ch
  | _ => none

theorem kids_eq {s : H5} {i : Nat} {ch : Dict Nat} {a : Dict AVal} (h : s[i]? = some (.group ch a)) : kids s i = some ch := by
  unfold kids; rw [h]

theorem kids_inv {s : H5} {i : Nat} {ch : Dict Nat} (h : kids s i = some ch) : ∃ a, s[i]? = some (.group ch a) := by
  unfold kids at h
  split at h
  · rename_i c a hc
    injection h with h
    exact ⟨a, h ▸ hc⟩
  · cases h

theorem kids_lt {s : H5} {i : Nat} {ch : Dict Nat} (h : kids s i = some ch) : i < s.length := by
  obtain ⟨a, h⟩ := kids_inv h
  exact lt_of_get? h

theorem kids_congr {s s' : H5} {i : Nat} (h : s'[i]? = s[i]?) : kids s' i = kids s i := by
  unfold kids; rw [h]

/-- the group `p` gets the member `j` with the name `n`; no other group changes -/
structure Step (p : Nat) (n : Str) (j : Nat) (s s' : H5) : Prop where
  wf : WF s'
  len : s.length ≤ s'.length
  here : ∀ ch, kids s p = some ch → ∃ ch', kids s' p = some ch' ∧ ch'.get? n = some j ∧ ∀ m, m ≠ n → ch'.get? m = ch.get? m
  old : ∀ i, i < s.length → i ≠ p → kids s' i = kids s i

/-- no group changes -/
structure Stay (s s' : H5) : Prop where
  wf : WF s'
  len : s'.length = s.length
  old : ∀ i, kids s' i = kids s i

theorem Stay.trans {s t u : H5} (h : Stay s t) (k : Stay t u) : Stay s u :=
  ⟨k.wf, k.len.trans h.len, fun i => (k.old i).trans (h.old i)⟩

theorem Stay.refl {s : H5} (h : WF s) : Stay s s := ⟨h, rfl, fun _ => rfl⟩

theorem stay_attrs {s : H5} (h : WF s) {i : Nat} {node : HNode} (hn : s[i]? = some node) (a : Dict AVal) :
    Stay s (s.set i (node.withAttrs a)) := by
  have hl := lt_of_get? hn
  have hk : ∀ j, kids (s.set i (node.withAttrs a)) j = kids s j := by
    intro j
    unfold kids
    rw [set_get? _ _ _ _ hl]
    by_cases e : j = i
    · subst e
      rw [if_pos rfl, hn]
      cases node <;> rfl
    · rw [if_neg e]
  refine ⟨?_, List.length_set, hk⟩
  intro j ch a1 hj
  have := hk j
  rw [kids_eq hj] at this
  obtain ⟨a2, h2⟩ := kids_inv this.symm
  rw [List.length_set]
  exact h j ch a2 h2

theorem runs_setAttr {s : H5} (h : WF s) {r : HRef} (hr : r.id < s.length) (k : Str) (v : AVal) :
    Runs (setAttr r k v) s fun _ s' => Stay s s' := by
  have hn : s[r.id]? = some s[r.id] := List.getElem?_eq_getElem hr
  exact ⟨(), _, setAttr_eq hn k v, stay_attrs h hn _⟩

theorem runs_addAttributes {s : H5} (h : WF s) {r : HRef} (hr : r.id < s.length) (a : Dict AVal) :
    Runs (addAttributes r a) s fun _ s' => Stay s s' := by
  have hn : s[r.id]? = some s[r.id] := List.getElem?_eq_getElem hr
  exact ⟨(), _, addAttributes_eq a hn, stay_attrs h hn _⟩

/-- a new object with the name `n` -/
theorem step_new {s : H5} (h : WF s) {p : Nat} {ch ch' : Dict Nat} {a : Dict AVal} (hp : s[p]? = some (.group ch a)) {n : Str}
    (hd : (Dict.keys ch').Nodup) (hg : ch'.get? n = some s.length) (ho : ∀ m, m ≠ n → ch'.get? m = ch.get? m)
    (hm : ∀ m j, (m, j) ∈ ch' → j ≤ s.length) {node : HNode} (hn : ∀ c1 a1, node = .group c1 a1 → c1 = []) :
    Step p n s.length s (s.set p (.group ch' a) ++ [node]) ∧ (s.set p (.group ch' a) ++ [node]).length = s.length + 1 ∧
      (s.set p (.group ch' a) ++ [node])[s.length]? = some node := by
  have hl := lt_of_get? hp
  have hget := get?_set_snoc hl (.group ch' a) node
  refine ⟨⟨?_, by simp, ?_, ?_⟩, by simp, ?_⟩
  · intro i c1 a1 hi
    rw [hget] at hi
    have hlen : (s.set p (.group ch' a) ++ [node]).length = s.length + 1 := by simp
    rw [hlen]
    split at hi
    · injection hi with hi
      injection hi with hi _
      subst hi
      exact ⟨hd, fun m j hj => by have := hm m j hj; omega⟩
    · split at hi
      · injection hi with hi
        have := hn _ _ hi
        subst this
        exact ⟨List.nodup_nil, fun m j hj => by cases hj⟩
      · obtain ⟨q1, q2⟩ := h i c1 a1 hi
        exact ⟨q1, fun m j hj => by have := q2 m j hj; omega⟩
  · intro c0 hc0
    rw [kids_eq hp] at hc0
    injection hc0 with hc0
    subst hc0
    refine ⟨ch', ?_, hg, ho⟩
    refine kids_eq (a := a) ?_
    rw [hget, if_pos rfl]
  · intro i hi hne
    refine kids_congr ?_
    rw [hget, if_neg hne, if_neg (by omega)]
  · rw [hget, if_neg (by omega), if_pos rfl]

theorem runs_write {s : H5} (h : WF s) {r : HRef} {ch : Dict Nat} (hr : kids s r.id = some ch) {n : Str} (hn : Single n)
    {d : PData} {y : HData} (hd : d.toH = .ok y) (a : Dict AVal) :
    Runs (writeDataset r n d a) s fun o s' => o = ⟨s.length, r.path ++ [n]⟩ ∧ Step r.id n s.length s s' ∧
      s'.length = s.length + 1 ∧ kids s' s.length = none := by
  obtain ⟨b, hb⟩ := kids_inv hr
  have hk := (h _ _ _ hb).1
  obtain ⟨q1, q2, q3⟩ := step_new h hb (ch' := (ch.del n).set n s.length) (Dict.nodup_keys_set _ _ _ (Dict.nodup_keys_del _ _ hk))
    (Dict.get?_set_self _ _ _) (fun m hm => by rw [Dict.get?_set_ne _ _ hm.symm, Dict.get?_del_ne _ hm])
    (fun m j hj => by
      rcases Dict.mem_set hj with q | q
      · injection q with _ q; omega
      · exact Nat.le_of_lt ((h _ _ _ hb).2 m j (Dict.mem_del q)))
    (node := .dset y (Dict.update [] (noteAttrs d a))) (by intro _ _ e; cases e)
  exact ⟨_, _, writeDataset_eq hb hk hn hd a, rfl, q1, q2, by unfold kids; rw [q3]⟩

theorem runs_make {s : H5} (h : WF s) {r : HRef} {ch : Dict Nat} (hr : kids s r.id = some ch) {n : Str} (hn : Single n)
    (hf : ch.get? n = none) (cls : Str) (a : Dict AVal) :
    Runs (makeGroup r n cls a) s fun o s' => o = ⟨s.length, r.path ++ [n]⟩ ∧ Step r.id n s.length s s' ∧
      s'.length = s.length + 1 ∧ kids s' s.length = some [] := by
  obtain ⟨b, hb⟩ := kids_inv hr
  have hk := (h _ _ _ hb).1
  have hh : ch.has n = false := by simp [Dict.has, hf]
  obtain ⟨q1, q2, q3⟩ := step_new h hb (ch' := ch.set n s.length) (Dict.nodup_keys_set _ _ _ hk)
    (Dict.get?_set_self _ _ _) (fun m hm => Dict.get?_set_ne _ _ hm.symm)
    (fun m j hj => by
      rcases Dict.mem_set hj with q | q
      · injection q with _ q; omega
      · exact Nat.le_of_lt ((h _ _ _ hb).2 m j q))
    (node := .group [] (Dict.update [(p!"NX_class", AVal.str cls)] a)) (by intro _ _ e; injection e with e _; exact e.symm)
  exact ⟨_, _, makeGroup_eq hb hn hh cls a, rfl, q1, q2, kids_eq q3⟩

theorem runs_makeDataset {s : H5} (h : WF s) {r : HRef} {ch : Dict Nat} (hr : kids s r.id = some ch) {n : Str} (hn : Single n)
    (hf : ch.get? n = none) {d : PData} {y : HData} (hd : d.toH = .ok y) (a : Dict AVal) :
    Runs (makeDataset r n d a) s fun o s' => o = ⟨s.length, r.path ++ [n]⟩ ∧ Step r.id n s.length s s' ∧
      s'.length = s.length + 1 ∧ kids s' s.length = none := by
  obtain ⟨b, hb⟩ := kids_inv hr
  have hk := (h _ _ _ hb).1
  have hh : ch.has n = false := by simp [Dict.has, hf]
  obtain ⟨q1, q2, q3⟩ := step_new h hb (ch' := ch.set n s.length) (Dict.nodup_keys_set _ _ _ hk)
    (Dict.get?_set_self _ _ _) (fun m hm => Dict.get?_set_ne _ _ hm.symm)
    (fun m j hj => by
      rcases Dict.mem_set hj with q | q
      · injection q with _ q; omega
      · exact Nat.le_of_lt ((h _ _ _ hb).2 m j q))
    (node := .dset y (Dict.update [] (noteAttrs d a))) (by intro _ _ e; cases e)
  exact ⟨_, _, makeDataset_eq hb hn hh hd a, rfl, q1, q2, by unfold kids; rw [q3]⟩

/-- a group that exists -/
theorem runs_openOld {s : H5} (h : WF s) {r : HRef} {ch : Dict Nat} (hr : kids s r.id = some ch) {n : Str} (hn : Single n)
    {j : Nat} (hj : ch.get? n = some j) (cls : Str) (a : Dict AVal) :
    Runs (openGroup r n cls a) s fun o s' => o = ⟨j, r.path ++ [n]⟩ ∧ Stay s s' := by
  obtain ⟨b, hb⟩ := kids_inv hr
  have hl := (h _ _ _ hb).2 n j (Dict.mem_of_get? hj)
  have hnode : s[j]? = some s[j] := List.getElem?_eq_getElem hl
  exact ⟨_, _, openGroup_old hb hn hj hnode cls a, rfl, stay_attrs h hnode _⟩

theorem runs_openNew {s : H5} (h : WF s) {r : HRef} {ch : Dict Nat} (hr : kids s r.id = some ch) {n : Str} (hn : Single n)
    (hf : ch.get? n = none) (cls : Str) (a : Dict AVal) :
    Runs (openGroup r n cls a) s fun o s' => o = ⟨s.length, r.path ++ [n]⟩ ∧ Step r.id n s.length s s' ∧
      s'.length = s.length + 1 ∧ kids s' s.length = some [] := by
  obtain ⟨o, s', h1, h2⟩ := runs_make h hr hn hf cls a
  obtain ⟨b, hb⟩ := kids_inv hr
  exact ⟨o, s', (openGroup_new hb hn (by simp [Dict.has, hf]) cls a).trans h1, h2⟩

theorem runs_contains {s : H5} {r : HRef} {ch : Dict Nat} (hr : kids s r.id = some ch) {n : Str} (hn : Single n) :
    Runs (contains r n) s fun b s' => b = (ch.get? n).isSome ∧ s' = s := by
  obtain ⟨b, hb⟩ := kids_inv hr
  exact ⟨_, _, contains_eq hb hn, rfl, rfl⟩

theorem runs_get {s : H5} {r : HRef} {ch : Dict Nat} (hr : kids s r.id = some ch) {n : Str} (hn : Single n) {j : Nat}
    (hj : ch.get? n = some j) : Runs (H5.get r n) s fun o s' => o = ⟨j, r.path ++ [n]⟩ ∧ s' = s := by
  obtain ⟨b, hb⟩ := kids_inv hr
  exact ⟨_, _, get_eq hb hn hj, rfl, rfl⟩

/-- a link to an object -/
theorem step_link {s : H5} (h : WF s) {p : Nat} {ch : Dict Nat} {a : Dict AVal} (hp : s[p]? = some (.group ch a)) {n : Str}
    {j : Nat} (hj : j < s.length) : Step p n j s (s.set p (.group (ch.set n j) a)) ∧
      (s.set p (.group (ch.set n j) a)).length = s.length := by
  have hl := lt_of_get? hp
  have hk := (h _ _ _ hp).1
  have hget := fun i => set_get? s p i (.group (ch.set n j) a) hl
  refine ⟨⟨?_, by simp, ?_, ?_⟩, List.length_set⟩
  · intro i c1 a1 hi
    rw [hget] at hi
    rw [List.length_set]
    split at hi
    · injection hi with hi
      injection hi with hi _
      subst hi
      refine ⟨Dict.nodup_keys_set _ _ _ hk, fun m k hm => ?_⟩
      rcases Dict.mem_set hm with q | q
      · injection q with _ q; omega
      · exact (h _ _ _ hp).2 m k q
    · exact h i c1 a1 hi
  · intro c0 hc0
    rw [kids_eq hp] at hc0
    injection hc0 with hc0
    subst hc0
    exact ⟨ch.set n j, kids_eq (a := a) (by rw [hget, if_pos rfl]), Dict.get?_set_self _ _ _, fun m hm => Dict.get?_set_ne _ _ hm.symm⟩
  · intro i _ hne
    exact kids_congr (by rw [hget, if_neg hne])

theorem runs_setLink {s : H5} (h : WF s) {r : HRef} {ch : Dict Nat} (hr : kids s r.id = some ch) {n : Str} (hn : Single n)
    (hf : ch.get? n = none) {o : HRef} (ho : o.id < s.length) :
    Runs (setLink r n o) s fun _ s' => Step r.id n o.id s s' ∧ s'.length = s.length := by
  obtain ⟨a, ha⟩ := kids_inv hr
  have hnode : s[o.id]? = some s[o.id] := List.getElem?_eq_getElem ho
  refine ⟨(), s.set r.id (.group (ch.set n o.id) a), ?_, step_link h ha ho⟩
  unfold setLink HM.change
  beta_reduce
  rw [hnode, base_single hn, comps_single hn]
  simp only [link, ha]
  rw [if_neg (by simp [Dict.has, hf])]

/-- a path of members -/
inductive Path (s : H5) : Nat → List Str → Nat → Prop
  | nil (i : Nat) : Path s i [] i
  | cons {i j k : Nat} {n : Str} {ns : List Str} {ch : Dict Nat} (h : kids s i = some ch) (hj : ch.get? n = some j)
    (t : Path s j ns k) : Path s i (n :: ns) k

theorem Path.walk {s : H5} {i j : Nat} {q : List Str} (h : Path s i q j) : H5.walk s i q = some j := by
  induction h with
  | nil i => rfl
  | cons h hj _ ih =>
    obtain ⟨a, ha⟩ := kids_inv h
    rw [walk_cons _ ha hj, ih]

theorem Path.stay {s s' : H5} (st : Stay s s') {i j : Nat} {q : List Str} (h : Path s i q j) : Path s' i q j := by
  induction h with
  | nil i => exact .nil i
  | cons h hj _ ih => exact .cons ((st.old _).trans h) hj ih

theorem link_path {s : H5} {o : Nat} {n : Str} {ch : Dict Nat} {a : Dict AVal} : ∀ {q : List Str} {i j : Nat}, Path s i q j →
    s[j]? = some (.group ch a) → ch.get? n = none → link o s i (q ++ [n]) = .ok (s.set j (.group (ch.set n o) a))
  | [], i, j, h, hj, hn => by
    cases h
    simp only [List.nil_append, link, hj]
    rw [if_neg (by simp [Dict.has, hn])]
  | c :: q, i, j, h, hj, hn => by
    cases h with
    | cons h1 h2 h3 =>
      obtain ⟨b, hb⟩ := kids_inv h1
      obtain ⟨d, ds, hd⟩ : ∃ d ds, q ++ [n] = d :: ds := by cases q <;> exact ⟨_, _, rfl⟩
      have ih := link_path (o := o) h3 hj hn
      rw [hd] at ih
      rw [List.cons_append, hd, link, hb]
      simp only [h2]
      exact ih

/-- `makeLink` of an object that its path leads to -/
theorem runs_makeLink {s : H5} (h : WF s) (r : HRef) {o : HRef} (hQ : ∀ c ∈ o.path, Plain c) {k : Nat} (ho : Path s 0 o.path k)
    (hol : o.id < s.length) (hkl : k < s.length) {q : List Str} {m : Str} (hq : ∀ c ∈ q ++ [m], Plain c) {t : Nat} (ht : Path s 0 q t)
    {ch : Dict Nat} (hch : kids s t = some ch) (hm : ch.get? m = none) {target : Str}
    (htg : target = nameOf ⟨0, q ++ [m]⟩) :
    Runs (makeLink r o target) s fun _ s' => Step t m k s s' ∧ s'.length = s.length := by
  unfold makeLink
  refine Runs.bind (P := fun _ s' => Stay s s') ?_ fun _ s1 st => ?_
  · refine Runs.andThen (P := fun _ s' => s' = s) ⟨_, _, rfl, rfl⟩ fun b s1 e => ?_
    subst e
    exact Runs.onlyIf (fun _ => runs_setAttr h hol _ _) fun _ => Stay.refl h
  refine Runs.bind (P := fun o' s' => o'.id = k ∧ s' = s1) ⟨⟨k, root.path ++ o.path⟩, s1, ?_, rfl, rfl⟩ fun o' s2 e => ?_
  · unfold H5.get HM.lookE
    beta_reduce
    rw [base_name, comps_name hQ, show root.id = 0 from rfl, (ho.stay st).walk]
  · obtain ⟨e1, rfl⟩ := e
    have hch' : kids s2 t = some ch := (st.old t).trans hch
    obtain ⟨a, ha⟩ := kids_inv hch'
    have hkl' : k < s2.length := by rw [st.len]; exact hkl
    obtain ⟨q1, q2⟩ := step_link (n := m) st.wf ha hkl'
    have hl := link_path (o := k) (ht.stay st) ha hm
    refine ⟨(), s2.set t (.group (ch.set m k) a), ?_, ⟨q1.wf, by rw [q2, st.len]; exact Nat.le_refl _, ?_, ?_⟩, by rw [q2, st.len]⟩
    · unfold setLink HM.change
      beta_reduce
      have hnode : s2[o'.id]? = some s2[k] := by rw [e1]; exact List.getElem?_eq_getElem hkl'
      rw [hnode, htg, base_name, comps_name hq, show root.id = 0 from rfl, e1]
      simp only [hl]
    · intro c0 hc0
      exact q1.here c0 ((st.old t).trans hc0)
    · intro i hi hne
      exact (q1.old i (by rw [st.len]; exact hi) hne).trans (st.old i)

/-! ## Members -/

/-- the member `n` of the group `i` -/
def child (s : H5) (i : Nat) (n : Str) : Option Nat := (kids s i).bind (·.get? n)

/-- `i` is a group -/
def IsGroup (s : H5) (i : Nat) : Prop := ∃ ch, kids s i = some ch

theorem IsGroup.lt {s : H5} {i : Nat} (h : IsGroup s i) : i < s.length := by
  obtain ⟨ch, h⟩ := h
  exact kids_lt h

theorem child_lt {s : H5} (h : WF s) {i j : Nat} {n : Str} (hc : child s i n = some j) : i < s.length ∧ j < s.length ∧ IsGroup s i := by
  unfold child at hc
  cases hk : kids s i with
  | none => rw [hk] at hc; cases hc
  | some ch =>
    rw [hk] at hc
    obtain ⟨a, ha⟩ := kids_inv hk
    exact ⟨lt_of_get? ha, (h _ _ _ ha).2 n j (Dict.mem_of_get? hc), ch, hk⟩

theorem child_eq {s : H5} {i : Nat} {ch : Dict Nat} (h : kids s i = some ch) (n : Str) : child s i n = ch.get? n := by
  unfold child; rw [h]; rfl

theorem Path.step {s : H5} {i j k : Nat} {n : Str} {ns : List Str} (hc : child s i n = some j) (h : Path s j ns k) :
    Path s i (n :: ns) k := by
  unfold child at hc
  cases hk : kids s i with
  | none => rw [hk] at hc; cases hc
  | some ch => rw [hk] at hc; exact .cons hk hc h

theorem Step.child {p : Nat} {n : Str} {j : Nat} {s s' : H5} (st : Step p n j s s') (hp : IsGroup s p) :
    IsGroup s' p ∧ S2N.child s' p n = some j ∧ ∀ m, m ≠ n → S2N.child s' p m = S2N.child s p m := by
  obtain ⟨ch, hp⟩ := hp
  obtain ⟨ch', h1, h2, h3⟩ := st.here ch hp
  exact ⟨⟨ch', h1⟩, (child_eq h1 n).trans h2, fun m hm => by rw [child_eq h1, child_eq hp, h3 m hm]⟩

theorem Step.other {p : Nat} {n : Str} {j : Nat} {s s' : H5} (st : Step p n j s s') {i : Nat} (hi : i < s.length) (hne : i ≠ p) (m : Str) :
    S2N.child s' i m = S2N.child s i m := by
  unfold S2N.child; rw [st.old i hi hne]

theorem Step.group {p : Nat} {n : Str} {j : Nat} {s s' : H5} (st : Step p n j s s') {i : Nat} (h : IsGroup s i) : IsGroup s' i := by
  by_cases e : i = p
  · subst e; exact (st.child h).1
  · obtain ⟨ch, hc⟩ := h
    exact ⟨ch, (st.old i (kids_lt hc) e).trans hc⟩

theorem Stay.child {s s' : H5} (st : Stay s s') (i : Nat) (m : Str) : S2N.child s' i m = S2N.child s i m := by
  unfold S2N.child; rw [st.old i]

theorem Stay.group {s s' : H5} (st : Stay s s') {i : Nat} (h : IsGroup s i) : IsGroup s' i := by
  obtain ⟨ch, hc⟩ := h
  exact ⟨ch, (st.old i).trans hc⟩

/-- the new member of a group is empty -/
theorem child_nil {s : H5} {i : Nat} (h : kids s i = some []) (n : Str) : child s i n = none := by
  rw [child_eq h]; rfl

/-! ## An entry while it is written -/

/-- the group of the sample -/
abbrev smp : Str := p!"sample"

/-- groups of the entry that more than one writer may open -/
def sharedGroups : List Str := [p!"MCA", p!"UserResults", p!"UserReserved"]

/-- what is known of the names: all names in the entry, in its groups "instrument" and "sample" are among these, and the
last ones are in the entry -/
structure Book where
  top : List Str
  inst : List Str
  samp : List Str
  must : List Str

/-- the entry gets the name `n` -/
def Book.add (b : Book) (n : Str) : Book := { b with top := n :: b.top, must := n :: b.must }

/-- the group "instrument" gets the name `n` -/
def Book.addInst (b : Book) (n : Str) : Book := { b with inst := n :: b.inst }

/-- the group "sample" gets the name `n` -/
def Book.addSamp (b : Book) (n : Str) : Book := { b with samp := n :: b.samp }

/-- `g` is not the root, the entry or one of its groups "instrument" and "sample" -/
structure Own (e : Nat) (I S : Option Nat) (g : Nat) : Prop where
  root : g ≠ 0
  entry : g ≠ e
  hub : I ≠ some g
  samp : S ≠ some g

/-- The entry `E` is the group `e`, with its groups `I` ("instrument") and `S` ("sample"), if there are such. -/
structure Live (E : Str) (e : Nat) (I S : Option Nat) (b : Book) (s : H5) : Prop where
  wf : WF s
  plain : Plain E
  pos : e ≠ 0
  root : child s 0 E = some e
  group : IsGroup s e
  top : ∀ n, child s e n ≠ none → n ∈ b.top
  must : ∀ n ∈ b.must, child s e n ≠ none
  isInst : child s e S2N.inst = I
  isSamp : child s e smp = S
  shared : ∀ n ∈ sharedGroups, ∀ j, child s e n = some j → IsGroup s j ∧ Own e I S j
  hub : ∀ i, I = some i → IsGroup s i ∧ i ≠ 0 ∧ i ≠ e ∧ S ≠ some i ∧ ∀ n, child s i n ≠ none → n ∈ b.inst
  samp : ∀ i, S = some i → IsGroup s i ∧ i ≠ 0 ∧ i ≠ e ∧ ∀ n, child s i n ≠ none → n ∈ b.samp

namespace Live
variable {E : Str} {e : Nat} {I S : Option Nat} {b : Book} {s s' : H5}

theorem stay (h : Live E e I S b s) (st : Stay s s') : Live E e I S b s' := by
  refine ⟨st.wf, h.plain, h.pos, ?_, st.group h.group, ?_, ?_, ?_, ?_, ?_, ?_, ?_⟩
  · rw [st.child]; exact h.root
  · intro n; rw [st.child]; exact h.top n
  · intro n; rw [st.child]; exact h.must n
  · rw [st.child]; exact h.isInst
  · rw [st.child]; exact h.isSamp
  · intro n hn j; rw [st.child]
    intro hj
    exact ⟨st.group (h.shared n hn j hj).1, (h.shared n hn j hj).2⟩
  · intro i hi
    obtain ⟨q1, q2, q3, q4, q5⟩ := h.hub i hi
    exact ⟨st.group q1, q2, q3, q4, fun n => by rw [st.child]; exact q5 n⟩
  · intro i hi
    obtain ⟨q1, q2, q3, q5⟩ := h.samp i hi
    exact ⟨st.group q1, q2, q3, fun n => by rw [st.child]; exact q5 n⟩

theorem zero (h : Live E e I S b s) : 0 < s.length := (child_lt h.wf h.root).1

/-- a step in a group of its own -/
theorem far (h : Live E e I S b s) {p : Nat} {n : Str} {j : Nat} (st : Step p n j s s') (hp : Own e I S p) : Live E e I S b s' := by
  have he := h.group.lt
  have hte := st.other he (Ne.symm hp.entry)
  refine ⟨st.wf, h.plain, h.pos, ?_, st.group h.group, ?_, ?_, ?_, ?_, ?_, ?_, ?_⟩
  · rw [st.other h.zero (Ne.symm hp.root)]; exact h.root
  · intro n; rw [hte]; exact h.top n
  · intro n; rw [hte]; exact h.must n
  · rw [hte]; exact h.isInst
  · rw [hte]; exact h.isSamp
  · intro n hn j; rw [hte]
    intro hj
    exact ⟨st.group (h.shared n hn j hj).1, (h.shared n hn j hj).2⟩
  · intro i hi
    obtain ⟨q1, q2, q3, q4, q5⟩ := h.hub i hi
    have hne : i ≠ p := fun q => hp.hub (q ▸ hi)
    exact ⟨st.group q1, q2, q3, q4, fun n => by rw [st.other q1.lt hne]; exact q5 n⟩
  · intro i hi
    obtain ⟨q1, q2, q3, q5⟩ := h.samp i hi
    have hne : i ≠ p := fun q => hp.samp (q ▸ hi)
    exact ⟨st.group q1, q2, q3, fun n => by rw [st.other q1.lt hne]; exact q5 n⟩

/-- a new object may be used -/
theorem own (h : Live E e I S b s) : Own e I S s.length := by
  have := h.zero
  have := h.group.lt
  refine ⟨by omega, by omega, fun q => ?_, fun q => ?_⟩
  · have := (h.hub _ q).1.lt; omega
  · have := (h.samp _ q).1.lt; omega

/-- a member of the entry, by an ordinary name -/
theorem put (h : Live E e I S b s) {n : Str} {j : Nat} (st : Step e n j s s') (hi : n ≠ S2N.inst) (hs : n ≠ smp)
    (hn : n ∈ sharedGroups → IsGroup s' j ∧ Own e I S j) : Live E e I S (b.add n) s' := by
  obtain ⟨c1, c2, c3⟩ := st.child h.group
  refine ⟨st.wf, h.plain, h.pos, ?_, c1, ?_, ?_, ?_, ?_, ?_, ?_, ?_⟩
  · rw [st.other h.zero (Ne.symm h.pos)]; exact h.root
  · intro m hm
    by_cases q : m = n
    · exact q ▸ List.mem_cons_self
    · rw [c3 m q] at hm; exact List.mem_cons_of_mem _ (h.top m hm)
  · intro m hm
    by_cases q : m = n
    · rw [q, c2]; simp
    · rw [c3 m q]
      rcases List.mem_cons.1 hm with hm | hm
      · exact absurd hm q
      · exact h.must m hm
  · rw [c3 _ (Ne.symm hi)]; exact h.isInst
  · rw [c3 _ (Ne.symm hs)]; exact h.isSamp
  · intro m hm k hk
    by_cases q : m = n
    · subst q
      rw [c2] at hk
      injection hk with hk
      subst hk
      exact hn hm
    · rw [c3 m q] at hk
      exact ⟨st.group (h.shared m hm k hk).1, (h.shared m hm k hk).2⟩
  · intro i hi
    obtain ⟨q1, q2, q3, q4, q5⟩ := h.hub i hi
    exact ⟨st.group q1, q2, q3, q4, fun n => by rw [st.other q1.lt q3]; exact q5 n⟩
  · intro i hi
    obtain ⟨q1, q2, q3, q5⟩ := h.samp i hi
    exact ⟨st.group q1, q2, q3, fun n => by rw [st.other q1.lt q3]; exact q5 n⟩

/-- a member of the group "instrument" -/
theorem putInst (h : Live E e I S b s) {i : Nat} (hI : I = some i) {n : Str} {j : Nat} (st : Step i n j s s') :
    Live E e I S (b.addInst n) s' := by
  obtain ⟨q1, q2, q3, q4, q5⟩ := h.hub i hI
  obtain ⟨c1, c2, c3⟩ := st.child q1
  have hte := st.other h.group.lt (Ne.symm q3)
  refine ⟨st.wf, h.plain, h.pos, ?_, st.group h.group, ?_, ?_, ?_, ?_, ?_, ?_, ?_⟩
  · rw [st.other h.zero (Ne.symm q2)]; exact h.root
  · intro n; rw [hte]; exact h.top n
  · intro n; rw [hte]; exact h.must n
  · rw [hte]; exact h.isInst
  · rw [hte]; exact h.isSamp
  · intro n hn j; rw [hte]
    intro hj
    exact ⟨st.group (h.shared n hn j hj).1, (h.shared n hn j hj).2⟩
  · intro i' hi'
    rw [hI] at hi'
    injection hi' with hi'
    subst hi'
    refine ⟨c1, q2, q3, q4, fun m hm => ?_⟩
    by_cases q : m = n
    · exact q ▸ List.mem_cons_self
    · rw [c3 m q] at hm; exact List.mem_cons_of_mem _ (q5 m hm)
  · intro k hk
    obtain ⟨r1, r2, r3, r5⟩ := h.samp k hk
    have hne : k ≠ i := fun q => q4 (q ▸ hk)
    exact ⟨st.group r1, r2, r3, fun n => by rw [st.other r1.lt hne]; exact r5 n⟩

/-- a member of the group "sample" -/
theorem putSamp (h : Live E e I S b s) {i : Nat} (hS : S = some i) {n : Str} {j : Nat} (st : Step i n j s s') :
    Live E e I S (b.addSamp n) s' := by
  obtain ⟨q1, q2, q3, q5⟩ := h.samp i hS
  obtain ⟨c1, c2, c3⟩ := st.child q1
  have hte := st.other h.group.lt (Ne.symm q3)
  refine ⟨st.wf, h.plain, h.pos, ?_, st.group h.group, ?_, ?_, ?_, ?_, ?_, ?_, ?_⟩
  · rw [st.other h.zero (Ne.symm q2)]; exact h.root
  · intro n; rw [hte]; exact h.top n
  · intro n; rw [hte]; exact h.must n
  · rw [hte]; exact h.isInst
  · rw [hte]; exact h.isSamp
  · intro n hn j; rw [hte]
    intro hj
    exact ⟨st.group (h.shared n hn j hj).1, (h.shared n hn j hj).2⟩
  · intro k hk
    obtain ⟨r1, r2, r3, r4, r5⟩ := h.hub k hk
    have hne : k ≠ i := fun q => r4 (q ▸ hS)
    exact ⟨st.group r1, r2, r3, r4, fun n => by rw [st.other r1.lt hne]; exact r5 n⟩
  · intro i' hi'
    rw [hS] at hi'
    injection hi' with hi'
    subst hi'
    refine ⟨c1, q2, q3, fun m hm => ?_⟩
    by_cases q : m = n
    · exact q ▸ List.mem_cons_self
    · rw [c3 m q] at hm; exact List.mem_cons_of_mem _ (q5 m hm)

/-- the new group "instrument" -/
theorem newInst (h : Live E e none S b s) (st : Step e S2N.inst s.length s s') (hk : kids s' s.length = some []) :
    Live E e (some s.length) S (b.add S2N.inst) s' := by
  obtain ⟨c1, c2, c3⟩ := st.child h.group
  have hown := h.own
  refine ⟨st.wf, h.plain, h.pos, ?_, c1, ?_, ?_, c2, ?_, ?_, ?_, ?_⟩
  · rw [st.other h.zero (Ne.symm h.pos)]; exact h.root
  · intro m hm
    by_cases q : m = S2N.inst
    · exact q ▸ List.mem_cons_self
    · rw [c3 m q] at hm; exact List.mem_cons_of_mem _ (h.top m hm)
  · intro m hm
    by_cases q : m = S2N.inst
    · rw [q, c2]; simp
    · rw [c3 m q]
      rcases List.mem_cons.1 hm with hm | hm
      · exact absurd hm q
      · exact h.must m hm
  · rw [c3 _ (by decide)]; exact h.isSamp
  · intro m hm k hk
    have hmi : m ≠ S2N.inst := fun q => by
      subst q
      exact absurd hm (by decide)
    rw [c3 m hmi] at hk
    obtain ⟨r1, r2⟩ := h.shared m hm k hk
    refine ⟨st.group r1, r2.root, r2.entry, ?_, r2.samp⟩
    intro q
    injection q with q
    have := r1.lt
    omega
  · intro i hi
    injection hi with hi
    subst hi
    exact ⟨⟨_, hk⟩, hown.root, hown.entry, hown.samp, fun n hn => absurd (child_nil hk n) hn⟩
  · intro i hi
    obtain ⟨q1, q2, q3, q5⟩ := h.samp i hi
    exact ⟨st.group q1, q2, q3, fun n => by rw [st.other q1.lt q3]; exact q5 n⟩

/-- the new group "sample" -/
theorem newSamp (h : Live E e I none b s) (st : Step e smp s.length s s') (hk : kids s' s.length = some []) :
    Live E e I (some s.length) (b.add smp) s' := by
  obtain ⟨c1, c2, c3⟩ := st.child h.group
  have hown := h.own
  refine ⟨st.wf, h.plain, h.pos, ?_, c1, ?_, ?_, ?_, c2, ?_, ?_, ?_⟩
  · rw [st.other h.zero (Ne.symm h.pos)]; exact h.root
  · intro m hm
    by_cases q : m = smp
    · exact q ▸ List.mem_cons_self
    · rw [c3 m q] at hm; exact List.mem_cons_of_mem _ (h.top m hm)
  · intro m hm
    by_cases q : m = smp
    · rw [q, c2]; simp
    · rw [c3 m q]
      rcases List.mem_cons.1 hm with hm | hm
      · exact absurd hm q
      · exact h.must m hm
  · rw [c3 _ (by decide)]; exact h.isInst
  · intro m hm k hk
    have hmi : m ≠ smp := fun q => by
      subst q
      exact absurd hm (by decide)
    rw [c3 m hmi] at hk
    obtain ⟨r1, r2⟩ := h.shared m hm k hk
    refine ⟨st.group r1, r2.root, r2.entry, r2.hub, ?_⟩
    intro q
    injection q with q
    have := r1.lt
    omega
  · intro i hi
    obtain ⟨q1, q2, q3, q4, q5⟩ := h.hub i hi
    refine ⟨st.group q1, q2, q3, ?_, fun n => by rw [st.other q1.lt q3]; exact q5 n⟩
    intro q
    injection q with q
    have := q1.lt
    omega
  · intro i hi
    injection hi with hi
    subst hi
    exact ⟨⟨_, hk⟩, hown.root, hown.entry, fun n hn => absurd (child_nil hk n) hn⟩

end Live

end S2N
