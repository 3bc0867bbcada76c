import Verif.Lemmas.SaveRead
/-
Some names of an entry, while the other writers work.
-/
namespace S2N
open Py H5 Eznx Writer Spec

/-- the scope in which also the nodes `K` are protected, and the names `X` of the entry -/
def H5.Scope.slots (c : Scope) (X : Str → Prop) (K : Nat → Prop) : Scope :=
  { c with D := fun i => c.D i ∨ K i, X := X }

/-- The names `X` of the entry refer to the nodes `v`; the nodes `K` are reached only by these names. -/
structure Held (c : Scope) (X : Str → Prop) (K : Nat → Prop) (v : Str → Option Nat) (s : H5) : Prop where
  inv : H5.Inv (c.slots X K) s
  root : c.D 0
  entry : ∃ ch a, s[c.e]? = some (.group ch a) ∧ ∀ n, X n → ch.get? n = v n
  inj : ∀ n m i, X n → X m → v n = some i → v m = some i → n = m
  mem : ∀ n i, X n → v n = some i → K i
  apart : ∀ i, K i → ¬ c.D i

theorem Held.step {c : Scope} {X : Str → Prop} {K : Nat → Prop} {v : Str → Option Nat} {s s' : H5}
    (h : Held c X K v s) {α : Type} {m : HM α} {Q : α → Prop} (hm : Conf (c.slots X K) m Q) {r : Except PyErr α}
    (hr : m s = (s', r)) : Held c X K v s' ∧ (∀ i, K i → s'[i]? = s[i]?) ∧ ∀ a, r = .ok a → Q a := by
  obtain ⟨h1, h2, h3⟩ := hm s h.inv
  rw [hr] at h1 h2 h3
  obtain ⟨ch, a, e1, e2⟩ := h.entry
  obtain ⟨ch', k1, k2⟩ := h2.keep ch a e1
  exact ⟨⟨h1, h.root, ⟨ch', a, k1, fun n hn => (k2 n hn).trans (e2 n hn)⟩, h.inj, h.mem, h.apart⟩, fun i hi => h2.eq i (.inr hi), h3⟩

/-- nothing has one of the names -/
theorem Held.start {c : Scope} (hX : ∀ n, ¬ c.X n) {X : Str → Prop} {s : H5} (h : H5.Inv c s) {ch : Dict Nat}
    {a : Dict AVal} (he : s[c.e]? = some (.group ch a)) (hN : ∀ n, X n → ch.get? n = none) :
    Held c X (fun _ => False) (fun _ => none) s := by
  refine ⟨⟨h.wf, .inl h.rootD, ?_, h.plain, h.entry, ?_, h.elt, ?_⟩, h.rootD, ⟨ch, a, he, hN⟩, by simp, by simp, by simp⟩
  · rintro (h1 | h1)
    · exact h.notD h1
    · exact h1
  · rintro i (h1 | h1)
    · exact h.lt i h1
    · exact h1.elim
  · intro i hi ch1 a1 hg n j hm
    have h1 := h.closed i (fun e => hi (.inl e)) ch1 a1 hg n j hm
    refine ⟨h1.1, ?_⟩
    rintro (h2 | h2)
    · exact absurd (h1.2 h2).2 (hX n)
    · exact h2.elim

theorem get?_set_snoc {s : H5} {k : Nat} (hk : k < s.length) (x node : HNode) (i : Nat) :
    (s.set k x ++ [node])[i]? = if i = k then some x else if i = s.length then some node else s[i]? := by
  by_cases e : i < s.length
  · rw [List.getElem?_append_left (by simpa using e), set_get? _ _ _ _ hk, if_neg (show ¬ i = s.length by omega)]
  · rw [if_neg (show ¬ i = k by omega), List.getElem?_append_right (by simp; omega)]
    simp only [List.length_set]
    by_cases e1 : i = s.length
    · rw [if_pos e1, e1]; simp
    · rw [if_neg e1, List.getElem?_eq_none (by simp; omega), List.getElem?_eq_none (by omega)]

/-- the protected nodes are not the root -/
theorem Held.ne_root {c : Scope} {X : Str → Prop} {K : Nat → Prop} {v : Str → Option Nat} {s : H5}
    (h : Held c X K v s) {i : Nat} (hi : K i) : i ≠ 0 := fun e => h.apart i hi (e ▸ h.root)

theorem Held.ne_entry {c : Scope} {X : Str → Prop} {K : Nat → Prop} {v : Str → Option Nat} {s : H5}
    (h : Held c X K v s) {i : Nat} (hi : K i) : i ≠ c.e := fun e => h.inv.notD (.inr (e ▸ hi))

theorem Held.entry_ne_root {c : Scope} {X : Str → Prop} {K : Nat → Prop} {v : Str → Option Nat} {s : H5}
    (h : Held c X K v s) : c.e ≠ 0 := fun e => h.inv.notD (.inl (e ▸ h.root))

/-- a new node becomes a member of the entry or of a protected group -/
theorem Held.grow {c : Scope} {X : Str → Prop} {K : Nat → Prop} {v : Str → Option Nat} {s : H5} (h : Held c X K v s)
    {k : Nat} (hk : k = c.e ∨ K k) {ch ch' : Dict Nat} {a : Dict AVal} (he : s[k]? = some (.group ch a))
    {N : Str} (hN : k = c.e → X N) (hd : (Dict.keys ch').Nodup)
    (hm' : ∀ n j, (n, j) ∈ ch' → (n, j) = (N, s.length) ∨ ((n, j) ∈ ch ∧ n ≠ N))
    (node : HNode) (hn : ∀ c1 a1, node = .group c1 a1 → c1 = []) :
    H5.Inv (c.slots X (fun i => K i ∨ i = s.length)) (s.set k (.group ch' a) ++ [node]) := by
  have hi := h.inv
  have hkl := lt_of_get? he
  have hk0 : k ≠ 0 := by
    rcases hk with e | e
    · rw [e]; exact h.entry_ne_root
    · exact h.ne_root e
  have hget := get?_set_snoc hkl (.group ch' a) node
  have hlen : (s.set k (.group ch' a) ++ [node]).length = s.length + 1 := by simp
  constructor
  · intro i c1 a1 hg
    rw [hget] at hg
    rw [hlen]
    split at hg
    · injection hg with hg
      injection hg with hg _
      subst hg
      refine ⟨hd, fun n j hm => ?_⟩
      rcases hm' n j hm with e | e
      · injection e with _ e; omega
      · have := (hi.wf _ _ _ he).2 n j e.1; omega
    · split at hg
      · injection hg with hg
        rw [hn c1 a1 hg]
        exact ⟨List.nodup_nil, fun n j hm => by simp at hm⟩
      · exact ⟨(hi.wf _ _ _ hg).1, fun n j hm => by have := (hi.wf _ _ _ hg).2 n j hm; omega⟩
  · exact .inl h.root
  · rintro (e | e | e)
    · exact hi.notD (.inl e)
    · exact hi.notD (.inr e)
    · have : c.e < s.length := hi.elt
      have e : c.e = s.length := e
      omega
  · exact hi.plain
  · obtain ⟨ch0, a0, h1, h2⟩ := hi.entry
    refine ⟨ch0, a0, ?_, h2⟩
    have := lt_of_get? h1
    rw [hget, if_neg (Ne.symm hk0), if_neg (by omega), h1]
  · rintro i (e | e | e)
    · have := hi.lt i (.inl e); omega
    · have := hi.lt i (.inr e); omega
    · have e : i = s.length := e; omega
  · have : c.e < s.length := hi.elt
    show c.e < _
    omega
  · intro i hni c1 a1 hg n j hm
    have hni1 : ¬ (c.slots X K).D i := by
      rintro (e | e)
      · exact hni (.inl e)
      · exact hni (.inr (.inl e))
    have hni2 : i ≠ s.length := fun e => hni (.inr (.inr e))
    rw [hget] at hg
    have hel : c.e < s.length := hi.elt
    have old : ∀ {ch1 : Dict Nat} {a1 : Dict AVal} {n : Str} {j : Nat}, s[i]? = some (.group ch1 a1) → (n, j) ∈ ch1 →
        j ≠ c.e ∧ ((c.slots X (fun i => K i ∨ i = s.length)).D j → i = c.e ∧ X n) := by
      intro ch1 a1 n j hg hm
      obtain ⟨h1, h2⟩ := hi.closed i hni1 ch1 a1 hg n j hm
      have hj := (hi.wf _ _ _ hg).2 n j hm
      refine ⟨h1, ?_⟩
      rintro (e | e | e)
      · exact h2 (.inl e)
      · exact h2 (.inr e)
      · have e : j = s.length := e
        omega
    split at hg
    · rename_i e
      subst e
      injection hg with hg
      injection hg with hg _
      subst hg
      have hic : i = c.e := by
        rcases hk with e | e
        · exact e
        · exact absurd (.inr e) hni1
      rcases hm' n j hm with e | e
      · injection e with e1 e2
        refine ⟨?_, fun _ => ⟨hic, e1 ▸ hN hic⟩⟩
        show j ≠ c.e
        omega
      · exact old he e.1
    · first
      | rw [if_neg hni2] at hg
        exact old hg hm
      | exact old hg hm

/-- a protected node gets other attributes -/
theorem Held.retag {c : Scope} {X : Str → Prop} {K : Nat → Prop} {v : Str → Option Nat} {s : H5} (h : Held c X K v s)
    {k : Nat} (hk : K k) {node : HNode} (he : s[k]? = some node) (a : Dict AVal) :
    Held c X K v (s.set k (node.withAttrs a)) := by
  have hkl := lt_of_get? he
  have hi := h.inv
  have hinv : H5.Inv (c.slots X K) (s.set k (node.withAttrs a)) := by
    cases node with
    | group ch a0 => exact hi.attrs he a
    | dset d a0 =>
      have hget : ∀ (i : Nat) (ch1 : Dict Nat) (a1 : Dict AVal), (s.set k (HNode.dset d a))[i]? = some (HNode.group ch1 a1) →
          s[i]? = some (HNode.group ch1 a1) := by
        intro i ch1 a1 hg
        rw [set_get? _ _ _ _ hkl] at hg
        by_cases e : i = k
        · rw [if_pos e] at hg; cases hg
        · rwa [if_neg e] at hg
      show H5.Inv _ (s.set k (HNode.dset d a))
      constructor
      · intro i ch1 a1 hg
        have h1 := hi.wf i ch1 a1 (hget i ch1 a1 hg)
        exact ⟨h1.1, fun n j hm => by rw [List.length_set]; exact h1.2 n j hm⟩
      · exact hi.rootD
      · exact hi.notD
      · exact hi.plain
      · obtain ⟨ch0, a1, e0, e1⟩ := hi.entry
        refine ⟨ch0, a1, ?_, e1⟩
        rw [set_get? _ _ _ _ hkl, if_neg (Ne.symm (h.ne_root hk)), e0]
      · intro i hi'; rw [List.length_set]; exact hi.lt i hi'
      · rw [List.length_set]; exact hi.elt
      · intro i hi' ch1 a1 hg
        exact hi.closed i hi' ch1 a1 (hget i ch1 a1 hg)
  obtain ⟨ch, a1, e1, e2⟩ := h.entry
  refine ⟨hinv, h.root, ⟨ch, a1, ?_, e2⟩, h.inj, h.mem, h.apart⟩
  rw [set_get? _ _ _ _ hkl, if_neg (Ne.symm (h.ne_entry hk)), e1]

/-! ### what the names stand for -/

/-- a dataset, or a group of datasets -/
inductive Content where
  | ds (d : HData) (a : Dict AVal)
  | grp (V : Sets) (A : Dict AVal)

/-- the node `i` of the file has this content -/
def Holds (K : Nat → Prop) (s : H5) (i : Nat) : Content → Prop
  | .ds d a => s[i]? = some (.dset d a)
  | .grp V A => ∃ ch, s[i]? = some (.group ch A) ∧ (Dict.keys ch).Nodup ∧
      List.Forall₂ (fun (p : Str × Nat) (q : Str × (HData × Dict AVal)) => p.1 = q.1 ∧ K p.2 ∧
        s[p.2]? = some (.dset q.2.1 q.2.2)) ch V

/-- The names `X` of the entry and what they stand for. -/
structure Slots (c : Scope) (X : Str → Prop) (K : Nat → Prop) (v : Str → Option Nat) (W : Str → Option Content)
    (s : H5) : Prop where
  held : Held c X K v s
  none' : ∀ n, X n → W n = none → v n = none
  some' : ∀ n w, X n → W n = some w → ∃ i, v n = some i ∧ Holds K s i w

def upd {α : Type} (f : Str → α) (N : Str) (x : α) : Str → α := fun n => if n = N then x else f n

theorem upd_self {α : Type} (f : Str → α) (N : Str) (x : α) : upd f N x N = x := if_pos rfl
theorem upd_ne {α : Type} (f : Str → α) {N n : Str} (x : α) (h : n ≠ N) : upd f N x n = f n := if_neg h

theorem Holds.keep {K K' : Nat → Prop} {s s' : H5} {i : Nat} {w : Content} (h : Holds K s i w) (hi : K i)
    (hs : ∀ j, K j → s'[j]? = s[j]?) (hK : ∀ j, K j → K' j) : Holds K' s' i w := by
  cases w with
  | ds d a => exact (hs i hi).trans h
  | grp V A =>
    obtain ⟨ch, h1, h2, h3⟩ := h
    exact ⟨ch, (hs i hi).trans h1, h2, h3.imp fun p q ⟨e1, e2, e3⟩ => ⟨e1, hK _ e2, (hs _ e2).trans e3⟩⟩

theorem Slots.step {c : Scope} {X : Str → Prop} {K : Nat → Prop} {v : Str → Option Nat} {W : Str → Option Content}
    {s s' : H5} (h : Slots c X K v W s) {α : Type} {m : HM α} {Q : α → Prop} (hm : Conf (c.slots X K) m Q)
    {r : Except PyErr α} (hr : m s = (s', r)) : Slots c X K v W s' ∧ ∀ a, r = .ok a → Q a := by
  obtain ⟨h1, h2, h3⟩ := h.held.step hm hr
  refine ⟨⟨h1, h.none', fun n w hn hw => ?_⟩, h3⟩
  obtain ⟨i, e1, e2⟩ := h.some' n w hn hw
  exact ⟨i, e1, e2.keep (h.held.mem n i hn e1) h2 fun _ hj => hj⟩

theorem Slots.start {c : Scope} (hX : ∀ n, ¬ c.X n) {X : Str → Prop} {s : H5} (h : H5.Inv c s) {ch : Dict Nat}
    {a : Dict AVal} (he : s[c.e]? = some (.group ch a)) (hN : ∀ n, X n → ch.get? n = none) :
    Slots c X (fun _ => False) (fun _ => none) (fun _ => none) s :=
  ⟨Held.start hX h he hN, fun _ _ _ => rfl, fun _ _ _ hw => by cases hw⟩

/-- the entry gets a new member with one of the names -/
theorem Slots.put {c : Scope} {X : Str → Prop} {K : Nat → Prop} {v : Str → Option Nat} {W : Str → Option Content}
    {s : H5} (h : Slots c X K v W s) {ch ch' : Dict Nat} {a : Dict AVal} (he : s[c.e]? = some (.group ch a))
    {N : Str} (hN : X N) (hd : (Dict.keys ch').Nodup) (hg : ch'.get? N = some s.length)
    (ho : ∀ n, n ≠ N → ch'.get? n = ch.get? n)
    (hm' : ∀ n j, (n, j) ∈ ch' → (n, j) = (N, s.length) ∨ ((n, j) ∈ ch ∧ n ≠ N))
    (node : HNode) {w : Content} (hn : ∀ c1 a1, node = .group c1 a1 → c1 = [])
    (hw : Holds (fun i => K i ∨ i = s.length) (s.set c.e (.group ch' a) ++ [node]) s.length w) :
    Slots c X (fun i => K i ∨ i = s.length) (upd v N (some s.length)) (upd W N (some w))
      (s.set c.e (.group ch' a) ++ [node]) := by
  have hh := h.held
  have hel := lt_of_get? he
  have hget := get?_set_snoc hel (.group ch' a) node
  obtain ⟨ch0, a0, e1, e2⟩ := hh.entry
  rw [he] at e1
  injection e1 with e1
  injection e1 with e1 _
  subst e1
  have hlt : ∀ i, K i → i < s.length := fun i hi => hh.inv.lt i (.inr hi)
  refine ⟨⟨hh.grow (.inl rfl) he (fun _ => hN) hd hm' node hn, hh.root, ⟨ch', a, ?_, ?_⟩, ?_, ?_, ?_⟩, ?_, ?_⟩
  · rw [hget, if_pos rfl]
  · intro n hn
    by_cases e : n = N
    · rw [e, upd_self, hg]
    · rw [upd_ne _ _ e, ho n e, e2 n hn]
  · intro n m i hn hm h1 h2
    by_cases e : n = N <;> by_cases e' : m = N
    · rw [e, e']
    · rw [e, upd_self] at h1
      rw [upd_ne _ _ e'] at h2
      injection h1 with h1
      have := hlt i (hh.mem m i hm h2)
      omega
    · rw [e', upd_self] at h2
      rw [upd_ne _ _ e] at h1
      injection h2 with h2
      have := hlt i (hh.mem n i hn h1)
      omega
    · rw [upd_ne _ _ e] at h1
      rw [upd_ne _ _ e'] at h2
      exact hh.inj n m i hn hm h1 h2
  · intro n i hn h1
    by_cases e : n = N
    · rw [e, upd_self] at h1
      injection h1 with h1
      exact .inr h1.symm
    · rw [upd_ne _ _ e] at h1
      exact .inl (hh.mem n i hn h1)
  · rintro i (hi | hi) hD
    · exact hh.apart i hi hD
    · have := hh.inv.lt i (.inl hD)
      omega
  · intro n hn h1
    by_cases e : n = N
    · rw [e, upd_self] at h1; cases h1
    · rw [upd_ne _ _ e] at h1 ⊢
      exact h.none' n hn h1
  · intro n w' hn h1
    by_cases e : n = N
    · rw [e, upd_self] at h1 ⊢
      injection h1 with h1
      subst h1
      exact ⟨_, rfl, hw⟩
    · rw [upd_ne _ _ e] at h1 ⊢
      obtain ⟨i, k1, k2⟩ := h.some' n w' hn h1
      refine ⟨i, k1, k2.keep (hh.mem n i hn k1) ?_ fun _ => .inl⟩
      intro j hj
      have := hlt j hj
      rw [hget, if_neg (hh.ne_entry hj), if_neg (by omega)]


theorem del_set_members {ch : Dict Nat} {N : Str} {k : Nat} (hd : (Dict.keys ch).Nodup) (n : Str) (j : Nat)
    (hm : (n, j) ∈ (ch.del N).set N k) : (n, j) = (N, k) ∨ ((n, j) ∈ ch ∧ n ≠ N) := by
  have hnd : N ∉ Dict.keys (ch.del N) := (Dict.not_has_iff _ _).1 (Dict.has_del_self _ _ hd)
  rcases Dict.mem_set hm with e | e
  · exact .inl e
  · refine .inr ⟨Dict.mem_del e, fun e' => hnd ?_⟩
    have h1 : n ∈ Dict.keys (ch.del N) := List.mem_map_of_mem (f := Prod.fst) e
    rwa [e'] at h1

theorem set_members {ch : Dict Nat} {N : Str} {k : Nat} (hf : ch.has N = false) (n : Str) (j : Nat)
    (hm : (n, j) ∈ ch.set N k) : (n, j) = (N, k) ∨ ((n, j) ∈ ch ∧ n ≠ N) := by
  rcases Dict.mem_set hm with e | e
  · exact .inl e
  · refine .inr ⟨e, fun e' => (Dict.not_has_iff _ _).1 hf ?_⟩
    have h1 : n ∈ Dict.keys ch := List.mem_map_of_mem (f := Prod.fst) e
    rwa [e'] at h1

theorem del_set_nodup {ch : Dict Nat} {N : Str} {k : Nat} (hd : (Dict.keys ch).Nodup) :
    (Dict.keys ((ch.del N).set N k)).Nodup := by
  apply Dict.nodup_keys_set
  rw [Dict.keys_del]
  exact hd.erase _

/-- a dataset of the entry -/
theorem Slots.write {c : Scope} {X : Str → Prop} {K : Nat → Prop} {v : Str → Option Nat} {W : Str → Option Content}
    {s s' : H5} (h : Slots c X K v W s) {e : HRef} (hid : e.id = c.e) {N : Str} (hN : X N) (hs : Single N) {d : PData}
    {a : Dict AVal} {r : HRef} (hw : writeDataset e N d a s = (s', .ok r)) :
    ∃ x, d.toH = .ok x ∧ r.id = s.length ∧ Slots c X (fun i => K i ∨ i = s.length) (upd v N (some s.length))
      (upd W N (some (.ds x (Dict.update [] (noteAttrs d a))))) s' := by
  obtain ⟨ch, a0, he, _⟩ := h.held.entry
  have hd := (h.held.inv.wf _ _ _ he).1
  have he' : s[e.id]? = some (.group ch a0) := by rw [hid]; exact he
  cases hx : d.toH with
  | error err =>
    exfalso
    unfold writeDataset at hw
    obtain ⟨t, u, _, h2⟩ := HM.bind_inv hw
    unfold makeDataset at h2
    obtain ⟨z, h3, _⟩ := HM.bind_lift_inv h2
    rw [hx] at h3
    cases h3
  | ok x =>
    rw [writeDataset_eq he' hd hs hx] at hw
    injection hw with hw hr
    injection hr with hr
    subst hw hr
    refine ⟨x, rfl, rfl, ?_⟩
    rw [hid]
    refine h.put he hN (del_set_nodup hd) (Dict.get?_set_self _ _ _) ?_ (del_set_members hd) _ (by intro _ _ e; cases e) ?_
    · intro n hn
      rw [Dict.get?_set_ne _ _ (Ne.symm hn), Dict.get?_del_ne _ hn]
    · show (_ : H5)[s.length]? = _
      rw [List.getElem?_append_right (by simp)]
      simp

/-- a new group of the entry -/
theorem Slots.newGroup {c : Scope} {X : Str → Prop} {K : Nat → Prop} {v : Str → Option Nat} {W : Str → Option Content}
    {s s' : H5} (h : Slots c X K v W s) {e : HRef} (hid : e.id = c.e) {N : Str} (hN : X N) (hs : Single N) {cls : Str}
    {a : Dict AVal} {r : HRef} (hw : makeGroup e N cls a s = (s', .ok r)) :
    W N = none ∧ r.id = s.length ∧ Slots c X (fun i => K i ∨ i = s.length) (upd v N (some s.length))
      (upd W N (some (.grp [] (Dict.update [(p!"NX_class", AVal.str cls)] a)))) s' := by
  obtain ⟨ch, a0, he, hv⟩ := h.held.entry
  have hd := (h.held.inv.wf _ _ _ he).1
  have he' : s[e.id]? = some (.group ch a0) := by rw [hid]; exact he
  cases hf : ch.has N with
  | true =>
    rw [makeGroup_exists he' hs hf] at hw
    cases hw
  | false =>
    have hnone : ch.get? N = none := by
      unfold Dict.has at hf
      cases hg : ch.get? N with
      | none => rfl
      | some j => rw [hg] at hf; cases hf
    rw [makeGroup_eq he' hs hf] at hw
    injection hw with hw hr
    injection hr with hr
    subst hw hr
    refine ⟨?_, rfl, ?_⟩
    · cases hW : W N with
      | none => rfl
      | some w =>
        obtain ⟨i, h1, _⟩ := h.some' N w hN hW
        rw [hv N hN, h1] at hnone
        cases hnone
    rw [hid]
    refine h.put he hN (Dict.nodup_keys_set _ _ _ hd) (Dict.get?_set_self _ _ _) ?_ (set_members hf) _ ?_ ?_
    · intro n hn
      rw [Dict.get?_set_ne _ _ (Ne.symm hn)]
    · intro c1 a1 e
      injection e with e _
      exact e.symm
    · refine ⟨[], ?_, List.nodup_nil, .nil⟩
      rw [List.getElem?_append_right (by simp)]
      simp

/-- A protected node changes: one of the names has another content then. -/
theorem Slots.change {c : Scope} {X : Str → Prop} {K K' : Nat → Prop} {v : Str → Option Nat} {W : Str → Option Content}
    {s s' : H5} (h : Slots c X K v W s) (hh : Held c X K' v s') {N : Str} {i : Nat} {w w' : Content}
    (_ : W N = some w) (hi : v N = some i) (_ : ∀ j, K j → K' j) (_ : ∀ j, K j → j ≠ i → s'[j]? = s[j]?)
    (hw : Holds K' s' i w') (hg : ∀ n w1 i1, X n → n ≠ N → W n = some w1 → v n = some i1 → Holds K s i1 w1 →
      Holds K' s' i1 w1) : Slots c X K' v (upd W N (some w')) s' := by
  refine ⟨hh, ?_, ?_⟩
  · intro n hn h1
    by_cases e : n = N
    · rw [e, upd_self] at h1; cases h1
    · rw [upd_ne _ _ e] at h1
      exact h.none' n hn h1
  · intro n w1 hn h1
    by_cases e : n = N
    · rw [e, upd_self] at h1
      injection h1 with h1
      subst h1
      exact ⟨i, by rw [e]; exact hi, hw⟩
    · rw [upd_ne _ _ e] at h1
      obtain ⟨i1, k1, k2⟩ := h.some' n w1 hn h1
      exact ⟨i1, k1, hg n w1 i1 hn e h1 k1 k2⟩

/-- contents of other names do not notice that a group changed -/
theorem Holds.other {K K' : Nat → Prop} {s s' : H5} {i i1 : Nat} {w : Content} (h : Holds K s i1 w) (hne : i1 ≠ i)
    (hi1 : K i1) (hK : ∀ j, K j → K' j) (hs : ∀ j, K j → j ≠ i → s'[j]? = s[j]?)
    (hgrp : ∃ ch a, s[i]? = some (.group ch a)) : Holds K' s' i1 w := by
  cases w with
  | ds d a => exact (hs _ hi1 hne).trans h
  | grp V A =>
    obtain ⟨ch, h1, h2, h3⟩ := h
    refine ⟨ch, (hs _ hi1 hne).trans h1, h2, h3.imp fun p q ⟨e1, e2, e3⟩ => ⟨e1, hK _ e2, (hs _ e2 ?_).trans e3⟩⟩
    intro e
    obtain ⟨c1, a1, hg⟩ := hgrp
    rw [e, hg] at e3
    cases e3

/-- a dataset of a group -/
theorem Slots.inside {c : Scope} {X : Str → Prop} {K : Nat → Prop} {v : Str → Option Nat} {W : Str → Option Content}
    {s s' : H5} (h : Slots c X K v W s) {N : Str} (hN : X N) {V : Sets} {A : Dict AVal} (hW : W N = some (.grp V A))
    {g : HRef} (hg : v N = some g.id) {n : Str} (hs : Single n) {d : PData}
    {a : Dict AVal} {r : HRef} (hw : writeDataset g n d a s = (s', .ok r)) :
    ∃ x, d.toH = .ok x ∧ Slots c X (fun i => K i ∨ i = s.length) v
      (upd W N (some (.grp (V.put n x (Dict.update [] (noteAttrs d a))) A))) s' := by
  obtain ⟨i, hi, ch, he, hd, hf⟩ := h.some' N _ hN hW
  rw [hg] at hi
  injection hi with hi
  subst hi
  have hh := h.held
  have hKg : K g.id := hh.mem N _ hN hg
  have hgl := lt_of_get? he
  cases hx : d.toH with
  | error err =>
    exfalso
    unfold writeDataset at hw
    obtain ⟨t, u, _, h2⟩ := HM.bind_inv hw
    unfold makeDataset at h2
    obtain ⟨z, h3, _⟩ := HM.bind_lift_inv h2
    rw [hx] at h3
    cases h3
  | ok x =>
    rw [writeDataset_eq he hd hs hx] at hw
    injection hw with hw hr
    have hget := get?_set_snoc hgl (.group ((ch.del n).set n s.length) A) (.dset x (Dict.update [] (noteAttrs d a)))
    rw [hw] at hget
    have hinv := hh.grow (.inr hKg) he (N := n) (fun e => absurd e (hh.ne_entry hKg)) (del_set_nodup hd)
      (del_set_members hd) (.dset x (Dict.update [] (noteAttrs d a))) (by intro _ _ e; cases e)
    rw [hw] at hinv
    have hlt : ∀ i, K i → i < s.length := fun i hi => hh.inv.lt i (.inr hi)
    have hsame : ∀ j, K j → j ≠ g.id → s'[j]? = s[j]? := by
      intro j hj hne
      have := hlt j hj
      rw [hget, if_neg hne, if_neg (by omega)]
    have hheld : Held c X (fun i => K i ∨ i = s.length) v s' := by
      obtain ⟨chE, aE, e1, e2⟩ := hh.entry
      refine ⟨hinv, hh.root, ⟨chE, aE, ?_, e2⟩, hh.inj, fun n i hn h1 => .inl (hh.mem n i hn h1), ?_⟩
      · have hel : c.e < s.length := hh.inv.elt
        rw [hget, if_neg (Ne.symm (hh.ne_entry hKg)), if_neg (by omega), e1]
      · rintro i (hi | hi) hD
        · exact hh.apart i hi hD
        · have := hh.inv.lt i (.inl hD)
          omega
    refine ⟨x, rfl, h.change hheld hW hg (fun _ => .inl) hsame ?_ ?_⟩
    · refine ⟨(ch.del n).set n s.length, ?_, del_set_nodup hd, ?_⟩
      · rw [hget, if_pos rfl]
      · have hnm : n ∉ Dict.keys (ch.del n) := (Dict.not_has_iff _ _).1 (Dict.has_del_self _ _ hd)
        rw [Dict.set_of_not_mem _ _ _ hnm]
        unfold Sets.put
        refine List.rel_append ?_ (.cons ⟨rfl, .inr rfl, ?_⟩ .nil)
        · refine Dict.forall2_del (fun _ _ h => h.1) (hf.imp fun p q ⟨k1, k2, k3⟩ => ⟨k1, .inl k2, ?_⟩) n
          have hne : p.2 ≠ g.id := by
            intro e
            rw [e, he] at k3
            cases k3
          rw [hsame _ k2 hne, k3]
        · show s'[s.length]? = _
          rw [hget, if_neg (by omega), if_pos rfl]
    · intro m w1 i1 hm hne _ h1 h2
      have hne' : i1 ≠ g.id := by
        intro e
        exact hne (hh.inj m N i1 hm hN h1 (by rw [e]; exact hg))
      exact h2.other hne' (hh.mem m i1 hm h1) (fun _ => .inl) hsame ⟨ch, A, he⟩

/-- other attributes of a group -/
theorem Slots.attrs {c : Scope} {X : Str → Prop} {K : Nat → Prop} {v : Str → Option Nat} {W : Str → Option Content}
    {s s' : H5} (h : Slots c X K v W s) {N : Str} (hN : X N) {V : Sets} {A : Dict AVal} (hW : W N = some (.grp V A))
    {g : HRef} (hg : v N = some g.id) {a : Dict AVal} {r : Unit} (hw : addAttributes g a s = (s', .ok r)) :
    Slots c X K v (upd W N (some (.grp V (A.update a)))) s' := by
  obtain ⟨i, hi, ch, he, hd, hf⟩ := h.some' N _ hN hW
  rw [hg] at hi
  injection hi with hi
  subst hi
  have hh := h.held
  have hKg : K g.id := hh.mem N _ hN hg
  have hgl := lt_of_get? he
  rw [addAttributes_eq a he] at hw
  injection hw with hw _
  have hheld := hh.retag hKg he (HNode.attrs (.group ch A) |>.update a)
  rw [hw] at hheld
  have hsame : ∀ j, K j → j ≠ g.id → s'[j]? = s[j]? := by
    intro j _ hne
    rw [← hw, set_get? _ _ _ _ hgl, if_neg hne]
  refine h.change hheld hW hg (fun _ h => h) hsame ⟨ch, ?_, hd, ?_⟩ ?_
  · rw [← hw, set_get? _ _ _ _ hgl, if_pos rfl]
    rfl
  · refine hf.imp fun p q ⟨k1, k2, k3⟩ => ⟨k1, k2, ?_⟩
    have hne : p.2 ≠ g.id := by
      intro e
      rw [e, he] at k3
      cases k3
    rw [hsame _ k2 hne, k3]
  · intro m w1 i1 hm hne _ h1 h2
    have hne' : i1 ≠ g.id := by
      intro e
      exact hne (hh.inj m N i1 hm hN h1 (by rw [e]; exact hg))
    exact h2.other hne' (hh.mem m i1 hm h1) (fun _ h => h) hsame ⟨ch, A, he⟩

/-- other attributes of a dataset, the only name -/
theorem Slots.dsAttrs {c : Scope} {X : Str → Prop} {K : Nat → Prop} {v : Str → Option Nat} {W : Str → Option Content}
    {s s' : H5} (h : Slots c X K v W s) {N : Str} (hN : X N) (hone : ∀ n, X n → n = N) {d : HData} {A : Dict AVal}
    (hW : W N = some (.ds d A)) {g : HRef} (hg : v N = some g.id) {a : Dict AVal} {r : Unit}
    (hw : addAttributes g a s = (s', .ok r)) :
    Slots c X K v (upd W N (some (.ds d (A.update a)))) s' := by
  obtain ⟨i, hi, he⟩ := h.some' N _ hN hW
  rw [hg] at hi
  injection hi with hi
  subst hi
  have he : s[g.id]? = some (.dset d A) := he
  have hh := h.held
  have hgl := lt_of_get? he
  rw [addAttributes_eq a he] at hw
  injection hw with hw _
  have hheld := hh.retag (hh.mem N _ hN hg) he (HNode.attrs (.dset d A) |>.update a)
  rw [hw] at hheld
  refine h.change hheld hW hg (fun _ h => h) ?_ ?_ ?_
  · intro j _ hne
    rw [← hw, set_get? _ _ _ _ hgl, if_neg hne]
  · show s'[g.id]? = _
    rw [← hw, set_get? _ _ _ _ hgl, if_pos rfl]
    rfl
  · intro m w1 i1 hm hne _ h1 h2
    exact absurd (hone m hm) hne

/-- a group that is made if it is missing -/
theorem Slots.open {c : Scope} {X : Str → Prop} {K : Nat → Prop} {v : Str → Option Nat} {W : Str → Option Content}
    {s s' : H5} (h : Slots c X K v W s) {e : HRef} (hid : e.id = c.e) {N : Str} (hN : X N) (hs : Single N) {cls : Str}
    {a : Dict AVal} {r : HRef} (hW : ∀ d b, W N ≠ some (.ds d b)) (hw : openGroup e N cls a s = (s', .ok r)) :
    ∃ K' v' V A, Slots c X K' v' (upd W N (some (.grp V A))) s' ∧ v' N = some r.id ∧
      ((W N = none ∧ V = [] ∧ A = Dict.update [(p!"NX_class", AVal.str cls)] a) ∨
        ∃ A0, W N = some (.grp V A0) ∧ A = A0.update a) := by
  obtain ⟨ch, a0, he, hv⟩ := h.held.entry
  have he' : s[e.id]? = some (.group ch a0) := by rw [hid]; exact he
  cases hWN : W N with
  | none =>
    have hnone := h.none' N hN hWN
    rw [← hv N hN] at hnone
    have hf : ch.has N = false := by simp [Dict.has, hnone]
    rw [openGroup_new he' hs hf] at hw
    obtain ⟨_, h2, h3⟩ := h.newGroup hid hN hs hw
    exact ⟨_, _, _, _, h3, by rw [upd_self, h2], .inl ⟨rfl, rfl, rfl⟩⟩
  | some w =>
    cases w with
    | ds d b => exact absurd hWN (hW d b)
    | grp V A0 =>
      obtain ⟨i, hi, ch1, he1, _⟩ := h.some' N _ hN hWN
      have hj : ch.get? N = some i := by rw [hv N hN, hi]
      rw [openGroup_old he' hs hj he1] at hw
      injection hw with hw hr
      injection hr with hr
      have hri : r.id = i := by rw [← hr]
      refine ⟨K, v, V, A0.update a, h.attrs hN hWN (g := r) (by rw [hri]; exact hi) (r := ()) ?_, by rw [hri]; exact hi, .inr ⟨A0, rfl, rfl⟩⟩
      rw [addAttributes_eq a (by rw [hri]; exact he1), hri, ← hw]

end S2N
