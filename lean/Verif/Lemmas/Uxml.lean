import Verif.Spec.Uxml
import Verif.Lemmas.H5Exact
/-
What the UXML writer does to the file.
-/
namespace S2N
open Py H5 Eznx Writer Spec

/-- attributes `a'` are `a`, with perhaps a "target" more -/
def MoreAttrs (a a' : Dict AVal) : Prop :=
  (∀ k v, a.get? k = some v → a'.get? k = some v) ∧ ∀ k, k ≠ p!"target" → a.get? k = none → a'.get? k = none

theorem MoreAttrs.refl (a : Dict AVal) : MoreAttrs a a := ⟨fun _ _ h => h, fun _ _ h => h⟩
theorem MoreAttrs.trans {a b c : Dict AVal} (h : MoreAttrs a b) (k : MoreAttrs b c) : MoreAttrs a c :=
  ⟨fun x v e => k.1 x v (h.1 x v e), fun x hx e => k.2 x hx (h.2 x hx e)⟩

/-- objects were added, and links to them; attributes "target" too; the first `b` objects are the same -/
structure Grown (b : Nat) (s s' : H5) : Prop where
  len : s.length ≤ s'.length
  old : ∀ i, i < b → s'[i]? = s[i]?
  group : ∀ (i : Nat) (ch : Dict Nat) (a : Dict AVal), s[i]? = some (HNode.group ch a) →
    ∃ (ch' : Dict Nat) (a' : Dict AVal), s'[i]? = some (HNode.group ch' a') ∧
    (∀ k j, ch.get? k = some j → ch'.get? k = some j) ∧ MoreAttrs a a'
  dset : ∀ (i : Nat) (d : HData) (a : Dict AVal), s[i]? = some (HNode.dset d a) →
    ∃ (a' : Dict AVal), s'[i]? = some (HNode.dset d a') ∧ MoreAttrs a a'

theorem Grown.refl (b : Nat) (s : H5) : Grown b s s :=
  ⟨Nat.le_refl _, fun _ _ => rfl, fun _ ch a h => ⟨ch, a, h, fun _ _ h => h, .refl a⟩, fun _ d a h => ⟨a, h, .refl a⟩⟩

theorem Grown.trans {b : Nat} {s t u : H5} (h : Grown b s t) (k : Grown b t u) : Grown b s u := by
  refine ⟨Nat.le_trans h.len k.len, fun i hi => (k.old i hi).trans (h.old i hi), ?_, ?_⟩
  · intro i ch a e
    obtain ⟨ch1, a1, e1, f1, g1⟩ := h.group i ch a e
    obtain ⟨ch2, a2, e2, f2, g2⟩ := k.group i ch1 a1 e1
    exact ⟨ch2, a2, e2, fun n j hn => f2 n j (f1 n j hn), g1.trans g2⟩
  · intro i d a e
    obtain ⟨a1, e1, g1⟩ := h.dset i d a e
    obtain ⟨a2, e2, g2⟩ := k.dset i d a1 e1
    exact ⟨a2, e2, g1.trans g2⟩

theorem Grown.walk {b : Nat} {s s' : H5} (h : Grown b s s') (p : List Str) : ∀ {i j : Nat}, walk s i p = some j →
    H5.walk s' i p = some j := by
  induction p with
  | nil => intro i j hw; exact hw
  | cons c cs ih =>
    intro i j hw
    unfold H5.walk at hw
    cases hs : s[i]? with
    | none => rw [hs] at hw; cases hw
    | some node =>
      rw [hs] at hw
      cases node with
      | dset d a => cases hw
      | group ch a =>
        simp only at hw
        cases hn : ch.get? c with
        | none => rw [hn] at hw; cases hw
        | some k =>
          rw [hn] at hw
          obtain ⟨ch', a', e1, e2, -⟩ := h.group i ch a hs
          rw [walk_cons cs e1 (e2 c k hn)]
          exact ih hw

/-- the members of the objects from `b` on are objects from `b` on -/
def Sound (b : Nat) (s : H5) : Prop :=
  ∀ (i : Nat) (ch : Dict Nat) (a : Dict AVal), b ≤ i → s[i]? = some (HNode.group ch a) → (Dict.keys ch).Nodup ∧ ∀ n j, (n, j) ∈ ch → b ≤ j ∧ j < s.length

theorem walk_append {s : H5} (p q : List Str) : ∀ {i : Nat}, walk s i (p ++ q) = (walk s i p).bind (fun j => walk s j q) := by
  induction p with
  | nil => intro i; rfl
  | cons c cs ih =>
    intro i
    rw [List.cons_append, walk, walk]
    cases s[i]? with
    | none => rfl
    | some node =>
      cases node with
      | dset d a => rfl
      | group ch a =>
        simp only
        cases ch.get? c with
        | none => rfl
        | some k => exact ih

theorem Sound.walk {b : Nat} {s : H5} (h : Sound b s) (p : List Str) : ∀ {i j : Nat}, b ≤ i → i < s.length → H5.walk s i p = some j → b ≤ j ∧ j < s.length := by
  induction p with
  | nil => intro i j hi hl hw; cases hw; exact ⟨hi, hl⟩
  | cons c cs ih =>
    intro i j hi _ hw
    unfold H5.walk at hw
    cases hs : s[i]? with
    | none => rw [hs] at hw; cases hw
    | some node =>
      rw [hs] at hw
      cases node with
      | dset d a => cases hw
      | group ch a =>
        simp only at hw
        cases hn : ch.get? c with
        | none => rw [hn] at hw; cases hw
        | some k =>
          rw [hn] at hw
          have := (h i ch a hi hs).2 c k (Dict.mem_of_get? hn)
          exact ih this.1 this.2 hw

/-- a new object without members -/
theorem grown_new {b : Nat} {s : H5} {i : Nat} {ch : Dict Nat} {a : Dict AVal} {nm : Str} {node : HNode}
    (hs : Sound b s) (hb : b ≤ i) (hbl : b ≤ s.length) (hg : s[i]? = some (.group ch a)) (hf : ch.has nm = false)
    (hn : ∀ c1 a1, node = .group c1 a1 → c1 = []) :
    Grown b s (s.set i (.group (ch.set nm s.length) a) ++ [node]) ∧
    Sound b (s.set i (.group (ch.set nm s.length) a) ++ [node]) := by
  have hl := lt_of_get? hg
  have hget : ∀ j, (s.set i (.group (ch.set nm s.length) a) ++ [node])[j]? =
      if j = i then some (.group (ch.set nm s.length) a) else if j = s.length then some node else s[j]? := by
    intro j
    by_cases e : j < s.length
    · rw [List.getElem?_append_left (by simpa using e), set_get? _ _ _ _ hl, if_neg (show ¬ j = s.length by omega)]
    · rw [if_neg (show ¬ j = i by omega), List.getElem?_append_right (by simp; omega)]
      simp only [List.length_set]
      by_cases e1 : j = s.length
      · rw [if_pos e1, e1]; simp
      · rw [if_neg e1, List.getElem?_eq_none (by simp; omega), List.getElem?_eq_none (by omega)]
  constructor
  · refine ⟨by simp, fun j hj => by rw [hget, if_neg (by omega), if_neg (by omega)], ?_, ?_⟩
    · intro j ch1 a1 e
      rw [hget]
      have := lt_of_get? e
      by_cases hj : j = i
      · subst hj
        rw [hg] at e; cases e
        rw [if_pos rfl]
        refine ⟨_, _, rfl, fun k j hk => ?_, .refl _⟩
        rw [Dict.get?_set_ne]
        · exact hk
        · rintro rfl
          rw [Dict.has, hk] at hf; cases hf
      · rw [if_neg hj, if_neg (by omega)]
        exact ⟨_, _, e, fun _ _ h => h, .refl _⟩
    · intro j d a1 e
      rw [hget]
      have := lt_of_get? e
      by_cases hj : j = i
      · subst hj; rw [hg] at e; cases e
      · rw [if_neg hj, if_neg (by omega)]
        exact ⟨_, e, .refl _⟩
  · intro j ch1 a1 hj e
    rw [hget] at e
    have hlen : (s.set i (.group (ch.set nm s.length) a) ++ [node]).length = s.length + 1 := by simp
    rw [hlen]
    split at e
    · cases e
      refine ⟨Dict.nodup_keys_set _ _ _ (hs i ch a hb hg).1, fun n k hm => ?_⟩
      rcases Dict.mem_set hm with e | e
      · cases e; exact ⟨hbl, by omega⟩
      · have := (hs i ch a hb hg).2 n k e; omega
    · split at e
      · rw [hn ch1 a1 (Option.some.inj e)]
        exact ⟨List.nodup_nil, fun n k hm => by cases hm⟩
      · exact ⟨(hs j ch1 a1 hj e).1, fun n k hm => by have := (hs j ch1 a1 hj e).2 n k hm; omega⟩

/-! ### attributes -/

theorem get?_prune (d : Dict Str) (out : List Str) (k : Str) :
    (prune d out).get? k = if k ∈ out then none else (d.get? k).map AVal.str := by
  induction d with
  | nil => simp [prune, Dict.get?]
  | cons p d ih =>
    obtain ⟨k', v⟩ := p
    unfold prune at ih ⊢
    rw [Dict.get?_cons, List.filter_cons]
    by_cases hm : k' ∈ out
    · rw [if_neg (by simpa using hm), ih]
      by_cases e : k' = k
      · subst e; rw [if_pos hm, if_pos hm]
      · rw [if_neg e]
    · rw [if_pos (by simpa using hm), List.map_cons, Dict.get?_cons, ih]
      by_cases e : k' = k
      · subst e; rw [if_pos rfl, if_pos rfl, if_neg hm]; rfl
      · rw [if_neg e, if_neg e]

theorem keys_prune (d : Dict Str) (out : List Str) (h : (Dict.keys d).Nodup) : (Dict.keys (prune d out)).Nodup := by
  unfold prune Dict.keys
  rw [List.map_map]
  exact (List.Sublist.map _ List.filter_sublist).nodup h

theorem _root_.S2N.Spec.XmlAttrs.more {n : XmlNode} {out : List Str} {a a' : Dict AVal} (h : XmlAttrs n out a) (m : MoreAttrs a a') :
    XmlAttrs n out a' :=
  fun k => ⟨fun v hv ho => m.1 k _ ((h k).1 v hv ho), fun hv ht => m.2 k ht ((h k).2 hv ht)⟩

/-! ### elements and their places -/

/-- the object of the element is at this place, from the object `b` -/
def Placed (s : H5) (b : Nat) (p : List Str) (n : XmlNode) : Prop :=
  (tagOf n = p!"dataset" → ∃ i v a, walk s b p = some i ∧ s[i]? = some (HNode.dset v a) ∧ XmlValue n v ∧
    XmlAttrs n [p!"name", p!"type", p!"unique_id"] a) ∧
  (tagOf n = p!"group" → ∃ i ch a, walk s b p = some i ∧ s[i]? = some (HNode.group ch a) ∧
    (attrOf n p!"NX_class").isSome ∧ XmlAttrs n [p!"name", p!"unique_id"] a)

theorem Placed.grown {s s' : H5} {b c : Nat} {p : List Str} {n : XmlNode} (h : Placed s b p n) (g : Grown c s s') :
    Placed s' b p n := by
  refine ⟨fun ht => ?_, fun ht => ?_⟩
  · obtain ⟨i, v, a, h1, h2, h3, h4⟩ := h.1 ht
    obtain ⟨a', e1, e2⟩ := g.dset i v a h2
    exact ⟨i, v, a', g.walk p h1, e1, h3, h4.more e2⟩
  · obtain ⟨i, ch, a, h1, h2, h3, h4⟩ := h.2 ht
    obtain ⟨ch', a', e1, -, e2⟩ := g.group i ch a h2
    exact ⟨i, ch', a', g.walk p h1, e1, h3, h4.more e2⟩

/-- what the writer knows after the elements `done` -/
structure Track (b : Nat) (P : List Str) (s : H5) (u : UState) (done : List (List Str × XmlNode)) : Prop where
  placed : ∀ e ∈ done, Placed s b e.1 e.2
  ids : ∀ t, match lastPlace idOf t done with
    | none => u.unique.get? t = none
    | some p => (∀ c ∈ p, Plain c) ∧ ∃ j, walk s b p = some j ∧ u.unique.get? t = some ⟨j, P ++ p⟩
  targets : ∀ t, match lastPlace linkTo t done with
    | none => u.target.get? t = none
    | some p => ∃ i p0 nm, p = p0 ++ [nm] ∧ Plain nm ∧ walk s b p0 = some i ∧ b ≤ i ∧ u.target.get? t = some (⟨i, P ++ p0⟩, nm)
  once : (Dict.keys u.target).Nodup

theorem Track.grown {b : Nat} {P : List Str} {s s' : H5} {u : UState} {done : List (List Str × XmlNode)}
    (h : Track b P s u done) (g : Grown b s s') : Track b P s' u done := by
  refine ⟨fun e he => (h.placed e he).grown g, fun t => ?_, fun t => ?_, h.once⟩
  · have := h.ids t
    split
    · rename_i e; rw [e] at this; exact this
    · rename_i p e
      rw [e] at this
      obtain ⟨h0, j, h1, h2⟩ := this
      exact ⟨h0, j, g.walk p h1, h2⟩
  · have := h.targets t
    split
    · rename_i e; rw [e] at this; exact this
    · rename_i p e
      rw [e] at this
      obtain ⟨i, p0, nm, h1, h2, h3, h4⟩ := this
      exact ⟨i, p0, nm, h1, h2, g.walk p0 h3, h4⟩

theorem lastPlace_snoc (f : XmlNode → Option Str) (t : Str) (els : List (List Str × XmlNode)) (e : List Str × XmlNode) :
    lastPlace f t (els ++ [e]) = if f e.2 = some t then some e.1 else lastPlace f t els := by
  unfold lastPlace
  rw [List.filter_append, List.filter_cons]
  by_cases h : f e.2 = some t
  · rw [if_pos (by simpa using h), if_pos h]; simp
  · rw [if_neg (by simpa using h), if_neg h]; simp

theorem lastPlace_not (f : XmlNode → Option Str) (els : List (List Str × XmlNode)) (e : List Str × XmlNode) (h : f e.2 = none) (t : Str) :
    lastPlace f t (els ++ [e]) = lastPlace f t els := by
  rw [lastPlace_snoc, h, if_neg (by simp)]

/-- an element with an object -/
theorem Track.object {b : Nat} {P : List Str} {s : H5} {u : UState} {done : List (List Str × XmlNode)}
    (h : Track b P s u done) {p : List Str} {n : XmlNode} {j : Nat} (hp : ∀ c ∈ p, Plain c)
    (ht : tagOf n = p!"dataset" ∨ tagOf n = p!"group") (hw : walk s b p = some j) (hpl : Placed s b p n) :
    Track b P s (remember (attrOf n p!"unique_id") ⟨j, P ++ p⟩ u) (done ++ [(p, n)]) := by
  have hid : idOf n = attrOf n p!"unique_id" := by unfold idOf; exact if_pos ht
  have hlk : linkTo n = none := by
    unfold linkTo; apply if_neg
    rcases ht with h | h <;> rw [h] <;> decide
  refine ⟨?_, ?_, ?_, ?_⟩
  · intro e he
    rcases List.mem_append.1 he with he | he
    · exact h.placed e he
    · rw [List.mem_singleton.1 he]; exact hpl
  · intro t
    have hold := h.ids t
    rw [lastPlace_snoc]
    simp only [hid]
    cases hu : attrOf n p!"unique_id" with
    | none => rw [if_neg (by simp)]; exact hold
    | some k =>
      simp only [remember]
      by_cases e : k = t
      · subst e
        rw [if_pos rfl]
        exact ⟨hp, j, hw, Dict.get?_set_self ..⟩
      · rw [if_neg (by simpa using e), Dict.get?_set_ne _ _ e]
        exact hold
  · intro t
    rw [lastPlace_not _ _ _ hlk]
    have := h.targets t
    have e : (remember (attrOf n p!"unique_id") ⟨j, P ++ p⟩ u).target = u.target := by
      cases attrOf n p!"unique_id" <;> rfl
    rw [e]; exact this
  · have e : (remember (attrOf n p!"unique_id") ⟨j, P ++ p⟩ u).target = u.target := by
      cases attrOf n p!"unique_id" <;> rfl
    rw [e]; exact h.once

/-- a hard link -/
theorem Track.link {b : Nat} {P : List Str} {s : H5} {u : UState} {done : List (List Str × XmlNode)}
    (h : Track b P s u done) {p : List Str} {nm t : Str} {n : XmlNode} {i : Nat} (hp : Plain nm)
    (ht : tagOf n = p!"hardlink") (htt : attrOf n p!"target_id" = some t) (hw : walk s b p = some i) (hb : b ≤ i) :
    Track b P s { u with target := u.target.set t (⟨i, P ++ p⟩, nm) } (done ++ [(p ++ [nm], n)]) := by
  have hid : idOf n = none := by
    unfold idOf; apply if_neg
    rw [ht]; decide
  have hlk : linkTo n = some t := by unfold linkTo; rw [if_pos ht, htt]
  refine ⟨?_, ?_, ?_, ?_⟩
  · intro e he
    rcases List.mem_append.1 he with he | he
    · exact h.placed e he
    · rw [List.mem_singleton.1 he]
      refine ⟨fun h => ?_, fun h => ?_⟩ <;> (simp only at h; rw [ht] at h; exact absurd h (by decide))
  · intro t
    rw [lastPlace_not _ _ _ hid]
    exact h.ids t
  · intro t'
    rw [lastPlace_snoc]
    simp only [hlk]
    by_cases e : t = t'
    · subst e
      rw [if_pos rfl]
      exact ⟨i, p, nm, rfl, hp, hw, hb, Dict.get?_set_self ..⟩
    · rw [if_neg (by simpa using e), Dict.get?_set_ne _ _ e]
      exact h.targets t'
  · exact Dict.nodup_keys_set _ _ _ h.once

/-- an element that has no effect -/
theorem Track.skip {b : Nat} {P : List Str} {s : H5} {u : UState} {done : List (List Str × XmlNode)}
    (h : Track b P s u done) {p : List Str} {n : XmlNode}
    (ht : tagOf n = p!"hardlink") (htt : attrOf n p!"target_id" = none) :
    Track b P s u (done ++ [(p, n)]) := by
  have hid : idOf n = none := by
    unfold idOf; apply if_neg
    rw [ht]; decide
  have hlk : linkTo n = none := by unfold linkTo; rw [if_pos ht, htt]
  refine ⟨?_, fun t => ?_, fun t => ?_, h.once⟩
  · intro e he
    rcases List.mem_append.1 he with he | he
    · exact h.placed e he
    · rw [List.mem_singleton.1 he]
      refine ⟨fun h => ?_, fun h => ?_⟩ <;> (simp only at h; rw [ht] at h; exact absurd h (by decide))
  · rw [lastPlace_not _ _ _ hid]; exact h.ids t
  · rw [lastPlace_not _ _ _ hlk]; exact h.targets t

theorem uxmlValue_value {n : XmlNode} {v : PData} (h : uxmlValue ((attrOf n p!"type").getD p!"str") (textOf n) = .ok v) :
    ∃ d, v.toH = .ok d ∧ XmlValue n d ∧ ∀ a, noteAttrs v a = a := by
  generalize hty : (attrOf n p!"type").getD p!"str" = ty at h
  unfold uxmlValue at h
  by_cases h1 : ty = p!"int"
  · rw [if_pos h1] at h
    cases ht : textOf n with
    | none => rw [ht] at h; cases h
    | some t =>
      rw [ht] at h
      simp only [Py.int] at h
      cases hi : parseInt t with
      | none => rw [hi] at h; cases h
      | some i =>
        rw [hi] at h; cases h
        exact ⟨_, rfl, .inl ⟨hty.trans h1, t, i, ht, hi, rfl⟩, fun _ => rfl⟩
  · rw [if_neg h1] at h
    by_cases h2 : ty = p!"float"
    · rw [if_pos h2] at h
      cases ht : textOf n with
      | none => rw [ht] at h; cases h
      | some t =>
        rw [ht] at h
        simp only [Py.float] at h
        cases hi : parseFloat t with
        | none => rw [hi] at h; cases h
        | some i =>
          rw [hi] at h; cases h
          exact ⟨_, rfl, .inr (.inl ⟨hty.trans h2, t, i, ht, hi, rfl⟩), fun _ => rfl⟩
    · rw [if_neg h2] at h
      by_cases h3 : ty = p!"str"
      · rw [if_pos h3] at h; cases h
        exact ⟨_, rfl, .inr (.inr ⟨hty.trans h3, rfl⟩), fun _ => rfl⟩
      · rw [if_neg h3] at h; cases h

/-! ### the walk over the elements -/

theorem create_inv {s s' : H5} {h r : HRef} {n : Str} {node : HNode} (hl : h.id < s.length) (hn : Single n)
    (e : create h n node s = (s', .ok r)) :
    ∃ ch a, s[h.id]? = some (HNode.group ch a) ∧ ch.has n = false ∧
      s' = s.set h.id (.group (ch.set n s.length) a) ++ [node] ∧ r = ⟨s.length, h.path ++ [n]⟩ := by
  cases hs : s[h.id]? with
  | none => rw [List.getElem?_eq_none_iff] at hs; omega
  | some nd =>
    cases nd with
    | dset d a =>
      unfold create at e
      rw [base_single hn, comps_single hn, link, List.getElem?_append_left hl, hs] at e
      cases e
    | group ch a =>
      cases hf : ch.has n with
      | true => rw [create_exists node hs hn hf] at e; cases e
      | false =>
        rw [create_eq node hs hn hf] at e
        cases e
        exact ⟨ch, a, rfl, hf, rfl, rfl⟩

theorem node_name {n : XmlNode} (h : NodeOk n) : Plain (nameIn n) ∧ attrOf n p!"name" = some (nameIn n) := by
  obtain ⟨nm, h1, h2, h3, h4⟩ := h.1
  have : nameIn n = nm := by unfold nameIn; rw [h1]; rfl
  rw [this]
  exact ⟨⟨h2, h3, h4⟩, h1⟩

theorem nameAttr_inv {tag : Str} {attrib : Dict Str} {text : Option Str} {ch : List XmlNode} {s s' : H5} {nm : Str}
    (h : nameAttr attrib s = (s', .ok nm)) : nm = nameIn (.mk tag attrib text ch) ∧ s' = s := by
  unfold nameAttr needAttr at h
  cases hk : attrib.get? p!"name" with
  | none => rw [hk] at h; cases h
  | some k =>
    rw [hk] at h
    obtain ⟨rfl, rfl⟩ := HM.ret_inv h
    refine ⟨?_, rfl⟩
    unfold nameIn attrOf
    simp only [hk]
    rfl

theorem snoc_get? {s : H5} {i : Nat} {g node : HNode} (hl : i < s.length) :
    (s.set i g ++ [node])[s.length]? = some node := by
  rw [List.getElem?_append_right (by simp)]; simp

/-- the new object is at the end of the path -/
theorem walk_new {b : Nat} {s : H5} {i : Nat} {ch : Dict Nat} {a : Dict AVal} {nm : Str} {node : HNode} {p : List Str}
    (g : Grown b s (s.set i (.group (ch.set nm s.length) a) ++ [node])) (hl : i < s.length)
    (hw : walk s b p = some i) :
    walk (s.set i (.group (ch.set nm s.length) a) ++ [node]) b (p ++ [nm]) = some s.length := by
  rw [walk_append, g.walk p hw]
  show walk _ i [nm] = _
  rw [walk_single (ch := ch.set nm s.length) (a := a), Dict.get?_set_self]
  rw [List.getElem?_append_left (by simpa using hl)]
  simp [hl]

theorem plain_snoc {p : List Str} {nm : Str} (h : ∀ c ∈ p, Plain c) (hn : Plain nm) : ∀ c ∈ p ++ [nm], Plain c := by
  intro c hc
  rcases List.mem_append.1 hc with hc | hc
  · exact h c hc
  · rw [List.mem_singleton.1 hc]; exact hn

/-- what is known before an element and after it -/
structure Walked (b : Nat) (P : List Str) (s : H5) (u : UState) (done : List (List Str × XmlNode)) : Prop where
  sound : Sound b s
  lt : b < s.length
  track : Track b P s u done

mutual
theorem node_run {b : Nat} {P : List Str} : ∀ (n : XmlNode) (s s' : H5) (h : HRef) (p : List Str) (u u' : UState)
    (done : List (List Str × XmlNode)), (∀ e ∈ places p n, NodeOk e.2) → Walked b P s u done →
    walk s b p = some h.id → h.path = P ++ p → (∀ c ∈ p, Plain c) → uxmlNode h n u s = (s', .ok u') →
    Grown b s s' ∧ Walked b P s' u' (done ++ places p n)
  | .mk tag attrib text children => by
    intro s s' h p u u' done hok hw hwalk hpath hplain hrun
    rw [places] at hok ⊢
    have hown : NodeOk (.mk tag attrib text children) := hok _ (List.mem_cons_self ..)
    obtain ⟨hpl, hname⟩ := node_name hown
    have hid := hw.sound.walk p (Nat.le_refl b) hw.lt hwalk
    rw [uxmlNode] at hrun
    by_cases h1 : tag = p!"dataset"
    · rw [if_pos h1] at hrun
      rw [if_neg (by rw [h1]; decide)]
      obtain ⟨s1, nm, hr1, hrunA⟩ := HM.bind_inv hrun
      obtain ⟨hnm, rfl⟩ := nameAttr_inv (tag := tag) (text := text) (ch := children) hr1
      rw [← hnm] at hpl ⊢
      obtain ⟨v, hv, hrunB⟩ := HM.bind_lift_inv hrunA
      obtain ⟨d, hd, hval, hnote⟩ := uxmlValue_value (n := .mk tag attrib text children) hv
      obtain ⟨s2, ds, hr2, hrunC⟩ := HM.bind_inv hrunB
      obtain ⟨rfl, rfl⟩ := HM.pure_inv hrunC
      -- the group of the new dataset
      have hc : ∃ t r, create h nm (.dset d []) s1 = (t, .ok r) := by
        unfold makeDataset at hr2
        obtain ⟨d', hd', hr2⟩ := HM.bind_lift_inv hr2
        rw [hd] at hd'; cases hd'
        obtain ⟨t, r, hr, -⟩ := HM.bind_inv hr2
        exact ⟨t, r, hr⟩
      obtain ⟨t, r, hc⟩ := hc
      obtain ⟨ch, a, hg, hf, -, -⟩ := create_inv hid.2 hpl.single hc
      rw [makeDataset_eq hg hpl.single hf hd] at hr2
      cases hr2
      rw [hnote]
      obtain ⟨g, sd⟩ := grown_new (node := .dset d (Dict.update [] (prune attrib [p!"name", p!"type", p!"unique_id"])))
        hw.sound hid.1 (Nat.le_of_lt hw.lt) hg hf (by intro _ _ e; cases e)
      have hnew := walk_new g hid.2 hwalk
      refine ⟨g, sd, by simp; have := hw.lt; omega, ?_⟩
      have := (hw.track.grown g).object (p := p ++ [nm]) (n := .mk tag attrib text children) (plain_snoc hplain hpl)
        (.inl h1) hnew
        ⟨fun _ => ⟨_, d, _, hnew, snoc_get? hid.2, hval, ?_⟩,
         fun e => absurd (h1.symm.trans e) (by decide)⟩
      · rw [hpath, List.append_assoc]; exact this
      · intro k
        rw [Dict.update_nil_left _ (keys_prune _ _ hown.2), get?_prune]
        refine ⟨fun v hv ho => ?_, fun hv _ => ?_⟩
        · rw [if_neg ho]; show Option.map _ (attrOf (.mk tag attrib text children) k) = _; rw [hv]; rfl
        · split
          · rfl
          · rename_i ho
            rcases hv with hv | hv
            · show Option.map _ (attrOf (.mk tag attrib text children) k) = _; rw [hv]; rfl
            · exact absurd hv ho
    · rw [if_neg h1] at hrun
      by_cases h2 : tag = p!"group"
      · rw [if_pos h2] at hrun
        rw [if_pos h2] at hok
        rw [if_pos h2]
        obtain ⟨s1, nm, hr1, hrunA⟩ := HM.bind_inv hrun
        obtain ⟨hnm, rfl⟩ := nameAttr_inv (tag := tag) (text := text) (ch := children) hr1
        rw [← hnm] at hpl hok ⊢
        obtain ⟨s2, g, hr2, hrunB⟩ := HM.bind_inv hrunA
        obtain ⟨ch, a, hg, hf, rfl, rfl⟩ := create_inv hid.2 hpl.single hr2
        obtain ⟨s3, cls, hr3, hrunC⟩ := HM.bind_inv hrunB
        have hcls : attrib.get? p!"NX_class" = some cls ∧
            s3 = s1.set h.id (.group (ch.set nm s1.length) a) ++ [.group [] []] := by
          unfold needAttr at hr3
          cases hk : attrib.get? p!"NX_class" with
          | none => rw [hk] at hr3; cases hr3
          | some k =>
            rw [hk] at hr3
            obtain ⟨rfl, rfl⟩ := HM.ret_inv hr3
            exact ⟨rfl, rfl⟩
        obtain ⟨hcls, rfl⟩ := hcls
        have hl : (⟨s1.length, h.path ++ [nm]⟩ : HRef).id = (s1.set h.id (.group (ch.set nm s1.length) a)).length := by
          simp
        rw [HM.bind_ok (setAttr_last hl _ _), HM.bind_ok (addAttributes_last hl _)] at hrunC
        simp only [HNode.attrs_withAttrs, HNode.withAttrs_withAttrs] at hrunC
        obtain ⟨gr, sd⟩ := grown_new (node := HNode.group [] ((Dict.set (HNode.group [] []).attrs p!"NX_class" (.str cls)).update
            (prune attrib [p!"name", p!"NX_class", p!"unique_id"])))
          hw.sound hid.1 (Nat.le_of_lt hw.lt) hg hf (by intro _ _ e; cases e; rfl)
        have hnew := walk_new gr hid.2 hwalk
        have tr := (hw.track.grown gr).object (p := p ++ [nm]) (n := .mk tag attrib text children) (plain_snoc hplain hpl)
          (.inr h2) hnew
          ⟨fun e => absurd (h2.symm.trans e) (by decide),
           fun _ => ⟨_, _, _, hnew, snoc_get? hid.2, by show (attrib.get? _).isSome = true; rw [hcls]; rfl, ?_⟩⟩
        · have ea : attrOf (.mk tag attrib text children) p!"unique_id" = attrib.get? p!"unique_id" := rfl
          rw [ea] at tr
          have hr := nodes_run children (b := b) (P := P) _ _ ⟨s1.length, h.path ++ [nm]⟩ (p ++ [nm])
            (remember (attrib.get? p!"unique_id") ⟨s1.length, P ++ (p ++ [nm])⟩ u) _ (done ++ [(p ++ [nm], .mk tag attrib text children)])
            (fun e he => hok e (List.mem_cons_of_mem _ he))
            ⟨sd, by simp; have := hw.lt; omega, tr⟩ hnew (by simp [hpath]) (plain_snoc hplain hpl)
            (by rw [hpath, List.append_assoc] at hrunC; rw [hpath, List.append_assoc]; exact hrunC)
          refine ⟨gr.trans hr.1, ?_⟩
          have := hr.2
          rwa [List.append_assoc] at this
        · intro k
          rw [Dict.get?_update _ _ (keys_prune _ _ hown.2), get?_prune]
          have ha : attrOf (.mk tag attrib text children) k = attrib.get? k := rfl
          rw [ha]
          by_cases hk : k = p!"NX_class"
          · subst hk
            rw [if_pos (by decide), hcls]
            refine ⟨fun v hv _ => ?_, fun hv _ => ?_⟩
            · cases hv; rfl
            · rcases hv with hv | hv
              · cases hv
              · exact absurd hv (by decide)
          · have h0 : (Dict.set (HNode.group [] []).attrs p!"NX_class" (AVal.str cls)).get? k = none := by
              rw [Dict.get?_set_ne _ _ (Ne.symm hk)]; rfl
            rw [h0]
            have hm : k ∈ [p!"name", p!"NX_class", p!"unique_id"] ↔ k ∈ [p!"name", p!"unique_id"] := by
              simp only [List.mem_cons, List.not_mem_nil, or_false, hk, false_or]
            refine ⟨fun v hv ho => ?_, fun hv _ => ?_⟩
            · rw [if_neg (fun e => ho (hm.1 e)), hv]; rfl
            · split
              · rename_i e
                split at e
                · cases e
                · rename_i ho
                  rcases hv with hv | hv
                  · rw [hv] at e; cases e
                  · exact absurd (hm.2 hv) ho
              · rfl
      · rw [if_neg h2] at hrun
        rw [if_neg h2]
        by_cases h3 : tag = p!"hardlink"
        · rw [if_pos h3] at hrun
          cases ht : attrib.get? p!"target_id" with
          | none =>
            rw [ht] at hrun
            obtain ⟨rfl, rfl⟩ := HM.ret_inv hrun
            exact ⟨.refl _ _, hw.sound, hw.lt, hw.track.skip h3 ht⟩
          | some t =>
            rw [ht] at hrun
            obtain ⟨s1, nm, hr1, hrunA⟩ := HM.andThen_inv hrun
            obtain ⟨hnm, rfl⟩ := nameAttr_inv (tag := tag) (text := text) (ch := children) hr1
            obtain ⟨rfl, rfl⟩ := HM.ret_inv hrunA
            rw [← hnm] at hpl ⊢
            have := hw.track.link (n := .mk tag attrib text children) hpl h3 ht hwalk hid.1
            refine ⟨.refl _ _, hw.sound, hw.lt, ?_⟩
            rw [← hpath] at this
            exact this
        · rw [if_neg h3] at hrun; cases hrun

theorem nodes_run {b : Nat} {P : List Str} : ∀ (ns : List XmlNode) (s s' : H5) (h : HRef) (p : List Str) (u u' : UState)
    (done : List (List Str × XmlNode)), (∀ e ∈ placesAll p ns, NodeOk e.2) → Walked b P s u done →
    walk s b p = some h.id → h.path = P ++ p → (∀ c ∈ p, Plain c) → uxmlNodes h ns u s = (s', .ok u') →
    Grown b s s' ∧ Walked b P s' u' (done ++ placesAll p ns)
  | [] => by
    intro s s' h p u u' done _ hw _ _ _ hrun
    rw [uxmlNodes] at hrun
    obtain ⟨rfl, rfl⟩ := HM.ret_inv hrun
    rw [placesAll, List.append_nil]
    exact ⟨.refl _ _, hw⟩
  | n :: ns => by
    intro s s' h p u u' done hok hw hwalk hpath hplain hrun
    rw [uxmlNodes] at hrun
    rw [placesAll] at hok ⊢
    obtain ⟨s1, u1, hr1, hrunA⟩ := HM.andThen_inv hrun
    obtain ⟨g1, w1⟩ := node_run n _ _ _ _ _ _ _ (fun e he => hok e (List.mem_append_left _ he)) hw hwalk hpath hplain hr1
    obtain ⟨g2, w2⟩ := nodes_run ns _ _ _ _ _ _ _ (fun e he => hok e (List.mem_append_right _ he)) w1 (g1.walk p hwalk) hpath hplain hrunA
    rw [← List.append_assoc]
    exact ⟨g1.trans g2, w2⟩
end

end S2N
