import Verif.Lemmas.H5
/-
What the operations of eznx.py do exactly, for names that are one path component.
-/
namespace S2N
open Py H5

namespace Dict
variable {α : Type}

theorem update_nil (d : Dict α) : d.update [] = d := rfl

theorem update_cons (d : Dict α) (p : Str × α) (e : Dict α) :
    d.update (p :: e) = (d.set p.1 p.2).update e := rfl

theorem update_append (d e f : Dict α) : d.update (e ++ f) = (d.update e).update f := by
  simp [update, List.foldl_append]

/-- the last one of the new values counts -/
theorem get?_update (e : Dict α) : ∀ (d : Dict α), (keys e).Nodup → ∀ k,
    (d.update e).get? k = (match e.get? k with | some v => some v | none => d.get? k) := by
  induction e with
  | nil => intro d _ k; rfl
  | cons p e ih =>
    obtain ⟨k', v'⟩ := p
    intro d hn k
    simp only [keys, List.map_cons, List.nodup_cons] at hn
    rw [update_cons, ih _ hn.2, get?_cons]
    by_cases hk : k' = k
    · subst hk
      have : get? e k' = none := (get?_eq_none_iff e k').2 hn.1
      rw [if_pos rfl, this, get?_set_self]
    · rw [if_neg hk, get?_set_ne _ _ hk]

theorem update_nodup (e : Dict α) : ∀ d : Dict α, (keys (d ++ e)).Nodup → d.update e = d ++ e := by
  induction e with
  | nil => intro d _; simp [update_nil]
  | cons p e ih =>
    intro d h
    rw [update_cons, set_of_not_mem, ih]
    · simp
    · simpa using h
    · intro hm
      simp only [keys, List.map_append, List.map_cons] at h
      have := (List.nodup_append.1 h).2.2 p.1 hm p.1 (List.mem_cons_self ..)
      exact this rfl

theorem update_nil_left (e : Dict α) (h : (keys e).Nodup) : update ([] : Dict α) e = e :=
  update_nodup e [] h

end Dict

@[simp] theorem HNode.attrs_withAttrs (n : HNode) (a : Dict AVal) : (n.withAttrs a).attrs = a := by
  cases n <;> rfl

@[simp] theorem HNode.withAttrs_withAttrs (n : HNode) (a b : Dict AVal) :
    (n.withAttrs a).withAttrs b = n.withAttrs b := by
  cases n <;> rfl

@[simp] theorem HNode.withAttrs_self (n : HNode) : n.withAttrs n.attrs = n := by
  cases n <;> rfl

namespace HM
variable {α β : Type}

theorem bind_ok {m : HM α} {f : α → HM β} {s s' : H5} {a : α} (h : m s = (s', .ok a)) :
    (m >>= f) s = f a s' := by
  show HM.andThen m f s = _
  unfold HM.andThen
  rw [h]

theorem bind_err {m : HM α} {f : α → HM β} {s s' : H5} {e : PyErr} (h : m s = (s', .error e)) :
    (m >>= f) s = (s', .error e) := by
  show HM.andThen m f s = _
  unfold HM.andThen
  rw [h]

theorem andThen_ok {m : HM α} {f : α → HM β} {s s' : H5} {a : α} (h : m s = (s', .ok a)) :
    HM.andThen m f s = f a s' := bind_ok h

theorem bind_inv {m : HM α} {f : α → HM β} {s s' : H5} {b : β} (h : (m >>= f) s = (s', .ok b)) :
    ∃ t a, m s = (t, .ok a) ∧ f a t = (s', .ok b) := by
  have h : HM.andThen m f s = (s', .ok b) := h
  unfold HM.andThen at h
  cases hm : m s with
  | mk t r =>
    rw [hm] at h
    cases r with
    | error e => simp at h
    | ok a => exact ⟨t, a, rfl, h⟩

theorem andThen_inv {m : HM α} {f : α → HM β} {s s' : H5} {b : β}
    (h : HM.andThen m f s = (s', .ok b)) : ∃ t a, m s = (t, .ok a) ∧ f a t = (s', .ok b) :=
  bind_inv h

theorem lift_inv {x : Except PyErr α} {s s' : H5} {a : α} (h : HM.lift x s = (s', .ok a)) :
    x = .ok a ∧ s' = s := by
  injection h with h1 h2
  exact ⟨h2, h1.symm⟩

theorem ret_inv {x : α} {s s' : H5} {a : α} (h : HM.ret x s = (s', .ok a)) : a = x ∧ s' = s := by
  injection h with h1 h2
  injection h2 with h2
  exact ⟨h2.symm, h1.symm⟩

theorem pure_inv {x : α} {s s' : H5} {a : α} (h : (pure x : HM α) s = (s', .ok a)) :
    a = x ∧ s' = s := ret_inv h

theorem bind_lift_inv {x : Except PyErr α} {f : α → HM β} {s s' : H5} {b : β}
    (h : (HM.lift x >>= f) s = (s', .ok b)) : ∃ a, x = .ok a ∧ f a s = (s', .ok b) := by
  obtain ⟨t, a, h1, h2⟩ := bind_inv h
  obtain ⟨h3, rfl⟩ := lift_inv h1
  exact ⟨a, h3, h2⟩

theorem bind_pure_inv {m : HM α} {x : β} {s s' : H5} {b : β}
    (h : (m >>= fun _ => pure x) s = (s', .ok b)) : b = x ∧ ∃ a, m s = (s', .ok a) := by
  obtain ⟨t, a, h1, h2⟩ := bind_inv h
  obtain ⟨h3, rfl⟩ := pure_inv h2
  exact ⟨h3, a, h1⟩

theorem each_inv_cons {f : α → HM Unit} {a : α} {as : List α} {s s' : H5} {b : Unit}
    (h : HM.each f (a :: as) s = (s', .ok b)) :
    ∃ t, f a s = (t, .ok ()) ∧ HM.each f as t = (s', .ok ()) := by
  obtain ⟨t, _, h1, h2⟩ := andThen_inv h
  exact ⟨t, h1, h2⟩

end HM

namespace H5

theorem base_single {h : HRef} {n : Str} (hn : Single n) : base h n = h := by
  simp [base, absolute_single hn]

/-- a new object in a group that has no child of that name -/
theorem create_eq {s : H5} {h : HRef} {ch : Dict Nat} {a : Dict AVal} {n : Str} (node : HNode)
    (hg : s[h.id]? = some (.group ch a)) (hn : Single n) (hf : ch.has n = false) :
    create h n node s =
      (s.set h.id (.group (ch.set n s.length) a) ++ [node], .ok ⟨s.length, h.path ++ [n]⟩) := by
  have hl := lt_of_get? hg
  unfold create
  rw [base_single hn, comps_single hn, link, List.getElem?_append_left hl, hg]
  simp only [hf, Bool.false_eq_true, if_false]
  rw [List.set_append_left _ _ hl]

/-- a name that exists cannot be created -/
theorem create_exists {s : H5} {h : HRef} {ch : Dict Nat} {a : Dict AVal} {n : Str} (node : HNode)
    (hg : s[h.id]? = some (.group ch a)) (hn : Single n) (hf : ch.has n = true) :
    create h n node s = (s, .error .ValueError) := by
  have hl := lt_of_get? hg
  unfold create
  rw [base_single hn, comps_single hn, link, List.getElem?_append_left hl, hg]
  simp only [hf, if_true]

theorem walk_single {s : H5} {i : Nat} {ch : Dict Nat} {a : Dict AVal} (n : Str)
    (hg : s[i]? = some (.group ch a)) : walk s i [n] = ch.get? n := by
  rw [walk, hg]
  simp only
  cases ch.get? n <;> rfl

theorem walk_cons {s : H5} {i j : Nat} {ch : Dict Nat} {a : Dict AVal} {n : Str} (cs : List Str)
    (hg : s[i]? = some (.group ch a)) (hj : ch.get? n = some j) :
    walk s i (n :: cs) = walk s j cs := by
  rw [walk, hg]
  simp only [hj]

theorem contains_eq {s : H5} {h : HRef} {ch : Dict Nat} {a : Dict AVal} {n : Str}
    (hg : s[h.id]? = some (.group ch a)) (hn : Single n) :
    contains h n s = (s, .ok (ch.has n)) := by
  unfold contains HM.look
  beta_reduce
  rw [base_single hn, comps_single hn, walk_single n hg]
  rfl

theorem get_eq {s : H5} {h : HRef} {ch : Dict Nat} {a : Dict AVal} {n : Str} {j : Nat}
    (hg : s[h.id]? = some (.group ch a)) (hn : Single n) (hj : ch.get? n = some j) :
    get h n s = (s, .ok ⟨j, h.path ++ [n]⟩) := by
  unfold get HM.lookE
  beta_reduce
  rw [base_single hn, comps_single hn, walk_single n hg, hj]

theorem get_missing {s : H5} {h : HRef} {ch : Dict Nat} {a : Dict AVal} {n : Str}
    (hg : s[h.id]? = some (.group ch a)) (hn : Single n) (hj : ch.has n = false) :
    get h n s = (s, .error .KeyError) := by
  unfold get HM.lookE
  beta_reduce
  rw [base_single hn, comps_single hn, walk_single n hg]
  have : ch.get? n = none := by
    cases h : ch.get? n with
    | none => rfl
    | some v => simp [Dict.has, h] at hj
  simp only [this]

theorem del_eq {s : H5} {h : HRef} {ch : Dict Nat} {a : Dict AVal} {n : Str}
    (hg : s[h.id]? = some (.group ch a)) (hn : Single n) (hf : ch.has n = true) :
    del h n s = (s.set h.id (.group (ch.del n) a), .ok ()) := by
  unfold del HM.change
  beta_reduce
  rw [base_single hn, comps_single hn, unlink, hg]
  simp only [hf, if_true]

theorem setAttr_eq {s : H5} {h : HRef} {node : HNode} (hg : s[h.id]? = some node) (k : Str)
    (v : AVal) :
    setAttr h k v s = (s.set h.id (node.withAttrs (node.attrs.set k v)), .ok ()) := by
  unfold setAttr HM.change
  beta_reduce
  rw [hg]

theorem set_same {s : H5} {i : Nat} {n : HNode} (h : s[i]? = some n) : s.set i n = s := by
  apply List.ext_getElem?
  intro j
  rw [set_get? _ _ _ _ (lt_of_get? h)]
  by_cases e : j = i
  · subst e; rw [if_pos rfl, h]
  · rw [if_neg e]

end H5

namespace Eznx
open H5

theorem addAttributes_eq (attr : Dict AVal) : ∀ {s : H5} {h : HRef} {node : HNode},
    s[h.id]? = some node →
    addAttributes h attr s = (s.set h.id (node.withAttrs (node.attrs.update attr)), .ok ()) := by
  induction attr with
  | nil =>
    intro s h node hg
    show HM.ret () s = _
    rw [Dict.update_nil, HNode.withAttrs_self, set_same hg]
    rfl
  | cons p attr ih =>
    intro s h node hg
    show HM.andThen (setAttr h p.1 p.2) (fun _ => addAttributes h attr) s = _
    rw [HM.andThen_ok (setAttr_eq hg p.1 p.2)]
    rw [ih (node := node.withAttrs (node.attrs.set p.1 p.2)) (by rw [set_get? _ _ _ _ (lt_of_get? hg), if_pos rfl])]
    rw [List.set_set, HNode.withAttrs_withAttrs, HNode.attrs_withAttrs, Dict.update_cons]

/-- attributes of a node that was just appended -/
theorem addAttributes_last {s : H5} {h : HRef} {node : HNode} (hid : h.id = s.length)
    (attr : Dict AVal) :
    addAttributes h attr (s ++ [node]) =
      (s ++ [node.withAttrs (node.attrs.update attr)], .ok ()) := by
  rw [addAttributes_eq attr (node := node) (by rw [hid]; simp)]
  rw [hid]
  simp

theorem setAttr_last {s : H5} {h : HRef} {node : HNode} (hid : h.id = s.length) (k : Str)
    (v : AVal) :
    setAttr h k v (s ++ [node]) = (s ++ [node.withAttrs (node.attrs.set k v)], .ok ()) := by
  rw [setAttr_eq (node := node) (by rw [hid]; simp)]
  rw [hid]
  simp

theorem makeGroup_eq {s : H5} {h : HRef} {ch : Dict Nat} {a : Dict AVal} {n : Str}
    (hg : s[h.id]? = some (.group ch a)) (hn : Single n) (hf : ch.has n = false) (cls : Str)
    (attr : Dict AVal) :
    makeGroup h n cls attr s =
      (s.set h.id (.group (ch.set n s.length) a) ++
        [.group [] (Dict.update [(p!"NX_class", AVal.str cls)] attr)],
       .ok ⟨s.length, h.path ++ [n]⟩) := by
  unfold makeGroup createGroup
  rw [HM.bind_ok (create_eq _ hg hn hf)]
  have hl : (⟨s.length, h.path ++ [n]⟩ : HRef).id = (s.set h.id (.group (ch.set n s.length) a)).length := by
    simp
  rw [HM.bind_ok (setAttr_last hl _ _), HM.bind_ok (addAttributes_last hl _)]
  rfl

/-- a group that exists already -/
theorem makeGroup_exists {s : H5} {h : HRef} {ch : Dict Nat} {a : Dict AVal} {n : Str}
    (hg : s[h.id]? = some (.group ch a)) (hn : Single n) (hf : ch.has n = true) (cls : Str)
    (attr : Dict AVal) : makeGroup h n cls attr s = (s, .error .ValueError) := by
  unfold makeGroup createGroup
  rw [HM.bind_err (create_exists _ hg hn hf)]

theorem openGroup_new {s : H5} {h : HRef} {ch : Dict Nat} {a : Dict AVal} {n : Str}
    (hg : s[h.id]? = some (.group ch a)) (hn : Single n) (hf : ch.has n = false) (cls : Str)
    (attr : Dict AVal) :
    openGroup h n cls attr s = makeGroup h n cls attr s := by
  unfold openGroup
  rw [HM.bind_ok (contains_eq hg hn), hf]
  rfl

theorem openGroup_old {s : H5} {h : HRef} {ch : Dict Nat} {a : Dict AVal} {n : Str} {j : Nat}
    {node : HNode} (hg : s[h.id]? = some (.group ch a)) (hn : Single n) (hj : ch.get? n = some j)
    (hnode : s[j]? = some node) (cls : Str) (attr : Dict AVal) :
    openGroup h n cls attr s =
      (s.set j (node.withAttrs (node.attrs.update attr)), .ok ⟨j, h.path ++ [n]⟩) := by
  unfold openGroup
  have hh : ch.has n = true := by simp [Dict.has, hj]
  rw [HM.bind_ok (contains_eq hg hn), hh]
  simp only [if_true]
  rw [HM.bind_ok (get_eq hg hn hj), HM.bind_ok (addAttributes_eq (node := node) attr hnode)]
  rfl

/-- the attributes with which a dataset is made -/
def noteAttrs (data : PData) (attr : Dict AVal) : Dict AVal :=
  match data with
  | .none => attr.set p!"NOTE" (.str p!"no data supplied, value set to empty string")
  | _ => attr

theorem makeDataset_eq {s : H5} {h : HRef} {ch : Dict Nat} {a : Dict AVal} {n : Str} {d : PData}
    {v : HData} (hg : s[h.id]? = some (.group ch a)) (hn : Single n) (hf : ch.has n = false)
    (hd : d.toH = .ok v) (attr : Dict AVal) :
    makeDataset h n d attr s =
      (s.set h.id (.group (ch.set n s.length) a) ++ [.dset v (Dict.update [] (noteAttrs d attr))],
       .ok ⟨s.length, h.path ++ [n]⟩) := by
  have hl : (⟨s.length, h.path ++ [n]⟩ : HRef).id = (s.set h.id (.group (ch.set n s.length) a)).length := by
    simp
  unfold makeDataset
  rw [HM.bind_ok (show HM.lift d.toH s = (s, .ok v) by rw [hd]; rfl), HM.bind_ok (create_eq _ hg hn hf),
    HM.bind_ok (addAttributes_last hl _)]
  rfl

theorem makeDataset_exists {s : H5} {h : HRef} {ch : Dict Nat} {a : Dict AVal} {n : Str} {d : PData}
    {v : HData} (hg : s[h.id]? = some (.group ch a)) (hn : Single n) (hf : ch.has n = true)
    (hd : d.toH = .ok v) (attr : Dict AVal) :
    makeDataset h n d attr s = (s, .error .ValueError) := by
  unfold makeDataset
  rw [HM.bind_ok (show HM.lift d.toH s = (s, .ok v) by rw [hd]; rfl), HM.bind_err (create_exists _ hg hn hf)]

/-- `write_dataset`: the old child of that name, if any, is removed first -/
theorem writeDataset_eq {s : H5} {h : HRef} {ch : Dict Nat} {a : Dict AVal} {n : Str} {d : PData}
    {v : HData} (hg : s[h.id]? = some (.group ch a)) (hk : (Dict.keys ch).Nodup) (hn : Single n)
    (hd : d.toH = .ok v) (attr : Dict AVal) :
    writeDataset h n d attr s =
      (s.set h.id (.group ((ch.del n).set n s.length) a) ++
        [.dset v (Dict.update [] (noteAttrs d attr))],
       .ok ⟨s.length, h.path ++ [n]⟩) := by
  have hl := lt_of_get? hg
  unfold writeDataset
  cases hf : ch.has n with
  | true =>
    have h1 : HM.andThen (contains h n) (fun b => HM.onlyIf b (del h n)) s =
        (s.set h.id (.group (ch.del n) a), .ok ()) := by
      rw [HM.andThen_ok (contains_eq hg hn), hf]
      exact del_eq hg hn hf
    rw [HM.bind_ok h1]
    have hlen : (s.set h.id (.group (ch.del n) a)).length = s.length := by simp
    rw [makeDataset_eq (ch := ch.del n) (a := a) (by rw [set_get? _ _ _ _ hl, if_pos rfl]) hn
      (Dict.has_del_self _ _ hk) hd attr, List.set_set, hlen]
  | false =>
    have h1 : HM.andThen (contains h n) (fun b => HM.onlyIf b (del h n)) s = (s, .ok ()) := by
      rw [HM.andThen_ok (contains_eq hg hn), hf]
      rfl
    rw [HM.bind_ok h1, makeDataset_eq hg hn hf hd attr, Dict.del_of_not_has _ _ hf]

end Eznx
end S2N
