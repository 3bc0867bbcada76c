import Verif.Lemmas.H5Exact
import Verif.Spec.H5
/-
C38, C39, C66: the functions of eznx.py on an HDF5 file.
-/
namespace S2N.Props
open S2N Py H5 Eznx Spec

/-! ## C38 -/

/-- C38: `addAttributes` sets the given attributes, keeps every other attribute and the contents of
the object, and changes no other object. -/
theorem C38_addAttributes (s : H5) (h : HRef) (node : HNode) (attr : Dict AVal)
    (hs : s[h.id]? = some node) (hk : attr.keys.Nodup) :
    ∃ s', addAttributes h attr s = (s', .ok ()) ∧ OnlyChanged s s' h.id ∧ s'.length = s.length ∧
      ∃ node', s'[h.id]? = some node' ∧ SameContents node node' ∧
        (∀ k v, attr.get? k = some v → node'.attrs.get? k = some v) ∧
        (∀ k, attr.has k = false → node'.attrs.get? k = node.attrs.get? k) := by
  refine ⟨_, addAttributes_eq attr hs, ?_, by simp, _, by rw [set_get? _ _ _ _ (lt_of_get? hs), if_pos rfl], ?_, ?_, ?_⟩
  · intro j hj hne
    rw [set_get? _ _ _ _ (lt_of_get? hs), if_neg hne]
  · cases node <;> rfl
  · intro k v hv
    rw [HNode.attrs_withAttrs, Dict.get?_update _ _ hk, hv]
  · intro k hf
    have : attr.get? k = none := by
      cases h : attr.get? k with
      | none => rfl
      | some v => simp [Dict.has, h] at hf
    rw [HNode.attrs_withAttrs, Dict.get?_update _ _ hk, this]

/-- C38: `openGroup` of a name that exists returns that object; its contents, its class and all
other objects are as before, only the given attributes are set. -/
theorem C38_openGroup_existing (s : H5) (h : HRef) (ch : Dict Nat) (a : Dict AVal) (n : Str)
    (j : Nat) (node : HNode) (hs : s[h.id]? = some (.group ch a)) (hn : Single n)
    (hj : ch.get? n = some j) (hnode : s[j]? = some node) (cls : Str) (attr : Dict AVal)
    (hk : attr.keys.Nodup) :
    ∃ s', openGroup h n cls attr s = (s', .ok ⟨j, h.path ++ [n]⟩) ∧ OnlyChanged s s' j ∧
      s'.length = s.length ∧
      ∃ node', s'[j]? = some node' ∧ SameContents node node' ∧
        (∀ k v, attr.get? k = some v → node'.attrs.get? k = some v) ∧
        (∀ k, attr.has k = false → node'.attrs.get? k = node.attrs.get? k) := by
  obtain ⟨s', h1, h2, h3, h4⟩ := C38_addAttributes s ⟨j, h.path ++ [n]⟩ node attr hnode hk
  refine ⟨s', ?_, h2, h3, h4⟩
  rw [openGroup_old hs hn hj hnode]
  rw [addAttributes_eq attr (h := ⟨j, h.path ++ [n]⟩) hnode] at h1
  injection h1 with h1 _
  rw [h1]

/-- C38: `openGroup` of a name that does not exist and `makeGroup` make a new empty group with that
class and the given attributes, as the last child of the parent; no other object is changed.
`makeGroup` of a name that exists fails and changes nothing. -/
theorem C38_new_group (s : H5) (h : HRef) (ch : Dict Nat) (a : Dict AVal) (n : Str)
    (hs : s[h.id]? = some (.group ch a)) (hn : Single n) (cls : Str) (attr : Dict AVal)
    (hk : attr.keys.Nodup) :
    (ch.has n = false →
      ∃ s' i b, openGroup h n cls attr s = (s', .ok ⟨i, h.path ++ [n]⟩) ∧
        makeGroup h n cls attr s = (s', .ok ⟨i, h.path ++ [n]⟩) ∧
        OnlyChanged s s' h.id ∧ s.length ≤ i ∧
        s'[h.id]? = some (.group (ch ++ [(n, i)]) a) ∧ s'[i]? = some (.group [] b) ∧
        (∀ k v, attr.get? k = some v → b.get? k = some v) ∧
        (attr.has p!"NX_class" = false → b.get? p!"NX_class" = some (.str cls))) ∧
    (ch.has n = true → makeGroup h n cls attr s = (s, .error .ValueError)) := by
  refine ⟨fun hf => ?_, fun hf => makeGroup_exists hs hn hf cls attr⟩
  have hl := lt_of_get? hs
  have hnm : n ∉ Dict.keys ch := by
    intro hm
    rw [(Dict.has_iff_mem ch n).2 hm] at hf
    cases hf
  refine ⟨_, s.length, Dict.update [(p!"NX_class", AVal.str cls)] attr, ?_, makeGroup_eq hs hn hf cls attr, ?_, Nat.le_refl _, ?_, ?_, ?_, ?_⟩
  · rw [openGroup_new hs hn hf, makeGroup_eq hs hn hf cls attr]
  · intro j hj hne
    rw [List.getElem?_append_left (by simpa using hj), set_get? _ _ _ _ hl, if_neg hne]
  · rw [List.getElem?_append_left (by simpa using hl), set_get? _ _ _ _ hl, if_pos rfl,
      Dict.set_of_not_mem _ _ _ hnm]
  · rw [List.getElem?_append_right (by simp)]
    simp
  · intro k v hv
    rw [Dict.get?_update _ _ hk, hv]
  · intro hc
    have : attr.get? p!"NX_class" = none := by
      cases h : attr.get? p!"NX_class" with
      | none => rfl
      | some v => simp [Dict.has, h] at hc
    rw [Dict.get?_update _ _ hk, this]
    rfl

/-- C38: `write_dataset` with data that can be stored always succeeds: the parent has a new dataset
of that name with this value and these attributes (replacing what was there), the other children
of the parent and all other objects of the file are as before. -/
theorem C38_writeDataset (s : H5) (h : HRef) (ch : Dict Nat) (a : Dict AVal) (n : Str) (d : PData)
    (v : HData) (hs : s[h.id]? = some (.group ch a)) (hw : ch.keys.Nodup) (hn : Single n)
    (hd : d.toH = .ok v) (attr : Dict AVal) (hk : attr.keys.Nodup) (hnone : d ≠ .none) :
    ∃ s' i ch', writeDataset h n d attr s = (s', .ok ⟨i, h.path ++ [n]⟩) ∧
      s.length ≤ i ∧ s'[i]? = some (.dset v attr) ∧
      s'[h.id]? = some (.group ch' a) ∧ ch'.get? n = some i ∧
      (∀ m, m ≠ n → ch'.get? m = ch.get? m) ∧ OnlyChanged s s' h.id := by
  have hl := lt_of_get? hs
  have hnote : noteAttrs d attr = attr := by cases d <;> first | rfl | exact absurd rfl hnone
  refine ⟨_, s.length, (ch.del n).set n s.length, writeDataset_eq hs hw hn hd attr, Nat.le_refl _, ?_, ?_,
    Dict.get?_set_self _ _ _, ?_, ?_⟩
  · rw [List.getElem?_append_right (by simp), hnote, Dict.update_nil_left _ hk]
    simp
  · rw [List.getElem?_append_left (by simpa using hl), set_get? _ _ _ _ hl, if_pos rfl]
  · intro m hm
    rw [Dict.get?_set_ne _ _ (Ne.symm hm), Dict.get?_del_ne _ hm]
  · intro j hj hne
    rw [List.getElem?_append_left (by simpa using hj), set_get? _ _ _ _ hl, if_neg hne]

/-- the file with dataset `x` and the hard link `y` to it -/
def linked : H5 := [.group [(p!"x", 1), (p!"y", 1)] [], .dset (.nums ⟨[.int 1], [1]⟩) []]

/-- C38: a link to a dataset does not follow when the dataset is written again: it keeps the old
value. -/
theorem C38_old_link_keeps_old_value :
    (writeDataset root p!"x" (.num (.int 2)) [] linked).2 = .ok ⟨2, [p!"x"]⟩ ∧
    datasetAt (writeDataset root p!"x" (.num (.int 2)) [] linked).1 [p!"x"] =
      some (.nums ⟨[.int 2], [1]⟩, []) ∧
    datasetAt (writeDataset root p!"x" (.num (.int 2)) [] linked).1 [p!"y"] =
      some (.nums ⟨[.int 1], [1]⟩, []) := by decide

theorem C38_nonvacuous :
    linked[root.id]? = some (.group [(p!"x", 1), (p!"y", 1)] []) ∧ Single p!"x" ∧
      Dict.keys [(p!"x", 1), (p!"y", 1)] = [p!"x", p!"y"] ∧ Plain p!"z" ∧
      (PData.num (.int 2)).toH = .ok (.nums ⟨[.int 2], [1]⟩) :=
  ⟨rfl, Plain.single (by decide), rfl, by decide, rfl⟩

/-! ## C39 -/

/-- all links that are there stay, and groups stay groups -/
structure Grows (s s' : H5) : Prop where
  le : s.length ≤ s'.length
  keep : ∀ (i : Nat) ch a, s[i]? = some (.group ch a) → ∃ ch' a', s'[i]? = some (.group ch' a') ∧
    ∀ n j, ch.get? n = some j → ch'.get? n = some j

theorem Grows.refl (s : H5) : Grows s s := ⟨Nat.le_refl _, fun _ ch a h => ⟨ch, a, h, fun _ _ h => h⟩⟩

theorem Grows.trans {s t u : H5} (h : Grows s t) (k : Grows t u) : Grows s u :=
  ⟨Nat.le_trans h.le k.le, fun i ch a hs => by
    obtain ⟨ch', a', h1, h2⟩ := h.keep i ch a hs
    obtain ⟨ch2, a2, k1, k2⟩ := k.keep i ch' a' h1
    exact ⟨ch2, a2, k1, fun n j hn => k2 n j (h2 n j hn)⟩⟩

theorem Grows.walk {s s' : H5} (h : Grows s s') (cs : List Str) :
    ∀ {i j : Nat}, H5.walk s i cs = some j → H5.walk s' i cs = some j := by
  induction cs with
  | nil => intro i j hw; exact hw
  | cons n cs ih =>
    intro i j hw
    rw [H5.walk] at hw
    split at hw
    · rename_i ch a hs
      obtain ⟨ch', a', h1, h2⟩ := h.keep i ch a hs
      split at hw
      · rename_i k hk
        rw [H5.walk, h1]
        simp only [h2 n k hk]
        exact ih hw
      · cases hw
    · cases hw

theorem grows_set {s : H5} {i : Nat} {n : HNode} (hi : i < s.length)
    (h : ∀ ch a, s[i]? = some (.group ch a) → ∃ ch' a', n = .group ch' a' ∧
      ∀ m j, ch.get? m = some j → ch'.get? m = some j) : Grows s (s.set i n) := by
  refine ⟨by simp, fun k ch a hs => ?_⟩
  rw [set_get? _ _ _ _ hi]
  by_cases e : k = i
  · subst e
    obtain ⟨ch', a', h1, h2⟩ := h ch a hs
    exact ⟨ch', a', by rw [if_pos rfl, h1], h2⟩
  · exact ⟨ch, a, by rw [if_neg e, hs], fun _ _ h => h⟩

theorem grows_append (s : H5) (n : HNode) : Grows s (s ++ [n]) :=
  ⟨by simp, fun k ch a hs => ⟨ch, a, by rw [List.getElem?_append_left (lt_of_get? hs), hs],
    fun _ _ h => h⟩⟩

theorem grows_link (t : Nat) (cs : List Str) : ∀ {s s' : H5} {i : Nat},
    link t s i cs = .ok s' → Grows s s' := by
  induction cs with
  | nil => intro s s' i hl; simp [link] at hl
  | cons n cs ih =>
    intro s s' i hl
    cases cs with
    | nil =>
      unfold link at hl
      split at hl
      · rename_i ch a hs
        split at hl
        · cases hl
        · rename_i hc
          injection hl with hl
          subst hl
          refine grows_set (lt_of_get? hs) fun ch' a' hs' => ⟨_, _, rfl, fun m j hm => ?_⟩
          rw [hs] at hs'
          injection hs' with hs'
          injection hs' with e1 _
          subst e1
          rw [Dict.get?_set_ne _ _ (by
            rintro rfl
            exact hc (by simp [Dict.has, hm])), hm]
      · cases hl
    | cons d cs =>
      unfold link at hl
      split at hl
      · rename_i ch a hs
        split at hl
        · exact ih hl
        · rename_i hn
          refine (Grows.trans (grows_set (lt_of_get? hs) fun ch' a' hs' => ⟨_, _, rfl, fun m j hm => ?_⟩)
            (grows_append _ _)).trans (ih hl)
          rw [hs] at hs'
          injection hs' with hs'
          injection hs' with e1 _
          subst e1
          rw [Dict.get?_set_ne _ _ (by
            rintro rfl
            rw [hn] at hm
            cases hm), hm]
      · cases hl

/-- a computation that removes nothing -/
def Mono {α : Type} (m : HM α) : Prop := ∀ s, Grows s (m s).1

namespace Mono
variable {α β : Type}

theorem bind {m : HM α} {f : α → HM β} (h : Mono m) (k : ∀ a, Mono (f a)) : Mono (m >>= f) := by
  intro s
  show Grows s (HM.andThen m f s).1
  unfold HM.andThen
  have h1 := h s
  cases hm : m s with
  | mk s' r =>
    rw [hm] at h1
    cases r with
    | error e => exact h1
    | ok a => exact h1.trans (k a s')

theorem ret (a : α) : Mono (HM.ret a) := fun s => Grows.refl s
theorem pure' (a : α) : Mono (pure a : HM α) := fun s => Grows.refl s
theorem lift (x : Except PyErr α) : Mono (HM.lift x) := fun s => Grows.refl s
theorem look (f : H5 → α) : Mono (HM.look f) := fun s => Grows.refl s
theorem lookE (f : H5 → Except PyErr α) : Mono (HM.lookE f) := fun s => Grows.refl s

theorem change {f : H5 → Except PyErr H5} (h : ∀ s s', f s = .ok s' → Grows s s') :
    Mono (HM.change f) := by
  intro s
  unfold HM.change
  cases hf : f s with
  | error e => exact Grows.refl s
  | ok s' => exact h s s' hf

theorem each {f : α → HM Unit} (h : ∀ a, Mono (f a)) (l : List α) : Mono (HM.each f l) := by
  induction l with
  | nil => exact ret _
  | cons a l ih => exact bind (h a) fun _ => ih

theorem onlyIf {b : Bool} {m : HM Unit} (h : Mono m) : Mono (HM.onlyIf b m) := by
  cases b with
  | false => exact ret _
  | true => exact h

theorem create (h : HRef) (n : Str) (node : HNode) : Mono (H5.create h n node) := by
  intro s
  unfold H5.create
  cases hl : link s.length (s ++ [node]) (base h n).id (comps n) with
  | error e => exact Grows.refl s
  | ok s' => exact (grows_append s node).trans (grows_link _ _ hl)

theorem setLink (h : HRef) (n : Str) (obj : HRef) : Mono (H5.setLink h n obj) := by
  apply change
  intro s s' hl
  split at hl
  · cases hl
  · exact grows_link _ _ hl

theorem setAttr (h : HRef) (k : Str) (v : AVal) : Mono (H5.setAttr h k v) := by
  apply change
  intro s s' hl
  split at hl
  · rename_i n hn
    injection hl with hl
    subst hl
    refine grows_set (lt_of_get? hn) fun ch a hs => ?_
    rw [hn] at hs
    injection hs with hs
    subst hs
    exact ⟨_, _, rfl, fun _ _ h => h⟩
  · cases hl

theorem addAttributes (h : HRef) (a : Dict AVal) : Mono (Eznx.addAttributes h a) :=
  each (f := fun kv : Str × AVal => H5.setAttr h kv.1 kv.2) (fun kv => setAttr h kv.1 kv.2) a

theorem makeGroup (h : HRef) (n c : Str) (a : Dict AVal) : Mono (Eznx.makeGroup h n c a) := by
  unfold Eznx.makeGroup
  exact bind (create h n _) fun g => bind (setAttr g _ _) fun _ => bind (addAttributes g a) fun _ => pure' g

theorem openGroup (h : HRef) (n c : Str) (a : Dict AVal) : Mono (Eznx.openGroup h n c a) := by
  unfold Eznx.openGroup
  refine bind (look _) fun b => ?_
  cases b with
  | false => exact makeGroup h n c a
  | true => exact bind (lookE _) fun g => bind (addAttributes g a) fun _ => pure' g

theorem makeDataset (h : HRef) (n : Str) (d : PData) (a : Dict AVal) :
    Mono (Eznx.makeDataset h n d a) := by
  unfold Eznx.makeDataset
  exact bind (lift _) fun v => bind (create h n _) fun g => bind (addAttributes g _) fun _ => pure' g

theorem makeLink (h src : HRef) (n : Str) : Mono (Eznx.makeLink h src n) := by
  unfold Eznx.makeLink
  refine bind (bind (look _) fun b => onlyIf (setAttr _ _ _)) fun _ => ?_
  exact bind (lookE _) fun o => setLink _ _ _

end Mono

theorem mono_op (op : EzOp) : Mono (runOp op) := by
  cases op with
  | addAttributes h a => exact Mono.addAttributes h a
  | makeGroup h n c a => exact Mono.bind (Mono.makeGroup h n c a) fun _ => Mono.ret ()
  | openGroup h n c a => exact Mono.bind (Mono.openGroup h n c a) fun _ => Mono.ret ()
  | makeDataset h n d a => exact Mono.bind (Mono.makeDataset h n d a) fun _ => Mono.ret ()
  | makeLink h src n => exact Mono.makeLink h src n

theorem grows_history (ops : List EzOp) : ∀ s, Grows s (history ops s) := by
  induction ops with
  | nil => intro s; exact Grows.refl s
  | cons op ops ih => intro s; exact (mono_op op s).trans (ih _)

/-- the components of the path name of an object -/
theorem comps_path (p : List Str) (hp : ∀ n ∈ p, Plain n) (i : Nat) :
    comps (ascii (nameOf ⟨i, p⟩)) = p := by
  have key : ∀ p : List Str, (∀ n ∈ p, Plain n) → comps (ascii (join ['/'] p)) = p := by
    intro p
    induction p with
    | nil => intro _; rfl
    | cons n p ih =>
      intro hp
      have hn := hp n (List.mem_cons_self ..)
      cases p with
      | nil => rw [join_singleton, ascii_plain hn, comps_single hn.single]
      | cons m p =>
        rw [join_cons _ _ _ (by simp), List.append_assoc, ascii_append, ascii_plain hn, ascii_append]
        show comps (n ++ '/' :: ascii (join ['/'] (m :: p))) = _
        rw [comps_append_slash hn.single, ih fun k hk => hp k (List.mem_cons_of_mem _ hk)]
  show comps ('/' :: ascii (join ['/'] p)) = p
  rw [comps_cons_slash, key p hp]

theorem walk_set_attrs {s : H5} {k : Nat} {node : HNode} (hk : s[k]? = some node) (a : Dict AVal)
    (cs : List Str) : ∀ i, H5.walk (s.set k (node.withAttrs a)) i cs = H5.walk s i cs := by
  have hg : ∀ i : Nat, ∀ ch b, s[i]? = some (.group ch b) →
      ∃ b', (s.set k (node.withAttrs a))[i]? = some (.group ch b') := by
    intro i ch b hs
    rw [set_get? _ _ _ _ (lt_of_get? hk)]
    by_cases e : i = k
    · subst e
      rw [hk] at hs
      injection hs with hs
      subst hs
      exact ⟨a, by rw [if_pos rfl]; rfl⟩
    · exact ⟨b, by rw [if_neg e, hs]⟩
  have hd : ∀ i : Nat, (∀ ch b, s[i]? ≠ some (.group ch b)) →
      ∀ ch b, (s.set k (node.withAttrs a))[i]? ≠ some (.group ch b) := by
    intro i hs ch b h
    rw [set_get? _ _ _ _ (lt_of_get? hk)] at h
    by_cases e : i = k
    · subst e
      rw [if_pos rfl] at h
      cases node with
      | dset d b' => simp [HNode.withAttrs] at h
      | group ch' b' => exact hs ch' b' hk
    · rw [if_neg e] at h
      exact hs ch b h
  induction cs with
  | nil => intro i; rfl
  | cons n cs ih =>
    intro i
    by_cases h : ∃ ch b, s[i]? = some (HNode.group ch b)
    · obtain ⟨ch, b, h⟩ := h
      obtain ⟨b', h'⟩ := hg i ch b h
      rw [H5.walk, H5.walk, h, h']
      simp only
      cases ch.get? n with
      | none => rfl
      | some j => exact ih j
    · have h1 : ∀ ch b, s[i]? ≠ some (.group ch b) := fun ch b e => h ⟨ch, b, e⟩
      have h2 := hd i h1
      have none' : ∀ t : H5, (∀ ch b, t[i]? ≠ some (.group ch b)) → H5.walk t i (n :: cs) = none := by
        intro t ht
        rw [H5.walk]
        split
        · rename_i ch b e; exact absurd e (ht ch b)
        · rfl
      rw [none' s h1, none' _ h2]

/-- what `makeLink` does: the place of the link is `name` at the group `g` -/
theorem makeLink_at (s : H5) (h g src : HRef) (t n : Str) (ch : Dict Nat) (a : Dict AVal)
    (node : HNode) (hroot : H5.walk s 0 src.path = some src.id) (hp : ∀ m ∈ src.path, Plain m)
    (hsrc : s[src.id]? = some node) (hg : s[g.id]? = some (.group ch a)) (hn : Single n)
    (hf : ch.has n = false)
    (ht : ∀ s', Grows s s' → s'.length = s.length → ∀ t', link src.id s' g.id [n] = .ok t' →
      link src.id s' (base h (ascii t)).id (comps (ascii t)) = .ok t') :
    ∃ s' ch' a', makeLink h src t s = (s', .ok ()) ∧ s'.length = s.length ∧
      s'[g.id]? = some (.group ch' a') ∧ ch'.get? n = some src.id ∧
      (∀ m, m ≠ n → ch'.get? m = ch.get? m) ∧
      (∀ i, i < s.length → i ≠ g.id → i ≠ src.id → s'[i]? = s[i]?) ∧
      ∃ node', s'[src.id]? = some node' ∧
        node'.attrs.get? p!"target" =
          some ((node.attrs.get? p!"target").getD (.str (nameOf src))) ∧
        ∀ k, k ≠ p!"target" → node'.attrs.get? k = node.attrs.get? k := by
  -- the attribute
  have h1 : ∃ A, (HM.andThen (hasAttr src p!"target") fun b =>
      HM.onlyIf (!b) (setAttr src p!"target" (.str (nameOf src)))) s =
        (s.set src.id (node.withAttrs A), .ok ()) ∧
      A.get? p!"target" = some ((node.attrs.get? p!"target").getD (.str (nameOf src))) ∧
      ∀ k, k ≠ p!"target" → A.get? k = node.attrs.get? k := by
    have hh : hasAttr src p!"target" s = (s, .ok (node.attrs.has p!"target")) := by
      unfold hasAttr HM.look
      beta_reduce
      rw [hsrc]
    cases hb : node.attrs.get? p!"target" with
    | some v =>
      refine ⟨node.attrs, ?_, by rw [hb]; rfl, fun _ _ => rfl⟩
      rw [HM.andThen_ok hh, show node.attrs.has p!"target" = true by rw [Dict.has, hb]; rfl,
        HNode.withAttrs_self, set_same hsrc]
      rfl
    | none =>
      refine ⟨node.attrs.set p!"target" (.str (nameOf src)), ?_, by rw [Dict.get?_set_self]; rfl,
        fun k hk => Dict.get?_set_ne _ _ (Ne.symm hk)⟩
      rw [HM.andThen_ok hh, show node.attrs.has p!"target" = false by rw [Dict.has, hb]; rfl]
      exact setAttr_eq hsrc _ _
  obtain ⟨A, e1, hA1, hA2⟩ := h1
  have hsl := lt_of_get? hsrc
  have hgl := lt_of_get? hg
  have hgrow : Grows s (s.set src.id (node.withAttrs A)) := by
    refine grows_set hsl fun ch a hs => ?_
    rw [hsrc] at hs
    injection hs with hs
    subst hs
    exact ⟨_, _, rfl, fun _ _ h => h⟩
  have e2 : H5.get h (ascii (nameOf src)) (s.set src.id (node.withAttrs A)) =
      (s.set src.id (node.withAttrs A), .ok ⟨src.id, src.path⟩) := by
    unfold H5.get HM.lookE
    have ha : absolute (ascii (nameOf src)) = true := by
      have := absolute_nameOf src []
      rwa [List.append_nil] at this
    have hb : base h (ascii (nameOf src)) = root := by simp [base, ha]
    beta_reduce
    rw [hb, comps_path src.path hp src.id, walk_set_attrs hsrc]
    rw [show root.id = 0 from rfl, hroot]
    rfl
  have hg' : ∃ a1, (s.set src.id (node.withAttrs A))[g.id]? = some (.group ch a1) := by
    rw [set_get? _ _ _ _ hsl]
    by_cases e : g.id = src.id
    · rw [if_pos e]
      rw [e, hsrc] at hg
      injection hg with hg
      subst hg
      exact ⟨A, rfl⟩
    · exact ⟨a, by rw [if_neg e, hg]⟩
  obtain ⟨a1, hg1⟩ := hg'
  have e3 : link src.id (s.set src.id (node.withAttrs A)) g.id [n] =
      .ok ((s.set src.id (node.withAttrs A)).set g.id (.group (ch.set n src.id) a1)) := by
    rw [link, hg1]
    simp only [hf, Bool.false_eq_true, if_false]
  have e4 := ht _ hgrow (by simp) _ e3
  have e5 : setLink h (ascii t) ⟨src.id, src.path⟩ (s.set src.id (node.withAttrs A)) =
      ((s.set src.id (node.withAttrs A)).set g.id (.group (ch.set n src.id) a1), .ok ()) := by
    unfold setLink HM.change
    beta_reduce
    have hx : (s.set src.id (node.withAttrs A))[src.id]? = some (node.withAttrs A) := by
      rw [set_get? _ _ _ _ hsl, if_pos rfl]
    simp only [hx, e4]
  refine ⟨(s.set src.id (node.withAttrs A)).set g.id (.group (ch.set n src.id) a1), ch.set n src.id,
    a1, ?_, by simp, by rw [set_get? _ _ _ _ (by simpa using hgl), if_pos rfl],
    Dict.get?_set_self _ _ _, fun m hm => Dict.get?_set_ne _ _ (Ne.symm hm), ?_, ?_⟩
  · unfold makeLink
    rw [HM.bind_ok e1, HM.bind_ok e2, e5]
  · intro i hi h1 h2
    rw [set_get? _ _ _ _ (by simpa using hgl), if_neg h1, set_get? _ _ _ _ hsl, if_neg h2]
  · rw [set_get? _ _ _ _ (by simpa using hgl)]
    by_cases e : src.id = g.id
    · rw [if_pos e]
      refine ⟨_, rfl, ?_⟩
      have : a1 = A := by
        rw [← e, set_get? _ _ _ _ hsl, if_pos rfl] at hg1
        injection hg1 with hg1
        have := congrArg HNode.attrs hg1
        rw [HNode.attrs_withAttrs] at this
        exact this.symm
      rw [this]
      exact ⟨hA1, hA2⟩
    · rw [if_neg e, set_get? _ _ _ _ hsl, if_pos rfl]
      refine ⟨_, rfl, ?_⟩
      rw [HNode.attrs_withAttrs]
      exact ⟨hA1, hA2⟩

/-- C39: `makeLink(h, src, n)` with the name `n`, free in `h`, makes `n` in `h` the object `src`;
`src` gets the attribute `target` with its original path unless it has one already. Nothing else is
changed. -/
theorem C39_makeLink_name (s : H5) (h src : HRef) (n : Str) (ch : Dict Nat) (a : Dict AVal)
    (node : HNode) (hroot : H5.walk s 0 src.path = some src.id) (hp : ∀ m ∈ src.path, Plain m)
    (hsrc : s[src.id]? = some node) (hg : s[h.id]? = some (.group ch a)) (hn : Plain n)
    (hf : ch.has n = false) :
    ∃ s' ch' a', makeLink h src n s = (s', .ok ()) ∧ s'.length = s.length ∧
      s'[h.id]? = some (.group ch' a') ∧ ch'.get? n = some src.id ∧
      (∀ m, m ≠ n → ch'.get? m = ch.get? m) ∧
      (∀ i, i < s.length → i ≠ h.id → i ≠ src.id → s'[i]? = s[i]?) ∧
      ∃ node', s'[src.id]? = some node' ∧
        node'.attrs.get? p!"target" =
          some ((node.attrs.get? p!"target").getD (.str (nameOf src))) ∧
        ∀ k, k ≠ p!"target" → node'.attrs.get? k = node.attrs.get? k := by
  refine makeLink_at s h h src n n ch a node hroot hp hsrc hg hn.single hf ?_
  intro s' _ _ t' hl
  rw [ascii_plain hn, base_single hn.single, comps_single hn.single]
  exact hl

theorem join_snoc (sep : Str) (l : List Str) (n : Str) (h : l ≠ []) :
    join sep (l ++ [n]) = join sep l ++ sep ++ n := by
  induction l with
  | nil => exact absurd rfl h
  | cons a l ih =>
    cases l with
    | nil => rfl
    | cons b l =>
      rw [List.cons_append, join_cons _ _ _ (by simp), join_cons _ _ _ (by simp), ih (by simp)]
      simp

theorem link_walk {s : H5} (t : Nat) (n : Str) (cs : List Str) : ∀ {i j : Nat},
    H5.walk s i cs = some j → link t s i (cs ++ [n]) = link t s j [n] := by
  induction cs with
  | nil =>
    intro i j hw
    injection hw with hw
    subst hw
    rfl
  | cons m cs ih =>
    intro i j hw
    rw [H5.walk] at hw
    split at hw
    · rename_i ch a hs
      split at hw
      · rename_i k hk
        have := ih hw
        rw [← this]
        cases cs with
        | nil =>
          show link t s i (m :: n :: []) = _
          rw [link, hs]
          simp only [hk]
          rfl
        | cons d cs =>
          show link t s i (m :: d :: (cs ++ [n])) = _
          rw [link, hs]
          simp only [hk]
          rfl
      · cases hw
    · cases hw

/-- C39: the same with the path of a group and a name in it, as the writers use it:
`makeLink(parent, src, group.name + "/" + n)`. -/
theorem C39_makeLink_path (s : H5) (h g src : HRef) (n : Str) (ch : Dict Nat) (a : Dict AVal)
    (node : HNode) (hroot : H5.walk s 0 src.path = some src.id) (hp : ∀ m ∈ src.path, Plain m)
    (hsrc : s[src.id]? = some node) (hg : s[g.id]? = some (.group ch a))
    (hgr : H5.walk s 0 g.path = some g.id) (hgp : ∀ m ∈ g.path, Plain m) (hgne : g.path ≠ [])
    (hn : Plain n) (hf : ch.has n = false) :
    ∃ s' ch' a', makeLink h src (nameOf g ++ p!"/" ++ n) s = (s', .ok ()) ∧ s'.length = s.length ∧
      s'[g.id]? = some (.group ch' a') ∧ ch'.get? n = some src.id ∧
      (∀ m, m ≠ n → ch'.get? m = ch.get? m) ∧
      (∀ i, i < s.length → i ≠ g.id → i ≠ src.id → s'[i]? = s[i]?) ∧
      ∃ node', s'[src.id]? = some node' ∧
        node'.attrs.get? p!"target" =
          some ((node.attrs.get? p!"target").getD (.str (nameOf src))) ∧
        ∀ k, k ≠ p!"target" → node'.attrs.get? k = node.attrs.get? k := by
  refine makeLink_at s h g src _ n ch a node hroot hp hsrc hg hn.single hf ?_
  intro s' hgrow _ t' hl
  have hname : nameOf g ++ p!"/" ++ n = nameOf ⟨0, g.path ++ [n]⟩ := by
    unfold nameOf
    rw [join_snoc ['/'] g.path n hgne]
    simp
  rw [hname, comps_path _ (by
    intro m hm
    rcases List.mem_append.1 hm with hm | hm
    · exact hgp m hm
    · simp only [List.mem_singleton] at hm
      exact hm ▸ hn)]
  have ha : absolute (ascii (nameOf ⟨0, g.path ++ [n]⟩)) = true := by
    have := absolute_nameOf ⟨0, g.path ++ [n]⟩ []
    rwa [List.append_nil] at this
  have hb : base h (ascii (nameOf ⟨0, g.path ++ [n]⟩)) = root := by simp [base, ha]
  rw [hb, show root.id = 0 from rfl, link_walk src.id n g.path (hgrow.walk _ hgr)]
  exact hl

/-- C39: two paths of one object stay paths of one object in every later history of making and
opening groups, making datasets, setting attributes and making links: what is done through one is
seen through the other. -/
theorem C39_shared_forever (s : H5) (p q : List Str) (i : Nat) (hp : H5.walk s 0 p = some i)
    (hq : H5.walk s 0 q = some i) (ops : List EzOp) :
    H5.walk (history ops s) 0 p = some i ∧ H5.walk (history ops s) 0 q = some i ∧
    objAt (history ops s) p = objAt (history ops s) q := by
  have g := grows_history ops s
  refine ⟨g.walk p hp, g.walk q hq, ?_⟩
  unfold objAt
  rw [g.walk p hp, g.walk q hq]

/-- an entry with a group, and an instrument group -/
def twoGroups : H5 :=
  [.group [(p!"S1", 1)] [], .group [(p!"MCA", 2), (p!"instrument", 3)] [],
   .group [] [], .group [] []]

theorem C39_nonvacuous :
    H5.walk twoGroups 0 [p!"S1", p!"MCA"] = some 2 ∧
    H5.walk twoGroups 0 [p!"S1", p!"instrument"] = some 3 ∧
    Plain p!"S1" ∧ Plain p!"MCA" ∧ Plain p!"instrument" ∧
    (let t := (makeLink ⟨1, [p!"S1"]⟩ ⟨2, [p!"S1", p!"MCA"]⟩ p!"/S1/instrument/MCA" twoGroups).1
     H5.walk t 0 [p!"S1", p!"instrument", p!"MCA"] = some 2 ∧
     attrAt t [p!"S1", p!"MCA"] p!"target" = some (.str p!"/S1/MCA") ∧
     datasetAt (history [.makeDataset ⟨2, []⟩ p!"n" (.num (.int 4)) []] t)
       [p!"S1", p!"instrument", p!"MCA", p!"n"] = some (.nums ⟨[.int 4], [1]⟩, [])) := by
  decide

/-! ## C66: write and read back -/

theorem walk_stored {s : H5} {h : HRef} {ch : Dict Nat} {a : Dict AVal} {n : Str} {i : Nat}
    (hs : s[h.id]? = some (.group ch a)) (hn : Single n) (hi : ch.get? n = some i) {d : HData}
    {b : Dict AVal} (hd : s[i]? = some (.dset d b)) :
    readNexusField h n s = (s, fieldOf d) := by
  unfold readNexusField
  have hh : ch.has n = true := by simp [Dict.has, hi]
  rw [HM.bind_ok (contains_eq hs hn), hh]
  simp only [if_true]
  rw [HM.bind_ok (get_eq hs hn hi)]
  unfold HM.lookE
  simp only [hd]

theorem fieldOf_2d (f : List Num) (a b : Nat) (sh : List Nat) :
    fieldOf (.nums ⟨f, a :: b :: sh⟩) = .error .RuntimeError := by
  unfold fieldOf
  simp

theorem toH_rows (r : List Num) (rs : List (List Num)) :
    (PData.rows (r :: rs)).toH = if rs.all (fun r' => r'.length == r.length) then
      .ok (.nums ⟨unify (r :: rs).flatten, [rs.length + 1, r.length]⟩) else .error .ValueError := rfl

theorem unify_sameType (l : List Num) : unify l = sameType l := by
  unfold unify sameType
  split
  · rename_i h
    obtain ⟨n, hn, hp⟩ := List.any_eq_true.1 h
    split
    · rename_i hf
      exact absurd hp (List.filter_eq_nil_iff.1 hf n hn)
    · exact List.map_congr_left (fun n _ => by cases n <;> rfl)
  · rename_i h
    split
    · rfl
    · rename_i a as hf
      have := List.mem_filter.1 (hf ▸ (List.mem_cons_self : a ∈ a :: as))
      exact absurd (List.any_eq_true.2 ⟨a, this.1, this.2⟩) h

/-- C66: what is written with `write_dataset` is read back by `read_nexus_field` as the table
`readBack` says; the numbers are the same numbers and the texts are the same but for non-ASCII
characters. Data that cannot be stored (rows of different lengths) are refused. -/
theorem C66_round_trip (s : H5) (h : HRef) (ch : Dict Nat) (a : Dict AVal) (n : Str) (d : PData)
    (hs : s[h.id]? = some (.group ch a)) (hw : ch.keys.Nodup) (hn : Single n) (attr : Dict AVal) :
    (∀ v, d.toH = .ok v →
      ∃ s' r, writeDataset h n d attr s = (s', .ok r) ∧
        readNexusField h n s' = (s', readBack d)) ∧
    ((∃ e, d.toH = .error e) ↔ ∃ l, d = .rows l ∧ Ragged l) := by
  constructor
  · intro v hd
    have hl := lt_of_get? hs
    refine ⟨_, _, writeDataset_eq hs hw hn hd attr, ?_⟩
    rw [walk_stored (ch := (ch.del n).set n s.length) (a := a) (i := s.length) (d := v)
      (b := Dict.update [] (noteAttrs d attr))
      (by rw [List.getElem?_append_left (by simpa using hl), set_get? _ _ _ _ hl, if_pos rfl]) hn
      (Dict.get?_set_self _ _ _) (by rw [List.getElem?_append_right (by simp)]; simp)]
    congr 1
    cases d with
    | none => injection hd with hd; subst hd; rfl
    | str t => injection hd with hd; subst hd; rfl
    | num x => injection hd with hd; subst hd; rfl
    | strs l =>
      match l, hd with
      | [], hd => injection hd with hd; subst hd; rfl
      | [t], hd => injection hd with hd; subst hd; rfl
      | t :: u :: l, hd => injection hd with hd; subst hd; rfl
    | nums l =>
      injection hd with hd; subst hd
      match l with
      | [] => rfl
      | [x] => cases x <;> rfl
      | x :: y :: l =>
        have key : ∀ u v w, fieldOf (.nums ⟨u :: v :: w, [(x :: y :: l).length]⟩) =
          .ok (.nums (u :: v :: w)) := fun _ _ _ => rfl
        show fieldOf (.nums ⟨unify (x :: y :: l), [_]⟩) = .ok (.nums (sameType (x :: y :: l)))
        rw [← unify_sameType]
        unfold unify
        split
        · exact key _ _ _
        · exact key _ _ _
    | nd arr =>
      obtain ⟨flat, shape⟩ := arr
      match shape, hd with
      | [], hd => injection hd with hd; subst hd; rfl
      | 0 :: sh, hd => injection hd with hd; subst hd; cases sh <;> rfl
      | (k + 1) :: [], hd => injection hd with hd; subst hd; rfl
      | (k + 1) :: b :: sh, hd =>
        injection hd with hd; subst hd
        exact fieldOf_2d _ _ _ _
    | rows l =>
      match l, hd with
      | [], hd => injection hd with hd; subst hd; rfl
      | r :: rs, hd =>
        rw [toH_rows] at hd
        split at hd
        · injection hd with hd; subst hd
          exact fieldOf_2d _ _ _ _
        · cases hd
    | range k =>
      injection hd with hd; subst hd
      exact fieldOf_2d _ _ _ _
  · constructor
    · rintro ⟨e, he⟩
      cases d with
      | none => cases he
      | str t => cases he
      | num x => cases he
      | strs l =>
        match l, he with
        | [], he => cases he
        | t :: l, he => cases he
      | nums l => cases he
      | nd arr =>
        obtain ⟨flat, shape⟩ := arr
        match shape, he with
        | [], he => cases he
        | 0 :: sh, he => cases he
        | (k + 1) :: sh, he => cases he
      | rows l =>
        refine ⟨l, rfl, ?_⟩
        match l, he with
        | [], he => cases he
        | r :: rs, he =>
          rw [toH_rows] at he
          split at he
          · cases he
          · rename_i hne
            rw [List.all_eq_true] at hne
            push_neg at hne
            obtain ⟨r', hr', hx⟩ := hne
            refine ⟨r, List.mem_cons_self .., r', List.mem_cons_of_mem _ hr', ?_⟩
            intro e
            exact hx (by simp [e])
      | range k => cases he
    · rintro ⟨l, rfl, r1, h1, r2, h2, hne⟩
      match l, h1, h2 with
      | r :: rs, h1, h2 =>
        refine ⟨.ValueError, ?_⟩
        rw [toH_rows]
        rw [if_neg]
        intro hall
        rw [List.all_eq_true] at hall
        have key : ∀ x ∈ r :: rs, x.length = r.length := by
          intro x hx
          rcases List.mem_cons.1 hx with rfl | hx
          · rfl
          · simpa using hall x hx
        exact hne ((key r1 h1).trans (key r2 h2).symm)

/-- C66: reading a name that is not there gives None and changes nothing. -/
theorem C66_missing (s : H5) (h : HRef) (ch : Dict Nat) (a : Dict AVal) (n : Str)
    (hs : s[h.id]? = some (.group ch a)) (hn : Single n) (hf : ch.has n = false) :
    readNexusField h n s = (s, .ok .none) := by
  unfold readNexusField
  rw [HM.bind_ok (contains_eq hs hn), hf]
  rfl

/-- C66: reading never changes the file -/
theorem C66_read_only (s : H5) (h : HRef) (n : Str) : (readNexusField h n s).1 = s := by
  unfold readNexusField
  have hc : contains h n s = (s, .ok ((walk s (base h n).id (comps n)).isSome)) := rfl
  rw [HM.bind_ok hc]
  cases hw : walk s (base h n).id (comps n) with
  | none => rfl
  | some i =>
    have hg : H5.get h n s = (s, .ok ⟨i, (base h n).path ++ comps n⟩) := by
      unfold H5.get HM.lookE
      beta_reduce
      rw [hw]
    simp only [Option.isSome_some, if_true]
    rw [HM.bind_ok hg]
    rfl

theorem group_go (s : H5) (g : HRef) : ∀ (ks : List Str) (d0 : Dict Field),
    (readNexusGroupFields.go g ks d0 s).1 = s ∧
    ((∀ k ∈ ks, ∃ v, readNexusField g k s = (s, .ok v)) → ∃ d, (readNexusGroupFields.go g ks d0 s).2 = .ok d) ∧
    ∀ d, (readNexusGroupFields.go g ks d0 s).2 = .ok d → d0.keys.Nodup → 
      (∀ k, k ∈ d.keys ↔ k ∈ d0.keys ∨ k ∈ ks) ∧ d.keys.Nodup ∧
      ∀ k, (k ∈ ks → ∃ v, d.get? k = some v ∧ readNexusField g k s = (s, .ok v)) ∧
        (k ∉ ks → d.get? k = d0.get? k)
  | [], d0 => ⟨rfl, fun _ => ⟨d0, rfl⟩, fun d h hn => by
      cases h
      exact ⟨by simp, hn, fun k => ⟨(fun h => by simp at h), (fun _ => rfl)⟩⟩⟩
  | k0 :: ks, d0 => by
    have hro := C66_read_only s g k0
    generalize hv : readNexusField g k0 s = r at *
    obtain ⟨s1, r⟩ := r
    simp only at hro
    subst hro
    cases r with
    | error e =>
      have he : readNexusGroupFields.go g (k0 :: ks) d0 s1 = (s1, .error e) := by
        simp only [readNexusGroupFields.go, HM.andThen, hv]
      rw [he]
      refine ⟨rfl, ?_, fun d h => by cases h⟩
      intro h
      obtain ⟨v, h⟩ := h k0 (by simp)
      rw [hv] at h; cases h
    | ok v =>
      have he : readNexusGroupFields.go g (k0 :: ks) d0 s1 = readNexusGroupFields.go g ks (d0.set k0 v) s1 := by
        simp only [readNexusGroupFields.go, HM.andThen, hv]
      rw [he]
      obtain ⟨h1, h2, h3⟩ := group_go s1 g ks (d0.set k0 v)
      refine ⟨h1, fun h => h2 (fun k hk => h k (by simp [hk])), fun d hd hn => ?_⟩
      obtain ⟨a1, a2, a3⟩ := h3 d hd (Dict.nodup_keys_set _ _ _ hn)
      refine ⟨fun k => ?_, a2, fun k => ⟨fun hk => ?_, fun hk => ?_⟩⟩
      · rw [a1 k, Dict.keys_set]
        by_cases hm : k0 ∈ d0.keys
        · rw [if_pos hm]
          constructor
          · rintro (h | h)
            · exact .inl h
            · exact .inr (by simp [h])
          · rintro (h | h)
            · exact .inl h
            · rcases List.mem_cons.1 h with rfl | h
              · exact .inl hm
              · exact .inr h
        · rw [if_neg hm]; simp [or_assoc]
      · by_cases hk2 : k ∈ ks
        · exact (a3 k).1 hk2
        · rcases List.mem_cons.1 hk with rfl | h
          · exact ⟨v, by rw [(a3 _).2 hk2]; exact Dict.get?_set_self _ _ _, hv⟩
          · exact absurd h hk2
      · simp only [List.mem_cons, not_or] at hk
        rw [(a3 k).2 hk.2]
        exact Dict.get?_set_ne _ _ (Ne.symm hk.1)

/-- C66: reading fields of a group reads each of them, and only them, from the group of this name; a
field that is not there is given as None (no KeyError is raised for it); if the group is not there, a
KeyError is raised.  The file is not changed. -/
theorem C66_group (s : H5) (h g : HRef) (n : Str) (fields : List Str) :
    (H5.get h n s = (s, .ok g) →
      (∀ d, (readNexusGroupFields h n fields s).2 = .ok d →
        (∀ k, k ∈ d.keys ↔ k ∈ fields) ∧ d.keys.Nodup ∧
        ∀ k ∈ fields, ∃ v, d.get? k = some v ∧ readNexusField g k s = (s, .ok v)) ∧
      ((∀ k ∈ fields, ∃ v, readNexusField g k s = (s, .ok v)) → ∃ d, (readNexusGroupFields h n fields s).2 = .ok d)) ∧
    (∀ e, H5.get h n s = (s, .error e) → (readNexusGroupFields h n fields s).2 = .error e) ∧
    (readNexusGroupFields h n fields s).1 = s := by
  refine ⟨fun hg => ?_, fun e hg => ?_, ?_⟩
  · unfold readNexusGroupFields
    rw [HM.bind_ok hg]
    obtain ⟨h1, h2, h3⟩ := group_go s g fields []
    refine ⟨fun d hd => ?_, h2⟩
    obtain ⟨a1, a2, a3⟩ := h3 d hd (by simp [Dict.keys])
    exact ⟨fun k => (a1 k).trans (by simp [Dict.keys]), a2, fun k hk => (a3 k).1 hk⟩
  · unfold readNexusGroupFields
    show (HM.andThen _ _ s).2 = _
    unfold HM.andThen
    rw [hg]
  · unfold readNexusGroupFields
    show (HM.andThen _ _ s).1 = _
    unfold HM.andThen
    have hst : (H5.get h n s).1 = s := rfl
    cases hg : H5.get h n s with
    | mk t r =>
      rw [hg] at hst
      simp only at hst
      subst hst
      cases r with
      | error e => rfl
      | ok g => exact (group_go t g fields []).1

theorem C66_nonvacuous :
    readBack (.strs [p!"a", p!"b"]) = .ok (.bytes [p!"a", p!"b"]) ∧
    readBack (.nums [.int 1, .int 2]) = .ok (.nums [.int 1, .int 2]) ∧
    (PData.rows [[.int 1], []]).toH = .error .ValueError ∧
    (readNexusField root p!"x" linked).2 = .ok (.num (.int 1)) ∧
    (readNexusGroupFields root p!"/" [p!"x", p!"none"] linked).2 = .ok [(p!"x", .num (.int 1)), (p!"none", .none)] ∧
    readBack (.nums [.int 1, .flt (.fin 2)]) = .ok (.nums [.flt (.fin 1), .flt (.fin 2)]) := by decide +kernel

end S2N.Props
