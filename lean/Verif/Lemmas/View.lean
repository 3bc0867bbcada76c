import Verif.Lemmas.WriterConf
import Verif.Lemmas.H5Exact
import Mathlib.Data.List.Forall2
/-
What the writers of the data group leave in the file, exactly.
-/
namespace S2N
open Py H5 Eznx Writer

/-- datasets of a group: name, contents, attributes -/
abbrev Sets := Dict (HData × Dict AVal)

/-- write the dataset `n`, replacing one of that name -/
def Sets.put (V : Sets) (n : Str) (v : HData) (a : Dict AVal) : Sets := V.del n ++ [(n, (v, a))]

/-- The file is `pre`, then a group with attributes `A` and with the datasets `V` as members, then
datasets only. -/
def View (pre : List HNode) (V : Sets) (A : Dict AVal) (s : H5) : Prop :=
  ∃ ch tail, s = pre ++ HNode.group ch A :: tail ∧ (Dict.keys ch).Nodup ∧
    (∀ n ∈ tail, ∃ d a, n = HNode.dset d a) ∧
    List.Forall₂ (fun (p : Str × Nat) (q : Str × (HData × Dict AVal)) => p.1 = q.1 ∧ pre.length < p.2 ∧
      s[p.2]? = some (.dset q.2.1 q.2.2)) ch V

theorem Dict.forall2_del {α β : Type} {R : Str × α → Str × β → Prop} (hR : ∀ p q, R p q → p.1 = q.1)
    {d : Dict α} {e : Dict β} (h : List.Forall₂ R d e) (n : Str) :
    List.Forall₂ R (d.del n) (e.del n) := by
  induction h with
  | nil => exact .nil
  | cons hh ht ih =>
    rename_i p q d e
    obtain ⟨k, v⟩ := p
    obtain ⟨k', v'⟩ := q
    have : k = k' := hR _ _ hh
    subst this
    unfold Dict.del
    split
    · exact ht
    · exact .cons hh ih

theorem Dict.forall2_keys {α β : Type} {R : Str × α → Str × β → Prop} (hR : ∀ p q, R p q → p.1 = q.1)
    {d : Dict α} {e : Dict β} (h : List.Forall₂ R d e) : Dict.keys d = Dict.keys e := by
  induction h with
  | nil => rfl
  | cons hh ht ih =>
    rw [Dict.keys, Dict.keys, List.map_cons, List.map_cons, hR _ _ hh]
    exact congrArg _ ih

theorem View.nodup {pre : List HNode} {V : Sets} {A : Dict AVal} {s : H5} (h : View pre V A s) :
    (Dict.keys V).Nodup := by
  obtain ⟨ch, tail, _, h1, _, h2⟩ := h
  rw [← Dict.forall2_keys (fun _ _ h => h.1) h2]; exact h1

theorem forall2_mono_snoc {pre : List HNode} {ch : Dict Nat} {V : Sets} {s s' : H5}
    (hs : ∀ j, pre.length < j → ∀ d a, s[j]? = some (.dset d a) → s'[j]? = some (.dset d a))
    (h : List.Forall₂ (fun (p : Str × Nat) (q : Str × (HData × Dict AVal)) => p.1 = q.1 ∧ pre.length < p.2 ∧
      s[p.2]? = some (.dset q.2.1 q.2.2)) ch V) :
    List.Forall₂ (fun (p : Str × Nat) (q : Str × (HData × Dict AVal)) => p.1 = q.1 ∧ pre.length < p.2 ∧
      s'[p.2]? = some (.dset q.2.1 q.2.2)) ch V :=
  h.imp fun _ _ ⟨h1, h2, h3⟩ => ⟨h1, h2, hs _ h2 _ _ h3⟩

/-- a handle of the group -/
def AtGroup (pre : List HNode) (g : HRef) : Prop := g.id = pre.length

theorem View.node {pre : List HNode} {V : Sets} {A : Dict AVal} {s : H5} (h : View pre V A s) :
    ∃ ch, s[pre.length]? = some (.group ch A) ∧ (Dict.keys ch).Nodup := by
  obtain ⟨ch, tail, rfl, h1, _, _⟩ := h
  exact ⟨ch, by simp, h1⟩

theorem View.write {pre : List HNode} {V : Sets} {A : Dict AVal} {s s' : H5} {g : HRef}
    (h : View pre V A s) (hg : AtGroup pre g) {n : Str} (hn : Single n) {d : PData} {a : Dict AVal} {r : HRef}
    (hw : writeDataset g n d a s = (s', .ok r)) :
    ∃ v, d.toH = .ok v ∧ View pre (V.put n v (Dict.update [] (noteAttrs d a))) A s' := by
  obtain ⟨ch, tail, rfl, h1, h2, h3⟩ := h
  have hnode : (pre ++ HNode.group ch A :: tail)[g.id]? = some (.group ch A) := by rw [hg]; simp
  cases hd : d.toH with
  | error e =>
    exfalso
    unfold writeDataset at hw
    obtain ⟨t, _, _, hw⟩ := HM.bind_inv hw
    unfold makeDataset at hw
    obtain ⟨t, v, hl, _⟩ := HM.bind_inv hw
    rw [(HM.lift_inv hl).1] at hd
    cases hd
  | ok v =>
    rw [writeDataset_eq hnode h1 hn hd a] at hw
    injection hw with hw _
    refine ⟨v, rfl, (ch.del n).set n (pre ++ HNode.group ch A :: tail).length,
      tail ++ [.dset v (Dict.update [] (noteAttrs d a))], ?_, ?_, ?_, ?_⟩
    · rw [← hw, hg]
      simp
    · exact Dict.nodup_keys_set _ _ _ (Dict.nodup_keys_del _ _ h1)
    · intro x hx
      rcases List.mem_append.1 hx with e | e
      · exact h2 x e
      · exact ⟨_, _, List.mem_singleton.1 e⟩
    · have hnot : n ∉ Dict.keys (ch.del n) := by
        have := Dict.has_del_self ch n h1
        rw [Dict.not_has_iff] at this
        exact this
      rw [Dict.set_of_not_mem _ _ _ hnot]
      unfold Sets.put
      refine List.rel_append ?_ (.cons ⟨rfl, by simp, ?_⟩ .nil)
      · refine Dict.forall2_del (fun _ _ h => h.1) (forall2_mono_snoc ?_ h3) n
        intro j hj d' a' hs
        rw [← hw]
        have hlt := lt_of_get? hs
        rw [List.getElem?_append_left (by simpa using hlt), set_get? _ _ _ _ (lt_of_get? hnode),
          if_neg (by rw [hg]; omega)]
        exact hs
      · rw [← hw]
        simp

theorem View.attrs {pre : List HNode} {V : Sets} {A : Dict AVal} {s s' : H5} {g : HRef}
    (h : View pre V A s) (hg : AtGroup pre g) {a : Dict AVal} {r : Unit}
    (hw : addAttributes g a s = (s', .ok r)) : View pre V (A.update a) s' := by
  obtain ⟨ch, tail, rfl, h1, h2, h3⟩ := h
  have hnode : (pre ++ HNode.group ch A :: tail)[g.id]? = some (.group ch A) := by rw [hg]; simp
  rw [addAttributes_eq a hnode] at hw
  injection hw with hw _
  refine ⟨ch, tail, ?_, h1, h2, forall2_mono_snoc ?_ h3⟩
  · rw [← hw, hg]; simp [HNode.withAttrs, HNode.attrs]
  · intro j hj d' a' hs
    rw [← hw, set_get? _ _ _ _ (lt_of_get? hnode), if_neg (by rw [hg]; omega)]
    exact hs

/-- a group just made -/
theorem View.fresh (pre : List HNode) (A : Dict AVal) : View pre [] A (pre ++ [.group [] A]) :=
  ⟨[], [], rfl, by simp [Dict.keys], by simp, .nil⟩

section
variable [UniDB]

theorem View.ds {pre : List HNode} {V : Sets} {A : Dict AVal} {s s' : H5} {g : HRef}
    (h : View pre V A s) (hg : AtGroup pre g) {label : Str} {d : PData} {a : Dict AVal} {r : Unit}
    (hw : writeDs g label d a s = (s', .ok r)) :
    ∃ n v, cleanName label = .ok n ∧ d.toH = .ok v ∧
      View pre (V.put n v (Dict.update [] (noteAttrs d ((p!"spec_name", AVal.str label) :: a)))) A s' := by
  unfold writeDs at hw
  obtain ⟨n, h1, hw2⟩ := HM.bind_lift_inv hw
  obtain ⟨_, r', h2⟩ := HM.bind_pure_inv hw2
  obtain ⟨v, h3, h4⟩ := h.write hg (clean_single h1) h2
  exact ⟨n, v, h1, h3, h4⟩

/-- what `write_ds` is called with: label, data, further attributes -/
abbrev DsOp := Str × PData × Dict AVal

/-- the dataset that a call of `write_ds` leaves -/
def OpPut (o : DsOp) (q : Str × (HData × Dict AVal)) : Prop :=
  cleanName o.1 = .ok q.1 ∧ o.2.1.toH = .ok q.2.1 ∧
    q.2.2 = Dict.update [] (noteAttrs o.2.1 ((p!"spec_name", AVal.str o.1) :: o.2.2))

/-- several puts -/
def Sets.puts (V : Sets) (qs : Sets) : Sets := qs.foldl (fun V q => V.put q.1 q.2.1 q.2.2) V

theorem puts_append (V : Sets) (p q : Sets) : V.puts (p ++ q) = (V.puts p).puts q := by
  unfold Sets.puts; rw [List.foldl_append]

/-- the effect of a computation on the group -/
def Eff (pre : List HNode) (ops : List DsOp) (s s' : H5) : Prop :=
  ∀ V A, View pre V A s → ∃ qs, List.Forall₂ OpPut ops qs ∧ View pre (V.puts qs) A s'

theorem Eff.refl (pre : List HNode) (s : H5) : Eff pre [] s s := fun V A h => ⟨[], .nil, h⟩

theorem Eff.trans {pre : List HNode} {p q : List DsOp} {s t u : H5} (h : Eff pre p s t) (k : Eff pre q t u) :
    Eff pre (p ++ q) s u := by
  intro V A hv
  obtain ⟨qs, h1, h2⟩ := h V A hv
  obtain ⟨rs, h3, h4⟩ := k _ A h2
  exact ⟨qs ++ rs, List.rel_append h1 h3, by rw [puts_append]; exact h4⟩

theorem eff_ds {pre : List HNode} {g : HRef} (hg : AtGroup pre g) {s s' : H5} {label : Str} {d : PData}
    {a : Dict AVal} {r : Unit} (hw : writeDs g label d a s = (s', .ok r)) : Eff pre [(label, d, a)] s s' := by
  intro V A hv
  obtain ⟨n, v, h1, h2, h3⟩ := hv.ds hg hw
  exact ⟨[(n, (v, _))], .cons ⟨h1, h2, rfl⟩ .nil, h3⟩

theorem eff_each {α : Type} {pre : List HNode} {f : α → HM Unit} {ops : α → List DsOp} :
    ∀ (as : List α) {s s' : H5} {r : Unit}, (∀ a ∈ as, ∀ s s', f a s = (s', .ok ()) → Eff pre (ops a) s s') →
    HM.each f as s = (s', .ok r) → Eff pre (as.flatMap ops) s s'
  | [], s, s', r, _, h => by
    obtain ⟨_, rfl⟩ := HM.ret_inv h
    exact Eff.refl pre _
  | a :: as, s, s', r, hf, h => by
    obtain ⟨t, h1, h2⟩ := HM.each_inv_cons h
    rw [List.flatMap_cons]
    exact (hf a (by simp) s t h1).trans (eff_each as (fun a ha => hf a (by simp [ha])) h2)

/-- the calls of `write_ds` for one spectrum -/
def spectrumOps (x : Obj) (axis : Str) (kv : Str × List (List Num)) : List DsOp :=
  let ds := p!"_" ++ kv.1 ++ p!"_"
  let n := (kv.2.headD []).length
  [(ds, .rows kv.2, [(p!"axes", .str (axis ++ p!":" ++ ds ++ p!"channel_")), (p!"units", .str p!"counts")]),
   (ds ++ p!"channel_", .nums (upTo n), attr1 p!"units" p!"channel"),
   (ds ++ p!"channel_scaled_x", .nums (scaledX x n), attr1 p!"units" [])]

/-- the values of a column -/
def colValues (x : Obj) (label : Str) : List PyFloat :=
  match x.data.get? label with
  | some (.col xs) => xs
  | _ => []

/-- the call of `write_ds` for one column -/
def columnOp (x : Obj) (label : Str) : DsOp := (label, flts (colValues x label), [])

/-- the spectra of a scan -/
def spectra (x : Obj) : List (Str × List (List Num)) :=
  match x.data.get? p!"_mca_" with
  | some (.mca m) => sortedItems m
  | _ => []

theorem spectrum_eff {pre : List HNode} {g : HRef} (hg : AtGroup pre g) {x : Obj} {axis : Str}
    {kv : Str × List (List Num)} {s s' : H5} {r : Unit} (h : spectrum g x axis kv s = (s', .ok r)) :
    kv.2 ≠ [] ∧ Eff pre (spectrumOps x axis kv) s s' := by
  unfold spectrum at h
  obtain ⟨t1, _, h1, h2⟩ := HM.bind_inv h
  obtain ⟨n, h3, h4⟩ := HM.bind_lift_inv h2
  obtain ⟨t2, _, h5, h6⟩ := HM.bind_inv h4
  unfold channels at h3
  cases e : kv.2 with
  | nil => rw [e] at h3; cases h3
  | cons a as =>
    rw [e] at h3
    simp only [Except.ok.injEq] at h3
    have : n = (kv.2.headD []).length := by rw [e, ← h3]; rfl
    subst this
    refine ⟨by simp, ?_⟩
    exact (eff_ds hg h1).trans ((eff_ds hg h5).trans (eff_ds hg h6))

theorem mcaItems_ok {x : Obj} {s s' : H5} {items : List (Str × List (List Num))}
    (h : mcaItems x s = (s', .ok items)) : items = spectra x ∧ s' = s ∧
      ∀ xs, x.data.get? p!"_mca_" ≠ some (.col xs) := by
  unfold mcaItems at h
  unfold spectra
  cases e : x.data.get? p!"_mca_" with
  | none => rw [e] at h; obtain ⟨rfl, rfl⟩ := HM.ret_inv h; simp
  | some c =>
    rw [e] at h
    cases c with
    | mca m => obtain ⟨rfl, rfl⟩ := HM.ret_inv h; simp
    | col xs => cases h

theorem mcaSpectra_eff {pre : List HNode} {g : HRef} (hg : AtGroup pre g) {x : Obj} {axis : Str}
    {s s' : H5} {r : Unit} (h : mcaSpectra g x axis s = (s', .ok r)) :
    Eff pre ((spectra x).flatMap (spectrumOps x axis)) s s' := by
  unfold mcaSpectra at h
  obtain ⟨t, items, h1, h2⟩ := HM.bind_inv h
  obtain ⟨rfl, rfl, _⟩ := mcaItems_ok h1
  exact eff_each _ (fun kv _ s s' h => (spectrum_eff hg h).2) h2

theorem column_eff {pre : List HNode} {g : HRef} (hg : AtGroup pre g) {x : Obj} {label : Str}
    {s s' : H5} {r : Unit} (h : column g x label s = (s', .ok r)) :
    (∃ xs, x.data.get? label = some (.col xs)) ∧ Eff pre [columnOp x label] s s' := by
  unfold column at h
  cases e : x.data.get? label with
  | none => rw [e] at h; cases h
  | some c =>
    rw [e] at h
    obtain ⟨d, h1, h2⟩ := HM.bind_lift_inv h
    cases c with
    | mca m => cases h1
    | col xs =>
      simp only [colData, Except.ok.injEq] at h1
      subst h1
      refine ⟨⟨xs, rfl⟩, ?_⟩
      have : columnOp x label = (label, flts xs, []) := by simp [columnOp, colValues, e]
      rw [this]
      exact eff_ds hg h2

theorem columns_eff {pre : List HNode} {g : HRef} (hg : AtGroup pre g) {x : Obj} : ∀ (labels : List Str)
    {s s' : H5} {r : Unit}, HM.each (column g x) labels s = (s', .ok r) →
    (∀ l ∈ labels, ∃ xs, x.data.get? l = some (.col xs)) ∧ Eff pre (labels.map (columnOp x)) s s'
  | [], s, s', r, h => by
    obtain ⟨_, rfl⟩ := HM.ret_inv h
    exact ⟨by simp, Eff.refl pre _⟩
  | l :: ls, s, s', r, h => by
    obtain ⟨t, h1, h2⟩ := HM.each_inv_cons h
    obtain ⟨a1, a2⟩ := column_eff hg h1
    obtain ⟨b1, b2⟩ := columns_eff hg ls h2
    refine ⟨?_, a2.trans b2⟩
    intro l' hl'
    rcases List.mem_cons.1 hl' with rfl | hl'
    · exact a1
    · exact b1 l' hl'

omit [UniDB] in
theorem need_inv {α : Type} {o : Option α} {s s' : H5} {a : α} (h : need o s = (s', .ok a)) :
    o = some a ∧ s' = s := by
  unfold need at h
  split at h
  · obtain ⟨rfl, rfl⟩ := HM.ret_inv h; exact ⟨rfl, rfl⟩
  · cases h

/-- what `oneD` writes -/
def oneDOps (x : Obj) (axis : Str) : List DsOp :=
  (x.L.getD []).map (columnOp x) ++ (spectra x).flatMap (spectrumOps x axis)

theorem oneD_eff {pre : List HNode} {g : HRef} (hg : AtGroup pre g) {x : Obj} {s s' : H5} {r : Str × Str}
    (h : oneD g x s = (s', .ok r)) :
    (∀ l ∈ x.L.getD [], ∃ xs, x.data.get? l = some (.col xs)) ∧
    (∃ l, x.columnLast = some l ∧ cleanName l = .ok r.1) ∧
    (∃ l, x.columnFirst = some l ∧ cleanName l = .ok r.2) ∧ Eff pre (oneDOps x r.2) s s' := by
  unfold oneD at h
  obtain ⟨t1, _, h1, h2⟩ := HM.bind_inv h
  obtain ⟨t2, cl, h3, h4⟩ := HM.bind_inv h2
  obtain ⟨e1, e2⟩ := need_inv h3
  obtain ⟨sg, h5, h6⟩ := HM.bind_lift_inv h4
  obtain ⟨t3, cf, h7, h8⟩ := HM.bind_inv h6
  obtain ⟨e3, e4⟩ := need_inv h7
  obtain ⟨ax, h9, h10⟩ := HM.bind_lift_inv h8
  obtain ⟨rfl, _, h11⟩ := HM.bind_pure_inv h10
  rw [e4, e2] at h11
  obtain ⟨a1, a2⟩ := columns_eff hg _ h1
  exact ⟨a1, ⟨cl, e1, h5⟩, ⟨cf, e3, h9⟩, a2.trans (mcaSpectra_eff hg h11)⟩

/-! ## Mesh scans -/

omit [UniDB] in
theorem contains_state {g : HRef} {n : Str} {s s' : H5} {b : Bool} (h : H5.contains g n s = (s', .ok b)) :
    s' = s := by
  unfold H5.contains HM.look at h
  injection h with h _
  exact h.symm

theorem constantAxis_eff {pre : List HNode} {g : HRef} (hg : AtGroup pre g) {x : Obj} {l1 l2 : Str}
    {s s' : H5} {r : Unit} (h : constantAxis g x l1 l2 s = (s', .ok r)) :
    (startsWith x.scanCmd p!"hkl" = false ∧ s' = s) ∨
    (startsWith x.scanCmd p!"hkl" = true ∧ ∃ l3 v vs, ([p!"H", p!"K", p!"L"].filter (fun k => !(k == l1 || k == l2))).head? = some l3 ∧
      x.data.get? l3 = some (.col (v :: vs)) ∧ Eff pre [(l3, .num (.flt v), [])] s s') := by
  unfold constantAxis at h
  by_cases hc : startsWith x.scanCmd p!"hkl" = true
  · rw [if_pos hc] at h
    right
    refine ⟨hc, ?_⟩
    cases hf : [p!"H", p!"K", p!"L"].filter (fun k => !(k == l1 || k == l2)) with
    | nil => rw [hf] at h; cases h
    | cons l3 rest =>
      rw [hf] at h
      simp only at h
      cases e : x.data.get? l3 with
      | none => rw [e] at h; cases h
      | some c =>
        rw [e] at h
        cases c with
        | mca m => cases h
        | col xs =>
          cases xs with
          | nil => cases h
          | cons v vs => exact ⟨l3, v, vs, rfl, e, eff_ds hg h⟩
  · rw [if_neg hc] at h
    obtain ⟨_, rfl⟩ := HM.ret_inv h
    exact .inl ⟨by simpa using hc, rfl⟩

/-- the call of `write_ds` for one column of a mesh -/
def meshOp (x : Obj) (shape : List Nat) (label : Str) : DsOp :=
  (label, .nd (reshapeData (.flt .nan) ((colValues x label).map .flt) shape), [])

omit [UniDB] in
theorem axisOf_ok {x : Obj} {l : Str} {xs : List PyFloat} (h : axisOf x l = .ok xs) :
    x.data.get? l = some (.col xs) := by
  unfold axisOf at h
  cases e : x.data.get? l with
  | none => rw [e] at h; cases h
  | some c =>
    rw [e] at h
    cases c with
    | mca m => cases h
    | col ys => cases h; rfl

theorem meshColumn_eff {pre : List HNode} {g : HRef} (hg : AtGroup pre g) {x : Obj} {shape : List Nat}
    {label : Str} {s s' : H5} {r : Unit} (h : meshColumn g x shape label s = (s', .ok r)) :
    ∃ b, H5.contains g label s = (s, .ok b) ∧ (b = true → s' = s) ∧
      (b = false → (∃ xs, x.data.get? label = some (.col xs)) ∧ Eff pre [meshOp x shape label] s s') := by
  unfold meshColumn at h
  obtain ⟨t, b, h1, h2⟩ := HM.bind_inv h
  have e := contains_state h1
  subst e
  refine ⟨b, h1, ?_, ?_⟩
  · rintro rfl
    simp only [if_true] at h2
    exact (HM.pure_inv h2).2
  · rintro rfl
    simp only [Bool.false_eq_true, if_false] at h2
    obtain ⟨xs, h3, h4⟩ := HM.bind_lift_inv h2
    have e := axisOf_ok h3
    have : meshOp x shape label = (label, .nd (reshapeData (.flt .nan) (xs.map .flt) shape), []) := by
      simp [meshOp, colValues, e]
    rw [this]
    exact ⟨⟨xs, e⟩, eff_ds hg h4⟩

theorem meshColumns_eff {pre : List HNode} {g : HRef} (hg : AtGroup pre g) {x : Obj} {shape : List Nat} :
    ∀ (labels : List Str) {s s' : H5} {r : Unit}, HM.each (meshColumn g x shape) labels s = (s', .ok r) →
    ∃ ops, Eff pre ops s s'
  | [], s, s', r, h => by
    obtain ⟨_, rfl⟩ := HM.ret_inv h
    exact ⟨[], Eff.refl pre _⟩
  | l :: ls, s, s', r, h => by
    obtain ⟨t, h1, h2⟩ := HM.each_inv_cons h
    obtain ⟨b, _, a1, a2⟩ := meshColumn_eff hg h1
    obtain ⟨ops, h3⟩ := meshColumns_eff hg ls h2
    cases b with
    | true => rw [a1 rfl] at h3; exact ⟨ops, h3⟩
    | false => exact ⟨_, (a2 rfl).2.trans h3⟩

/-- the calls of `write_ds` for the spectra of a mesh; the shape grows with every spectrum -/
def meshSpectraOps (axes : Str) : List Nat → List (Str × List (List Num)) → List DsOp
  | _, [] => []
  | shape, kv :: rest =>
    let n := (kv.2.headD []).length
    let ds := p!"_" ++ kv.1 ++ p!"_"
    (ds, .nd (reshapeData (.flt .nan) (unify kv.2.flatten) (shape ++ [n])),
      [(p!"axes", .str (axes ++ p!":" ++ ds ++ p!"channel_")), (p!"units", .str p!"counts")]) ::
    (ds ++ p!"channel_", .range n, attr1 p!"units" p!"channel") :: meshSpectraOps axes (shape ++ [n]) rest

theorem meshSpectra_eff {pre : List HNode} {g : HRef} (hg : AtGroup pre g) {axes : Str} :
    ∀ (items : List (Str × List (List Num))) (shape : List Nat) {s s' : H5} {r : Unit},
    meshSpectra g axes (some shape) items s = (s', .ok r) → Eff pre (meshSpectraOps axes shape items) s s'
  | [], shape, s, s', r, h => by
    obtain ⟨_, rfl⟩ := HM.ret_inv h
    exact Eff.refl pre _
  | kv :: rest, shape, s, s', r, h => by
    unfold meshSpectra at h
    obtain ⟨n, h1, h2⟩ := HM.bind_lift_inv h
    simp only at h2
    by_cases hc : kv.2.all (fun r => r.length == n) = true
    · rw [if_pos hc] at h2
      obtain ⟨t1, _, h3, h4⟩ := HM.bind_inv h2
      obtain ⟨t2, _, h5, h6⟩ := HM.bind_inv h4
      unfold channels at h1
      cases e : kv.2 with
      | nil => rw [e] at h1; cases h1
      | cons a as =>
        rw [e] at h1
        simp only [Except.ok.injEq] at h1
        have hn : n = (kv.2.headD []).length := by rw [e, ← h1]; rfl
        subst hn
        exact (eff_ds hg h3).trans ((eff_ds hg h5).trans (meshSpectra_eff hg rest _ h6))
    · rw [if_neg hc] at h2
      cases h2

theorem meshSpectra_none {g : HRef} {axes : Str} (items : List (Str × List (List Num))) {s s' : H5} {r : Unit}
    (h : meshSpectra g axes none items s = (s', .ok r)) : items = [] ∧ s' = s := by
  cases items with
  | nil => obtain ⟨_, rfl⟩ := HM.ret_inv h; exact ⟨rfl, rfl⟩
  | cons kv rest =>
    unfold meshSpectra at h
    obtain ⟨n, _, h2⟩ := HM.bind_lift_inv h
    cases h2

/-- The run of `mesh` for a scan with enough points: what was found in the scan, and the stages. -/
structure MeshRun (pre : List HNode) (g : HRef) (x : Obj) (s s' : H5) (r : Str × Str × Obj) : Prop where
  ex : ∃ w1 n1 w2 n2 l1 l2 i1 i2 a1 a2 ax2 labels' labels t1 t2 t3,
    meshWords x.scanCmd = .ok (w1, n1, w2, n2) ∧ meshLabel x w1 0 = .ok l1 ∧ meshLabel x w2 1 = .ok l2 ∧
    Py.int n1 = .ok i1 ∧ Py.int n2 = .ok i2 ∧ x.data.get? l1 = some (.col a1) ∧ ¬ (a1.length : Int) < i1 ∧
    x.data.get? l2 = some (.col a2) ∧ everyNth (i1 + 1) a2 = .ok ax2 ∧
    pyRemove l1 (x.L.getD []) = .ok labels' ∧ pyRemove l2 labels' = .ok labels ∧
    constantAxis g x l1 l2 s = (t1, .ok ()) ∧
    Eff pre [(l1, flts (pySlice a1 (some 0) (some (i1 + 1))), []), (l2, flts ax2, [])] t1 t2 ∧
    HM.each (meshColumn g x [(pySlice a1 (some 0) (some (i1 + 1))).length, ax2.length]) labels t2 = (t3, .ok ()) ∧
    (∃ cl, x.columnLast = some cl ∧ cleanName cl = .ok r.1) ∧
    r.2.1 = l1 ++ p!":" ++ l2 ∧ r.2.2 = { x with L := some labels } ∧
    Eff pre (meshSpectraOps r.2.1 [(pySlice a1 (some 0) (some (i1 + 1))).length, ax2.length] (spectra x)) t3 s'

theorem mesh_run {pre : List HNode} {g : HRef} (hg : AtGroup pre g) {x : Obj} {s s' : H5}
    {r : Str × Str × Obj} (h : mesh g x s = (s', .ok r)) :
    MeshRun pre g x s s' r ∨
    (∃ w1 n1 w2 n2 l1 i1 a1, meshWords x.scanCmd = .ok (w1, n1, w2, n2) ∧ meshLabel x w1 0 = .ok l1 ∧
      Py.int n1 = .ok i1 ∧ x.data.get? l1 = some (.col a1) ∧ (a1.length : Int) < i1 ∧
      oneD g x s = (s', .ok (r.1, r.2.1)) ∧ r.2.2 = x ∧ spectra x = []) := by
  unfold mesh at h
  obtain ⟨⟨w1, n1, w2, n2⟩, h1, h⟩ := HM.bind_lift_inv h
  simp only at h
  obtain ⟨l1, h2, h⟩ := HM.bind_lift_inv h
  obtain ⟨l2, h3, h⟩ := HM.bind_lift_inv h
  obtain ⟨i1, h4, h⟩ := HM.bind_lift_inv h
  obtain ⟨i2, h5, h⟩ := HM.bind_lift_inv h
  obtain ⟨a1, h6, h⟩ := HM.bind_lift_inv h
  by_cases hc : (a1.length : Int) < i1
  · right
    rw [if_pos hc] at h
    obtain ⟨t1, ⟨sg, ax⟩, h7, h⟩ := HM.bind_inv h
    simp only at h
    obtain ⟨t2, items, h8, h⟩ := HM.bind_inv h
    obtain ⟨e1, e2, _⟩ := mcaItems_ok h8
    obtain ⟨rfl, _, h9⟩ := HM.bind_pure_inv h
    obtain ⟨e3, e4⟩ := meshSpectra_none _ h9
    refine ⟨w1, n1, w2, n2, l1, i1, a1, h1, h2, h4, axisOf_ok h6, hc, ?_, rfl, by rw [← e1, e3]⟩
    rw [h7, e4, e2]
  · left
    rw [if_neg hc] at h
    obtain ⟨a2, h7, h⟩ := HM.bind_lift_inv h
    obtain ⟨ax2, h8, h⟩ := HM.bind_lift_inv h
    obtain ⟨labels', h9, h⟩ := HM.bind_lift_inv h
    obtain ⟨labels, h10, h⟩ := HM.bind_lift_inv h
    obtain ⟨t1, _, h11, h⟩ := HM.bind_inv h
    obtain ⟨t2, _, h12, h⟩ := HM.bind_inv h
    obtain ⟨t3, _, h13, h⟩ := HM.bind_inv h
    obtain ⟨t4, _, h14, h⟩ := HM.bind_inv h
    obtain ⟨t5, cl, h15, h⟩ := HM.bind_inv h
    obtain ⟨e1, e2⟩ := need_inv h15
    obtain ⟨sg, h16, h⟩ := HM.bind_lift_inv h
    obtain ⟨t6, items, h17, h⟩ := HM.bind_inv h
    obtain ⟨e3, e4, _⟩ := mcaItems_ok h17
    obtain ⟨rfl, _, h18⟩ := HM.bind_pure_inv h
    rw [e4, e2, e3] at h18
    exact ⟨⟨w1, n1, w2, n2, l1, l2, i1, i2, a1, a2, ax2, labels', labels, t1, t3, t4, h1, h2, h3, h4, h5,
      axisOf_ok h6, hc, axisOf_ok h7, h8, h9, h10, h11, (eff_ds hg h12).trans (eff_ds hg h13), h14,
      ⟨cl, e1, h16⟩, rfl, rfl, meshSpectra_eff hg _ _ h18⟩⟩

theorem mesh_eff {pre : List HNode} {g : HRef} (hg : AtGroup pre g) {x : Obj} {s s' : H5}
    {r : Str × Str × Obj} (h : mesh g x s = (s', .ok r)) : ∃ ops, Eff pre ops s s' := by
  rcases mesh_run hg h with ⟨w1, n1, w2, n2, l1, l2, i1, i2, a1, a2, ax2, labels', labels, t1, t2, t3, hr⟩ |
    ⟨_, _, _, _, _, _, _, _, _, _, _, _, h1, _⟩
  · obtain ⟨_, _, _, _, _, _, _, _, _, _, _, h12, h13, h14, _, _, _, h18⟩ := hr
    obtain ⟨ops, h15⟩ := meshColumns_eff hg _ h14
    rcases constantAxis_eff hg h12 with ⟨_, e⟩ | ⟨_, _, _, _, _, _, e⟩
    · rw [e] at h13
      exact ⟨_, h13.trans (h15.trans h18)⟩
    · exact ⟨_, e.trans (h13.trans (h15.trans h18))⟩
  · exact ⟨_, (oneD_eff hg h1).2.2.2⟩

/-! ## The data group -/

/-- the attributes that `save_data` adds -/
def dataAttrs (signal axes : Str) : List (Dict AVal) :=
  if axes.contains ':' then
    let names := (splitC ':' axes).map ascii
    [(p!"signal", .str signal), (p!"axes", .strs names)] ::
      names.map (fun n => [(n ++ p!"_indices", .nums [.int 0])])
  else
    [[(p!"signal", .str signal), (p!"axes", .str axes)], [(axes ++ p!"_indices", .nums [.int 0])]]

omit [UniDB] in
theorem eachAttrs {pre : List HNode} {g : HRef} (hg : AtGroup pre g) {V : Sets} (f : Str → Dict AVal) :
    ∀ (ns : List Str) {s s' : H5} {A : Dict AVal} {r : Unit}, View pre V A s →
    HM.each (fun n => addAttributes g (f n)) ns s = (s', .ok r) →
    View pre V ((ns.map f).foldl Dict.update A) s'
  | [], s, s', A, r, hv, h => by
    obtain ⟨_, rfl⟩ := HM.ret_inv h
    exact hv
  | n :: ns, s, s', A, r, hv, h => by
    obtain ⟨t, h1, h2⟩ := HM.each_inv_cons h
    exact eachAttrs hg f ns (hv.attrs hg h1) h2

omit [UniDB] in
theorem dataAttributes_eff {pre : List HNode} {g : HRef} (hg : AtGroup pre g) {V : Sets} {A : Dict AVal}
    {s s' : H5} (hv : View pre V A s) {signal axes : Str} {r : Unit}
    (h : dataAttributes g signal axes s = (s', .ok r)) :
    View pre V ((dataAttrs signal axes).foldl Dict.update A) s' := by
  unfold dataAttributes at h
  unfold dataAttrs
  by_cases hc : axes.contains ':' = true
  · rw [if_pos hc] at h ⊢
    simp only at h ⊢
    obtain ⟨t, _, h1, h2⟩ := HM.bind_inv h
    rw [List.foldl_cons]
    exact eachAttrs hg (fun n => [(n ++ p!"_indices", AVal.nums [.int 0])]) _ (hv.attrs hg h1) h2
  · rw [if_neg hc] at h ⊢
    obtain ⟨t, _, h1, h2⟩ := HM.bind_inv h
    exact (hv.attrs hg h1).attrs hg h2

/-- the kinds of scans that `save_data` distinguishes, by their first word -/
inductive ScanKind
  | mesh | hkl | other

/-- the kind of a macro name -/
def kindOf (m : Str) : ScanKind :=
  if m ∈ [p!"mesh", p!"hklmesh"] then .mesh
  else if m ∈ [p!"hscan", p!"kscan", p!"lscan", p!"hklscan"] then .hkl
  else .other

theorem saveData_run {g : HRef} {x y : Obj} {s s' : H5}
    (h : saveData g x s = (s', .ok y)) :
    ∃ m ws, splitWs x.scanCmd = m :: ws ∧
      match kindOf m with
      | .mesh => ∃ sg ax t, mesh g x s = (t, .ok (sg, ax, y)) ∧ dataAttributes g sg ax t = (s', .ok ())
      | .hkl => y = x ∧ ∃ sg ax0 ax t, oneD g x s = (t, .ok (sg, ax0)) ∧ hklAxes x.scanCmd = .ok ax ∧
          dataAttributes g sg ax t = (s', .ok ())
      | .other => y = x ∧ ∃ sg ax t, oneD g x s = (t, .ok (sg, ax)) ∧ dataAttributes g sg ax t = (s', .ok ()) := by
  unfold saveData at h
  cases e : splitWs x.scanCmd with
  | nil => rw [e] at h; cases h
  | cons m ws =>
    rw [e] at h
    simp only at h
    refine ⟨m, ws, rfl, ?_⟩
    unfold kindOf
    by_cases h1 : m ∈ [p!"mesh", p!"hklmesh"]
    · rw [if_pos h1] at h ⊢
      obtain ⟨t, ⟨sg, ax, x'⟩, h2, h3⟩ := HM.bind_inv h
      obtain ⟨rfl, _, h4⟩ := HM.bind_pure_inv h3
      exact ⟨sg, ax, t, h2, h4⟩
    · rw [if_neg h1] at h ⊢
      by_cases h2 : m ∈ [p!"hscan", p!"kscan", p!"lscan", p!"hklscan"]
      · rw [if_pos h2] at h ⊢
        obtain ⟨t, ⟨sg, ax⟩, h3, h4⟩ := HM.bind_inv h
        obtain ⟨ax', h5, h6⟩ := HM.bind_lift_inv h4
        obtain ⟨rfl, _, h7⟩ := HM.bind_pure_inv h6
        exact ⟨rfl, sg, ax, ax', t, h3, h5, h7⟩
      · rw [if_neg h2] at h ⊢
        obtain ⟨t, ⟨sg, ax⟩, h3, h4⟩ := HM.bind_inv h
        obtain ⟨rfl, _, h7⟩ := HM.bind_pure_inv h4
        exact ⟨rfl, sg, ax, t, h3, h7⟩

/-- whatever kind of scan: datasets and attributes of the group, nothing else -/
theorem saveData_view {pre : List HNode} {g : HRef} (hg : AtGroup pre g) {x y : Obj} {s s' : H5}
    (h : saveData g x s = (s', .ok y)) {V : Sets} {A : Dict AVal} (hv : View pre V A s) :
    ∃ V' sg ax, View pre V' ((dataAttrs sg ax).foldl Dict.update A) s' := by
  obtain ⟨m, ws, _, h1⟩ := saveData_run h
  split at h1
  · obtain ⟨sg, ax, t, h2, h3⟩ := h1
    obtain ⟨ops, h4⟩ := mesh_eff hg h2
    obtain ⟨qs, _, h5⟩ := h4 V A hv
    exact ⟨_, sg, ax, dataAttributes_eff hg h5 h3⟩
  · obtain ⟨_, sg, ax0, ax, t, h2, _, h3⟩ := h1
    obtain ⟨qs, _, h5⟩ := (oneD_eff hg h2).2.2.2 V A hv
    exact ⟨_, sg, ax, dataAttributes_eff hg h5 h3⟩
  · obtain ⟨_, sg, ax, t, h2, h3⟩ := h1
    obtain ⟨qs, _, h5⟩ := (oneD_eff hg h2).2.2.2 V A hv
    exact ⟨_, sg, ax, dataAttributes_eff hg h5 h3⟩

omit [UniDB] in
/-- the class of the group is not changed by these attributes -/
theorem dataAttrs_class (sg ax : Str) (A : Dict AVal) :
    ((dataAttrs sg ax).foldl Dict.update A).get? p!"NX_class" = A.get? p!"NX_class" := by
  have hset : ∀ (A : Dict AVal) (k : Str) (v : AVal), k ≠ p!"NX_class" →
      (A.update [(k, v)]).get? p!"NX_class" = A.get? p!"NX_class" := by
    intro A k v hk
    rw [Dict.update_cons, Dict.update_nil, Dict.get?_set_ne _ _ hk]
  have hi : ∀ n : Str, n ++ p!"_indices" ≠ p!"NX_class" := by
    intro n hn
    have := congrArg List.reverse hn
    simp at this
  have hl : ∀ (ns : List Str) (A : Dict AVal),
      ((ns.map (fun n => [(n ++ p!"_indices", AVal.nums [.int 0])])).foldl Dict.update A).get? p!"NX_class" =
        A.get? p!"NX_class" := by
    intro ns
    induction ns with
    | nil => intro A; rfl
    | cons n ns ih =>
      intro A
      rw [List.map_cons, List.foldl_cons, ih, hset _ _ _ (hi n)]
  have h2 : ∀ (A : Dict AVal) (u v : AVal),
      (A.update [(p!"signal", u), (p!"axes", v)]).get? p!"NX_class" = A.get? p!"NX_class" := by
    intro A u v
    rw [Dict.update_cons, Dict.update_cons, Dict.update_nil, Dict.get?_set_ne _ _ (show p!"axes" ≠ p!"NX_class" by decide),
      Dict.get?_set_ne _ _ (show p!"signal" ≠ p!"NX_class" by decide)]
  unfold dataAttrs
  split
  · simp only [List.foldl_cons]
    rw [hl, h2]
  · simp only [List.foldl_cons, List.foldl_nil]
    rw [hset _ _ _ (hi ax), h2]

end
end S2N
