import Verif.Lemmas.SaveLoop
/-
Reading the file that `Writer.save` wrote.
-/
namespace S2N
open Py H5 Eznx Writer Spec Props

section
variable [UniDB]

/-- What `save` does, if it returns. -/
theorem save_ok {env : Env} {reg : List HKey} (hr : reg.Perm HKey.all) (hx : SchemaNames env) {v : Versions}
    {ks : List Ref} {s : Sdf} {r : SState} (hs : SdfOk s) (hk : ∀ k ∈ ks, Plain (p!"S" ++ k.text))
    (h : save env reg v ks s = (r, none)) :
    FileOk r.h5 ∧ SdfOk r.sdf ∧ r.sdf.scans.keys = s.scans.keys ∧
    (∃ ch a a0, rootAttributes v s = .ok a0 ∧ r.h5[0]? = some (.group ch a) ∧
      a = (match ks with
        | k :: _ => (Dict.update [] a0).set p!"default" (.str (p!"S" ++ k.text))
        | [] => Dict.update [] a0) ∧
      Dict.keys ch = ks.map (fun k => p!"S" ++ k.text)) ∧
    ∀ k ∈ ks, ∃ n x y z e chE, EntryOf k r n x y z e chE := by
  unfold save at h
  cases e : rootAttributes v s with
  | error err => rw [e] at h; cases h
  | ok a0 =>
    rw [e] at h
    simp only [Res.eval] at h
    obtain ⟨t, _, h1, h⟩ := run_inv h
    have h1 : addAttributes root a0 H5.empty = (t, .ok ()) := h1
    rw [addAttributes_eq a0 (h := root) (show H5.empty[0]? = some (.group [] []) from rfl)] at h1
    injection h1 with h1 _
    have ht : t = [.group [] (Dict.update [] a0)] := by rw [← h1]; rfl
    subst ht
    have hf : FileOk [HNode.group [] (Dict.update [] a0)] := by
      refine ⟨?_, ⟨[], _, rfl⟩, ?_⟩
      · intro i ch a hi
        match i with
        | 0 =>
          simp only [List.getElem?_cons_zero, Option.some.injEq, HNode.group.injEq] at hi
          obtain ⟨rfl, _⟩ := hi
          simp [Dict.keys]
        | i + 1 => simp at hi
      · intro i ch a hi n j hj
        match i with
        | 0 =>
          simp only [List.getElem?_cons_zero, Option.some.injEq, HNode.group.injEq] at hi
          obtain ⟨rfl, _⟩ := hi
          simp at hj
        | i + 1 => simp at hi
    obtain ⟨b1, b2, b3, b4, b5, _⟩ := saveKeys_ok hr hx ks true _ _ hf hs hk h
    obtain ⟨ch', c1, c2⟩ := b4 _ _ rfl
    refine ⟨b1, b2, b3, ⟨ch', _, a0, rfl, c1, ?_, by rw [c2]; rfl⟩, b5⟩
    cases ks <;> rfl

/-! ## A section of an entry -/

omit [UniDB] in
theorem get?_cons' {α : Type} (p : Str × α) (d : Dict α) (n : Str) :
    Dict.get? (p :: d) n = if p.1 = n then some p.2 else Dict.get? d n := by
  unfold Dict.get?
  rw [List.lookup_cons]
  by_cases h : p.1 = n
  · simp [h]
  · have : (n == p.1) = false := by simpa using fun e : n = p.1 => h e.symm
    simp [h, this]

omit [UniDB] in
theorem walk_one {s : H5} {i j : Nat} {n : Str} {ch : Dict Nat} {a : Dict AVal} (h : s[i]? = some (.group ch a))
    (hn : ch.get? n = some j) (rest : List Str) : H5.walk s i (n :: rest) = H5.walk s j rest := by
  rw [H5.walk, h]
  simp only
  rw [hn]

omit [UniDB] in
theorem walk_none {s : H5} {i : Nat} {n : Str} {ch : Dict Nat} {a : Dict AVal} (h : s[i]? = some (.group ch a))
    (hn : ch.get? n = none) (rest : List Str) : H5.walk s i (n :: rest) = none := by
  rw [H5.walk, h]
  simp only
  rw [hn]

/-- the entry as a place in the file -/
theorem EntryOf.walk {k : Ref} {S : SState} {n : Str} {x y z : Obj} {e : Nat} {chE : Dict Nat}
    (h : EntryOf k S n x y z e chE) (rest : List Str) :
    H5.walk S.h5 0 ((p!"S" ++ k.text) :: rest) = H5.walk S.h5 e rest := by
  obtain ⟨ch, a, h1, h2⟩ := h.root
  exact walk_one h1 h2 rest

omit [UniDB] in
theorem forall2_get? {pre : List HNode} {s : H5} {ch : Dict Nat} {V : Sets}
    (h : List.Forall₂ (fun (p : Str × Nat) (q : Str × (HData × Dict AVal)) => p.1 = q.1 ∧ pre.length < p.2 ∧
      s[p.2]? = some (.dset q.2.1 q.2.2)) ch V) (n : Str) :
    (ch.get? n = none ∧ Dict.get? V n = none) ∨
    ∃ j d a, ch.get? n = some j ∧ Dict.get? V n = some (d, a) ∧ pre.length < j ∧ s[j]? = some (.dset d a) := by
  induction h with
  | nil => left; exact ⟨rfl, rfl⟩
  | @cons p q ch V h1 h2 ih =>
    obtain ⟨m, j⟩ := p
    obtain ⟨m', d, a⟩ := q
    obtain ⟨h3, h4, h5⟩ := h1
    simp only at h3 h4 h5
    subst h3
    by_cases hm : m = n
    · right
      refine ⟨j, d, a, ?_, ?_, h4, h5⟩ <;> simp [get?_cons', hm]
    · simp only [get?_cons', hm, if_false]
      exact ih

omit [UniDB] in
/-- the group and its datasets, read in a larger file that agrees on the part -/
theorem View.read {pre : List HNode} {V : Sets} {A : Dict AVal} {t s : H5} (h : View pre V A t)
    (hs : ∀ i, pre.length ≤ i → i < t.length → s[i]? = t[i]?) :
    ∃ ch, s[pre.length]? = some (.group ch A) ∧ Dict.keys ch = Dict.keys V ∧
      ∀ n, (ch.get? n = none ∧ Dict.get? V n = none) ∨
        ∃ j d a, ch.get? n = some j ∧ Dict.get? V n = some (d, a) ∧ s[j]? = some (.dset d a) := by
  obtain ⟨ch, tail, rfl, h1, h2, h3⟩ := h
  refine ⟨ch, ?_, Dict.forall2_keys (fun _ _ h => h.1) h3, fun n => ?_⟩
  · rw [hs _ (Nat.le_refl _) (by simp)]; simp
  · rcases forall2_get? h3 n with h4 | ⟨j, d, a, h4, h5, h6, h7⟩
    · exact .inl h4
    · refine .inr ⟨j, d, a, h4, h5, ?_⟩
      rw [hs j (by omega) (lt_of_get? h7)]
      exact h7

/-- A section of the entry `k` and its datasets, as places of the file. -/
theorem EntryOf.read {k : Ref} {S : SState} {m : Str} {x y z : Obj} {e : Nat} {chE : Dict Nat}
    (h : EntryOf k S m x y z e chE) {N : Str} {pre : List HNode} {V : Sets} {A : Dict AVal} {t : H5}
    (hv : View pre V A t) (hs : ∀ i, pre.length ≤ i → i < t.length → S.h5[i]? = t[i]?)
    (hN : chE.get? N = some pre.length) :
    childrenAt S.h5 [p!"S" ++ k.text, N] = Dict.keys V ∧
    groupAt S.h5 [p!"S" ++ k.text, N] = some A ∧
    (∀ a, attrAt S.h5 [p!"S" ++ k.text, N] a = A.get? a) ∧
    ∀ n, datasetAt S.h5 [p!"S" ++ k.text, N, n] = Dict.get? V n := by
  obtain ⟨ch, h1, h2, h3⟩ := hv.read hs
  have hw : ∀ rest, H5.walk S.h5 0 ((p!"S" ++ k.text) :: N :: rest) = H5.walk S.h5 pre.length rest := by
    intro rest
    rw [h.walk]
    exact walk_one h.entry hN rest
  have ho : objAt S.h5 [p!"S" ++ k.text, N] = some (.group ch A) := by
    unfold objAt
    rw [hw]
    exact h1
  refine ⟨?_, ?_, ?_, ?_⟩
  · unfold childrenAt; rw [ho]; exact h2
  · unfold groupAt; rw [ho]
  · intro a; unfold attrAt; rw [ho]; rfl
  · intro n
    unfold datasetAt objAt
    rw [hw]
    rcases h3 n with ⟨h4, h5⟩ | ⟨j, d, a, h4, h5, h6⟩
    · rw [walk_none h1 h4, h5]
    · rw [walk_one h1 h4, h5]
      simp only [H5.walk, h6]

/-! ## Datasets written one after the other -/

omit [UniDB] in
theorem put_get? (V : Sets) (hV : (Dict.keys V).Nodup) (m n : Str) (v : HData) (a : Dict AVal) :
    Dict.get? (V.put m v a) n = if m = n then some (v, a) else Dict.get? V n := by
  have key : ∀ (W : Sets), Dict.get? (W ++ [(m, (v, a))]) n =
      match Dict.get? W n with
      | some q => some q
      | none => if m = n then some (v, a) else none := by
    intro W
    induction W with
    | nil => simp [get?_cons']; rfl
    | cons p W ih =>
      obtain ⟨k, q⟩ := p
      simp only [List.cons_append, get?_cons']
      by_cases hk : k = n
      · simp [hk]
      · simp only [hk, if_false]; exact ih
  unfold Sets.put
  rw [key]
  by_cases h : m = n
  · subst h
    have : Dict.get? (Dict.del V m) m = none := by
      have := Dict.has_del_self V m hV
      unfold Dict.has at this
      simpa using this
    rw [this]
    simp
  · rw [Dict.get?_del_ne _ (Ne.symm h)]
    simp only [h, if_false]
    cases Dict.get? V n <;> rfl

omit [UniDB] in
theorem put_nodup {V : Sets} (hV : (Dict.keys V).Nodup) (m : Str) (v : HData) (a : Dict AVal) :
    (Dict.keys (V.put m v a)).Nodup := by
  unfold Sets.put
  have h1 : Dict.keys (Dict.del V m ++ [(m, (v, a))]) = Dict.keys (Dict.del V m) ++ [m] := by
    simp [Dict.keys]
  rw [h1, List.nodup_append]
  refine ⟨Dict.nodup_keys_del _ _ hV, by simp, ?_⟩
  intro x hx y hy he
  have hy : y = m := by simpa using hy
  subst he hy
  have := (Dict.has_iff_mem _ _).2 hx
  rw [Dict.has_del_self _ _ hV] at this
  cases this

omit [UniDB] in
theorem puts_other (qs : Sets) : ∀ (V : Sets) (_ : (Dict.keys V).Nodup) (n : Str), (∀ q ∈ qs, q.1 ≠ n) →
    Dict.get? (V.puts qs) n = Dict.get? V n := by
  induction qs with
  | nil => intro V _ n _; rfl
  | cons q qs ih =>
    intro V hV n h
    show Dict.get? (Sets.puts (V.put q.1 q.2.1 q.2.2) qs) n = _
    rw [ih _ (put_nodup hV _ _ _) _ (fun q' hq' => h q' (by simp [hq'])), put_get? _ hV, if_neg (h q (by simp))]

omit [UniDB] in
/-- the dataset under a name is the one last written -/
theorem puts_unique (qs : Sets) : ∀ (V : Sets) (_ : (Dict.keys V).Nodup) (q : Str × (HData × Dict AVal)), q ∈ qs →
    (∀ q' ∈ qs, q'.1 = q.1 → q' = q) → Dict.get? (V.puts qs) q.1 = some q.2 := by
  induction qs with
  | nil => intro V _ q h; cases h
  | cons p qs ih =>
    intro V hV q hq hu
    show Dict.get? (Sets.puts (V.put p.1 p.2.1 p.2.2) qs) q.1 = _
    by_cases hm : q ∈ qs
    · exact ih _ (put_nodup hV _ _ _) q hm (fun q' hq' => hu q' (by simp [hq']))
    · have hp : p = q := by
        rcases List.mem_cons.1 hq with h | h
        · exact h.symm
        · exact absurd h hm
      subst hp
      rw [puts_other _ _ (put_nodup hV _ _ _)]
      · rw [put_get? _ hV, if_pos rfl]
      · intro q' hq' he
        exact hm (hu q' (by simp [hq']) he ▸ hq')

/-- the dataset of one call of `write_ds`, if no other call writes under the same name with another
label or other data -/
theorem put_of_op {ops : List DsOp} {qs : Sets} (h : List.Forall₂ OpPut ops qs) {o : DsOp} (ho : o ∈ ops)
    (hu : ∀ o' ∈ ops, cleanName o'.1 = cleanName o.1 → o' = o) {V : Sets} (hV : (Dict.keys V).Nodup) :
    ∃ n d, cleanName o.1 = .ok n ∧ o.2.1.toH = .ok d ∧ Dict.get? (V.puts qs) n =
      some (d, Dict.update [] (noteAttrs o.2.1 ((p!"spec_name", AVal.str o.1) :: o.2.2))) := by
  obtain ⟨q, hq, h1⟩ : ∃ q ∈ qs, OpPut o q := by
    clear hu
    induction h with
    | nil => cases ho
    | cons h1 h2 ih =>
      rcases List.mem_cons.1 ho with rfl | ho
      · exact ⟨_, by simp, h1⟩
      · obtain ⟨q, a, b⟩ := ih ho
        exact ⟨q, by simp [a], b⟩
  have hback : ∀ q' ∈ qs, ∃ o' ∈ ops, OpPut o' q' := by
    clear hu ho h1 hq
    induction h with
    | nil => intro q' hq'; cases hq'
    | cons h1 h2 ih =>
      intro q' hq'
      rcases List.mem_cons.1 hq' with rfl | hq'
      · exact ⟨_, by simp, h1⟩
      · obtain ⟨o', a, b⟩ := ih q' hq'
        exact ⟨o', by simp [a], b⟩
  have hfun : ∀ q', OpPut o q' → q' = q := by
    intro q' h2
    obtain ⟨a1, a2, a3⟩ := h1
    obtain ⟨b1, b2, b3⟩ := h2
    obtain ⟨n, d, a⟩ := q
    obtain ⟨n', d', a'⟩ := q'
    simp only at *
    rw [a1] at b1
    rw [a2] at b2
    injection b1 with b1
    injection b2 with b2
    rw [b1, b2, a3, b3]
  have hg := puts_unique qs V hV q hq (fun q' hq' he => by
    obtain ⟨o', ho', hp⟩ := hback q' hq'
    have : o' = o := by
      refine hu o' ho' ?_
      rw [hp.1, h1.1, he]
    subst this
    exact hfun q' hp)
  refine ⟨q.1, q.2.1, h1.1, h1.2.1, ?_⟩
  rw [hg, ← h1.2.2]

omit [UniDB] in
theorem unify_flt (xs : List PyFloat) : unify (xs.map .flt) = xs.map .flt := by
  unfold unify
  split
  · simp [Num.toFlt]
  · rfl

end
end S2N
