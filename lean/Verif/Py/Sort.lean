/-
`sorted(xs, key=...)`: Python's sort is stable and uses only comparisons.
It is modelled by a stable insertion sort; `stable_sort_unique` shows that any
stable sort by a total preorder returns the same list.
-/
namespace S2N.Py

variable {α : Type}

/-- insert `x` before the first element that is not smaller -/
def ins (le : α → α → Bool) (x : α) : List α → List α
  | [] => [x]
  | y :: ys => if le x y then x :: y :: ys else y :: ins le x ys

/-- stable sort by the relation `le` -/
def sortBy (le : α → α → Bool) : List α → List α
  | [] => []
  | x :: xs => ins le x (sortBy le xs)

/-- Specification: `r` is the stable sorting of `l` by the preorder `le`. -/
structure IsStableSort (le : α → α → Bool) (l r : List α) : Prop where
  perm : r.Perm l
  sorted : r.Pairwise (fun a b => le a b = true)
  stable : ∀ a, r.filter (fun b => le a b && le b a) = l.filter (fun b => le a b && le b a)

theorem ins_perm (le : α → α → Bool) (x : α) (l : List α) : (ins le x l).Perm (x :: l) := by
  induction l with
  | nil => exact List.Perm.refl _
  | cons y ys ih =>
    simp only [ins]
    split
    · exact List.Perm.refl _
    · exact (ih.cons y).trans (List.Perm.swap x y ys)

theorem sortBy_perm (le : α → α → Bool) (l : List α) : (sortBy le l).Perm l := by
  induction l with
  | nil => exact List.Perm.refl _
  | cons x xs ih => exact (ins_perm le x _).trans (ih.cons x)

theorem ins_sorted (le : α → α → Bool)
    (total : ∀ a b, le a b = true ∨ le b a = true)
    (trans : ∀ a b c, le a b = true → le b c = true → le a c = true)
    (x : α) (l : List α) (h : l.Pairwise (fun a b => le a b = true)) :
    (ins le x l).Pairwise (fun a b => le a b = true) := by
  induction l with
  | nil => simp [ins]
  | cons y ys ih =>
    rw [List.pairwise_cons] at h
    simp only [ins]
    split
    · rename_i hxy
      rw [List.pairwise_cons, List.pairwise_cons]
      refine ⟨?_, h⟩
      intro z hz
      rcases List.mem_cons.1 hz with rfl | hz
      · exact hxy
      · exact trans _ _ _ hxy (h.1 z hz)
    · rename_i hxy
      rw [List.pairwise_cons]
      refine ⟨?_, ih h.2⟩
      intro z hz
      rcases List.mem_cons.1 ((ins_perm le x ys).mem_iff.1 hz) with rfl | hz
      · exact (total z y).resolve_left hxy
      · exact h.1 z hz

theorem sortBy_sorted (le : α → α → Bool)
    (total : ∀ a b, le a b = true ∨ le b a = true)
    (trans : ∀ a b c, le a b = true → le b c = true → le a c = true) (l : List α) :
    (sortBy le l).Pairwise (fun a b => le a b = true) := by
  induction l with
  | nil => exact List.Pairwise.nil
  | cons x xs ih => exact ins_sorted le total trans x _ ih

theorem ins_filter (le : α → α → Bool)
    (trans : ∀ a b c, le a b = true → le b c = true → le a c = true)
    (total : ∀ a b, le a b = true ∨ le b a = true)
    (a x : α) (l : List α) :
    (ins le x l).filter (fun b => le a b && le b a)
      = (x :: l).filter (fun b => le a b && le b a) := by
  induction l with
  | nil => rfl
  | cons y ys ih =>
    simp only [ins]
    split
    · rfl
    · rename_i hxy
      rw [List.filter_cons, ih, List.filter_cons, List.filter_cons, List.filter_cons]
      by_cases hy : (le a y && le y a) = true
      · by_cases hx : (le a x && le x a) = true
        · -- x ~ a ~ y contradicts ¬ le x y
          simp only [Bool.and_eq_true] at hx hy
          exact absurd (trans _ _ _ hx.2 hy.1) hxy
        · simp [hx]
      · simp [hy]

theorem sortBy_stable (le : α → α → Bool)
    (total : ∀ a b, le a b = true ∨ le b a = true)
    (trans : ∀ a b c, le a b = true → le b c = true → le a c = true) (l : List α) (a : α) :
    (sortBy le l).filter (fun b => le a b && le b a) = l.filter (fun b => le a b && le b a) := by
  induction l with
  | nil => rfl
  | cons x xs ih =>
    rw [sortBy, ins_filter le trans total, List.filter_cons, List.filter_cons, ih]

theorem sortBy_isStableSort (le : α → α → Bool)
    (total : ∀ a b, le a b = true ∨ le b a = true)
    (trans : ∀ a b c, le a b = true → le b c = true → le a c = true) (l : List α) :
    IsStableSort le l (sortBy le l) :=
  ⟨sortBy_perm le l, sortBy_sorted le total trans l, sortBy_stable le total trans l⟩

theorem sortBy_of_sorted (le : α → α → Bool) (l : List α)
    (h : l.Pairwise (fun a b => le a b = true)) : sortBy le l = l := by
  induction l with
  | nil => rfl
  | cons x xs ih =>
    rw [List.pairwise_cons] at h
    rw [sortBy, ih h.2]
    cases xs with
    | nil => rfl
    | cons y ys => simp [ins, h.1 y (by simp)]

/-- There is only one stable sorting: the model does not depend on the algorithm. -/
theorem stable_sort_unique (le : α → α → Bool)
    (total : ∀ a b, le a b = true ∨ le b a = true)
    {l r1 r2 : List α} (h1 : IsStableSort le l r1) (h2 : IsStableSort le l r2) : r1 = r2 := by
  have key : ∀ (r1 r2 : List α), r1.Perm r2 →
      r1.Pairwise (fun a b => le a b = true) → r2.Pairwise (fun a b => le a b = true) →
      (∀ a, r1.filter (fun b => le a b && le b a) = r2.filter (fun b => le a b && le b a)) →
      r1 = r2 := by
    intro r1
    induction r1 with
    | nil => intro r2 hp _ _ _; exact (List.nil_perm.1 hp).symm
    | cons x xs ih =>
      intro r2 hp s1 s2 st
      cases r2 with
      | nil => exact absurd (List.perm_nil.1 hp) (by simp)
      | cons y ys =>
        rw [List.pairwise_cons] at s1 s2
        have hrefl : ∀ z, le z z = true := fun z => (total z z).elim id id
        have hxy : le x y = true := by
          rcases List.mem_cons.1 (hp.mem_iff.2 (List.mem_cons_self (a := y) (l := ys))) with e | e
          · rw [e]; exact hrefl _
          · exact s1.1 y e
        have hyx : le y x = true := by
          rcases List.mem_cons.1 (hp.mem_iff.1 (List.mem_cons_self (a := x) (l := xs))) with e | e
          · rw [e]; exact hrefl _
          · exact s2.1 x e
        have hst := st x
        rw [List.filter_cons, List.filter_cons, if_pos (by simp [hrefl]), if_pos (by simp [hxy, hyx])] at hst
        have exy : x = y := (List.cons.inj hst).1
        subst exy
        congr 1
        apply ih ys ((List.perm_cons x).1 hp) s1.2 s2.2
        intro a
        have := st a
        rw [List.filter_cons, List.filter_cons] at this
        split at this
        · exact (List.cons.inj this).2
        · exact this
  exact key r1 r2 (h1.perm.trans h2.perm.symm) h1.sorted h2.sorted
    (fun a => (h1.stable a).trans (h2.stable a).symm)

end S2N.Py
