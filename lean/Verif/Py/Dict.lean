import Verif.Py.Str
/-
Python `dict` (insertion ordered) as an association list.
-/
namespace S2N

/-- A Python dict with string keys: key/value pairs in insertion order. -/
abbrev Dict (α : Type) := List (Str × α)

namespace Dict
variable {α : Type}

/-- `d.get(k)`. -/
def get? (d : Dict α) (k : Str) : Option α := List.lookup k d

/-- `k in d`. -/
def has (d : Dict α) (k : Str) : Bool := (get? d k).isSome

/-- `d[k] = v`: an existing key keeps its position. -/
def set : Dict α → Str → α → Dict α
  | [], k, v => [(k, v)]
  | (k', v') :: d, k, v => if k' = k then (k', v) :: d else (k', v') :: set d k v

/-- `del d[k]` (no effect if absent; callers check). -/
def del : Dict α → Str → Dict α
  | [], _ => []
  | (k', v') :: d, k => if k' = k then d else (k', v') :: del d k

/-- `list(d.keys())`. -/
def keys (d : Dict α) : List Str := d.map (·.1)

/-- `list(d.values())`. -/
def values (d : Dict α) : List α := d.map (·.2)

/-- `if k not in d: d[k] = v` -/
def setDefault (d : Dict α) (k : Str) (v : α) : Dict α := if d.has k then d else d.set k v

/-- `d.update(e)`. -/
def update (d e : Dict α) : Dict α := e.foldl (fun d kv => d.set kv.1 kv.2) d

/-- modify the value of an existing key. -/
def modify : Dict α → Str → (α → α) → Dict α
  | [], _, _ => []
  | (k', v') :: d, k, f => if k' = k then (k', f v') :: d else (k', v') :: modify d k f

theorem get?_nil (k : Str) : get? ([] : Dict α) k = none := rfl

theorem get?_cons (k' : Str) (v' : α) (d : Dict α) (k : Str) :
    get? ((k', v') :: d) k = if k' = k then some v' else get? d k := by
  unfold get?
  rw [List.lookup_cons]
  by_cases h : k' = k
  · simp [h]
  · have : (k == k') = false := by simp; exact fun e => h e.symm
    simp [h, this]

theorem has_iff_mem (d : Dict α) (k : Str) : d.has k = true ↔ k ∈ keys d := by
  induction d with
  | nil => simp [has, get?, keys]
  | cons a d ih =>
    obtain ⟨k', v'⟩ := a
    unfold has at *
    rw [get?_cons]
    by_cases h : k' = k
    · simp [h, keys]
    · simp only [h, if_false, ih, keys, List.map_cons, List.mem_cons]
      constructor
      · exact Or.inr
      · rintro (h' | h')
        · exact absurd h'.symm h
        · exact h'

theorem not_has_iff (d : Dict α) (k : Str) : d.has k = false ↔ k ∉ keys d := by
  rw [← has_iff_mem]; cases d.has k <;> simp

theorem get?_eq_none_iff (d : Dict α) (k : Str) : d.get? k = none ↔ k ∉ keys d := by
  rw [← has_iff_mem, has]; cases d.get? k <;> simp

theorem get?_set_self (d : Dict α) (k : Str) (v : α) : (d.set k v).get? k = some v := by
  induction d with
  | nil => simp [set, get?_cons]
  | cons a d ih =>
    obtain ⟨k', v'⟩ := a
    by_cases h : k' = k
    · simp [set, h, get?_cons]
    · simp [set, h, get?_cons, ih]

theorem get?_set_ne (d : Dict α) {k k2 : Str} (v : α) (hk : k ≠ k2) :
    (d.set k v).get? k2 = d.get? k2 := by
  induction d with
  | nil => rw [set, get?_cons, if_neg hk]
  | cons a d ih =>
    obtain ⟨k', v'⟩ := a
    by_cases h : k' = k
    · subst h; simp [set, get?_cons, hk]
    · simp only [set, h, if_false, get?_cons, ih]

theorem get?_set (d : Dict α) (k k2 : Str) (v : α) :
    (d.set k v).get? k2 = if k = k2 then some v else d.get? k2 := by
  by_cases h : k = k2
  · subst h; simp [get?_set_self]
  · simp [h, get?_set_ne d v h]

theorem keys_set (d : Dict α) (k : Str) (v : α) :
    keys (d.set k v) = if k ∈ keys d then keys d else keys d ++ [k] := by
  induction d with
  | nil => simp [set, keys]
  | cons a d ih =>
    obtain ⟨k', v'⟩ := a
    by_cases h : k' = k
    · subst h; simp [set, keys]
    · have h2 : ¬ k = k' := fun e => h e.symm
      simp only [set, h, if_false]
      simp only [keys, List.map_cons, List.mem_cons, h2, false_or] at ih ⊢
      rw [ih]
      by_cases h3 : k ∈ List.map (fun x => x.1) d <;> simp [h3]

theorem set_of_not_mem (d : Dict α) (k : Str) (v : α) (h : k ∉ keys d) :
    d.set k v = d ++ [(k, v)] := by
  induction d with
  | nil => rfl
  | cons a d ih =>
    obtain ⟨k', v'⟩ := a
    simp only [keys, List.map_cons, List.mem_cons, not_or] at h
    have : ¬ k' = k := fun e => h.1 e.symm
    simp only [set, this, if_false, List.cons_append]
    rw [ih h.2]

theorem nodup_keys_set (d : Dict α) (k : Str) (v : α) (h : (keys d).Nodup) :
    (keys (d.set k v)).Nodup := by
  rw [keys_set]
  by_cases h2 : k ∈ keys d
  · simpa [h2]
  · simp only [h2, if_false]
    rw [List.nodup_append]
    refine ⟨h, by simp, ?_⟩
    intro a ha b hb
    simp only [List.mem_singleton] at hb
    subst hb
    rintro rfl
    exact h2 ha

theorem keys_del (d : Dict α) (k : Str) : keys (d.del k) = (keys d).erase k := by
  induction d with
  | nil => rfl
  | cons a d ih =>
    obtain ⟨k', v'⟩ := a
    by_cases h : k' = k
    · subst h; simp [del, keys]
    · have hb : ¬ (k' == k) = true := by simpa using h
      simp only [del, if_neg h, keys, List.map_cons] at ih ⊢
      rw [List.erase_cons_tail hb, ih]

theorem nodup_keys_del (d : Dict α) (k : Str) (h : (keys d).Nodup) : (keys (d.del k)).Nodup := by
  rw [keys_del]; exact h.erase k

theorem keys_modify (d : Dict α) (k : Str) (f : α → α) : keys (d.modify k f) = keys d := by
  induction d with
  | nil => rfl
  | cons a d ih =>
    obtain ⟨k', v'⟩ := a
    by_cases h : k' = k
    · simp [modify, h, keys]
    · simp only [modify, h, if_false, keys, List.map_cons] at *
      rw [ih]

theorem get?_modify (d : Dict α) (k k2 : Str) (f : α → α) :
    (d.modify k f).get? k2 = if k = k2 then (d.get? k2).map f else d.get? k2 := by
  induction d with
  | nil => simp [modify, get?]
  | cons a d ih =>
    obtain ⟨k', v'⟩ := a
    by_cases h : k' = k
    · subst h
      simp only [modify, if_true, get?_cons]
      by_cases h2 : k' = k2 <;> simp [h2]
    · simp only [modify, h, if_false, get?_cons, ih]
      by_cases h2 : k' = k2
      · subst h2
        have h3 : ¬ k = k' := fun e => h e.symm
        simp [h3]
      · simp [h2]

theorem length_keys (d : Dict α) : (keys d).length = d.length := by simp [keys]

theorem setDefault_of_has (d : Dict α) (k : Str) (v : α) (h : d.has k = true) :
    d.setDefault k v = d := by simp [setDefault, h]

theorem nodup_keys_setDefault (d : Dict α) (k : Str) (v : α) (h : (keys d).Nodup) :
    (keys (d.setDefault k v)).Nodup := by
  unfold setDefault; split
  · exact h
  · exact nodup_keys_set d k v h

/-- membership in a dict with distinct keys is the same as lookup -/
theorem mem_iff_get? (d : Dict α) (h : (keys d).Nodup) (k : Str) (v : α) :
    (k, v) ∈ d ↔ d.get? k = some v := by
  induction d with
  | nil => simp [get?]
  | cons a d ih =>
    obtain ⟨k', v'⟩ := a
    simp only [keys, List.map_cons, List.nodup_cons] at h
    rw [get?_cons]
    by_cases e : k' = k
    · subst e
      have : ∀ v, (k', v) ∉ d := by
        intro v hv; exact h.1 (List.mem_map.2 ⟨_, hv, rfl⟩)
      simp [this, eq_comm]
    · have e2 : ¬ k = k' := fun x => e x.symm
      simp [e, e2, ih h.2]

end Dict
end S2N
