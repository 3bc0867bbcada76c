import Verif.Props.ScanList
/-
C12-C14: `sdf[...]`
-/
namespace S2N.Props
open S2N S2N.Py S2N.Spec

theorem boundFloat_number (l : List Str) (a : Ref) (q : Rat) (i : Int) (h : BoundIs a q) (h0 : q ≠ 0) :
    Sdf.boundFloat l (some a) i = .ok (.fin q) := by
  cases a with
  | int n =>
    have h : q = n := h
    have hn : n ≠ 0 := by rintro rfl; exact h0 (by rw [h]; rfl)
    simp only [Sdf.boundFloat]
    rw [if_neg hn, h]
  | str t =>
    have h : parseFloat t = some (.fin q) := h
    have ht : t ≠ [] := by
      rintro rfl
      have : parseFloat [] = none := by decide +kernel
      rw [this] at h; cases h
    simp only [Sdf.boundFloat]
    rw [if_neg ht]
    unfold Py.float
    rw [h]
  | flt t =>
    have h : parseFloat t = some (.fin q) := h
    simp only [Sdf.boundFloat]
    unfold Py.float
    rw [h]
    simp only
    rw [if_neg]
    intro e
    injection e with e
    exact h0 e

theorem refIndex_step {st : Ref} {i : Int} (h : StepIs st i) : Sdf.refIndex st = .ok i := by
  cases st with
  | int j => have h : i = j := h; rw [h]; rfl
  | str t =>
    have h : t = intStr i := h
    rw [h]
    simp only [Sdf.refIndex, Py.int, parseInt_intStr]
  | flt t =>
    have h : parseFloat t = some (.fin i) := h
    simp only [Sdf.refIndex, Py.float, h, PyFloat.toInt]
    congr 1
    rw [show ((i : Rat)).num = i from rfl, show ((i : Rat)).den = 1 from rfl]
    simp

theorem neg_number {a : Ref} {q : Rat} (h : BoundIs a q) :
    Sdf.noneOrNeg (some a) = .ok (decide (q < 0)) ∨ Sdf.noneOrNeg (some a) = .error .TypeError ∧ ∃ t, a = .str t := by
  cases a with
  | int n =>
    have h : q = n := h
    left
    simp only [Sdf.noneOrNeg]
    congr 1
    rw [h, decide_eq_decide]
    constructor
    · intro h; exact_mod_cast h
    · intro h; exact_mod_cast h
  | str t => exact .inr ⟨rfl, t, rfl⟩
  | flt t =>
    have h : parseFloat t = some (.fin q) := h
    left
    simp only [Sdf.noneOrNeg, Py.float, h]
    rfl

theorem boundFloat_default (l : List Str) (b : Option Ref) (i : Int) (h : b = none ∨ b = some (.int 0)) :
    Sdf.boundFloat l b i = match pyGet l i with
      | .error e => .error e
      | .ok k => Py.float k := by
  rcases h with rfl | rfl <;> rfl

theorem pyGet_zero {α : Type} (a : α) (l : List α) : pyGet (a :: l) 0 = .ok a := by
  simp [pyGet]

theorem pyGet_last {α : Type} (a : α) (l : List α) : pyGet (l ++ [a]) (-1) = .ok a := by
  obtain ⟨x, h1, h2⟩ := pyGet_position (l ++ [a]) (-1) l.length ⟨by simp, by simp; omega⟩
  rw [h2]
  simp at h1
  rw [h1]

theorem le_fin_nan (a : PyFloat) : PyFloat.le a .nan = false := by
  rcases a with _ | (_ | _) | a <;> rfl

theorem inRange_iff (a b : Rat) (x : PyFloat) :
    (PyFloat.le (.fin a) x = true ∧ PyFloat.lt x (.fin b) = true) ↔
      ∃ q, x = .fin q ∧ a ≤ q ∧ q < b := by
  rcases x with _ | (_ | _) | q <;> simp [PyFloat.le, PyFloat.lt]

theorem keepRange_eq (a b : Rat) (l : List Str) (h : ∀ k ∈ l, ∃ x, parseFloat k = some x) :
    Sdf.keepRange (.fin a) (.fin b) l = .ok (l.filter (numberIn a b)) := by
  induction l with
  | nil => rfl
  | cons k ks ih =>
    obtain ⟨x, hx⟩ := h k (by simp)
    rw [Sdf.keepRange, (float_ok k x).2 hx, ih (fun k hk => h k (by simp [hk]))]
    simp only [Except.ok.injEq]
    rw [List.filter_cons]
    have : (PyFloat.le (.fin a) x = true ∧ PyFloat.lt x (.fin b) = true) ↔
        numberIn a b k = true := by
      rw [inRange_iff]
      simp only [numberIn, hx]
      rcases x with _ | (_ | _) | q <;> simp
    by_cases hc : numberIn a b k = true
    · rw [if_pos (this.2 hc), if_pos hc]
    · rw [if_neg (fun h => hc (this.1 h)), if_neg hc]

theorem scans_of_keys (s : Sdf) (hw : WellNamed s) (r : List (Str × Obj))
    (hr : ∀ p ∈ r, p ∈ s.scans) (hp : ∀ p ∈ r, Positive p.1) :
    mapE (fun k => s.getScan (.str k)) (r.map (·.1)) = .ok (r.map (fun p => some p.2)) := by
  induction r with
  | nil => rfl
  | cons p r ih =>
    rw [List.map_cons, mapE, getScan_name s hw p.1 p.2 (hp p (by simp)) (hr p (by simp)),
      ih (fun q hq => hr q (by simp [hq])) (fun q hq => hp q (by simp [hq]))]
    rfl

theorem getItem_of_keys (s : Sdf) (hw : WellNamed s) (a b step : Option Ref) (r : List (Str × Obj))
    (hr : ∀ p ∈ r, p ∈ s.scans) (hp : ∀ p ∈ r, Positive p.1)
    (h : s.sliceKeys a b step = .ok (r.map (·.1))) :
    s.getItem (.slice a b step) = .ok (.many (r.map (fun p => some p.2))) := by
  rw [Sdf.getItem, h]
  simp only [scans_of_keys s hw r hr hp]

theorem numberIn_positive {a b : Rat} {k : Str} (ha : 1 ≤ a) (h : numberIn a b k = true) :
    Positive k := by
  unfold numberIn at h
  split at h
  · rename_i q hq
    simp only [Bool.and_eq_true, decide_eq_true_eq] at h
    exact ⟨q, hq, Rat.le_trans ha h.1⟩
  · cases h

theorem filter_keys (r : List (Str × Obj)) (f : Str → Bool) :
    (r.map (·.1)).filter f = (r.filter (fun p => f p.1)).map (·.1) := by
  rw [List.filter_map]; rfl

theorem ratLe1 {a : Int} (h : 1 ≤ a) : (1 : Rat) ≤ (a : Rat) := by exact_mod_cast h

/-- what the step selects among the scan numbers -/
def stepKeys (step : Option Ref) (keys : List Str) : Except PyErr (List Str) :=
  match step with
  | none => .ok keys
  | some st =>
    match Sdf.refIndex st with
    | .error e => .error e
    | .ok st => Sdf.chooseStep st keys

/-- the scan numbers of a slice with absolute bounds, before the step -/
theorem absKeys (s : Sdf) (r : List (Str × Obj)) (hc : Chronological s r)
    (h : ∀ k ∈ s.scans.keys, ∃ x, parseFloat k = some x) (a b step : Option Ref) (A B : Rat)
    (ha : Sdf.boundFloat (r.map (·.1)) a 0 = .ok (.fin A))
    (hb : Sdf.boundFloat (r.map (·.1)) b (-1) = .ok (.fin B))
    (hA : 0 ≤ A) (hB : 0 ≤ B)
    (hn : a = none → Sdf.noneOrNeg b = .ok false) (hn' : b = none → Sdf.noneOrNeg a = .ok false) :
    s.sliceKeys a b step = stepKeys step ((r.map (·.1)).filter (numberIn A B)) := by
  unfold Sdf.sliceKeys
  simp only [hc.listed, ha, hb]
  have hA' : PyFloat.lt (.fin A) (.fin 0) = false := by
    simp only [PyFloat.lt, decide_eq_false_iff_not]
    exact fun h => absurd hA (Rat.not_le.2 h)
  have h1 : Sdf.relative a b (.fin A) (.fin B) = .ok false := by
    unfold Sdf.relative
    simp only [hA', Bool.false_and, Bool.or_false]
    by_cases e : a = none
    · subst e
      simp [hn rfl]
    · by_cases e' : b = none
      · subst e'
        simp [hn' rfl, e]
      · simp [e, e']
  have h2 : PyFloat.le (.fin 0) (.fin A) = true ∧ PyFloat.le (.fin 0) (.fin B) = true := by
    simp [PyFloat.le, hA, hB]
  rw [h1]
  simp only
  rw [if_pos h2, keepRange_eq]
  · rcases step with _ | st <;> rfl
  · intro k hk
    exact h k (((hc.sorted.perm.map (·.1)).mem_iff).1 hk)

theorem num_bound (a : Ref) (A : Rat) (hA : BoundIs a A) (l : List Str) (i : Int) (h : 1 ≤ A) :
    Sdf.boundFloat l (some a) i = .ok (.fin A) ∧ 0 ≤ A :=
  ⟨boundFloat_number l a A i hA (fun e => absurd h (by rw [e]; decide)), Rat.le_trans (by decide) h⟩

/-- C12: `sdf[a:b]` with positive bounds (integers, floats or texts) returns, in chronological order, exactly the
scans whose number x satisfies a <= x < b. -/
theorem C12_range (s : Sdf) (hw : WellNamed s) (r : List (Str × Obj)) (hc : Chronological s r)
    (h : ∀ k ∈ s.scans.keys, ∃ x, parseFloat k = some x) (a b : Ref) (A B : Rat) (hA : BoundIs a A)
    (hB : BoundIs b B) (ha : 1 ≤ A) (hb : 1 ≤ B) :
    s.getItem (.slice (some a) (some b) none) =
      .ok (.many ((r.filter (fun p => numberIn A B p.1)).map (fun p => some p.2))) := by
  apply getItem_of_keys s hw
  · intro p hp
    exact hc.sorted.perm.mem_iff.1 (List.mem_of_mem_filter hp)
  · intro p hp
    exact numberIn_positive ha (List.mem_filter.1 hp).2
  · rw [absKeys s r hc h (some a) (some b) none A B (num_bound a A hA _ 0 ha).1 (num_bound b B hB _ (-1) hb).1
      (num_bound a A hA [] 0 ha).2 (num_bound b B hB [] 0 hb).2 (by simp) (by simp)]
    simp only [filter_keys, stepKeys]

/-- C12: bounds of different sign raise IndexError. -/
theorem C12_mixed (s : Sdf) (r : List (Str × Obj)) (hc : Chronological s r) (a b : Ref) (A B : Rat)
    (hA : BoundIs a A) (hB : BoundIs b B)
    (step : Option Ref) (h : (0 < A ∧ B < 0) ∨ (A < 0 ∧ 0 < B)) :
    s.getItem (.slice (some a) (some b) step) = .error .IndexError := by
  rw [Sdf.getItem]
  have hA0 : A ≠ 0 := by rintro rfl; rcases h with h | h; exacts [absurd h.1 (by decide), absurd h.1 (by decide)]
  have hB0 : B ≠ 0 := by rintro rfl; rcases h with h | h; exacts [absurd h.2 (by decide), absurd h.2 (by decide)]
  have : s.sliceKeys (some a) (some b) step = .error .IndexError := by
    unfold Sdf.sliceKeys
    simp only [hc.listed, boundFloat_number _ a A _ hA hA0, boundFloat_number _ b B _ hB hB0]
    have h1 : Sdf.relative (some a) (some b) (.fin A) (.fin B) = .ok false := by
      unfold Sdf.relative
      simp only [Option.isNone_some, Bool.false_eq_true, if_false, PyFloat.lt, Except.ok.injEq, Bool.and_eq_false_iff,
        decide_eq_false_iff_not]
      rcases h with h | h
      · left; exact fun h' => absurd (Std.lt_trans h.1 h') Rat.lt_irrefl
      · right; exact fun h' => absurd (Std.lt_trans h.2 h') Rat.lt_irrefl
    rw [h1]
    simp only
    rw [if_neg]
    simp only [PyFloat.le, decide_eq_true_eq]
    intro h'
    rcases h with h | h
    · exact absurd h'.2 (Rat.not_le.2 h.2)
    · exact absurd h'.1 (Rat.not_le.2 h.1)
  rw [this]

/-- C12: a bound that is a text but no number raises ValueError. -/
theorem C12_no_number (s : Sdf) (r : List (Str × Obj)) (hc : Chronological s r) (t : Str) (ht : t ≠ [])
    (h : parseFloat t = none) (b step : Option Ref) :
    s.getItem (.slice (some (.str t)) b step) = .error .ValueError := by
  rw [Sdf.getItem]
  have : s.sliceKeys (some (.str t)) b step = .error .ValueError := by
    unfold Sdf.sliceKeys
    have e : Py.float t = .error .ValueError := by unfold Py.float; rw [h]
    simp only [hc.listed, Sdf.boundFloat, if_neg ht, e]
  rw [this]

theorem not_neg {a : Ref} {A : Rat} (hA : BoundIs a A) (hs : ∀ t, a ≠ .str t) (h : 1 ≤ A) :
    Sdf.noneOrNeg (some a) = .ok false := by
  rcases neg_number hA with e | ⟨_, t, e⟩
  · rw [e]
    congr 1
    simp only [decide_eq_false_iff_not]
    exact fun h' => absurd (Std.lt_of_le_of_lt h h') (by decide)
  · exact absurd e (hs t)

/-- C12: without an upper bound the range ends before the number of the chronologically last scan:
that scan is never part of `sdf[a:]`. -/
theorem C12_no_upper_bound (s : Sdf) (hw : WellNamed s) (r : List (Str × Obj)) (last : Str × Obj)
    (hc : Chronological s (r ++ [last])) (h : ∀ k ∈ s.scans.keys, Positive k)
    (a : Ref) (A : Rat) (hA : BoundIs a A) (hs : ∀ t, a ≠ .str t) (ha : 1 ≤ A) (q : Rat)
    (hq : parseFloat last.1 = some (.fin q)) :
    s.getItem (.slice (some a) none none) =
      .ok (.many ((r.filter (fun p => numberIn A q p.1)).map (fun p => some p.2))) := by
  have hlast : numberIn A q last.1 = false := by
    simp only [numberIn, hq, Bool.and_eq_false_iff, decide_eq_false_iff_not]
    right; exact Rat.lt_irrefl
  have hmem : ∀ p ∈ r ++ [last], p ∈ s.scans := fun p hp => hc.sorted.perm.mem_iff.1 hp
  have e : r.filter (fun p => numberIn A q p.1) =
      (r ++ [last]).filter (fun p => numberIn A q p.1) := by
    rw [List.filter_append, List.filter_cons, hlast]; simp
  rw [e]
  apply getItem_of_keys s hw
  · intro p hp; exact hmem p (List.mem_of_mem_filter hp)
  · intro p hp
    exact numberIn_positive ha (List.mem_filter.1 hp).2
  · have hq0 : 0 ≤ q := by
      obtain ⟨q', hq', h1⟩ := h last.1 (List.mem_map.2 ⟨last, hmem last (by simp), rfl⟩)
      rw [hq] at hq'; cases hq'
      exact Rat.le_trans (by decide) h1
    rw [absKeys s _ hc (fun k hk => by obtain ⟨q, hq, _⟩ := h k hk; exact ⟨_, hq⟩) (some a) none none A q
      (num_bound a A hA _ 0 ha).1 ?_ (num_bound a A hA [] 0 ha).2 hq0 (by simp)
      (fun _ => not_neg hA hs ha)]
    · simp only [filter_keys, stepKeys]
    · rw [boundFloat_default _ _ _ (Or.inl rfl), List.map_append, List.map_cons, List.map_nil,
        pyGet_last]
      exact (float_ok _ _).2 hq

/-- C12: without a lower bound the range begins at the number of the chronologically first scan. -/
theorem C12_no_lower_bound (s : Sdf) (hw : WellNamed s) (r : List (Str × Obj)) (first : Str × Obj)
    (hc : Chronological s (first :: r)) (h : ∀ k ∈ s.scans.keys, Positive k)
    (b : Ref) (B : Rat) (hB : BoundIs b B) (hs : ∀ t, b ≠ .str t) (hb : 1 ≤ B) (q : Rat)
    (hq : parseFloat first.1 = some (.fin q)) :
    s.getItem (.slice none (some b) none) =
      .ok (.many (((first :: r).filter (fun p => numberIn q B p.1)).map (fun p => some p.2))) := by
  have hmem : ∀ p ∈ first :: r, p ∈ s.scans := fun p hp => hc.sorted.perm.mem_iff.1 hp
  have hq1 : 1 ≤ q := by
    obtain ⟨q', hq', h1⟩ := h first.1 (List.mem_map.2 ⟨first, hmem first (by simp), rfl⟩)
    rw [hq] at hq'; cases hq'; exact h1
  apply getItem_of_keys s hw
  · intro p hp; exact hmem p (List.mem_of_mem_filter hp)
  · intro p hp
    exact numberIn_positive hq1 (List.mem_filter.1 hp).2
  · rw [absKeys s _ hc (fun k hk => by obtain ⟨q, hq, _⟩ := h k hk; exact ⟨_, hq⟩) none (some b) none q B
      ?_ (num_bound b B hB _ (-1) hb).1 (Rat.le_trans (by decide) hq1) (num_bound b B hB [] 0 hb).2
      (fun _ => not_neg hB hs hb) (by simp)]
    · simp only [filter_keys, stepKeys]
    · rw [boundFloat_default _ _ _ (Or.inl rfl), List.map_cons, pyGet_zero]
      exact (float_ok _ _).2 hq

/-- C12: but a text as the only bound raises TypeError, since it is compared with 0. -/
theorem C12_single_text (s : Sdf) (r : List (Str × Obj)) (hc : Chronological s r) (hne : r ≠ [])
    (h : ∀ k ∈ s.scans.keys, ∃ x, parseFloat k = some x) (t : Str) (T : Rat) (hT : parseFloat t = some (.fin T))
    (step : Option Ref) :
    s.getItem (.slice (some (.str t)) none step) = .error .TypeError ∧
      s.getItem (.slice none (some (.str t)) step) = .error .TypeError := by
  have hk : ∀ i, i = 0 ∨ i = -1 → ∃ x, Sdf.boundFloat (r.map (·.1)) none i = .ok x := by
    intro i hi
    have hl : 0 < (r.map (·.1)).length := by rw [List.length_map]; exact List.length_pos_iff.2 hne
    obtain ⟨k, hk, hkr⟩ : ∃ k, pyGet (r.map (·.1)) i = .ok k ∧ k ∈ r.map (·.1) := by
      rcases hi with rfl | rfl
      · obtain ⟨k, h1, h2⟩ := pyGet_position (r.map (·.1)) 0 0 ⟨hl, by simp⟩
        exact ⟨k, h2, List.mem_of_getElem? h1⟩
      · obtain ⟨k, h1, h2⟩ := pyGet_position (r.map (·.1)) (-1) ((r.map (·.1)).length - 1)
          ⟨by omega, by rw [if_pos (by omega)]; omega⟩
        exact ⟨k, h2, List.mem_of_getElem? h1⟩
    obtain ⟨x, hx⟩ := h k (((hc.sorted.perm.map (·.1)).mem_iff).1 hkr)
    rw [boundFloat_default _ _ _ (Or.inl rfl), hk]
    exact ⟨x, (float_ok _ _).2 hx⟩
  have ht : t ≠ [] := by
    rintro rfl
    have : parseFloat [] = none := by decide +kernel
    rw [this] at hT; cases hT
  have hb : ∀ i, Sdf.boundFloat (r.map (·.1)) (some (.str t)) i = .ok (.fin T) := by
    intro i
    simp only [Sdf.boundFloat]
    rw [if_neg ht]
    exact (float_ok _ _).2 hT
  obtain ⟨x, hx⟩ := hk 0 (.inl rfl)
  obtain ⟨y, hy⟩ := hk (-1) (.inr rfl)
  constructor
  · rw [Sdf.getItem]
    unfold Sdf.sliceKeys
    simp only [hc.listed, hb, hy]
    rfl
  · rw [Sdf.getItem]
    unfold Sdf.sliceKeys
    simp only [hc.listed, hb, hx]
    rfl

/-- C12: a bound 0 (or 0.0) beside a positive one is as if it were omitted. -/
theorem C12_zero (s : Sdf) (a b z : Ref) (A B : Rat) (hA : BoundIs a A) (hB : BoundIs b B) (ha : 1 ≤ A) (hb : 1 ≤ B)
    (hsa : ∀ t, a ≠ .str t) (hsb : ∀ t, b ≠ .str t) (hz : BoundIs z 0) (hsz : ∀ t, z ≠ .str t) (step : Option Ref) :
    s.getItem (.slice (some z) (some b) step) = s.getItem (.slice none (some b) step) ∧
      s.getItem (.slice (some a) (some z) step) = s.getItem (.slice (some a) none step) := by
  have hd : ∀ l i, Sdf.boundFloat l (some z) i = Sdf.boundFloat l none i := by
    intro l i
    cases z with
    | int n =>
      have hz : (0 : Rat) = n := hz
      have hn : n = 0 := by exact_mod_cast hz.symm
      simp only [Sdf.boundFloat, if_pos hn]
    | str t => exact absurd rfl (hsz t)
    | flt t =>
      have hz : parseFloat t = some (.fin 0) := hz
      simp only [Sdf.boundFloat, Py.float, hz]
      rfl
  have pos : ∀ q : Rat, 1 ≤ q → PyFloat.lt (.fin q) (.fin 0) = false := by
    intro q hq
    simp only [PyFloat.lt, decide_eq_false_iff_not]
    exact fun h' => absurd (Std.lt_of_le_of_lt hq h') (by decide)
  have h1 : s.sliceKeys (some z) (some b) step = s.sliceKeys none (some b) step := by
    unfold Sdf.sliceKeys
    cases s.getScanNumbersChronological with
    | error e => rfl
    | ok l =>
      simp only [hd, (num_bound b B hB l (-1) hb).1]
      cases Sdf.boundFloat l none 0 with
      | error e => rfl
      | ok x =>
        simp only [Sdf.relative, not_neg hB hsb hb, pos B hb, Bool.and_false, Option.isNone_some, Option.isNone_none,
          Bool.false_eq_true, if_false, if_true, Bool.or_false]
  have h2 : s.sliceKeys (some a) (some z) step = s.sliceKeys (some a) none step := by
    unfold Sdf.sliceKeys
    cases s.getScanNumbersChronological with
    | error e => rfl
    | ok l =>
      simp only [hd, (num_bound a A hA l 0 ha).1]
      cases Sdf.boundFloat l none (-1) with
      | error e => rfl
      | ok x =>
        simp only [Sdf.relative, not_neg hA hsa ha, pos A ha, Bool.false_and, Option.isNone_some, Option.isNone_none,
          Bool.false_eq_true, if_false, if_true, Bool.or_false]
  rw [Sdf.getItem, Sdf.getItem, Sdf.getItem, Sdf.getItem, h1, h2]
  exact ⟨rfl, rfl⟩

/-! ### The step -/

theorem split_repeatName (n w : Nat) : splitScanNumberString (repeatName n w) = .ok [(n : Int), (w : Int)] := by
  unfold repeatName
  split
  · rename_i h; subst h; exact C35_plain n
  · exact C35_suffix n w

theorem repeatName_inj {n w m v : Nat} (h : repeatName n w = repeatName m v) : n = m ∧ w = v := by
  have h1 := split_repeatName n w
  rw [h, split_repeatName m v] at h1
  simp only [Except.ok.injEq, List.cons.injEq, and_true] at h1
  omega

theorem chooseStep_nonneg (num rep : Str → Nat) (keys : List Str)
    (h : ∀ k ∈ keys, k = repeatName (num k) (rep k)) (w : Nat) :
    Sdf.chooseStep w keys = .ok (keys.filter (fun k => rep k == w)) := by
  unfold Sdf.chooseStep
  rw [if_neg (by omega)]
  rw [mapE_ok_of splitScanNumberString (fun k => [(num k : Int), (rep k : Int)])]
  · simp only [Except.ok.injEq]
    clear h
    induction keys with
    | nil => rfl
    | cons k ks ih =>
      have e : (some (rep k : Int) == some (w : Int)) = (rep k == w) := by
        rw [Bool.eq_iff_iff]; simp; omega
      simp only [List.map_cons, List.zip_cons_cons, List.filter_cons, List.getElem?_cons_succ,
        List.getElem?_cons_zero, e]
      split
      · rw [List.map_cons, ih]
      · exact ih
  · intro k hk
    have := h k hk
    conv_lhs => rw [this]
    exact split_repeatName _ _

/-- C12: with a step w >= 0 only the occurrence w of each scan number is selected. -/
theorem C12_occurrence (s : Sdf) (hw : WellNamed s) (r : List (Str × Obj)) (hc : Chronological s r)
    (h : ∀ k ∈ s.scans.keys, ∃ x, parseFloat k = some x) (a b : Ref) (A B : Rat) (hA : BoundIs a A)
    (hB : BoundIs b B) (ha : 1 ≤ A) (hb : 1 ≤ B)
    (num rep : Str → Nat) (hrep : ∀ k ∈ s.scans.keys, k = repeatName (num k) (rep k)) (st : Ref) (w : Nat)
    (hst : StepIs st w) :
    s.getItem (.slice (some a) (some b) (some st)) =
      .ok (.many ((r.filter (fun p => numberIn A B p.1 && rep p.1 == w)).map (fun p => some p.2))) := by
  have hmem : ∀ p ∈ r, p ∈ s.scans := fun p hp => hc.sorted.perm.mem_iff.1 hp
  apply getItem_of_keys s hw
  · intro p hp
    exact hmem p (List.mem_of_mem_filter hp)
  · intro p hp
    have := (List.mem_filter.1 hp).2
    simp only [Bool.and_eq_true] at this
    exact numberIn_positive ha this.1
  · rw [absKeys s r hc h (some a) (some b) (some st) A B (num_bound a A hA _ 0 ha).1
      (num_bound b B hB _ (-1) hb).1 (num_bound a A hA [] 0 ha).2 (num_bound b B hB [] 0 hb).2 (by simp) (by simp)]
    simp only [stepKeys, refIndex_step hst]
    rw [chooseStep_nonneg num rep]
    · rw [filter_keys, filter_keys, List.filter_filter]
      simp only [Bool.and_comm]
    · intro k hk
      obtain ⟨p, hp, rfl⟩ := List.mem_map.1 (List.mem_of_mem_filter hk)
      exact hrep p.1 (List.mem_map.2 ⟨p, hmem p hp, rfl⟩)

/-! ### Negative steps -/

theorem repeats_append (ks : List Str) (k : Str) (kd : Dict (List Str)) :
    Sdf.repeats (ks ++ [k]) kd = match Sdf.repeats ks kd with
      | .error e => .error e
      | .ok kd => Sdf.repeats [k] kd := by
  induction ks generalizing kd with
  | nil => rfl
  | cons x xs ih =>
    rw [List.cons_append, Sdf.repeats, Sdf.repeats]
    cases splitScanNumberString x with
    | error e => rfl
    | ok l =>
      rcases l with _ | ⟨a, _ | ⟨b, _ | ⟨c, l⟩⟩⟩
      · rfl
      · rfl
      · simp only
        split
        · exact ih _
        · cases kd.get? (intStr a) with
          | none => rfl
          | some l => exact ih _
      · rfl

theorem set_present {α β : Type} (l : List β) (key : β → Str) (val : β → α) (k : Str) (v : α)
    (hk : k ∈ l.map key) (hn : (l.map key).Nodup) :
    Dict.set (l.map (fun b => (key b, val b))) k v =
      l.map (fun b => (key b, if key b = k then v else val b)) := by
  induction l with
  | nil => simp at hk
  | cons b l ih =>
    rw [List.map_cons, List.nodup_cons] at hn
    rw [List.map_cons, List.map_cons, Dict.set]
    by_cases e : key b = k
    · rw [if_pos e, if_pos e]
      congr 1
      apply List.map_congr_left
      intro c hc
      rw [if_neg]
      intro e'
      exact hn.1 (by rw [e, ← e']; exact List.mem_map.2 ⟨c, hc, rfl⟩)
    · rw [if_neg e, if_neg e]
      congr 1
      apply ih _ hn.2
      rw [List.map_cons] at hk
      rcases List.mem_cons.1 hk with h | h
      · exact absurd h.symm e
      · exact h

theorem get_present {α β : Type} (l : List β) (key : β → Str) (val : β → α) (b : β)
    (hb : b ∈ l) (hn : (l.map key).Nodup) :
    Dict.get? (l.map (fun b => (key b, val b))) (key b) = some (val b) := by
  apply (Dict.mem_iff_get? _ _ _ _).1
  · exact List.mem_map.2 ⟨b, hb, rfl⟩
  · simpa [Dict.keys, Function.comp_def] using hn

/-- the groups of repeated scans -/
theorem repeats_eq (num rep : Str → Nat) (keys : List Str)
    (h : ∀ k ∈ keys, k = repeatName (num k) (rep k)) (hn : keys.Nodup)
    (hfirst : ∀ before k after, keys = before ++ k :: after → rep k ≠ 0 →
      ∃ f ∈ before, num f = num k ∧ rep f = 0) :
    Sdf.repeats keys [] = .ok ((keys.filter (fun k => rep k == 0)).map
      (fun f => (natStr (num f), keys.filter (fun k => num k == num f)))) := by
  -- induction on the list of keys read so far
  have main : ∀ done rest, keys = done ++ rest →
      Sdf.repeats done [] = .ok ((done.filter (fun k => rep k == 0)).map
        (fun f => (natStr (num f), done.filter (fun k => num k == num f)))) := by
    intro done
    induction done using List.reverseRecOn with
    | nil => intro _ _; rfl
    | append_singleton done k ih =>
      intro rest e
      have e' : keys = done ++ k :: rest := by rw [e]; simp
      have hk := h k (by rw [e']; simp)
      have hd : ∀ x ∈ done, x = repeatName (num x) (rep x) := fun x hx => h x (by rw [e']; simp [hx])
      have hnk : k ∉ done := by
        rw [e', List.nodup_append] at hn
        intro hx
        exact hn.2.2 k hx k (by simp) rfl
      have hdn : done.Nodup := by rw [e', List.nodup_append] at hn; exact hn.1
      have hfn : ((done.filter (fun k => rep k == 0)).map (fun f => natStr (num f))).Nodup := by
        apply List.Nodup.map_on _ (hdn.filter _)
        intro x hx y hy exy
        simp only [List.mem_filter, beq_iff_eq] at hx hy
        have := natStr_injective exy
        rw [hd x hx.1, hd y hy.1, this, hx.2, hy.2]
      rw [repeats_append, ih (k :: rest) e']
      simp only [Sdf.repeats]
      have hsp : splitScanNumberString k = .ok [(num k : Int), (rep k : Int)] := by
        conv_lhs => rw [hk]
        exact split_repeatName _ _
      have hint : intStr (num k : Int) = natStr (num k) := rfl
      rw [hsp]
      simp only [hint]
      by_cases hr : rep k = 0
      · rw [if_pos (by omega)]
        have hno : ∀ x ∈ done, num x ≠ num k := by
          intro x hx exk
          by_cases hrx : rep x = 0
          · apply hnk
            rw [hk, hr, ← exk, ← hrx, ← hd x hx]; exact hx
          · obtain ⟨b, a, eb⟩ := List.append_of_mem hx
            obtain ⟨f, hf, hf1, hf2⟩ := hfirst b x (a ++ k :: rest) (by rw [e', eb]; simp) hrx
            have hfd : f ∈ done := by rw [eb]; simp [hf]
            apply hnk
            rw [hk, hr, ← exk, ← hf1, ← hf2, ← hd f hfd]; exact hfd
        simp only [Except.ok.injEq]
        rw [Dict.set_of_not_mem]
        · rw [List.filter_append, List.map_append]
          congr 1
          · apply List.map_congr_left
            intro f hf
            have hf := (List.mem_filter.1 hf).1
            have : (num k == num f) = false := by
              simp only [beq_eq_false_iff_ne]; exact fun e => hno f hf e.symm
            rw [List.filter_append, List.filter_cons, this]
            simp
          · rw [List.filter_cons, if_pos (by simp [hr])]
            simp only [List.filter_nil, List.map_cons, List.map_nil, List.cons.injEq, and_true,
              Prod.mk.injEq, true_and]
            rw [List.filter_append, List.filter_cons, if_pos (by simp)]
            have : done.filter (fun x => num x == num k) = [] := by
              rw [List.filter_eq_nil_iff]
              intro x hx; simpa using hno x hx
            rw [this]; rfl
        · simp only [Dict.keys, List.map_map, List.mem_map, Function.comp]
          rintro ⟨x, hx, exk⟩
          exact hno x (List.mem_filter.1 hx).1 (natStr_injective exk)
      · rw [if_neg (by omega)]
        obtain ⟨f, hf, hf1, hf2⟩ := hfirst done k rest e' hr
        have hff : f ∈ done.filter (fun k => rep k == 0) := List.mem_filter.2 ⟨hf, by simp [hf2]⟩
        have hg := get_present (done.filter (fun k => rep k == 0)) (fun f => natStr (num f))
          (fun f => done.filter (fun k => num k == num f)) f hff hfn
        rw [hf1] at hg
        simp only [hg, Except.ok.injEq]
        rw [set_present (done.filter (fun k => rep k == 0)) (fun f => natStr (num f))
          (fun f => done.filter (fun k => num k == num f)) _ _
          (List.mem_map.2 ⟨f, hff, by rw [hf1]⟩) hfn]
        rw [List.filter_append, List.filter_cons, if_neg (by simpa using hr)]
        simp only [List.filter_nil, List.append_nil]
        apply List.map_congr_left
        intro x hx
        rw [List.filter_append, List.filter_cons]
        by_cases exk : num x = num k
        · rw [if_pos (by rw [exk]), if_pos (by simp [exk]), exk]
          rfl
        · rw [if_neg (fun e => exk (natStr_injective e)), if_neg (by simpa using fun e => exk e.symm)]
          simp
  exact main keys [] (by simp)

theorem pyGet_reverse {α : Type} (l : List α) (j : Nat) (h : j < l.length) :
    ∃ a, l.reverse[j]? = some a ∧ pyGet l (-(j + 1 : Nat)) = .ok a := by
  obtain ⟨a, h1, h2⟩ := pyGet_position l (-(j + 1 : Nat)) (l.length - 1 - j)
    ⟨by omega, by rw [if_pos (by omega)]; omega⟩
  refine ⟨a, ?_, h2⟩
  rw [List.getElem?_reverse h]
  exact h1

/-- the step -1, -2, ... on a list of scans -/
theorem getItem_from_end (s : Sdf) (hw : WellNamed s) (a b : Option Ref) (num rep : Str → Nat) (j : Nat)
    (st : Ref) (hst : StepIs st (-(j + 1 : Nat))) (sel : List (Str × Obj))
    (hmem : ∀ p ∈ sel, p ∈ s.scans) (hpos : ∀ p ∈ sel, Positive p.1) (hnd : (sel.map (·.1)).Nodup)
    (hrep : ∀ k ∈ s.scans.keys, k = repeatName (num k) (rep k))
    (hfirst : ∀ before p after, sel = before ++ p :: after → rep p.1 ≠ 0 →
      ∃ f ∈ before, num f.1 = num p.1 ∧ rep f.1 = 0)
    (hj : ∀ f ∈ sel, rep f.1 = 0 → j < (sel.filter (fun p => num p.1 == num f.1)).length)
    (hkeys : s.sliceKeys a b (some st) = stepKeys (some st) (sel.map (·.1))) :
    s.getItem (.slice a b (some st)) =
      .ok (.many ((sel.filter (fun p => rep p.1 == 0)).map (fun f =>
        ((sel.filter (fun p => num p.1 == num f.1)).reverse[j]?).map (·.2)))) := by
  -- the chosen scans
  have hch : ∀ f ∈ sel.filter (fun p => rep p.1 == 0), ∃ p ∈ sel,
      (sel.filter (fun p => num p.1 == num f.1)).reverse[j]? = some p ∧
      pyGet ((sel.map (·.1)).filter (fun k => num k == num f.1)) (-(j + 1 : Nat)) = .ok p.1 := by
    intro f hf
    simp only [List.mem_filter, beq_iff_eq] at hf
    have hlen := hj f hf.1 hf.2
    obtain ⟨p, h1, h2⟩ := pyGet_reverse _ j hlen
    obtain ⟨n, h3, h4⟩ := pyGet_reverse ((sel.map (·.1)).filter (fun k => num k == num f.1)) j
      (by rw [filter_keys, List.length_map]; exact hlen)
    refine ⟨p, List.mem_of_mem_filter (List.mem_reverse.1 (List.mem_of_getElem? h1)), h1, ?_⟩
    rw [h4]
    rw [filter_keys, ← List.map_reverse, List.getElem?_map, h1] at h3
    simp only [Option.map_some, Option.some.injEq] at h3
    rw [h3]
  let pick : Str × Obj → Str × Obj := fun f =>
    ((sel.filter (fun p => num p.1 == num f.1)).reverse[j]?).getD f
  have hpick : ∀ f ∈ sel.filter (fun p => rep p.1 == 0), pick f ∈ sel ∧
      (sel.filter (fun p => num p.1 == num f.1)).reverse[j]? = some (pick f) ∧
      pyGet ((sel.map (·.1)).filter (fun k => num k == num f.1)) (-(j + 1 : Nat)) = .ok (pick f).1 := by
    intro f hf
    obtain ⟨p, h1, h2, h3⟩ := hch f hf
    have : pick f = p := by simp only [pick, h2, Option.getD_some]
    rw [this]; exact ⟨h1, h2, h3⟩
  have hres : (sel.filter (fun p => rep p.1 == 0)).map (fun f =>
        ((sel.filter (fun p => num p.1 == num f.1)).reverse[j]?).map (·.2)) =
      ((sel.filter (fun p => rep p.1 == 0)).map pick).map (fun p => some p.2) := by
    rw [List.map_map]
    apply List.map_congr_left
    intro f hf
    rw [(hpick f hf).2.1]
    rfl
  rw [hres]
  apply getItem_of_keys s hw
  · intro p hp
    obtain ⟨f, hf, rfl⟩ := List.mem_map.1 hp
    exact hmem _ (hpick f hf).1
  · intro p hp
    obtain ⟨f, hf, rfl⟩ := List.mem_map.1 hp
    exact hpos _ (hpick f hf).1
  · rw [hkeys]
    simp only [stepKeys, refIndex_step hst]
    unfold Sdf.chooseStep
    rw [if_pos (by omega)]
    rw [repeats_eq num rep (sel.map (·.1)) _ hnd]
    · simp only [Dict.values, List.map_map, Function.comp_def]
      rw [filter_keys sel (fun k => rep k == 0), List.map_map]
      have : ∀ l : List (Str × Obj), (∀ f ∈ l, f ∈ sel.filter (fun p => rep p.1 == 0)) →
          mapE (fun l => pyGet l (-(j + 1 : Nat))) (l.map ((fun x =>
            (sel.map (·.1)).filter (fun k => num k == num x)) ∘ fun x => x.1)) =
          .ok (l.map (fun f => (pick f).1)) := by
        intro l
        induction l with
        | nil => intro _; rfl
        | cons f l ih =>
          intro hl
          rw [List.map_cons, mapE, ih (fun x hx => hl x (by simp [hx]))]
          simp only [Function.comp, (hpick f (hl f (by simp))).2.2]
          rfl
      have := this _ (fun f hf => hf)
      rw [this]
    · intro before k after e hr
      have : ∃ b1 p a1, sel = b1 ++ p :: a1 ∧ before = b1.map (·.1) ∧ k = p.1 := by
        obtain ⟨b1, r1, e1, e2, e3⟩ := List.map_eq_append_iff.1 e
        obtain ⟨p, a1, e4, e5, e6⟩ := List.map_eq_cons_iff.1 e3
        exact ⟨b1, p, a1, by rw [e1, e4], e2.symm, e5.symm⟩
      obtain ⟨b1, p, a1, e1, e2, e3⟩ := this
      obtain ⟨f, hf, hf1, hf2⟩ := hfirst b1 p a1 e1 (by rw [← e3]; exact hr)
      exact ⟨f.1, by rw [e2]; exact List.mem_map.2 ⟨f, hf, rfl⟩, by rw [e3]; exact hf1, hf2⟩
    · intro k hk
      obtain ⟨p, hp, rfl⟩ := List.mem_map.1 hk
      exact hrep p.1 (List.mem_map.2 ⟨p, hmem p hp, rfl⟩)

/-- C12: with the step -1, -2, ... the last, the last but one, ... of the selected occurrences of
each scan number is returned, the numbers in the order of their first occurrence; provided that
among the selected scans every repeated one comes after the first of its number, and that there are
that many occurrences. -/
theorem C12_from_end (s : Sdf) (hw : WellNamed s) (r : List (Str × Obj)) (hc : Chronological s r)
    (h : ∀ k ∈ s.scans.keys, ∃ x, parseFloat k = some x) (a b : Ref) (A B : Rat) (hA : BoundIs a A)
    (hB : BoundIs b B) (ha : 1 ≤ A) (hb : 1 ≤ B)
    (num rep : Str → Nat) (hrep : ∀ k ∈ s.scans.keys, k = repeatName (num k) (rep k)) (j : Nat)
    (st : Ref) (hst : StepIs st (-(j + 1 : Nat)))
    (sel : List (Str × Obj)) (hsel : sel = r.filter (fun p => numberIn A B p.1))
    (hfirst : ∀ before p after, sel = before ++ p :: after → rep p.1 ≠ 0 →
      ∃ f ∈ before, num f.1 = num p.1 ∧ rep f.1 = 0)
    (hj : ∀ f ∈ sel, rep f.1 = 0 → j < (sel.filter (fun p => num p.1 == num f.1)).length) :
    s.getItem (.slice (some a) (some b) (some st)) =
      .ok (.many ((sel.filter (fun p => rep p.1 == 0)).map (fun f =>
        ((sel.filter (fun p => num p.1 == num f.1)).reverse[j]?).map (·.2)))) := by
  have hmem : ∀ p ∈ sel, p ∈ s.scans := fun p hp => by
    rw [hsel] at hp
    exact hc.sorted.perm.mem_iff.1 (List.mem_of_mem_filter hp)
  have hpos : ∀ p ∈ sel, Positive p.1 := fun p hp => by
    rw [hsel] at hp
    exact numberIn_positive ha (List.mem_filter.1 hp).2
  have hnd : (sel.map (·.1)).Nodup := by
    rw [hsel]
    have : (r.map (fun p : Str × Obj => p.1)).Nodup :=
      (hc.sorted.perm.map (fun p : Str × Obj => p.1)).nodup_iff.2 hw.nodup
    exact this.sublist (List.filter_sublist.map _)
  refine getItem_from_end s hw _ _ num rep j st hst sel hmem hpos hnd hrep hfirst hj ?_
  rw [absKeys s r hc h (some a) (some b) _ A B (num_bound a A hA _ 0 ha).1
    (num_bound b B hB _ (-1) hb).1 (num_bound a A hA [] 0 ha).2 (num_bound b B hB [] 0 hb).2 (by simp) (by simp), filter_keys, ← hsel]

/-! ## C13 -/

/-- the relative position from the end, given as a positive number, of a slice bound -/
def fromEnd : Option Nat → Option Ref
  | none => none
  | some n => some (.int (-(n + 1 : Nat)))

/-- the part of a list from the a-th last element on (from the first if omitted) to before the b-th last (to the end
if omitted); `some n` stands for -(n+1) -/
def part {α : Type} (r : List α) (a b : Option Nat) : List α :=
  (r.take (match b with | none => r.length | some n => r.length - (n + 1))).drop
    (match a with | none => 0 | some n => r.length - (n + 1))

theorem part_mem {α : Type} {r : List α} {a b : Option Nat} {x : α} (h : x ∈ part r a b) : x ∈ r :=
  List.mem_of_mem_take (List.mem_of_mem_drop h)

/-- the scan numbers of a slice with relative bounds, before the step -/
theorem relKeys (s : Sdf) (r : List (Str × Obj)) (hc : Chronological s r)
    (h : ∀ k ∈ s.scans.keys, Positive k) (a b : Option Nat) (hne : r ≠ [] ∨ (a.isSome ∧ b.isSome)) (step : Option Ref) :
    s.sliceKeys (fromEnd a) (fromEnd b) step = stepKeys step ((part r a b).map (·.1)) := by
  have hmem : ∀ p ∈ r, p ∈ s.scans := fun p hp => hc.sorted.perm.mem_iff.1 hp
  have hpos : ∀ p ∈ r, Positive p.1 := fun p hp => h p.1 (List.mem_map.2 ⟨p, hmem p hp, rfl⟩)
  unfold part
  have hbf : ∀ (o : Option Nat) (i : Int), (i = 0 ∨ i = -1) → (r ≠ [] ∨ o.isSome) →
      ∃ x, Sdf.boundFloat (r.map (·.1)) (fromEnd o) i = .ok (.fin x) ∧ (o.isSome → x < 0) := by
    intro o i hi ho
    cases o with
    | some n =>
      refine ⟨_, boundFloat_number _ _ ((-(n + 1 : Nat) : Int) : Rat) _ rfl ?_, fun _ => ?_⟩
      · have h1 : (-((n + 1 : Nat) : Int)) ≠ 0 := by omega
        exact_mod_cast h1
      · have h1 : (-((n + 1 : Nat) : Int)) < 0 := by omega
        exact_mod_cast h1
    | none =>
      have ho : r ≠ [] := by simpa using ho
      rw [show fromEnd none = none from rfl, boundFloat_default _ _ _ (Or.inl rfl)]
      obtain ⟨k, hk, hkr⟩ : ∃ k, pyGet (r.map (·.1)) i = .ok k ∧ k ∈ r.map (·.1) := by
        have hl : 0 < (r.map (·.1)).length := by
          rw [List.length_map]; exact List.length_pos_iff.2 ho
        rcases hi with rfl | rfl
        · obtain ⟨k, h1, h2⟩ := pyGet_position (r.map (·.1)) 0 0 ⟨hl, by simp⟩
          exact ⟨k, h2, List.mem_of_getElem? h1⟩
        · obtain ⟨k, h1, h2⟩ := pyGet_position (r.map (·.1)) (-1) ((r.map (·.1)).length - 1)
            ⟨by omega, by rw [if_pos (by omega)]; omega⟩
          exact ⟨k, h2, List.mem_of_getElem? h1⟩
      obtain ⟨p, hp, rfl⟩ := List.mem_map.1 hkr
      obtain ⟨q, hq, _⟩ := hpos p hp
      rw [hk]
      exact ⟨q, (float_ok _ _).2 hq, by simp⟩
  obtain ⟨x, hx, hx0⟩ := hbf a 0 (Or.inl rfl) (by rcases hne with h | h; exacts [Or.inl h, Or.inr h.1])
  obtain ⟨y, hy, hy0⟩ := hbf b (-1) (Or.inr rfl) (by rcases hne with h | h; exacts [Or.inl h, Or.inr h.2])
  unfold Sdf.sliceKeys
  simp only [hc.listed, hx, hy]
  have hrel : Sdf.relative (fromEnd a) (fromEnd b) (.fin x) (.fin y) = .ok true := by
    have neg : ∀ n : Nat, Sdf.noneOrNeg (fromEnd (some n)) = .ok true := by
      intro n
      simp only [fromEnd, Sdf.noneOrNeg]
      congr 1
      simp only [decide_eq_true_eq]
      omega
    unfold Sdf.relative
    cases a with
    | none =>
      cases b with
      | none => rfl
      | some n => simp only [neg, fromEnd, Option.isNone_none, if_true] at *; simp only [neg, Bool.true_or]
    | some m =>
      cases b with
      | none => simp only [fromEnd, Option.isNone_none, Option.isNone_some, Bool.false_eq_true, if_false, if_true] at *; simp only [neg, Bool.true_or]
      | some n =>
        simp only [fromEnd, Option.isNone_some, Bool.false_eq_true, if_false, PyFloat.lt, Except.ok.injEq, Bool.and_eq_true,
          decide_eq_true_eq]
        exact ⟨hx0 rfl, hy0 rfl⟩
  rw [hrel]
  have e1 : ∀ n : Nat, pyBound (r.map (·.1)).length (-(n + 1 : Nat)) = r.length - (n + 1) := by
    intro n
    unfold pyBound
    rw [if_pos (by omega), List.length_map]
    omega
  simp only [Sdf.sliceList]
  rw [List.map_drop, List.map_take]
  unfold stepKeys
  cases a <;> cases b <;> simp only [fromEnd, Sdf.listBound, pySlice, e1] <;> (try simp only [List.length_map]) <;> rfl

/-- C13: with each bound negative or omitted, `sdf[-a:-b]` is that part of the chronological list
of scans: from the a-th last scan on (from the first if omitted), to before the b-th last (to the
end if omitted).  `a = some n` stands for the bound -(n+1).  If a bound is omitted the file must
have a scan. -/
theorem C13_relative (s : Sdf) (hw : WellNamed s) (r : List (Str × Obj)) (hc : Chronological s r)
    (h : ∀ k ∈ s.scans.keys, Positive k) (a b : Option Nat) (hne : r ≠ [] ∨ (a.isSome ∧ b.isSome)) :
    s.getItem (.slice (fromEnd a) (fromEnd b) none) = .ok (.many ((part r a b).map (fun p => some p.2))) := by
  have hmem : ∀ p ∈ r, p ∈ s.scans := fun p hp => hc.sorted.perm.mem_iff.1 hp
  have hpos : ∀ p ∈ r, Positive p.1 := fun p hp => h p.1 (List.mem_map.2 ⟨p, hmem p hp, rfl⟩)
  apply getItem_of_keys s hw
  · intro p hp; exact hmem p (part_mem hp)
  · intro p hp; exact hpos p (part_mem hp)
  · rw [relKeys s r hc h a b hne]; rfl

/-- C13: with a step w >= 0 as well, only the occurrence w of each scan number among them is returned. -/
theorem C13_occurrence (s : Sdf) (hw : WellNamed s) (r : List (Str × Obj)) (hc : Chronological s r)
    (h : ∀ k ∈ s.scans.keys, Positive k) (a b : Option Nat) (hne : r ≠ [] ∨ (a.isSome ∧ b.isSome))
    (num rep : Str → Nat) (hrep : ∀ k ∈ s.scans.keys, k = repeatName (num k) (rep k)) (st : Ref) (w : Nat)
    (hst : StepIs st w) :
    s.getItem (.slice (fromEnd a) (fromEnd b) (some st)) =
      .ok (.many (((part r a b).filter (fun p => rep p.1 == w)).map (fun p => some p.2))) := by
  have hmem : ∀ p ∈ r, p ∈ s.scans := fun p hp => hc.sorted.perm.mem_iff.1 hp
  have hpos : ∀ p ∈ r, Positive p.1 := fun p hp => h p.1 (List.mem_map.2 ⟨p, hmem p hp, rfl⟩)
  apply getItem_of_keys s hw
  · intro p hp; exact hmem p (part_mem (List.mem_of_mem_filter hp))
  · intro p hp; exact hpos p (part_mem (List.mem_of_mem_filter hp))
  · rw [relKeys s r hc h a b hne]
    simp only [stepKeys, refIndex_step hst]
    rw [chooseStep_nonneg num rep, filter_keys]
    intro k hk
    obtain ⟨p, hp, rfl⟩ := List.mem_map.1 hk
    exact hrep p.1 (List.mem_map.2 ⟨p, hmem p (part_mem hp), rfl⟩)

/-- C13: with the step -1, -2, ... the last, the last but one, ... of the occurrences of each scan number among them is returned,
under the same conditions as for absolute bounds (`C12_from_end`). -/
theorem C13_from_end (s : Sdf) (hw : WellNamed s) (r : List (Str × Obj)) (hc : Chronological s r)
    (h : ∀ k ∈ s.scans.keys, Positive k) (a b : Option Nat) (hne : r ≠ [] ∨ (a.isSome ∧ b.isSome))
    (num rep : Str → Nat) (hrep : ∀ k ∈ s.scans.keys, k = repeatName (num k) (rep k)) (j : Nat)
    (st : Ref) (hst : StepIs st (-(j + 1 : Nat))) (sel : List (Str × Obj)) (hsel : sel = part r a b)
    (hfirst : ∀ before p after, sel = before ++ p :: after → rep p.1 ≠ 0 →
      ∃ f ∈ before, num f.1 = num p.1 ∧ rep f.1 = 0)
    (hj : ∀ f ∈ sel, rep f.1 = 0 → j < (sel.filter (fun p => num p.1 == num f.1)).length) :
    s.getItem (.slice (fromEnd a) (fromEnd b) (some st)) =
      .ok (.many ((sel.filter (fun p => rep p.1 == 0)).map (fun f =>
        ((sel.filter (fun p => num p.1 == num f.1)).reverse[j]?).map (·.2)))) := by
  have hmem : ∀ p ∈ r, p ∈ s.scans := fun p hp => hc.sorted.perm.mem_iff.1 hp
  have hpos : ∀ p ∈ r, Positive p.1 := fun p hp => h p.1 (List.mem_map.2 ⟨p, hmem p hp, rfl⟩)
  refine getItem_from_end s hw _ _ num rep j st hst sel (fun p hp => hmem p (part_mem (hsel ▸ hp)))
    (fun p hp => hpos p (part_mem (hsel ▸ hp))) ?_ hrep hfirst hj (by rw [relKeys s r hc h a b hne, hsel])
  have : (r.map (fun p : Str × Obj => p.1)).Nodup :=
    (hc.sorted.perm.map (fun p : Str × Obj => p.1)).nodup_iff.2 hw.nodup
  rw [hsel]
  exact this.sublist (((List.drop_sublist _ _).trans (List.take_sublist _ _)).map _)

/-- C13: negative bounds that are floats or texts raise TypeError: a list has no such positions. -/
theorem C13_no_position (s : Sdf) (r : List (Str × Obj)) (hc : Chronological s r) (a b : Ref) (A B : Rat)
    (hA : BoundIs a A) (hB : BoundIs b B) (h : A < 0 ∧ B < 0) (hi : (∀ i, a ≠ .int i) ∨ ∀ i, b ≠ .int i)
    (step : Option Ref) : s.getItem (.slice (some a) (some b) step) = .error .TypeError := by
  rw [Sdf.getItem]
  have hA0 : A ≠ 0 := by rintro rfl; exact absurd h.1 (by decide)
  have hB0 : B ≠ 0 := by rintro rfl; exact absurd h.2 (by decide)
  have : s.sliceKeys (some a) (some b) step = .error .TypeError := by
    unfold Sdf.sliceKeys
    simp only [hc.listed, boundFloat_number _ a A _ hA hA0, boundFloat_number _ b B _ hB hB0]
    have h1 : Sdf.relative (some a) (some b) (.fin A) (.fin B) = .ok true := by
      unfold Sdf.relative
      simp only [Option.isNone_some, Bool.false_eq_true, if_false, PyFloat.lt, Except.ok.injEq, Bool.and_eq_true, decide_eq_true_eq]
      exact h
    rw [h1]
    simp only
    have h2 : ∀ l, Sdf.sliceList l (some a) (some b) = .error .TypeError := by
      intro l
      unfold Sdf.sliceList
      cases a with
      | int i =>
        cases b with
        | int j => rcases hi with h | h; exacts [absurd rfl (h i), absurd rfl (h j)]
        | str t => rfl
        | flt t => rfl
      | str t => rfl
      | flt t => rfl
    rw [h2]
  rw [this]

/-- C13: `sdf[:]` returns every scan, in chronological order. -/
theorem C13_everything (s : Sdf) (hw : WellNamed s) (r : List (Str × Obj)) (hc : Chronological s r)
    (h : ∀ k ∈ s.scans.keys, Positive k) (hne : s.scans ≠ []) :
    s.getItem (.slice none none none) = .ok (.many (r.map (fun p => some p.2))) := by
  have hr : r ≠ [] := by
    rintro rfl
    exact hne (List.nil_perm.1 hc.sorted.perm)
  have := C13_relative s hw r hc h none none (Or.inl hr)
  simpa [fromEnd, part] using this

/-- C13: `sdf[:]` of a file without scans raises IndexError. -/
theorem C13_no_scans (s : Sdf) (a b : Option Int) (step : Option Ref) (h : s.scans = [])
    (hab : a = none ∨ b = none) : s.getItem (.slice (a.map .int) (b.map .int) step) = .error .IndexError := by
  have hl : s.getScanNumbersChronological = .ok [] := by
    unfold Sdf.getScanNumbersChronological
    rw [h]; rfl
  have : s.sliceKeys (a.map .int) (b.map .int) step = .error .IndexError := by
    unfold Sdf.sliceKeys
    rw [hl]
    have hb : ∀ (o : Option Int) (i : Int), Sdf.boundFloat [] (o.map .int) i = .error .IndexError ∨
        (o ≠ none ∧ ∃ x, Sdf.boundFloat [] (o.map .int) i = .ok x) := by
      intro o i
      have hg : pyGet ([] : List Str) i = .error .IndexError := by
        unfold pyGet
        simp only [List.getElem?_nil]
        repeat' split
        all_goals rfl
      rcases o with _ | n
      · left
        simp only [Option.map_none, Sdf.boundFloat, hg]
      · by_cases e : n = 0
        · left
          simp only [Option.map_some, Sdf.boundFloat, hg, if_pos e]
        · right
          simp only [Option.map_some, Sdf.boundFloat, if_neg e]
          exact ⟨by simp, _, rfl⟩
    rcases hb a 0 with e | ⟨h1, x, e⟩
    · simp only [e]
    · rcases hb b (-1) with e' | ⟨h2, _⟩
      · simp only [e, e']
      · rcases hab with rfl | rfl
        · exact absurd rfl h1
        · exact absurd rfl h2
  rw [Sdf.getItem, this]

/-- C13: a single negative index counts from the end of the chronological list. -/
theorem C13_index (s : Sdf) (hw : WellNamed s) (r : List (Str × Obj)) (hc : Chronological s r)
    (h : ∀ k ∈ s.scans.keys, Positive k) (n : Nat) :
    (∀ p, r.reverse[n]? = some p → s.getItem (.ref (.int (-(n + 1 : Nat)))) = .ok (.one (some p.2))) ∧
    (r.length ≤ n → s.getItem (.ref (.int (-(n + 1 : Nat)))) = .error .IndexError) := by
  have hmem : ∀ p ∈ r, p ∈ s.scans := fun p hp => hc.sorted.perm.mem_iff.1 hp
  constructor
  · intro p hp
    have hlt : n < r.length := by
      have := (List.getElem?_eq_some_iff.1 hp).1
      simpa using this
    obtain ⟨k, h1, h2⟩ := pyGet_reverse (r.map (·.1)) n (by rw [List.length_map]; exact hlt)
    rw [← List.map_reverse, List.getElem?_map, hp] at h1
    simp only [Option.map_some, Option.some.injEq] at h1
    have hps := hmem p (List.mem_reverse.1 (List.mem_of_getElem? hp))
    rw [Sdf.getItem, Sdf.getPlain, if_neg (by omega), hc.listed]
    simp only [h2]
    rw [← h1, getScan_name s hw p.1 p.2 (h p.1 (List.mem_map.2 ⟨p, hps, rfl⟩)) hps]
  · intro hn
    rw [Sdf.getItem, Sdf.getPlain, if_neg (by omega), hc.listed]
    simp only
    rw [pyGet_error]
    rintro ⟨j, h1, h2⟩
    rw [if_pos (by omega), List.length_map] at h2
    omega

/-! ## C14 -/

/-- C14: a single index that is not negative, or a string, is the scan number itself, as in
`getScan` (C11); scans are not counted. -/
theorem C14_number (s : Sdf) (i : Int) (h : 0 ≤ i) (x : Option Obj) (hx : s.getScan (.int i) = .ok x) :
    s.getItem (.ref (.int i)) = .ok (.one x) := by
  rw [Sdf.getItem, Sdf.getPlain, if_pos h, hx]

/-- C14: the same for a scan number given as a string. -/
theorem C14_string (s : Sdf) (t : Str) (x : Option Obj) (hx : s.getScan (.str t) = .ok x) :
    s.getItem (.ref (.str t)) = .ok (.one x) := by
  rw [Sdf.getItem, Sdf.getPlain, hx]

/-- a result of `sdf[...]` as a list: a single scan is wrapped; a missing scan (None) cannot be -/
def asList : Sdf.Got → Option (List (Option Obj))
  | .one none => none
  | .one (some x) => some [some x]
  | .many l => some l

/-- C14: `sdf[i, j, ...]` is the concatenation of `sdf[i]`, `sdf[j]`, ... in this order, single
scans being wrapped. -/
theorem C14_tuple (s : Sdf) (items : List Sdf.Idx) (parts : List (List (Option Obj)))
    (h : List.Forall₂ (fun i l => ∃ g, s.getItem i = .ok g ∧ asList g = some l) items parts) :
    s.getItem (.tuple items) = .ok (.many parts.flatten) := by
  have : s.getItems items = .ok parts.flatten := by
    induction h with
    | nil => rfl
    | cons h1 _ ih =>
      obtain ⟨g, hg, hl⟩ := h1
      rw [Sdf.getItems, hg, ih]
      rcases g with (_ | x) | l
      · cases hl
      · simp only [asList, Option.some.injEq] at hl; subst hl; rfl
      · simp only [asList, Option.some.injEq] at hl; subst hl; rfl
  rw [Sdf.getItem, this]

/-- C14: the first item that raises an exception or is a missing scan (TypeError) makes the whole
expression raise that. -/
theorem C14_tuple_error (s : Sdf) (before : List Sdf.Idx) (parts : List (List (Option Obj)))
    (h : List.Forall₂ (fun i l => ∃ g, s.getItem i = .ok g ∧ asList g = some l) before parts)
    (i : Sdf.Idx) (e : PyErr) (after : List Sdf.Idx)
    (hi : s.getItem i = .error e ∨ (s.getItem i = .ok (.one none) ∧ e = .TypeError)) :
    s.getItem (.tuple (before ++ i :: after)) = .error e := by
  have : s.getItems (before ++ i :: after) = .error e := by
    induction h with
    | nil =>
      rw [List.nil_append, Sdf.getItems]
      rcases hi with hi | ⟨hi, rfl⟩ <;> rw [hi]
    | cons h1 _ ih =>
      obtain ⟨g, hg, hl⟩ := h1
      rw [List.cons_append, Sdf.getItems, hg, ih]
      rcases g with (_ | x) | l
      · cases hl
      · rfl
      · rfl
  rw [Sdf.getItem, this]

/-! ## Concrete cases -/

/-- the names of the scans returned -/
def gotNames : Except PyErr Sdf.Got → Except PyErr (List Str)
  | .ok (.one none) => .ok [p!"None"]
  | .ok (.one (some x)) => .ok [x.scanNum]
  | .ok (.many l) => .ok (l.map (fun o => match o with | some x => x.scanNum | none => p!"None"))
  | .error e => .error e

/-- Chronological order of the example: 10, 2, 2.1 (`C09_nonvacuous`). -/
theorem C12_nonvacuous :
    onDemo [] (fun s => [Sdf.Idx.slice (some (.int 1)) (some (.int 3)) none, .slice (some (.int 2)) (some (.int 11)) none,
        .slice (some (.int 2)) (some (.int 11)) (some (.int 1)), .slice (some (.int 2)) (some (.int 11)) (some (.int (-1))),
        .slice (some (.int 1)) (some (.int (-1))) none, .slice (some (.int 1)) none none, .slice none (some (.int 11)) none,
        .slice (some (.int 2)) (some (.int 11)) (some (.int (-2)))].map
      (fun i => gotNames (s.getItem i))) =
    [.ok [p!"2", p!"2.1"], .ok [p!"10", p!"2", p!"2.1"], .ok [p!"2.1"], .ok [p!"10", p!"2.1"],
      .error .IndexError, .ok [p!"2"], .ok [p!"10"], .error .IndexError] := by
  decide +kernel

/-- the same scans, with bounds and steps that are floats or texts -/
theorem C12_nonvacuous_texts :
    onDemo [] (fun s => [Sdf.Idx.slice (some (.flt p!"1.5")) (some (.str p!"2.1")) none,
        .slice (some (.str p!"2")) (some (.flt p!"11.0")) none, .slice (some (.str p!"2")) (some (.int 11)) (some (.str p!"1")),
        .slice (some (.int 2)) (some (.str p!"11")) (some (.flt p!"-1.0")), .slice (some (.flt p!"1.5")) none none,
        .slice (some (.str p!"2")) none none, .slice (some (.str p!"two")) none none,
        .slice (some (.flt p!"-2.0")) (some (.int (-1))) none, .slice (some (.str p!"-2")) (some (.int 3)) none].map
      (fun i => gotNames (s.getItem i))) =
    [.ok [p!"2"], .ok [p!"10", p!"2", p!"2.1"], .ok [p!"2.1"], .ok [p!"10", p!"2.1"], .ok [p!"2"],
      .error .TypeError, .error .ValueError, .error .TypeError, .error .IndexError] := by
  decide +kernel

theorem C13_nonvacuous :
    onDemo [] (fun s => [Sdf.Idx.slice none none none, .slice (some (.int (-2))) none none,
        .slice none (some (.int (-1))) none, .slice (some (.int (-5))) (some (.int (-1))) none,
        .slice none none (some (.int 1)), .slice (some (.int (-3))) none (some (.int (-1))), .slice (some (.int 0)) (some (.int 11)) none, .ref (.int (-1)),
        .ref (.int (-4))].map (fun i => gotNames (s.getItem i))) =
    [.ok [p!"10", p!"2", p!"2.1"], .ok [p!"2", p!"2.1"], .ok [p!"10", p!"2"], .ok [p!"10", p!"2"],
      .ok [p!"2.1"], .ok [p!"10", p!"2.1"], .ok [p!"10"],
      .ok [p!"2.1"], .error .IndexError] := by
  decide +kernel

theorem C14_nonvacuous :
    onDemo [] (fun s => [Sdf.Idx.tuple [.ref (.int (-1)), .slice (some (.int 1)) (some (.int 3)) none, .ref (.int 10)],
        .tuple [.ref (.int 2), .ref (.int 77)]].map (fun i => gotNames (s.getItem i))) =
    [.ok [p!"2.1", p!"2", p!"2.1", p!"10"], .error .TypeError] := by
  decide +kernel

end S2N.Props
