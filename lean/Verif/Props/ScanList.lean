import Verif.Props.Read
/-
C08-C11, C15: the lists of scans of a file object and the access to one scan.
-/
namespace S2N.Props
open S2N S2N.Py S2N.Spec

/-! ## Sorting lemmas -/

theorem ins_map {α β : Type} (r1 : α → α → Bool) (r2 : β → β → Bool) (f : α → β) (x : α) (l : List α)
    (h : ∀ a ∈ l, r1 x a = r2 (f x) (f a)) : (ins r1 x l).map f = ins r2 (f x) (l.map f) := by
  induction l with
  | nil => rfl
  | cons y ys ih =>
    simp only [ins, List.map_cons]
    rw [h y (by simp)]
    split
    · rfl
    · rw [List.map_cons, ih (fun a ha => h a (by simp [ha]))]

theorem sortBy_map {α β : Type} (r1 : α → α → Bool) (r2 : β → β → Bool) (f : α → β) (l : List α)
    (h : ∀ a ∈ l, ∀ b ∈ l, r1 a b = r2 (f a) (f b)) :
    (sortBy r1 l).map f = sortBy r2 (l.map f) := by
  induction l with
  | nil => rfl
  | cons x xs ih =>
    rw [sortBy, List.map_cons, sortBy, ← ih (fun a ha b hb => h a (by simp [ha]) b (by simp [hb]))]
    apply ins_map
    intro a ha
    exact h x (by simp) a (by simp [(sortBy_perm r1 xs).mem_iff.1 ha])

theorem sortBy_congr {α : Type} (r1 r2 : α → α → Bool) (l : List α)
    (h : ∀ a ∈ l, ∀ b ∈ l, r1 a b = r2 a b) : sortBy r1 l = sortBy r2 l := by
  have := sortBy_map r1 r2 id l h
  simpa using this

/-- stable sorting by a key that all elements have, the keys being totally ordered -/
theorem sortBy_byKey {α κ : Type} (key : α → Option κ) (le : κ → κ → Bool) (P : κ → Prop)
    (total : ∀ a b, P a → P b → le a b = true ∨ le b a = true)
    (trans : ∀ a b c, P a → P b → P c → le a b = true → le b c = true → le a c = true)
    (off : ∀ a b, ¬ P a → le a b = false)
    (l : List α) (h : ∀ a ∈ l, ∃ x, key a = some x ∧ P x) :
    IsStableSort (byKey key le) l (sortBy (byKey key le) l) := by
  classical
  let Q : α → Prop := fun a => ∃ x, key a = some x ∧ P x
  let le' : α → α → Bool := fun a b =>
    if Q a then (if Q b then byKey key le a b else false) else true
  have hon : ∀ a b, Q a → Q b → le' a b = byKey key le a b := by
    intro a b ha hb
    simp only [le', if_pos ha, if_pos hb]
  have htot : ∀ a b, le' a b = true ∨ le' b a = true := by
    intro a b
    by_cases ha : Q a
    · by_cases hb : Q b
      · rw [hon a b ha hb, hon b a hb ha]
        obtain ⟨x, hx, px⟩ := ha
        obtain ⟨y, hy, py⟩ := hb
        simp only [byKey, hx, hy]
        exact total x y px py
      · right; simp only [le', if_neg hb]
    · left; simp only [le', if_neg ha]
  have htr : ∀ a b c, le' a b = true → le' b c = true → le' a c = true := by
    intro a b c hab hbc
    by_cases ha : Q a
    · by_cases hb : Q b
      · by_cases hc : Q c
        · rw [hon _ _ ha hb] at hab
          rw [hon _ _ hb hc] at hbc
          rw [hon _ _ ha hc]
          obtain ⟨x, hx, px⟩ := ha
          obtain ⟨y, hy, py⟩ := hb
          obtain ⟨z, hz, pz⟩ := hc
          simp only [byKey, hx, hy, hz] at *
          exact trans x y z px py pz hab hbc
        · simp [le', hb, hc] at hbc
      · simp [le', ha, hb] at hab
    · simp [le', ha]
  have hcg : sortBy (byKey key le) l = sortBy le' l :=
    sortBy_congr _ _ _ (fun a ha b hb => (hon a b (h a ha) (h b hb)).symm)
  have hs := sortBy_isStableSort le' htot htr l
  rw [hcg]
  refine ⟨hs.perm, ?_, ?_⟩
  · refine hs.sorted.imp_of_mem ?_
    intro a b ha hb hab
    rw [← hon a b (h a (hs.perm.mem_iff.1 ha)) (h b (hs.perm.mem_iff.1 hb))]
    exact hab
  · intro a
    by_cases ha : Q a
    · have := hs.stable a
      rw [List.filter_congr (q := fun b => le' a b && le' b a), this]
      · apply List.filter_congr
        intro b hb
        rw [hon a b ha (h b hb), hon b a (h b hb) ha]
      · intro b hb
        have hb := h b (hs.perm.mem_iff.1 hb)
        rw [hon a b ha hb, hon b a hb ha]
    · have hf : ∀ b, byKey key le a b = false := by
        intro b
        unfold byKey
        cases hk : key a with
        | none => rfl
        | some x =>
          cases key b with
          | none => rfl
          | some y =>
            apply off
            intro px
            exact ha ⟨x, hk, px⟩
      simp [hf]

/-! ## `mapE` and `sorted` with a key -/

theorem mapE_error_iff {α β : Type} (f : α → Except PyErr β) (e0 : PyErr)
    (h0 : ∀ a e, f a = .error e → e = e0) (l : List α) (e : PyErr) :
    mapE f l = .error e ↔ e = e0 ∧ ∃ a ∈ l, ∃ e', f a = .error e' := by
  induction l with
  | nil => simp [mapE]
  | cons a l ih =>
    unfold mapE
    cases ha : f a with
    | error e1 =>
      have := h0 a e1 ha
      subst this
      constructor
      · intro h
        refine ⟨?_, a, by simp, e1, ha⟩
        simpa using h.symm
      · rintro ⟨rfl, _⟩
        rfl
    | ok b =>
      simp only
      cases hm : mapE f l with
      | error e1 =>
        rw [hm] at ih
        simp only [Except.error.injEq, List.mem_cons, exists_eq_or_imp] at ih ⊢
        rw [ih, ha]
        simp
      | ok bs =>
        rw [hm] at ih
        simp only [List.mem_cons, exists_eq_or_imp, ha, reduceCtorEq, exists_false, false_or, false_iff] at ih ⊢
        exact ih

theorem mapE_ok_of {α β : Type} (f : α → Except PyErr β) (g : α → β) (l : List α)
    (h : ∀ a ∈ l, f a = .ok (g a)) : mapE f l = .ok (l.map g) := by
  induction l with
  | nil => rfl
  | cons a l ih =>
    rw [mapE, h a (by simp), ih (fun b hb => h b (by simp [hb]))]
    rfl

theorem mapE_ok_iff {α β : Type} (f : α → Except PyErr β) (l : List α) (r : List β) :
    mapE f l = .ok r ↔ List.Forall₂ (fun a b => f a = .ok b) l r := by
  induction l generalizing r with
  | nil =>
    constructor
    · intro h; simp only [mapE, Except.ok.injEq] at h; subst h; exact .nil
    · intro h; cases h; rfl
  | cons a l ih =>
    unfold mapE
    cases ha : f a with
    | error e =>
      constructor
      · intro h; cases h
      · intro h; cases h; rename_i h1 _; rw [ha] at h1; cases h1
    | ok b =>
      cases hm : mapE f l with
      | error e =>
        constructor
        · intro h; cases h
        · intro h; cases h; rename_i h1 h2; rw [← ih, hm] at h2; cases h2
      | ok bs =>
        constructor
        · intro h
          simp only [Except.ok.injEq] at h; subst h
          exact .cons ha ((ih bs).1 hm)
        · intro h
          cases h
          rename_i h1 h2
          rw [ha] at h1
          rw [← ih, hm] at h2
          simp only [Except.ok.injEq] at h1 h2
          subst h1; subst h2; rfl

theorem forall₂_zip_mem {α β : Type} {R : α → β → Prop} {l : List α} {r : List β}
    (h : List.Forall₂ R l r) : (∀ p ∈ r.zip l, R p.2 p.1) ∧ (r.zip l).map (·.2) = l := by
  induction h with
  | nil => simp
  | cons h1 _ ih =>
    refine ⟨?_, by simp [ih.2]⟩
    intro p hp
    rcases List.mem_cons.1 (by simpa using hp) with rfl | hp
    · exact h1
    · exact ih.1 p hp

theorem sortedBy_ok {α κ : Type} (key : α → Except PyErr κ) (opt : α → Option κ) (le : κ → κ → Bool)
    (hk : ∀ a x, key a = .ok x ↔ opt a = some x) (xs : List α) (h : ∀ a ∈ xs, ∃ x, opt a = some x) :
    sortedBy key le xs = .ok (sortBy (byKey opt le) xs) := by
  unfold sortedBy
  cases hm : mapE key xs with
  | error e =>
    exfalso
    have : ∀ (l : List α), (∀ a ∈ l, ∃ x, opt a = some x) → ∃ r, mapE key l = .ok r := by
      intro l
      induction l with
      | nil => intro _; exact ⟨[], rfl⟩
      | cons a l ih =>
        intro h
        obtain ⟨x, hx⟩ := h a (by simp)
        obtain ⟨r, hr⟩ := ih (fun b hb => h b (by simp [hb]))
        exact ⟨x :: r, by rw [mapE, (hk a x).2 hx, hr]⟩
    obtain ⟨r, hr⟩ := this xs h
    rw [hm] at hr; cases hr
  | ok ks =>
    simp only [Except.ok.injEq]
    have hf := forall₂_zip_mem ((mapE_ok_iff key xs ks).1 hm)
    rw [sortBy_map (fun a b => le a.1 b.1) (byKey opt le) (·.2) (ks.zip xs)]
    · rw [hf.2]
    · intro a ha b hb
      have h1 := (hk _ _).1 (hf.1 a ha)
      have h2 := (hk _ _).1 (hf.1 b hb)
      simp only [byKey, h1, h2]

theorem sortedBy_error {α κ : Type} (key : α → Except PyErr κ) (le : κ → κ → Bool) (xs : List α)
    (e : PyErr) : sortedBy key le xs = .error e ↔ mapE key xs = .error e := by
  unfold sortedBy
  cases mapE key xs <;> simp

theorem int_ok (t : Str) (i : Int) : Py.int t = .ok i ↔ parseInt t = some i := by
  unfold Py.int
  cases parseInt t <;> simp

theorem float_ok (t : Str) (x : PyFloat) : Py.float t = .ok x ↔ parseFloat t = some x := by
  unfold Py.float
  cases parseFloat t <;> simp

theorem int_err (t : Str) (e : PyErr) : Py.int t = .error e ↔ parseInt t = none ∧ e = .ValueError := by
  unfold Py.int
  cases parseInt t <;> simp [eq_comm]

theorem float_err (t : Str) (e : PyErr) :
    Py.float t = .error e ↔ parseFloat t = none ∧ e = .ValueError := by
  unfold Py.float
  cases parseFloat t <;> simp [eq_comm]

/-! ## Floats -/

theorem PyFloat.le_total {a b : PyFloat} (ha : a ≠ .nan) (hb : b ≠ .nan) :
    PyFloat.le a b = true ∨ PyFloat.le b a = true := by
  rcases a with _ | (_ | _) | a <;> rcases b with _ | (_ | _) | b <;>
    simp_all [PyFloat.le, Rat.le_total]

theorem PyFloat.le_trans {a b c : PyFloat} (h1 : PyFloat.le a b = true)
    (h2 : PyFloat.le b c = true) : PyFloat.le a c = true := by
  rcases a with _ | (_ | _) | a <;> rcases b with _ | (_ | _) | b <;>
    rcases c with _ | (_ | _) | c <;> simp_all [PyFloat.le]
  exact Rat.le_trans h1 h2

theorem PyFloat.le_nan (b : PyFloat) : PyFloat.le .nan b = false := by
  cases b <;> rfl


theorem digs_chars {b : Bool} {s ds : Str} (h : digs b s = some ds) :
    ∀ c ∈ s, isDig c = true ∨ c = '_' := by
  induction s generalizing b ds with
  | nil => simp
  | cons c cs ih =>
    simp only [digs] at h
    intro d hd
    split at h
    · rename_i hc
      simp only [Option.map_eq_some_iff] at h
      obtain ⟨t, ht, rfl⟩ := h
      rcases List.mem_cons.1 hd with rfl | hd
      · exact Or.inl hc
      · exact ih ht d hd
    · split at h
      · rename_i hc
        rcases List.mem_cons.1 hd with rfl | hd
        · exact Or.inr hc.1
        · exact ih h d hd
      · cases h

theorem parseMag_digs {r d : Str} (neg : Bool) (h : digs false r = some d) :
    parseMag neg r = some (.fin (if neg then -(natOf d : Rat) else natOf d)) := by
  have hc := digs_chars h
  have hne : ∀ c ∈ r, ∀ e : Char, isDig e = false → e ≠ '_' → c ≠ e := by
    intro c hcr e he hu
    rcases hc c hcr with h | h
    · exact not_isDig_ne h he
    · rw [h]; exact fun h => hu h.symm
  obtain ⟨c, cs, e, hd⟩ := digs_head h
  have hl := isDig_lower_ne hd
  rw [parseMag_of_head e hl.1 hl.2, parseUFloat_noexp]
  · unfold parseMant splitC
    rw [splitP_of_none]
    · simp only [h, Option.map_some]
    · intro c hc
      simp only [beq_eq_false_iff_ne]
      exact hne c hc '.' (by decide) (by decide)
  · intro c hc
    exact ⟨hne c hc 'e' (by decide) (by decide), hne c hc 'E' (by decide) (by decide)⟩

/-- what `int()` accepts `float()` accepts too, with the same value -/
theorem parseFloat_of_int {t : Str} {i : Int} (h : parseInt t = some i) :
    parseFloat t = some (.fin i) := by
  unfold parseInt at h
  unfold parseFloat
  split at h
  · rename_i e
    simp only [Option.map_eq_some_iff] at h
    obtain ⟨d, hd, rfl⟩ := h
    simp [parseMag_digs true hd, Rat.intCast_natCast]
  · rename_i e
    simp only [Option.map_eq_some_iff] at h
    obtain ⟨d, hd, rfl⟩ := h
    simp [parseMag_digs false hd, Rat.intCast_natCast]
  · rename_i r h1 h2
    simp only [Option.map_eq_some_iff] at h
    obtain ⟨d, hd, rfl⟩ := h
    generalize strip t = u at *
    rw [parseMag_digs false hd]
    simp [Rat.intCast_natCast]

/-! ## C08 -/

theorem scanNumbers_cases (s : Sdf) :
    ((∀ k ∈ s.scans.keys, ∃ i, parseInt k = some i) ∧
      s.getScanNumbers = .ok (sortBy intLe s.scans.keys)) ∨
    ((∃ k ∈ s.scans.keys, parseInt k = none) ∧ (∀ k ∈ s.scans.keys, ∃ x, parseFloat k = some x) ∧
      s.getScanNumbers = .ok (sortBy numLe s.scans.keys)) ∨
    ((∃ k ∈ s.scans.keys, parseFloat k = none) ∧ s.getScanNumbers = .error .ValueError) := by
  by_cases h : ∀ k ∈ s.scans.keys, ∃ i, parseInt k = some i
  · left
    refine ⟨h, ?_⟩
    unfold Sdf.getScanNumbers
    rw [sortedBy_ok Py.int parseInt _ int_ok _ h]
    rfl
  · right
    have hi : ∃ k ∈ s.scans.keys, parseInt k = none := by
      simp only [Classical.not_forall, not_exists] at h
      obtain ⟨k, hk, hn⟩ := h
      exact ⟨k, hk, Option.eq_none_iff_forall_ne_some.2 hn⟩
    have he : sortedBy Py.int (fun a b => decide (a ≤ b)) s.scans.keys = .error .ValueError := by
      rw [sortedBy_error, mapE_error_iff Py.int .ValueError (fun a e h => ((int_err a e).1 h).2)]
      obtain ⟨k, hk, hn⟩ := hi
      exact ⟨rfl, k, hk, _, (int_err k _).2 ⟨hn, rfl⟩⟩
    have hg : s.getScanNumbers = sortedBy Py.float PyFloat.le s.scans.keys := by
      unfold Sdf.getScanNumbers
      rw [he]
    by_cases h2 : ∀ k ∈ s.scans.keys, ∃ x, parseFloat k = some x
    · left
      refine ⟨hi, h2, ?_⟩
      rw [hg, sortedBy_ok Py.float parseFloat _ float_ok _ h2]
      rfl
    · right
      simp only [Classical.not_forall, not_exists] at h2
      obtain ⟨k, hk, hn⟩ := h2
      have hn := Option.eq_none_iff_forall_ne_some.2 hn
      refine ⟨⟨k, hk, hn⟩, ?_⟩
      rw [hg, sortedBy_error, mapE_error_iff Py.float .ValueError (fun a e h => ((float_err a e).1 h).2)]
      exact ⟨rfl, k, hk, _, (float_err k _).2 ⟨hn, rfl⟩⟩

theorem intLe_eq_numLe {a b : Str} {i j : Int} (ha : parseInt a = some i) (hb : parseInt b = some j) :
    intLe a b = numLe a b := by
  simp only [intLe, numLe, byKey, ha, hb, parseFloat_of_int ha, parseFloat_of_int hb, PyFloat.le]
  rw [decide_eq_decide]
  exact_mod_cast Iff.rfl

theorem scanNumbers_num (s : Sdf) (h : ∀ k ∈ s.scans.keys, ∃ x, parseFloat k = some x) :
    s.getScanNumbers = .ok (sortBy numLe s.scans.keys) := by
  rcases scanNumbers_cases s with ⟨h1, h2⟩ | ⟨_, _, h2⟩ | ⟨⟨k, hk, hn⟩, _⟩
  · rw [h2, sortBy_congr]
    intro a ha b hb
    obtain ⟨i, hi⟩ := h1 a ha
    obtain ⟨j, hj⟩ := h1 b hb
    exact intLe_eq_numLe hi hj
  · exact h2
  · obtain ⟨x, hx⟩ := h k hk
    rw [hn] at hx; cases hx

/-- C08: if all names are integers, `getScanNumbers()` is the list of all scan names sorted by
their integer values, names of equal value in file order. -/
theorem C08_integers (s : Sdf) (h : ∀ k ∈ s.scans.keys, ∃ i, parseInt k = some i) :
    ∃ l, s.getScanNumbers = .ok l ∧ IsStableSort intLe s.scans.keys l := by
  rcases scanNumbers_cases s with ⟨h1, h2⟩ | ⟨⟨k, hk, hn⟩, _⟩ | ⟨⟨k, hk, hn⟩, _⟩
  · refine ⟨_, h2, ?_⟩
    apply sortBy_byKey parseInt _ (fun _ => True)
    · intro a b _ _
      rcases Int.le_total a b with h | h <;> simp [h]
    · intro a b c _ _ _ h1 h2
      simp only [decide_eq_true_eq] at *
      omega
    · intro a _ h; exact absurd trivial h
    · intro a ha
      obtain ⟨i, hi⟩ := h1 a ha
      exact ⟨i, hi, trivial⟩
  · obtain ⟨i, hi⟩ := h k hk
    rw [hn] at hi; cases hi
  · obtain ⟨i, hi⟩ := h k hk
    rw [parseFloat_of_int hi] at hn; cases hn

/-- C08: if all names are numbers, `getScanNumbers()` is the list of all scan names sorted by
their numeric values, names of equal value in file order. -/
theorem C08_numbers (s : Sdf) (h : ∀ k ∈ s.scans.keys, IsNumber k) :
    ∃ l, s.getScanNumbers = .ok l ∧ IsStableSort numLe s.scans.keys l := by
  refine ⟨_, scanNumbers_num s (fun k hk => (h k hk).imp fun x hx => hx.1), ?_⟩
  apply sortBy_byKey parseFloat _ (fun x => x ≠ .nan)
  · intro a b ha hb
    exact PyFloat.le_total ha hb
  · intro a b c _ _ _ h1 h2
    exact PyFloat.le_trans h1 h2
  · intro a b ha
    rw [Classical.not_not.1 ha]
    exact PyFloat.le_nan b
  · exact h

/-- C08: `getScanNumbers()` raises only ValueError, and does so exactly when some name is not a
number. -/
theorem C08_error (s : Sdf) (e : PyErr) :
    s.getScanNumbers = .error e ↔
      e = .ValueError ∧ ∃ k ∈ s.scans.keys, parseFloat k = none := by
  rcases scanNumbers_cases s with ⟨h1, h2⟩ | ⟨_, h1, h2⟩ | ⟨h1, h2⟩
  · rw [h2]
    simp only [reduceCtorEq, false_iff, not_and, not_exists]
    intro _ k hk hn
    obtain ⟨i, hi⟩ := h1 k hk
    rw [parseFloat_of_int hi] at hn; cases hn
  · rw [h2]
    simp only [reduceCtorEq, false_iff, not_and, not_exists]
    intro _ k hk hn
    obtain ⟨i, hi⟩ := h1 k hk
    rw [hi] at hn; cases hn
  · rw [h2]
    simp only [Except.error.injEq, h1, and_true]
    exact eq_comm

/-- every name is listed once, whatever the names are -/
theorem scanNumbers_perm (s : Sdf) (l : List Str) (h : s.getScanNumbers = .ok l) :
    l.Perm s.scans.keys := by
  rcases scanNumbers_cases s with ⟨_, h2⟩ | ⟨_, _, h2⟩ | ⟨_, h2⟩ <;> rw [h2] at h <;> cases h
  · exact sortBy_perm _ _
  · exact sortBy_perm _ _

/-! ## C09 -/

theorem lexLe_total (a b : List Nat) (h : a.length = b.length) :
    Tm.lexLe a b = true ∨ Tm.lexLe b a = true := by
  induction a generalizing b with
  | nil => simp [Tm.lexLe]
  | cons x xs ih =>
    cases b with
    | nil => simp at h
    | cons y ys =>
      simp only [Tm.lexLe]
      rcases Nat.lt_trichotomy x y with h1 | h1 | h1
      · simp [h1]
      · subst h1; simp only [Nat.lt_irrefl, if_false]; exact ih ys (by simpa using h)
      · simp [h1]

theorem lexLe_trans (a b c : List Nat) (h : a.length = b.length) (h' : b.length = c.length)
    (h1 : Tm.lexLe a b = true) (h2 : Tm.lexLe b c = true) : Tm.lexLe a c = true := by
  induction a generalizing b c with
  | nil => simp [Tm.lexLe]
  | cons x xs ih =>
    cases b with
    | nil => simp at h
    | cons y ys =>
      cases c with
      | nil => simp at h'
      | cons z zs =>
        simp only [Tm.lexLe] at *
        rcases Nat.lt_trichotomy x y with h3 | h3 | h3
        · rcases Nat.lt_trichotomy y z with h4 | h4 | h4
          · rw [if_pos (by omega)]
          · rw [if_pos (by omega)]
          · rw [if_neg (by omega), if_pos h4] at h2; cases h2
        · subst h3
          rw [if_neg (by omega), if_neg (by omega)] at h1
          split at h2
          · rw [if_pos (by assumption)]
          · split at h2
            · cases h2
            · rw [if_neg (by assumption), if_neg (by assumption)]
              exact ih ys zs (by simpa using h) (by simpa using h') h1 h2
        · rw [if_neg (by omega), if_pos h3] at h1; cases h1

theorem Tm.le_total (a b : Tm) : Tm.le a b = true ∨ Tm.le b a = true :=
  lexLe_total _ _ rfl

theorem Tm.le_trans (a b c : Tm) (h1 : Tm.le a b = true) (h2 : Tm.le b c = true) :
    Tm.le a c = true :=
  lexLe_trans a.toList b.toList c.toList rfl rfl h1 h2

theorem strptime_ok (t : Str) (x : Tm) : Sdf.strptime t = .ok x ↔ strptimeSpec t = some x := by
  unfold Sdf.strptime
  cases strptimeSpec t <;> simp

theorem strptime_err (t : Str) (e : PyErr) :
    Sdf.strptime t = .error e ↔ strptimeSpec t = none ∧ e = .ValueError := by
  unfold Sdf.strptime
  cases strptimeSpec t <;> simp [eq_comm]

theorem chron_eq (s : Sdf) (hn : ∀ p ∈ s.scans, p.2.scanNum = p.1) (h : ∀ p ∈ s.scans, HasDate p) :
    s.getScanNumbersChronological = .ok ((sortBy notLater s.scans).map (·.1)) := by
  unfold Sdf.getScanNumbersChronological
  rw [sortedBy_ok (fun x : Obj => Sdf.strptime x.date) (fun x : Obj => strptimeSpec x.date) Tm.le
    (fun a x => strptime_ok a.date x)]
  · simp only [Except.ok.injEq]
    have := sortBy_map notLater (byKey (fun x : Obj => strptimeSpec x.date) Tm.le) (·.2) s.scans
      (fun a _ b _ => rfl)
    rw [show s.scans.values = s.scans.map (·.2) from rfl, ← this, List.map_map]
    apply List.map_congr_left
    intro p hp
    exact hn p ((sortBy_perm _ _).mem_iff.1 hp)
  · intro x hx
    simp only [Dict.values, List.mem_map] at hx
    obtain ⟨p, hp, rfl⟩ := hx
    exact h p hp

/-- C09: if all scans have valid dates, `getScanNumbersChronological()` lists every scan once,
ordered by date, scans of equal date in file order. -/
theorem C09_chronological (s : Sdf) (hw : WellNamed s) (h : ∀ p ∈ s.scans, HasDate p) :
    ∃ r, IsStableSort notLater s.scans r ∧
      s.getScanNumbersChronological = .ok (r.map (·.1)) := by
  refine ⟨_, ?_, chron_eq s hw.named h⟩
  apply sortBy_byKey (fun p : Str × Obj => strptimeSpec p.2.date) _ (fun _ => True)
  · intro a b _ _; exact Tm.le_total a b
  · intro a b c _ _ _; exact Tm.le_trans a b c
  · intro a b h; exact absurd trivial h
  · intro p hp
    obtain ⟨t, ht⟩ := h p hp
    exact ⟨t, ht, trivial⟩

/-- C09: it is the file order if dates never decrease. -/
theorem C09_file_order (s : Sdf) (hw : WellNamed s) (h : ∀ p ∈ s.scans, HasDate p)
    (hd : s.scans.Pairwise (fun p q => notLater p q = true)) :
    s.getScanNumbersChronological = .ok s.scans.keys := by
  rw [chron_eq s hw.named h, sortBy_of_sorted _ _ hd]
  rfl

/-- C09: it raises only ValueError, and does so exactly when some scan has no valid date. -/
theorem C09_error (s : Sdf) (e : PyErr) :
    s.getScanNumbersChronological = .error e ↔
      e = .ValueError ∧ ∃ p ∈ s.scans, ¬ HasDate p := by
  have h0 : s.getScanNumbersChronological = .error e ↔
      sortedBy (fun x : Obj => Sdf.strptime x.date) Tm.le s.scans.values = .error e := by
    unfold Sdf.getScanNumbersChronological
    cases sortedBy (fun x : Obj => Sdf.strptime x.date) Tm.le s.scans.values <;> simp
  rw [h0, sortedBy_error, mapE_error_iff _ .ValueError (fun a e h => ((strptime_err _ e).1 h).2)]
  apply and_congr_right
  intro _
  constructor
  · rintro ⟨x, hx, e', he⟩
    simp only [Dict.values, List.mem_map] at hx
    obtain ⟨p, hp, rfl⟩ := hx
    refine ⟨p, hp, ?_⟩
    rintro ⟨t, ht⟩
    rw [((strptime_err _ e').1 he).1] at ht; cases ht
  · rintro ⟨p, hp, hn⟩
    refine ⟨p.2, List.mem_map.2 ⟨p, hp, rfl⟩, .ValueError, ?_⟩
    rw [strptime_err]
    refine ⟨?_, rfl⟩
    apply Option.eq_none_iff_forall_ne_some.2
    intro t ht
    exact hn ⟨t, ht⟩

section
variable [UniDB]

/-- Opening a file gives an object whose scans are stored under their own, distinct, names. -/
theorem open_wellNamed (env : Env) (reg : List HKey) (hr : reg.Perm HKey.all) (name : Str)
    (f stat : FileSt) (s : Sdf) (h : Sdf.openFile env reg name f stat = .ok s) : WellNamed s := by
  obtain ⟨_, _, _, h3, h4⟩ := C03_scans env reg hr name f stat s h
  exact ⟨h3, fun p hp => h4 p.1 p.2 hp⟩

end

theorem chron_perm (s : Sdf) (hw : WellNamed s) (l : List Str)
    (h : s.getScanNumbersChronological = .ok l) : l.Perm s.scans.keys := by
  have hd : ∀ p ∈ s.scans, HasDate p := by
    intro p hp
    apply Classical.byContradiction
    intro hn
    have := (C09_error s .ValueError).2 ⟨rfl, p, hp, hn⟩
    rw [h] at this; cases this
  obtain ⟨r, h1, h2⟩ := C09_chronological s hw hd
  rw [h] at h2
  cases h2
  exact h1.perm.map _

/-! ## C10 -/

/-- C10: the smallest scan number is a scan name of least numeric value; 0 exactly if there are
no scans. -/
theorem C10_min (s : Sdf) (h : ∀ k ∈ s.scans.keys, IsNumber k) :
    (s.scans = [] ∧ s.getMinScanNumber = .ok (.int 0)) ∨
    ∃ k ∈ s.scans.keys, s.getMinScanNumber = .ok (.str k) ∧
      ∀ k' ∈ s.scans.keys, numLe k k' = true := by
  obtain ⟨l, h1, h2⟩ := C08_numbers s h
  unfold Sdf.getMinScanNumber
  rw [h1]
  cases l with
  | nil =>
    left
    have := List.nil_perm.1 h2.perm
    exact ⟨by simpa [Dict.keys] using this, rfl⟩
  | cons k l =>
    right
    refine ⟨k, h2.perm.mem_iff.1 (by simp), rfl, ?_⟩
    intro k' hk'
    have hs := List.pairwise_cons.1 h2.sorted
    rcases List.mem_cons.1 (h2.perm.mem_iff.2 hk') with rfl | hm
    · obtain ⟨x, hx, hn⟩ := h k' hk'
      simp only [numLe, byKey, hx]
      exact (PyFloat.le_total hn hn).elim id id
    · exact hs.1 k' hm

/-- C10: the greatest scan number. -/
theorem C10_max (s : Sdf) (h : ∀ k ∈ s.scans.keys, IsNumber k) :
    (s.scans = [] ∧ s.getMaxScanNumber = .ok (.int 0)) ∨
    ∃ k ∈ s.scans.keys, s.getMaxScanNumber = .ok (.str k) ∧
      ∀ k' ∈ s.scans.keys, numLe k' k = true := by
  obtain ⟨l, h1, h2⟩ := C08_numbers s h
  unfold Sdf.getMaxScanNumber
  rw [h1]
  rcases List.eq_nil_or_concat l with rfl | ⟨m, k, rfl⟩
  · left
    have := List.nil_perm.1 h2.perm
    exact ⟨by simpa [Dict.keys] using this, rfl⟩
  · right
    refine ⟨k, h2.perm.mem_iff.1 (by simp), by simp [Sdf.lastOr0], ?_⟩
    intro k' hk'
    have hs := h2.sorted
    rw [List.concat_eq_append] at *
    rw [List.pairwise_append] at hs
    rcases List.mem_append.1 (h2.perm.mem_iff.2 hk') with hm | hm
    · exact hs.2.2 k' hm k (by simp)
    · simp only [List.mem_singleton] at hm
      subst hm
      obtain ⟨x, hx, hn⟩ := h k' hk'
      simp only [numLe, byKey, hx]
      exact (PyFloat.le_total hn hn).elim id id

theorem notLater_refl (p : Str × Obj) (h : HasDate p) : notLater p p = true := by
  obtain ⟨t, ht⟩ := h
  simp only [notLater, byKey, ht]
  exact (Tm.le_total t t).elim id id

/-- C10: the first scan is one with the earliest date, and the first of those in the file;
0 exactly if there are no scans. -/
theorem C10_first (s : Sdf) (hw : WellNamed s) (h : ∀ p ∈ s.scans, HasDate p) :
    (s.scans = [] ∧ s.getFirstScanNumber = .ok (.int 0)) ∨
    ∃ p before after, s.scans = before ++ p :: after ∧ s.getFirstScanNumber = .ok (.str p.1) ∧
      (∀ q ∈ s.scans, notLater p q = true) ∧ ∀ q ∈ before, notLater q p = false := by
  obtain ⟨r, h1, h2⟩ := C09_chronological s hw h
  unfold Sdf.getFirstScanNumber
  rw [h2]
  cases r with
  | nil => exact Or.inl ⟨List.nil_perm.1 h1.perm, rfl⟩
  | cons p r =>
    right
    have hp : p ∈ s.scans := h1.perm.mem_iff.1 (by simp)
    have hpp := notLater_refl p (h p hp)
    have hs := List.pairwise_cons.1 h1.sorted
    have hall : ∀ q ∈ s.scans, notLater p q = true := by
      intro q hq
      rcases List.mem_cons.1 (h1.perm.mem_iff.2 hq) with rfl | hm
      · exact hpp
      · exact hs.1 q hm
    -- p is the first in the file of its equals
    have hst := h1.stable p
    rw [List.filter_cons, if_pos (by simp [hpp])] at hst
    obtain ⟨before, after, e, hb, _⟩ := List.filter_eq_cons_iff.1 hst.symm
    refine ⟨p, before, after, e, rfl, hall, ?_⟩
    intro q hq
    have := hb q hq
    rw [hall q (by rw [e]; simp [hq])] at this
    simpa using this

/-- C10: the last scan is one with the latest date, and the last of those in the file;
0 exactly if there are no scans. -/
theorem C10_last (s : Sdf) (hw : WellNamed s) (h : ∀ p ∈ s.scans, HasDate p) :
    (s.scans = [] ∧ s.getLastScanNumber = .ok (.int 0)) ∨
    ∃ p before after, s.scans = before ++ p :: after ∧ s.getLastScanNumber = .ok (.str p.1) ∧
      (∀ q ∈ s.scans, notLater q p = true) ∧ ∀ q ∈ after, notLater p q = false := by
  obtain ⟨r, h1, h2⟩ := C09_chronological s hw h
  unfold Sdf.getLastScanNumber
  rw [h2]
  rcases List.eq_nil_or_concat r with rfl | ⟨m, p, rfl⟩
  · exact Or.inl ⟨List.nil_perm.1 h1.perm, rfl⟩
  · right
    rw [List.concat_eq_append] at *
    have hp : p ∈ s.scans := h1.perm.mem_iff.1 (by simp)
    have hpp := notLater_refl p (h p hp)
    have hs := List.pairwise_append.1 h1.sorted
    have hall : ∀ q ∈ s.scans, notLater q p = true := by
      intro q hq
      rcases List.mem_append.1 (h1.perm.mem_iff.2 hq) with hm | hm
      · exact hs.2.2 q hm p (by simp)
      · simp only [List.mem_singleton] at hm; subst hm; exact hpp
    have hst := congrArg List.reverse (h1.stable p)
    rw [List.filter_append, List.filter_cons, if_pos (by simp [hpp])] at hst
    simp only [List.filter_nil, List.reverse_append, List.reverse_cons, List.reverse_nil,
      List.nil_append, List.cons_append] at hst
    rw [← List.filter_reverse (l := s.scans)] at hst
    obtain ⟨after, before, e, hb, _⟩ := List.filter_eq_cons_iff.1 hst.symm
    have e := congrArg List.reverse e
    simp only [List.reverse_reverse, List.reverse_append, List.reverse_cons, List.append_assoc,
      List.cons_append, List.nil_append] at e
    refine ⟨p, before.reverse, after.reverse, e, by simp [Sdf.lastOr0], hall, ?_⟩
    intro q hq
    have := hb q (by simpa using hq)
    rw [hall q (by rw [e]; simp [List.mem_reverse.1 hq])] at this
    simpa using this

/-! ## C11 -/

theorem one_le_tdiv (q : Rat) : 1 ≤ Int.tdiv q.num q.den ↔ 1 ≤ q := by
  have hd : (0 : Int) < q.den := by exact_mod_cast q.den_pos
  have h1 : (1 : Rat) ≤ q ↔ (q.den : Int) ≤ q.num := by
    rw [Rat.le_iff]
    simp
  rw [h1]
  by_cases hn : 0 ≤ q.num
  · rw [Int.tdiv_eq_ediv_of_nonneg hn, Int.le_ediv_iff_mul_le hd]
    simp
  · constructor
    · intro h
      have : 0 ≤ (-q.num).tdiv q.den := by
        rw [Int.tdiv_eq_ediv_of_nonneg (by omega)]
        exact Int.ediv_nonneg (by omega) (by omega)
      rw [Int.neg_tdiv] at this
      omega
    · intro h; omega

theorem refInt_pos (r : Ref) (h : Positive r.text) : ∃ n, Sdf.refInt r = .ok n ∧ ¬ n < 1 := by
  obtain ⟨q, hq, h1⟩ := h
  cases r with
  | int i =>
    refine ⟨i, rfl, ?_⟩
    have := parseFloat_of_int (parseInt_intStr i)
    rw [show (Ref.int i).text = intStr i from rfl, this] at hq
    cases hq
    have h1 : (1 : Int) ≤ i := by exact_mod_cast h1
    omega
  | str t =>
    refine ⟨Int.tdiv q.num q.den, ?_, ?_⟩
    · simp only [Sdf.refInt, (float_ok t _).2 hq, PyFloat.toInt]
    · have := (one_le_tdiv q).2 h1
      omega
  | flt t =>
    refine ⟨Int.tdiv q.num q.den, ?_, ?_⟩
    · simp only [Sdf.refInt, (float_ok t _).2 hq, PyFloat.toInt]
    · have := (one_le_tdiv q).2 h1
      omega

theorem getScan_pos (s : Sdf) (r : Ref) (h : Positive r.text) :
    s.getScan r = .ok (s.scans.get? r.text) := by
  obtain ⟨n, h1, h2⟩ := refInt_pos r h
  unfold Sdf.getScan
  simp only [h1, if_neg h2]

theorem getScan_name (s : Sdf) (hw : WellNamed s) (k : Str) (x : Obj) (hk : Positive k)
    (hm : (k, x) ∈ s.scans) : s.getScan (.str k) = .ok (some x) := by
  rw [getScan_pos s (.str k) hk]
  exact congrArg _ ((Dict.mem_iff_get? s.scans hw.nodup k x).1 hm)

/-- C11: `getScan` of a number that is at least 1, given as integer, text or float, returns the scan
of exactly that name, None if there is none. -/
theorem C11_by_name (s : Sdf) (hw : WellNamed s) (r : Ref) (h : Positive r.text) :
    (∃ x, (r.text, x) ∈ s.scans ∧ s.getScan r = .ok (some x)) ∨
    (r.text ∉ s.scans.keys ∧ s.getScan r = .ok none) := by
  rw [getScan_pos s r h]
  cases hg : s.scans.get? r.text with
  | none => exact Or.inr ⟨(Dict.get?_eq_none_iff _ _).1 hg, rfl⟩
  | some x => exact Or.inl ⟨x, (Dict.mem_iff_get? s.scans hw.nodup _ x).2 hg, rfl⟩

theorem mem_keys_iff {α : Type} (d : Dict α) (k : Str) : k ∈ d.keys ↔ ∃ x, (k, x) ∈ d := by
  unfold Dict.keys
  constructor
  · intro h
    obtain ⟨p, hp, rfl⟩ := List.mem_map.1 h
    exact ⟨p.2, hp⟩
  · rintro ⟨x, hx⟩
    exact List.mem_map.2 ⟨_, hx, rfl⟩

theorem pyGet_position {α : Type} (l : List α) (i : Int) (j : Nat) (h : Position l.length i j) :
    ∃ a, l[j]? = some a ∧ pyGet l i = .ok a := by
  obtain ⟨h1, h2⟩ := h
  refine ⟨l[j], List.getElem?_eq_getElem h1, ?_⟩
  unfold pyGet
  have : (if i < 0 then i + (l.length : Int) else i) = (j : Int) := by
    split at h2
    · rename_i hi; rw [if_pos hi]; exact h2
    · rename_i hi; rw [if_neg hi]; exact h2
  simp only [this]
  rw [if_neg (by omega)]
  simp [List.getElem?_eq_getElem h1]

theorem pyGet_error {α : Type} (l : List α) (i : Int) (h : ¬ ∃ j, Position l.length i j) :
    pyGet l i = .error .IndexError := by
  unfold pyGet
  simp only
  by_cases hi : i < 0
  · simp only [hi, if_true]
    by_cases hj : i + (l.length : Int) < 0
    · simp [hj]
    · exact absurd ⟨(i + l.length).toNat, by omega, by rw [if_pos hi]; omega⟩ h
  · simp only [hi, if_false]
    rw [List.getElem?_eq_none]
    apply Nat.le_of_not_lt
    intro hlt
    exact h ⟨i.toNat, hlt, by rw [if_neg hi]; omega⟩

theorem getScan_rel (s : Sdf) (r : Ref) (n i : Int) (l : List Str) (hn : Sdf.refInt r = .ok n)
    (h1 : n < 1) (hi : Sdf.refIndex r = .ok i) (hl : s.getScanNumbers = .ok l) (hne : l ≠ []) :
    s.getScan r = match pyGet l i with
      | .error e => .error e
      | .ok name => .ok (s.scans.get? name) := by
  unfold Sdf.getScan
  simp only [hn, if_pos h1, hl, hi]
  rw [if_neg (by simpa using hne)]
  rcases pyGet l i with e | a <;> rfl

/-- C11: `getScan` of an integer below 1 (as integer or as text) returns the scan at that position
of `getScanNumbers()`; IndexError if there is no such position, None if there are no scans. -/
theorem C11_by_position (s : Sdf) (hw : WellNamed s) (h : ∀ k ∈ s.scans.keys, IsNumber k)
    (r : Ref) (i : Int) (hr : r = .int i ∨ ∃ t, r = .str t ∧ parseInt t = some i) (hi : i < 1) :
    ∃ l, s.getScanNumbers = .ok l ∧
      (s.scans = [] → s.getScan r = .ok none) ∧
      (∀ j, Position l.length i j → ∃ name x, l[j]? = some name ∧ (name, x) ∈ s.scans ∧
        s.getScan r = .ok (some x)) ∧
      (s.scans ≠ [] → (¬ ∃ j, Position l.length i j) → s.getScan r = .error .IndexError) := by
  obtain ⟨l, h1, h2⟩ := C08_numbers s h
  have hri : Sdf.refInt r = .ok i := by
    rcases hr with rfl | ⟨t, rfl, ht⟩
    · rfl
    · simp only [Sdf.refInt, (float_ok t _).2 (parseFloat_of_int ht), PyFloat.toInt]
      simp
  have hrx : Sdf.refIndex r = .ok i := by
    rcases hr with rfl | ⟨t, rfl, ht⟩
    · rfl
    · simp only [Sdf.refIndex, (int_ok t _).2 ht]
  have hemp : l = [] ↔ s.scans = [] := by
    rw [← List.length_eq_zero_iff, h2.perm.length_eq, Dict.length_keys, List.length_eq_zero_iff]
  refine ⟨l, h1, ?_, ?_, ?_⟩
  · intro he
    unfold Sdf.getScan
    simp only [hri, if_pos hi, h1, hemp.2 he, List.length_nil, if_true]
  · intro j hj
    obtain ⟨name, ha, hp⟩ := pyGet_position l i j hj
    obtain ⟨x, hx⟩ := (mem_keys_iff _ _).1 (h2.perm.mem_iff.1 (List.mem_of_getElem? ha))
    refine ⟨name, x, ha, hx, ?_⟩
    have hne : l ≠ [] := by rintro rfl; simp at ha
    rw [getScan_rel s r i i l hri hi hrx h1 hne, hp]
    exact congrArg _ ((Dict.mem_iff_get? s.scans hw.nodup _ x).1 hx)
  · intro hne hj
    rw [getScan_rel s r i i l hri hi hrx h1 (fun e => hne (hemp.1 e)), pyGet_error l i hj]

/-- C11: in a file with scans, `getScan(0)` has the least and `getScan(-1)` the greatest number. -/
theorem C11_extremes (s : Sdf) (hw : WellNamed s) (h : ∀ k ∈ s.scans.keys, IsNumber k)
    (hne : s.scans ≠ []) :
    (∃ k x, (k, x) ∈ s.scans ∧ s.getScan (.int 0) = .ok (some x) ∧
      ∀ k' ∈ s.scans.keys, numLe k k' = true) ∧
    (∃ k x, (k, x) ∈ s.scans ∧ s.getScan (.int (-1)) = .ok (some x) ∧
      ∀ k' ∈ s.scans.keys, numLe k' k = true) := by
  obtain ⟨l0, h1, h2⟩ := C08_numbers s h
  have hl : l0 ≠ [] := by
    intro e
    rw [← List.length_eq_zero_iff, h2.perm.length_eq, Dict.length_keys, List.length_eq_zero_iff] at e
    exact hne e
  have hpos : 0 < l0.length := List.length_pos_iff.2 hl
  constructor
  · obtain ⟨l, hl', _, hp, _⟩ := C11_by_position s hw h (.int 0) 0 (Or.inl rfl) (by omega)
    rw [h1] at hl'; cases hl'
    obtain ⟨k, x, hk, hx, hg⟩ := hp 0 ⟨hpos, by simp⟩
    refine ⟨k, x, hx, hg, ?_⟩
    rcases C10_min s h with ⟨he, _⟩ | ⟨k0, _, hm, hall⟩
    · exact absurd he hne
    · unfold Sdf.getMinScanNumber at hm
      rw [h1] at hm
      cases l0 with
      | nil => exact absurd rfl hl
      | cons a l0 =>
        simp only [Sdf.firstOr0, Except.ok.injEq, Ref.str.injEq] at hm
        simp only [List.getElem?_cons_zero, Option.some.injEq] at hk
        rw [← hk, hm]; exact hall
  · obtain ⟨l, hl', _, hp, _⟩ := C11_by_position s hw h (.int (-1)) (-1) (Or.inl rfl) (by omega)
    rw [h1] at hl'; cases hl'
    obtain ⟨k, x, hk, hx, hg⟩ := hp (l0.length - 1) ⟨by omega, by simp; omega⟩
    refine ⟨k, x, hx, hg, ?_⟩
    rcases C10_max s h with ⟨he, _⟩ | ⟨k0, _, hm, hall⟩
    · exact absurd he hne
    · unfold Sdf.getMaxScanNumber at hm
      rw [h1] at hm
      rw [← List.getLast?_eq_getElem?] at hk
      simp only [Sdf.lastOr0, hk, Except.ok.injEq, Ref.str.injEq] at hm
      rw [hm]; exact hall

/-- C11: a text that is a number below 1 but not an integer (`0.5`, the name of a repeated scan 0)
cannot be looked up: ValueError, unless there are no scans. -/
theorem C11_fraction (s : Sdf) (h : ∀ k ∈ s.scans.keys, IsNumber k) (hne : s.scans ≠ []) (t : Str)
    (q : Rat) (hq : parseFloat t = some (.fin q)) (h1 : ¬ 1 ≤ q) (hi : parseInt t = none) :
    s.getScan (.str t) = .error .ValueError := by
  obtain ⟨l, hl, h2⟩ := C08_numbers s h
  have hl0 : l ≠ [] := by
    intro e
    rw [← List.length_eq_zero_iff, h2.perm.length_eq, Dict.length_keys, List.length_eq_zero_iff] at e
    exact hne e
  unfold Sdf.getScan
  simp only [Sdf.refInt, (float_ok t _).2 hq, PyFloat.toInt, hl, Sdf.refIndex,
    (int_err t _).2 ⟨hi, rfl⟩]
  rw [if_pos, if_neg (by simpa using hl0)]
  have := (one_le_tdiv q).not.2 h1
  omega

/-! ## C15 -/

/-- what `getScanCommands` adds for one of its keys -/
def cmdOf (s : Sdf) (k : Ref) : Except PyErr (List Str) :=
  match s.getScan k with
  | .error e => .error e
  | .ok none => .ok []
  | .ok (some x) => .ok [p!"#S " ++ k.text ++ [' '] ++ x.scanCmd]

theorem commands_eq (s : Sdf) (given : Option (List Ref)) (keys : List Ref)
    (h : (given = some keys ∧ keys ≠ []) ∨ ((given = none ∨ given = some []) ∧
      ∃ l, s.getScanNumbers = .ok l ∧ keys = l.map .str)) :
    s.getScanCommands given = match mapE (cmdOf s) keys with
      | .error e => .error e
      | .ok l => .ok l.flatten := by
  have : s.getScanCommands given = match (Except.ok keys : Except PyErr (List Ref)) with
      | .error e => .error e
      | .ok keys => match mapE (cmdOf s) keys with
        | .error e => .error e
        | .ok l => .ok l.flatten := by
    rcases h with ⟨rfl, h⟩ | ⟨rfl | rfl, l, h1, rfl⟩
    · cases keys with
      | nil => exact absurd rfl h
      | cons a l => rfl
    · unfold Sdf.getScanCommands
      simp only [h1]
      rfl
    · unfold Sdf.getScanCommands
      simp only [h1]
      rfl
  exact this

/-- C15: with no list, or an empty one, `getScanCommands()` gives `#S <name> <command>` for every
scan, in the order of `getScanNumbers()`. -/
theorem C15_all (s : Sdf) (hw : WellNamed s) (h : ∀ k ∈ s.scans.keys, Positive k)
    (given : Option (List Ref)) (hg : given = none ∨ given = some []) :
    ∃ r, IsStableSort (fun p q => numLe p.1 q.1) s.scans r ∧
      s.getScanNumbers = .ok (r.map (·.1)) ∧
      s.getScanCommands given = .ok (r.map (fun p => p!"#S " ++ p.1 ++ [' '] ++ p.2.scanCmd)) := by
  have hnum : ∀ k ∈ s.scans.keys, IsNumber k := by
    intro k hk
    obtain ⟨q, hq, _⟩ := h k hk
    exact ⟨_, hq, by simp⟩
  have hst : IsStableSort (fun p q : Str × Obj => numLe p.1 q.1) s.scans
      (sortBy (fun p q => numLe p.1 q.1) s.scans) := by
    apply sortBy_byKey (fun p : Str × Obj => parseFloat p.1) _ (fun x => x ≠ .nan)
    · intro a b ha hb
      exact PyFloat.le_total ha hb
    · intro a b c _ _ _ h1 h2
      exact PyFloat.le_trans h1 h2
    · intro a b ha
      rw [Classical.not_not.1 ha]
      exact PyFloat.le_nan b
    · intro p hp
      exact hnum p.1 (List.mem_map.2 ⟨p, hp, rfl⟩)
  have hsn : s.getScanNumbers =
      .ok ((sortBy (fun p q => numLe p.1 q.1) s.scans).map (·.1)) := by
    rw [scanNumbers_num s (fun k hk => (hnum k hk).imp fun x hx => hx.1)]
    rw [sortBy_map _ numLe (·.1) s.scans (fun _ _ _ _ => rfl)]
    rfl
  refine ⟨_, hst, hsn, ?_⟩
  generalize sortBy (fun p q : Str × Obj => numLe p.1 q.1) s.scans = r at *
  rw [commands_eq s given _ (Or.inr ⟨hg, _, hsn, rfl⟩)]
  have hm : mapE (cmdOf s) ((r.map (·.1)).map Ref.str) =
      .ok (r.map (fun p => [p!"#S " ++ p.1 ++ [' '] ++ p.2.scanCmd])) := by
    have : ∀ l : List (Str × Obj), (∀ p ∈ l, p ∈ s.scans) →
        mapE (cmdOf s) ((l.map (·.1)).map Ref.str) =
        (.ok (l.map (fun p => [p!"#S " ++ p.1 ++ [' '] ++ p.2.scanCmd])) : Except PyErr _) := by
      intro l
      induction l with
      | nil => intro _; rfl
      | cons p l ih =>
        intro hp
        have hp0 := hp p (by simp)
        have hgs := getScan_name s hw p.1 p.2 (h p.1 (List.mem_map.2 ⟨p, hp0, rfl⟩)) hp0
        have ih := ih (fun q hq => hp q (by simp [hq]))
        have hc : cmdOf s (.str p.1) = .ok [p!"#S " ++ p.1 ++ [' '] ++ p.2.scanCmd] := by
          unfold cmdOf
          rw [hgs]
          rfl
        simp only [List.map_cons, mapE, hc, ih]
    exact this r (fun p hp => hst.perm.mem_iff.1 hp)
  rw [hm]
  simp only [Except.ok.injEq]
  clear hst hsn hm
  induction r with
  | nil => rfl
  | cons p r ih => rw [List.map_cons, List.flatten_cons, ih]; rfl

/-- C15: with a list of positive numbers, it gives the lines of the listed scans that exist, in the
order given. -/
theorem C15_listed (s : Sdf) (hw : WellNamed s) (given : List Ref) (hne : given ≠ [])
    (hp : ∀ r ∈ given, Positive r.text) :
    s.getScanCommands (some given) = .ok (given.filterMap (fun r =>
      (s.scans.find? (fun p => p.1 == r.text)).map
        (fun p => p!"#S " ++ r.text ++ [' '] ++ p.2.scanCmd))) := by
  rw [commands_eq s (some given) given (Or.inl ⟨rfl, hne⟩)]
  have hfind : ∀ k : Str, s.scans.get? k = (s.scans.find? (fun p => p.1 == k)).map (·.2) := by
    intro k
    generalize s.scans = d
    induction d with
    | nil => rfl
    | cons p d ih =>
      obtain ⟨k', v⟩ := p
      rw [Dict.get?_cons, List.find?_cons]
      by_cases e : k' = k
      · subst e; simp
      · have e' : ¬ k = k' := fun h => e h.symm
        have e2 : (k' == k) = false := by simp [e]
        simp [e, e', ih, e2]
  clear hne
  induction given with
  | nil => rfl
  | cons r rs ih =>
    have ih := ih (fun q hq => hp q (by simp [hq]))
    rw [mapE, cmdOf, getScan_pos s r (hp r (by simp)), hfind, List.filterMap_cons]
    cases hm : mapE (cmdOf s) rs with
    | error e => rw [hm] at ih; cases ih
    | ok l =>
      rw [hm] at ih
      simp only [Except.ok.injEq] at ih
      cases s.scans.find? (fun p => p.1 == r.text) with
      | none => simp [ih]
      | some p => simp [ih]

/-! ## Concrete cases -/

/-- scans 2, 10 and 2 again, not in the order of their dates -/
def demoText3 : Str :=
  p!"#S 2 ascan th 1 2 1 1\n#D Thu Nov 19 10:20:00 2020\n#S 10 timescan 1\n#D Thu Nov 19 10:00:00 2020\n#S 2 loopscan 5 1\n#D Thu Nov 19 10:30:00 2020\n"

/-- a value computed from the opened example -/
def onDemo {α : Type} (d : α) (f : Sdf → α) : α :=
  match demoOpen demoText3 with
  | .ok s => f s
  | .error _ => d

/-- Non-trivial case for C08-C11 and C15: the names are numbers, the dates are valid, and the three
orders are different. -/
theorem C08_nonvacuous : isOk (demoOpen demoText3) = true ∧
    onDemo [] (fun s => s.scans.keys) = [p!"2", p!"10", p!"2.1"] ∧
    onDemo [] (fun s => s.scans.keys.map parseFloat) =
      [some (.fin 2), some (.fin 10), some (.fin (21 / 10))] ∧
    onDemo (.ok []) (fun s => s.getScanNumbers) = .ok [p!"2", p!"2.1", p!"10"] := by
  decide +kernel

theorem C09_nonvacuous :
    onDemo [] (fun s => s.scans.map (fun p => (strptimeSpec p.2.date).isSome)) =
      [true, true, true] ∧
    onDemo (.ok []) (fun s => s.getScanNumbersChronological) = .ok [p!"10", p!"2", p!"2.1"] := by
  decide +kernel

theorem C10_nonvacuous :
    onDemo [] (fun s => [s.getMinScanNumber, s.getMaxScanNumber, s.getFirstScanNumber,
      s.getLastScanNumber]) = [.ok (.str p!"2"), .ok (.str p!"10"), .ok (.str p!"10"),
      .ok (.str p!"2.1")] := by
  decide +kernel

/-- the name of the scan found -/
def foundName : Except PyErr (Option Obj) → Except PyErr Str
  | .ok (some x) => .ok x.scanNum
  | .ok none => .ok p!"None"
  | .error e => .error e

theorem C11_nonvacuous :
    onDemo [] (fun s => [.int 0, .int (-1), .int (-3), .int (-4), .int 2, .str p!"2.1", .int 3,
        .str p!"0.5"].map (fun r => foundName (s.getScan r))) =
      [.ok p!"2", .ok p!"10", .ok p!"2", .error .IndexError, .ok p!"2", .ok p!"2.1", .ok p!"None",
        .error .ValueError] := by
  decide +kernel

theorem C15_nonvacuous :
    onDemo (.ok []) (fun s => s.getScanCommands none) =
      .ok [p!"#S 2 ascan th 1 2 1 1", p!"#S 2.1 loopscan 5 1", p!"#S 10 timescan 1"] ∧
    onDemo (.ok []) (fun s => s.getScanCommands (some [.int 10, .int 7, .str p!"2"])) =
      .ok [p!"#S 10 timescan 1", p!"#S 2 ascan th 1 2 1 1"] := by
  decide +kernel

end S2N.Props
