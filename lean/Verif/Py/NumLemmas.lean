import Verif.Py.StrLemmas
/-
Lemmas about int(), float() and str(int).
-/
namespace S2N.Py

theorem isDig_of_isDigit {c : Char} (h : c.isDigit = true) : isDig c = true := by
  simp only [Char.isDigit, Bool.and_eq_true, decide_eq_true_eq] at h
  simp only [isDig, Bool.and_eq_true, decide_eq_true_eq, Char.toNat]
  constructor
  · exact h.1
  · exact h.2

theorem isDig_not_space {c : Char} (h : isDig c = true) : isSpace c = false := by
  unfold isDig at h
  unfold isSpace
  simp only [Bool.and_eq_true, decide_eq_true_eq] at h
  simp only [Bool.or_eq_false_iff, Bool.and_eq_false_iff, decide_eq_false_iff_not, beq_eq_false_iff_ne]
  omega

theorem natStr_ne_nil (n : Nat) : natStr n ≠ [] := Nat.toDigits_ne_nil

theorem natStr_isDig (n : Nat) : ∀ c ∈ natStr n, isDig c = true := by
  intro c hc
  exact isDig_of_isDigit (Nat.isDigit_of_mem_toDigits (by decide) (by decide) hc)

theorem natStr_not_space (n : Nat) : ∀ c ∈ natStr n, isSpace c = false :=
  fun c hc => isDig_not_space (natStr_isDig n c hc)

theorem natOf_natStr (n : Nat) : natOf (natStr n) = n := by
  have := @Nat.ofDigitChars_ten_toDigits n
  rw [Nat.ofDigitChars_eq_foldl] at this
  exact this

theorem natStr_injective {a b : Nat} (h : natStr a = natStr b) : a = b := by
  rw [← natOf_natStr a, h, natOf_natStr]

theorem not_isDig_ne {c d : Char} (h : isDig c = true) (hd : isDig d = false) : c ≠ d := by
  rintro rfl; simp [h] at hd

theorem digs_of_digits (b : Bool) (ds : Str) (h : ∀ c ∈ ds, isDig c = true) (hne : ds ≠ [] ∨ b = true) :
    digs b ds = some ds := by
  induction ds generalizing b with
  | nil => simp_all [digs]
  | cons c cs ih =>
    simp [digs, h c (by simp), ih true (fun d hd => h d (by simp [hd]))]

theorem digs_isDig {b : Bool} {s ds : Str} (h : digs b s = some ds) : ∀ c ∈ ds, isDig c = true := by
  induction s generalizing b ds with
  | nil =>
    simp only [digs] at h
    split at h
    · cases h; simp
    · cases h
  | cons c cs ih =>
    simp only [digs] at h
    split at h
    · rename_i hc
      simp only [Option.map_eq_some_iff] at h
      obtain ⟨t, ht, rfl⟩ := h
      intro d hd
      rcases List.mem_cons.1 hd with rfl | hd
      · exact hc
      · exact ih ht d hd
    · split at h
      · exact ih h
      · cases h

/-- the source of a digit run begins with a digit -/
theorem digs_head {s ds : Str} (h : digs false s = some ds) : ∃ c cs, s = c :: cs ∧ isDig c = true := by
  cases s with
  | nil => simp [digs] at h
  | cons c cs =>
    simp only [digs] at h
    split at h
    · rename_i hc; exact ⟨c, cs, rfl, hc⟩
    · simp at h

theorem strip_digits (s : Str) (h : ∀ c ∈ s, isDig c = true) : strip s = s :=
  strip_of_no_space s (fun c hc => isDig_not_space (h c hc))

/-- `int()` of a digit string -/
theorem parseInt_digits (s : Str) (h : ∀ c ∈ s, isDig c = true) (hne : s ≠ []) :
    parseInt s = some (natOf s : Int) := by
  unfold parseInt
  rw [strip_digits s h]
  split
  · exact absurd (h '-' (by simp)) (by decide)
  · exact absurd (h '+' (by simp)) (by decide)
  · rw [digs_of_digits false s h (Or.inl hne)]; rfl

theorem parseInt_natStr (n : Nat) : parseInt (natStr n) = some (n : Int) := by
  rw [parseInt_digits _ (natStr_isDig n) (natStr_ne_nil n), natOf_natStr]

theorem intStr_not_space (i : Int) : ∀ c ∈ intStr i, isSpace c = false := by
  cases i with
  | ofNat n => exact natStr_not_space n
  | negSucc n =>
    intro c hc
    simp only [intStr, List.mem_cons] at hc
    rcases hc with rfl | hc
    · decide
    · exact natStr_not_space _ c hc

/-- `int(str(i)) == i` -/
theorem parseInt_intStr (i : Int) : parseInt (intStr i) = some i := by
  cases i with
  | ofNat n => exact parseInt_natStr n
  | negSucc n =>
    unfold parseInt
    rw [strip_of_no_space _ (intStr_not_space _)]
    simp only [intStr]
    rw [digs_of_digits false _ (natStr_isDig _) (Or.inl (natStr_ne_nil _))]
    simp only [Option.map_some, natOf_natStr]
    rfl

theorem intStr_ne_nil (i : Int) : intStr i ≠ [] := by
  cases i with
  | ofNat n => exact natStr_ne_nil n
  | negSucc n => simp [intStr]

theorem intStr_injective {a b : Int} (h : intStr a = intStr b) : a = b := by
  have := parseInt_intStr a
  rw [h, parseInt_intStr] at this
  exact (Option.some.inj this).symm

theorem lower_isDig {c : Char} (h : isDig c = true) : lowerC c = c := by
  unfold isDig at h
  unfold lowerC
  simp only [Bool.and_eq_true, decide_eq_true_eq] at h
  rw [if_neg]
  simp only [Bool.and_eq_true, decide_eq_true_eq]
  omega

/-- value of the decimal literal `a.b` for digit strings `a`, `b` -/
def decVal (a b : Str) : Rat := (natOf (a ++ b) : Rat) / (10 : Rat) ^ b.length

theorem parseMag_of_head {s : Str} {c : Char} {cs : Str} (e : s = c :: cs)
    (h1 : lowerC c ≠ 'i') (h2 : lowerC c ≠ 'n') (neg : Bool) :
    parseMag neg s = (parseUFloat s).map (fun q => .fin (if neg then -q else q)) := by
  subst e
  unfold parseMag
  rw [if_neg, if_neg]
  · simp only [lower, List.map_cons, List.cons.injEq, not_and]
    intro h; exact absurd h h2
  · simp only [lower, List.map_cons, List.cons.injEq, not_or, not_and]
    exact ⟨fun h => absurd h h1, fun h => absurd h h1⟩

theorem isDig_lower_ne {c : Char} (h : isDig c = true) : lowerC c ≠ 'i' ∧ lowerC c ≠ 'n' := by
  rw [lower_isDig h]
  exact ⟨not_isDig_ne h (by decide), not_isDig_ne h (by decide)⟩

theorem parseUFloat_noexp (s : Str) (h : ∀ c ∈ s, c ≠ 'e' ∧ c ≠ 'E') :
    parseUFloat s = parseMant s := by
  unfold parseUFloat
  rw [splitP_of_none]
  intro c hc
  obtain ⟨h1, h2⟩ := h c hc
  simp [h1, h2]

theorem parseMant_digits (s : Str) (h : ∀ c ∈ s, isDig c = true) (hne : s ≠ []) :
    parseMant s = some (natOf s : Rat) := by
  unfold parseMant splitC
  rw [splitP_of_none]
  · simp [digs_of_digits false s h (Or.inl hne)]
  · intro c hc
    simp only [beq_eq_false_iff_ne]
    exact not_isDig_ne (h c hc) (by decide)

theorem parseMant_dec (a b : Str) (ha : ∀ c ∈ a, isDig c = true) (hb : ∀ c ∈ b, isDig c = true)
    (hne : a ≠ []) : parseMant (a ++ '.' :: b) = some (decVal a b) := by
  have dot : ∀ s : Str, (∀ c ∈ s, isDig c = true) → ∀ d ∈ s, (d == '.') = false := by
    intro s hs d hd
    simp only [beq_eq_false_iff_ne]
    exact not_isDig_ne (hs d hd) (by decide)
  have opt : ∀ s : Str, (∀ c ∈ s, isDig c = true) → digsOpt s = some s := by
    intro s hs
    unfold digsOpt
    split
    · simp_all
    · rename_i h; exact digs_of_digits false s hs (Or.inl h)
  unfold parseMant splitC
  rw [splitP_append_sep _ a '.' b (dot a ha) (by simp), splitP_of_none _ b (dot b hb)]
  simp only [hne, false_and, if_false, opt a ha, opt b hb]
  rfl

/-- `float()` of a digit string -/
theorem parseFloat_digits (s : Str) (h : ∀ c ∈ s, isDig c = true) (hne : s ≠ []) :
    parseFloat s = some (.fin (natOf s)) := by
  unfold parseFloat
  rw [strip_digits s h]
  split
  · exact absurd (h '-' (by simp)) (by decide)
  · exact absurd (h '+' (by simp)) (by decide)
  · cases s with
    | nil => exact absurd rfl hne
    | cons c cs =>
      have hc := isDig_lower_ne (h c (by simp))
      rw [parseMag_of_head rfl hc.1 hc.2, parseUFloat_noexp, parseMant_digits _ h hne]
      · rfl
      · intro d hd
        exact ⟨not_isDig_ne (h d hd) (by decide), not_isDig_ne (h d hd) (by decide)⟩

theorem parseFloat_natStr (n : Nat) : parseFloat (natStr n) = some (.fin n) := by
  rw [parseFloat_digits _ (natStr_isDig n) (natStr_ne_nil n), natOf_natStr]

/-- `float("a.b")` for digit strings -/
theorem parseFloat_dec (a b : Str) (ha : ∀ c ∈ a, isDig c = true) (hb : ∀ c ∈ b, isDig c = true)
    (hne : a ≠ []) : parseFloat (a ++ '.' :: b) = some (.fin (decVal a b)) := by
  have hall : ∀ c ∈ a ++ '.' :: b, isDig c = true ∨ c = '.' := by
    intro c hc
    simp only [List.mem_append, List.mem_cons] at hc
    rcases hc with h | h | h
    · exact Or.inl (ha c h)
    · exact Or.inr h
    · exact Or.inl (hb c h)
  have hsp : strip (a ++ '.' :: b) = a ++ '.' :: b := by
    apply strip_of_no_space
    intro c hc
    rcases hall c hc with h | rfl
    · exact isDig_not_space h
    · decide
  cases a with
  | nil => exact absurd rfl hne
  | cons c cs =>
    have hc := ha c (by simp)
    unfold parseFloat
    rw [hsp]
    split
    · rename_i r e
      simp only [List.cons_append, List.cons.injEq] at e
      rw [e.1] at hc; exact absurd hc (by decide)
    · rename_i r e
      simp only [List.cons_append, List.cons.injEq] at e
      rw [e.1] at hc; exact absurd hc (by decide)
    · have hl := isDig_lower_ne hc
      rw [parseMag_of_head (List.cons_append) hl.1 hl.2, parseUFloat_noexp, parseMant_dec _ _ ha hb hne]
      · rfl
      · intro d hd
        rcases hall d hd with h | rfl
        · exact ⟨not_isDig_ne h (by decide), not_isDig_ne h (by decide)⟩
        · decide

/-- the first character of text that `float()` accepts (after strip) -/
theorem parseFloat_head {s : Str} {x : PyFloat} (h : parseFloat s = some x) :
    ∃ c cs, strip s = c :: cs ∧ c ≠ '#' ∧ c ≠ '@' := by
  have mant : ∀ {m : Str} {q : Rat}, parseMant m = some q → ∃ c cs, m = c :: cs ∧ c ≠ '#' ∧ c ≠ '@' := by
    intro m q hm
    cases m with
    | nil => simp [parseMant, splitC, splitP, digs] at hm
    | cons c cs =>
      refine ⟨c, cs, rfl, ?_⟩
      by_cases hd : isDig c = true
      · exact ⟨not_isDig_ne hd (by decide), not_isDig_ne hd (by decide)⟩
      · by_cases hdot : c = '.'
        · subst hdot; decide
        · exfalso
          unfold parseMant splitC at hm
          obtain ⟨w, ws, e⟩ := splitP_exists_cons (· == '.') cs
          rw [splitP_cons_false (by simp [hdot]) e] at hm
          have bad : ∀ t : Str, digs false (c :: t) = none := by
            intro t; simp [digs, hd]
          have bad2 : ∀ t : Str, digsOpt (c :: t) = none := by
            intro t; simp [digsOpt, bad]
          cases ws with
          | nil => simp [bad] at hm
          | cons v vs =>
            cases vs with
            | nil => simp [bad2] at hm
            | cons => simp at hm
  have uf : ∀ {m : Str} {q : Rat}, parseUFloat m = some q → ∃ c cs, m = c :: cs ∧ c ≠ '#' ∧ c ≠ '@' := by
    intro m q hm
    cases m with
    | nil => simp [parseUFloat, splitP, parseMant, splitC, digs] at hm
    | cons c cs =>
      refine ⟨c, cs, rfl, ?_⟩
      by_cases he : (decide (c = 'e') || decide (c = 'E')) = true
      · simp only [Bool.or_eq_true, decide_eq_true_eq] at he
        rcases he with rfl | rfl <;> decide
      · unfold parseUFloat at hm
        obtain ⟨w, ws, e⟩ := splitP_exists_cons (fun c => decide (c = 'e') || decide (c = 'E')) cs
        rw [splitP_cons_false (p := fun c => decide (c = 'e') || decide (c = 'E'))
          (by simpa using he) e] at hm
        cases ws with
        | nil =>
          obtain ⟨c', cs', e', h'⟩ := mant hm
          cases e'; exact h'
        | cons v vs =>
          cases vs with
          | cons => simp at hm
          | nil =>
            simp only at hm
            split at hm
            · rename_i h1 h2
              obtain ⟨c', cs', e', h'⟩ := mant h1
              cases e'; exact h'
            · cases hm
  have mag : ∀ {neg : Bool} {m : Str} {q : PyFloat}, parseMag neg m = some q →
      ∃ c cs, m = c :: cs ∧ c ≠ '#' ∧ c ≠ '@' := by
    intro neg m q hm
    cases m with
    | nil => simp [parseMag, lower, parseUFloat, splitP, parseMant, splitC, digs] at hm
    | cons c cs =>
      refine ⟨c, cs, rfl, ?_⟩
      by_cases hu : ∃ q, parseUFloat (c :: cs) = some q
      · obtain ⟨q, hq⟩ := hu
        obtain ⟨c', cs', e', h'⟩ := uf hq
        cases e'; exact h'
      · constructor
        · rintro rfl
          have : lowerC '#' = '#' := by decide
          simp only [parseMag, lower, List.map_cons, this] at hm
          simp only [List.cons.injEq, Char.reduceEq, false_and, or_self, if_false,
            Option.map_eq_some_iff] at hm
          obtain ⟨q, hq, -⟩ := hm; exact hu ⟨q, hq⟩
        · rintro rfl
          have : lowerC '@' = '@' := by decide
          simp only [parseMag, lower, List.map_cons, this] at hm
          simp only [List.cons.injEq, Char.reduceEq, false_and, or_self, if_false,
            Option.map_eq_some_iff] at hm
          obtain ⟨q, hq, -⟩ := hm; exact hu ⟨q, hq⟩
  unfold parseFloat at h
  split at h
  · rename_i r e; exact ⟨'-', r, e, by decide, by decide⟩
  · rename_i r e; exact ⟨'+', r, e, by decide, by decide⟩
  · obtain ⟨c, cs, e, h'⟩ := mag h
    exact ⟨c, cs, e, h'⟩

/-- text that begins (after strip) with `#` or `@` is not a float -/
theorem parseFloat_hash (s : Str) (c : Char) (cs : Str) (e : strip s = c :: cs)
    (h : c = '#' ∨ c = '@') : parseFloat s = none := by
  cases hf : parseFloat s with
  | none => rfl
  | some x =>
    obtain ⟨d, ds, e', h1, h2⟩ := parseFloat_head hf
    rw [e] at e'
    cases e'
    rcases h with rfl | rfl <;> simp_all

end S2N.Py
