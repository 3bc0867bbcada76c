import Verif.Model.Utils
import Verif.Spec.Utils
import Verif.Py.NumLemmas
import Mathlib.Tactic.IntervalCases
/-
Property C37: iso8601
-/
namespace S2N.Props
open S2N Py Spec Re

theorem two_eq_dd (n : Nat) (h : n < 100) : two n = dd n := by
  revert n; decide

theorem monthDays_eq (y m : Nat) : daysIn y m = monthDays y m := by
  unfold daysIn monthDays isLeap
  by_cases h2 : m = 2
  · simp only [h2, beq_self_eq_true, if_true, Bool.and_eq_true, beq_iff_eq, Bool.or_eq_true, bne_iff_ne]
    by_cases a : y % 4 = 0 <;> by_cases b : y % 100 = 0 <;> by_cases c : y % 400 = 0 <;>
      simp [a, b, c] <;> omega
  · simp only [beq_iff_eq, h2, if_false, Bool.or_eq_true, or_assoc]

theorem first_fA (n : Nat) (h : n < 7) (t : Str) :
    first fA (Days.getD n [] ++ t) = some ([Days.getD n []], t) := by
  apply first_grp
  interval_cases n <;> rfl

theorem first_fB (n : Nat) (h : n < 12) (t : Str) :
    first fB (Months.getD n [] ++ t) = some ([Months.getD n []], t) := by
  apply first_grp
  interval_cases n <;> rfl

theorem first_fD (n : Nat) (h1 : 1 ≤ n) (h : n < 32) (t : Str) :
    first fD (dd n ++ t) = some ([dd n], t) := by
  apply first_grp
  interval_cases n <;> rfl

theorem first_fH (n : Nat) (h : n < 24) (t : Str) : first fH (dd n ++ t) = some ([dd n], t) := by
  apply first_grp
  interval_cases n <;> rfl

theorem first_fM (n : Nat) (h : n < 60) (t : Str) : first fM (dd n ++ t) = some ([dd n], t) := by
  apply first_grp
  interval_cases n <;> rfl

theorem first_fS (n : Nat) (h : n < 62) (t : Str) : first fS (dd n ++ t) = some ([dd n], t) := by
  apply first_grp
  interval_cases n <;> rfl

theorem first_fMon (n : Nat) (h1 : 1 ≤ n) (h : n < 13) (t : Str) :
    first fMon (dd n ++ t) = some ([dd n], t) := by
  apply first_grp
  interval_cases n <;> rfl

theorem isDig_digitChar (n : Nat) (h : n < 10) : isDig (Nat.digitChar n) = true := by
  interval_cases n <;> rfl

theorem digit_val (n : Nat) (h : n < 10) : (Nat.digitChar n).toNat - 48 = n := by
  interval_cases n <;> rfl

theorem first_fYY (n : Nat) (h : n < 100) (t : Str) : first fYY (dd n ++ t) = some ([dd n], t) := by
  apply first_grp
  exact first_seq (first_cls (isDig_digitChar _ (by omega))) (first_cls (isDig_digitChar _ (by omega)))

theorem first_fY (n : Nat) (h : n < 10000) (t : Str) : first fY (dddd n ++ t) = some ([dddd n], t) := by
  apply first_grp
  exact first_seq (first_cls (isDig_digitChar _ (by omega)))
    (first_seq (first_cls (isDig_digitChar _ (by omega)))
    (first_seq (first_cls (isDig_digitChar _ (by omega))) (first_cls (isDig_digitChar _ (by omega)))))

theorem dd_digits (n : Nat) (h : n < 100) : ∀ c ∈ dd n, isDig c = true := by
  intro c hc
  simp only [dd, List.mem_cons, List.not_mem_nil, or_false] at hc
  rcases hc with rfl | rfl <;> exact isDig_digitChar _ (by omega)

theorem dddd_digits (n : Nat) (h : n < 10000) : ∀ c ∈ dddd n, isDig c = true := by
  intro c hc
  simp only [dddd, List.mem_cons, List.not_mem_nil, or_false] at hc
  rcases hc with rfl | rfl | rfl | rfl <;> exact isDig_digitChar _ (by omega)

theorem fieldVal_dd (n : Nat) (h : n < 100) : fieldVal (dd n) = n := by
  unfold fieldVal
  rw [strip_digits _ (dd_digits n h)]
  simp only [natOf, dd, List.foldl_cons, List.foldl_nil]
  rw [digit_val _ (by omega), digit_val _ (by omega)]
  omega

theorem fieldVal_dddd (n : Nat) (h : n < 10000) : fieldVal (dddd n) = n := by
  unfold fieldVal
  rw [strip_digits _ (dddd_digits n h)]
  simp only [natOf, dddd, List.foldl_cons, List.foldl_nil]
  rw [digit_val _ (by omega), digit_val _ (by omega), digit_val _ (by omega), digit_val _ (by omega)]
  omega

theorem digit_toDigits (d : Nat) (h : d < 10) : Nat.toDigits 10 d = [Nat.digitChar d] :=
  Nat.toDigits_of_lt_base h

theorem natStr_dddd (n : Nat) (h1 : 1000 ≤ n) (h : n < 10000) : natStr n = dddd n := by
  unfold natStr dddd
  rw [Nat.toDigits_of_base_le (by omega) (by omega), Nat.toDigits_of_base_le (by omega) (by omega),
    Nat.toDigits_of_base_le (by omega) (by omega), Nat.toDigits_of_lt_base (by omega)]
  have e1 : n / 10 / 10 / 10 = n / 1000 := by omega
  have e2 : n / 10 / 10 % 10 = n / 100 % 10 := by omega
  simp [e1, e2]

theorem first_ws1 (t : Str) (h : ∀ c, t.head? = some c → isSpace c = false) :
    first ws (' ' :: t) = some ([], t) :=
  first_plus (w := [' ']) (by simp) (by simp [isSpace]) h

theorem dd_head (n : Nat) (h : n < 100) (t : Str) :
    ∀ c, (dd n ++ t).head? = some c → isSpace c = false := by
  intro c hc
  simp only [dd, List.cons_append, List.head?_cons, Option.some.injEq] at hc
  subst hc
  exact isDig_not_space (isDig_digitChar _ (by omega))

theorem dddd_head (n : Nat) (h : n < 10000) (t : Str) :
    ∀ c, (dddd n ++ t).head? = some c → isSpace c = false := by
  intro c hc
  simp only [dddd, List.cons_append, List.head?_cons, Option.some.injEq] at hc
  subst hc
  exact isDig_not_space (isDig_digitChar _ (by omega))

theorem month_head (n : Nat) (h : n < 12) (t : Str) :
    ∀ c, (Months.getD n [] ++ t).head? = some c → isSpace c = false := by
  intro c hc
  interval_cases n <;> (simp [Months] at hc; subst hc; rfl)

theorem first_specDate (wd y mo d h mi s : Nat) (hw : wd < 7) (hy : y < 10000)
    (hmo : 1 ≤ mo ∧ mo ≤ 12) (hd : 1 ≤ d ∧ d < 32) (hh : h < 24) (hmi : mi < 60) (hs : s < 62) :
    first specFmt (specDate wd y mo d h mi s) = some
      ([Days.getD wd [], Months.getD (mo - 1) [], dd d, dd h, dd mi, dd s, dddd y], []) := by
  have key : specDate wd y mo d h mi s = Days.getD wd [] ++ (' ' :: (Months.getD (mo - 1) [] ++ (' ' ::
      (dd d ++ (' ' :: (dd h ++ (':' :: (dd mi ++ (':' :: (dd s ++ (' ' :: (dddd y ++ [])))))))))))) := by
    simp only [specDate, List.append_assoc, List.cons_append, List.nil_append, List.append_nil]
  rw [key]
  have colon : ∀ t : Str, first (ch ':') (':' :: t) = some ([], t) := fun t => first_cls rfl
  exact first_seq (first_fA wd hw _) <| first_seq (first_ws1 _ (month_head _ (by omega) _)) <|
    first_seq (first_fB _ (by omega) _) <| first_seq (first_ws1 _ (dd_head _ (by omega) _)) <|
    first_seq (first_fD _ hd.1 hd.2 _) <| first_seq (first_ws1 _ (dd_head _ (by omega) _)) <|
    first_seq (first_fH _ hh _) <| first_seq (colon _) <| first_seq (first_fM _ hmi _) <|
    first_seq (colon _) <| first_seq (first_fS _ hs _) <|
    first_seq (first_ws1 _ (dddd_head _ hy _)) (first_fY _ hy _)

theorem monthDays_le (y m : Nat) : monthDays y m ≤ 31 := by
  unfold monthDays; repeat' split
  all_goals omega

theorem nameIdx_month (n : Nat) (h : n < 12) : nameIdx monNames (Months.getD n []) = n := by
  interval_cases n <;> rfl

theorem nameIdx_day (n : Nat) (h : n < 7) : nameIdx dayNames (Days.getD n []) = n := by
  interval_cases n <;> rfl

/-- parsing a SPEC date gives its fields -/
theorem strptimeSpec_specDate (wd y mo d h mi s : Nat) (hw : wd < 7) (hy : 1 ≤ y ∧ y < 10000)
    (v : ValidTime y mo d h mi s) :
    strptimeSpec (specDate wd y mo d h mi s) = some ⟨y, mo, d, h, mi, s, wd⟩ := by
  have hd31 := monthDays_le y mo
  obtain ⟨hmo, hd, hh, hmi, hs⟩ := v
  unfold strptimeSpec
  rw [first_specDate wd y mo d h mi s hw hy.2 hmo ⟨hd.1, by omega⟩ hh hmi hs]
  simp only [fieldVal_dddd y hy.2, fieldVal_dd d (by omega), fieldVal_dd h (by omega),
    fieldVal_dd mi (by omega), fieldVal_dd s (by omega), nameIdx_month (mo - 1) (by omega),
    nameIdx_day wd hw, Nat.sub_add_cancel hmo.1, monthDays_eq]
  rw [if_pos ⟨hy.1, hd.2⟩]

/-- C37: a SPEC-format date becomes the ISO 8601 text of the same date and time, for every
existing date in the years 1000-9999. -/
theorem C37_spec (wd y mo d h mi s : Nat) (hw : wd < 7) (hy : 1000 ≤ y ∧ y < 10000)
    (v : ValidTime y mo d h mi s) :
    iso8601 (specDate wd y mo d h mi s) = .ok (isoDate y mo d h mi s) := by
  unfold iso8601
  rw [strptimeSpec_specDate wd y mo d h mi s hw ⟨by omega, hy.2⟩ v]
  have hd31 := monthDays_le y mo
  obtain ⟨hmo, hd, hh, hmi, hs⟩ := v
  simp only [strftimeIso, isoDate, natStr_dddd y hy.1 hy.2, two_eq_dd mo (by omega),
    two_eq_dd d (by omega), two_eq_dd h (by omega), two_eq_dd mi (by omega), two_eq_dd s (by omega)]

/-- a SPEC date that cannot exist (day beyond the end of the month) is refused. -/
theorem strptimeSpec_bad_day (wd y mo d h mi s : Nat) (hw : wd < 7) (hy : y < 10000)
    (hmo : 1 ≤ mo ∧ mo ≤ 12) (hd : 1 ≤ d ∧ d < 32) (hh : h < 24) (hmi : mi < 60) (hs : s < 62)
    (hbad : monthDays y mo < d) :
    strptimeSpec (specDate wd y mo d h mi s) = none := by
  unfold strptimeSpec
  rw [first_specDate wd y mo d h mi s hw hy hmo hd hh hmi hs]
  simp only [fieldVal_dddd y hy, fieldVal_dd d (by omega), nameIdx_month (mo - 1) (by omega),
    Nat.sub_add_cancel hmo.1, monthDays_eq]
  rw [if_neg (by omega)]

/-! SPOCK -/

/-- first character decides that a text starting with a digit is not a SPEC date -/
theorem spec_head {s : Str} {t : Tm} (h : strptimeSpec s = some t) :
    ∃ c cs, s = c :: cs ∧ isDig c = false := by
  unfold strptimeSpec at h
  split at h
  · next g e =>
    obtain ⟨w, e1, l⟩ := first_sound e
    have l : Lang (seq fA (cat [ws, fB, ws, fD, ws, fH, ch ':', fM, ch ':', fS, ws, fY])) w _ := l
    obtain ⟨w1, w2, g1, g2, e2, _, hA, _⟩ := lang_seq.1 l
    obtain ⟨g', _, hA⟩ := lang_grp.1 hA
    have : ∃ c cs, w1 = c :: cs ∧ isDig c = false := by
      have hI : ∀ (c : Char) (cs : Str) (w : Str) (g : List Str), isDig c = false →
          (∀ d, lowerC d = c → isDig d = false) →
          Lang (litI (c :: cs)) w g → ∃ d ds, w = d :: ds ∧ isDig d = false := by
        intro c cs w g _ h2 hl
        obtain ⟨a, b, _, _, e, _, ha, _⟩ := lang_seq.1 hl
        obtain ⟨⟨d, e3, hd⟩, _⟩ := lang_cls.1 ha
        simp only [beq_iff_eq] at hd
        exact ⟨d, b, by simp [e, e3], h2 d hd⟩
      have hlow : ∀ d c : Char, isDig c = false → lowerC d = c → isDig d = false := by
        intro d c hc e
        by_contra h
        have h : isDig d = true := by simpa using h
        rw [lower_isDig h] at e
        rw [← e, h] at hc; cases hc
      simp only [dayNames, List.map, alts, lang_alt] at hA
      rcases hA with h | h | h | h | h | h | h <;>
        exact hI _ _ _ _ (by decide) (fun d e => hlow d _ (by decide) e) h
    obtain ⟨c, cs, e3, hc⟩ := this
    exact ⟨c, cs ++ w2 ++ [], by simp [e1, e2, e3], hc⟩
  · cases h

theorem first_spockDate (yy mo d h mi s : Nat) (hy : yy < 100)
    (hmo : 1 ≤ mo ∧ mo ≤ 12) (hd : 1 ≤ d ∧ d < 32) (hh : h < 24) (hmi : mi < 60) (hs : s < 62) :
    first spockFmt (spockDate yy mo d h mi s) = some
      ([dd mo, dd d, dd yy, dd h, dd mi, dd s], []) := by
  have key : spockDate yy mo d h mi s = dd mo ++ ('/' :: (dd d ++ ('/' :: (dd yy ++ (' ' ::
      (dd h ++ (':' :: (dd mi ++ (':' :: (dd s ++ [])))))))))) := by
    simp only [spockDate, List.append_assoc, List.cons_append, List.nil_append, List.append_nil]
  rw [key]
  have colon : ∀ t : Str, first (ch ':') (':' :: t) = some ([], t) := fun t => first_cls rfl
  have slash : ∀ t : Str, first (ch '/') ('/' :: t) = some ([], t) := fun t => first_cls rfl
  exact first_seq (first_fMon _ hmo.1 (by omega) _) <| first_seq (slash _) <|
    first_seq (first_fD _ hd.1 hd.2 _) <| first_seq (slash _) <|
    first_seq (first_fYY _ hy _) <| first_seq (first_ws1 _ (dd_head _ (by omega) _)) <|
    first_seq (first_fH _ hh _) <| first_seq (colon _) <| first_seq (first_fM _ hmi _) <|
    first_seq (colon _) (first_fS _ hs _)

/-- C37: a SPOCK-format date (two-digit year: 00-68 are 2000-2068, 69-99 are 1969-1999)
becomes the ISO 8601 text of the same date and time. -/
theorem C37_spock (yy mo d h mi s : Nat) (hy : yy < 100)
    (v : ValidTime (if yy ≤ 68 then 2000 + yy else 1900 + yy) mo d h mi s) :
    iso8601 (spockDate yy mo d h mi s)
      = .ok (isoDate (if yy ≤ 68 then 2000 + yy else 1900 + yy) mo d h mi s) := by
  generalize hY : (if yy ≤ 68 then 2000 + yy else 1900 + yy) = Y at v ⊢
  have hY1 : 1000 ≤ Y := by rw [← hY]; split <;> omega
  have hY2 : Y < 10000 := by rw [← hY]; split <;> omega
  have hd31 := monthDays_le Y mo
  obtain ⟨hmo, hd, hh, hmi, hs⟩ := v
  have h0 : strptimeSpec (spockDate yy mo d h mi s) = none := by
    cases e : strptimeSpec (spockDate yy mo d h mi s) with
    | none => rfl
    | some t =>
      obtain ⟨c, cs, e1, hc⟩ := spec_head e
      simp only [spockDate, dd, List.cons_append, List.cons.injEq] at e1
      rw [← e1.1, isDig_digitChar _ (by omega)] at hc
      cases hc
  have h1 : strptimeSpock (spockDate yy mo d h mi s)
      = some ⟨Y, mo, d, h, mi, s, weekdayOf Y mo d⟩ := by
    unfold strptimeSpock
    rw [first_spockDate yy mo d h mi s hy hmo ⟨hd.1, by omega⟩ hh hmi hs]
    simp only [fieldVal_dd yy hy, fieldVal_dd mo (by omega), fieldVal_dd d (by omega),
      fieldVal_dd h (by omega), fieldVal_dd mi (by omega), fieldVal_dd s (by omega), monthDays_eq, hY]
    rw [if_pos hd.2]
  unfold iso8601
  rw [h0, h1]
  simp only [strftimeIso, isoDate, natStr_dddd Y hY1 hY2, two_eq_dd mo (by omega),
    two_eq_dd d (by omega), two_eq_dd h (by omega), two_eq_dd mi (by omega), two_eq_dd s (by omega)]

/-- C37: whatever `iso8601` accepts is, as a whole, in one of the two formats;
everything else raises ValueError. -/
theorem C37_other_raises (date : Str)
    (h1 : ∀ g, ¬ Lang specFmt date g) (h2 : ∀ g, ¬ Lang spockFmt date g) :
    iso8601 date = .error .ValueError := by
  unfold iso8601
  have e1 : strptimeSpec date = none := by
    unfold strptimeSpec
    split
    · next h =>
      obtain ⟨w, e, l⟩ := first_sound h
      simp only [List.append_nil] at e
      subst e
      exact absurd l (h1 _)
    · rfl
  have e2 : strptimeSpock date = none := by
    unfold strptimeSpock
    split
    · next h =>
      obtain ⟨w, e, l⟩ := first_sound h
      simp only [List.append_nil] at e
      subst e
      exact absurd l (h2 _)
    · rfl
  rw [e1, e2]

/-- C37: the only exception is ValueError. -/
theorem C37_only_ValueError (date : Str) (e : PyErr) (h : iso8601 date = .error e) :
    e = .ValueError := by
  unfold iso8601 at h
  split at h
  · cases h
  · split at h
    · cases h
    · cases h; rfl

example : iso8601 p!"Wed Nov 03 13:39:34 2010" = .ok p!"2010-11-03T13:39:34" :=
  C37_spec 2 2010 11 3 13 39 34 (by decide) (by decide) ⟨by decide, by decide, by decide, by decide, by decide⟩
example : iso8601 p!"09/15/17 04:39:10" = .ok p!"2017-09-15T04:39:10" :=
  C37_spock 17 9 15 4 39 10 (by decide) ⟨by decide, by decide, by decide, by decide, by decide⟩
example : ∀ g, ¬ Lang specFmt p!"tomorrow" g := by
  intro g h
  have := run_complete h []
  rw [show run specFmt (p!"tomorrow" ++ []) = [] from rfl] at this
  cases this

end S2N.Props
