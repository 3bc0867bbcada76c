import Verif.Py.Num
/-
Lemmas about the Python string functions.
-/
namespace S2N.Py

/-! ### splitP / join -/

theorem splitP_ne_nil (p : Char → Bool) (s : Str) : splitP p s ≠ [] := by
  induction s with
  | nil => simp [splitP]
  | cons c cs ih =>
    simp only [splitP]
    split
    · simp
    · split <;> simp

theorem splitP_exists_cons (p : Char → Bool) (s : Str) : ∃ w ws, splitP p s = w :: ws := by
  cases h : splitP p s with
  | nil => exact absurd h (splitP_ne_nil p s)
  | cons w ws => exact ⟨w, ws, rfl⟩

theorem splitP_cons_true {p : Char → Bool} {c : Char} (h : p c = true) (cs : Str) :
    splitP p (c :: cs) = [] :: splitP p cs := by simp [splitP, h]

theorem splitP_cons_false {p : Char → Bool} {c : Char} (h : p c = false) {cs w : Str}
    {ws : List Str} (e : splitP p cs = w :: ws) : splitP p (c :: cs) = (c :: w) :: ws := by
  simp [splitP, h, e]

/-- no field contains a separator -/
theorem splitP_not_mem (p : Char → Bool) (s : Str) :
    ∀ w ∈ splitP p s, ∀ c ∈ w, p c = false := by
  induction s with
  | nil => simp [splitP]
  | cons c cs ih =>
    cases h : p c with
    | true =>
      rw [splitP_cons_true h]
      intro w hw
      rcases List.mem_cons.1 hw with rfl | hw
      · simp
      · exact ih w hw
    | false =>
      obtain ⟨w, ws, e⟩ := splitP_exists_cons p cs
      rw [splitP_cons_false h e]
      rw [e] at ih
      intro v hv
      rcases List.mem_cons.1 hv with rfl | hv
      · intro d hd
        rcases List.mem_cons.1 hd with rfl | hd
        · exact h
        · exact ih w (by simp) d hd
      · exact ih v (by simp [hv])

/-- a text without separators is a single field -/
theorem splitP_of_none (p : Char → Bool) (s : Str) (h : ∀ c ∈ s, p c = false) :
    splitP p s = [s] := by
  induction s with
  | nil => rfl
  | cons c cs ih =>
    rw [splitP_cons_false (h c (by simp)) (ih (fun d hd => h d (by simp [hd])))]

/-- splitting `a ++ sep :: b` where `a` has no separators -/
theorem splitP_append_sep (p : Char → Bool) (a : Str) (c : Char) (b : Str)
    (ha : ∀ d ∈ a, p d = false) (hc : p c = true) :
    splitP p (a ++ c :: b) = a :: splitP p b := by
  induction a with
  | nil => simp [splitP_cons_true hc]
  | cons d ds ih =>
    have := ih (fun x hx => ha x (by simp [hx]))
    simp only [List.cons_append]
    rw [splitP_cons_false (ha d (by simp)) this]

theorem join_cons (sep w : Str) (ws : List Str) (h : ws ≠ []) :
    join sep (w :: ws) = w ++ sep ++ join sep ws := by
  cases ws with
  | nil => exact absurd rfl h
  | cons v vs => rfl

theorem join_singleton (sep w : Str) : join sep [w] = w := rfl

/-- `c.join(s.split(c)) == s` -/
theorem join_splitC (c : Char) (s : Str) : join [c] (splitC c s) = s := by
  unfold splitC
  induction s with
  | nil => rfl
  | cons d ds ih =>
    by_cases h : d = c
    · subst h
      rw [splitP_cons_true (by simp), join_cons _ _ _ (splitP_ne_nil _ _), ih]; rfl
    · obtain ⟨w, ws, e⟩ := splitP_exists_cons (· == c) ds
      rw [splitP_cons_false (by simp [h]) e]
      rw [e] at ih
      cases ws with
      | nil => simp only [join] at ih ⊢; rw [ih]
      | cons v vs =>
        rw [join_cons _ _ _ (by simp)] at ih ⊢
        rw [← ih]; simp

/-- `c.join(ws).split(c) == ws` for fields without `c` -/
theorem splitC_join (c : Char) (ws : List Str) (hne : ws ≠ []) (h : ∀ w ∈ ws, c ∉ w) :
    splitC c (join [c] ws) = ws := by
  unfold splitC
  induction ws with
  | nil => exact absurd rfl hne
  | cons w ws ih =>
    have hw : ∀ d ∈ w, (d == c) = false := by
      intro d hd
      have := h w (by simp)
      simp only [beq_eq_false_iff_ne]
      rintro rfl; exact this hd
    cases ws with
    | nil => exact splitP_of_none _ _ hw
    | cons v vs =>
      rw [join_cons _ _ _ (by simp)]
      have := splitP_append_sep (· == c) w c (join [c] (v :: vs)) hw (by simp)
      simp only [List.append_assoc, List.singleton_append]
      rw [this, ih (by simp) (fun x hx => h x (by simp [hx]))]

/-! ### strip -/

theorem dropWhile_idem (p : Char → Bool) (s : Str) :
    (s.dropWhile p).dropWhile p = s.dropWhile p := by
  induction s with
  | nil => rfl
  | cons c cs ih =>
    by_cases h : p c = true
    · simp [List.dropWhile, h, ih]
    · simp [List.dropWhile, h]

theorem dropWhile_head (p : Char → Bool) (s : Str) :
    ∀ c, (s.dropWhile p).head? = some c → p c = false := by
  induction s with
  | nil => simp
  | cons d ds ih =>
    intro c
    by_cases h : p d = true
    · simpa [List.dropWhile, h] using ih c
    · simp only [List.dropWhile, h, List.head?_cons, Option.some.injEq]
      rintro rfl; simpa using h

theorem dropWhile_of_head (p : Char → Bool) (s : Str)
    (h : ∀ c, s.head? = some c → p c = false) : s.dropWhile p = s := by
  cases s with
  | nil => rfl
  | cons c cs => simp [List.dropWhile, h c rfl]

theorem rstripP_getLast (p : Char → Bool) (s : Str) :
    ∀ c, (rstripP p s).getLast? = some c → p c = false := by
  intro c h
  unfold rstripP at h
  rw [List.getLast?_reverse] at h
  exact dropWhile_head p _ c h

theorem rstripP_of_getLast (p : Char → Bool) (s : Str)
    (h : ∀ c, s.getLast? = some c → p c = false) : rstripP p s = s := by
  unfold rstripP
  rw [dropWhile_of_head]
  · simp
  · intro c hc; rw [List.head?_reverse] at hc; exact h c hc

theorem rstripP_prefix (p : Char → Bool) (s : Str) : rstripP p s <+: s := by
  unfold rstripP
  have := List.dropWhile_suffix p (l := s.reverse)
  have h := List.reverse_prefix.2 this
  simpa using h

theorem lstrip_suffix (s : Str) : lstrip s <:+ s := List.dropWhile_suffix _

theorem rstrip_head (s : Str) (h : ∀ c, s.head? = some c → isSpace c = false) :
    ∀ c, (rstrip s).head? = some c → isSpace c = false := by
  intro c hc
  have hp := rstripP_prefix isSpace s
  obtain ⟨t, ht⟩ := hp
  unfold rstrip at hc
  cases hr : rstripP isSpace s with
  | nil => rw [hr] at hc; simp at hc
  | cons d ds =>
    rw [hr] at hc ht
    simp at hc; subst hc
    exact h d (by rw [← ht]; rfl)

/-- the stripped text does not begin with whitespace -/
theorem strip_head (s : Str) : ∀ c, (strip s).head? = some c → isSpace c = false :=
  rstrip_head _ (dropWhile_head _ _)

/-- the stripped text does not end with whitespace -/
theorem strip_getLast (s : Str) : ∀ c, (strip s).getLast? = some c → isSpace c = false :=
  rstripP_getLast _ _

/-- `strip` is the identity on texts without leading and trailing whitespace -/
theorem strip_of_clean (s : Str) (h1 : ∀ c, s.head? = some c → isSpace c = false)
    (h2 : ∀ c, s.getLast? = some c → isSpace c = false) : strip s = s := by
  unfold strip lstrip rstrip
  rw [dropWhile_of_head _ _ h1, rstripP_of_getLast _ _ h2]

theorem strip_strip (s : Str) : strip (strip s) = strip s :=
  strip_of_clean _ (strip_head s) (strip_getLast s)

theorem strip_of_no_space (s : Str) (h : ∀ c ∈ s, isSpace c = false) : strip s = s :=
  strip_of_clean s (fun c hc => h c (List.mem_of_head? hc))
    (fun c hc => h c (List.mem_of_getLast? hc))

/-- `s = lead ++ s.strip() ++ trail` with whitespace `lead` and `trail` -/
theorem strip_decomp (s : Str) : ∃ a b, s = a ++ strip s ++ b ∧
    (∀ c ∈ a, isSpace c = true) ∧ (∀ c ∈ b, isSpace c = true) := by
  refine ⟨s.takeWhile isSpace, ((lstrip s).reverse.takeWhile isSpace).reverse, ?_, ?_, ?_⟩
  · have h1 : s = s.takeWhile isSpace ++ lstrip s := (List.takeWhile_append_dropWhile).symm
    have h2 : lstrip s = strip s ++ ((lstrip s).reverse.takeWhile isSpace).reverse := by
      unfold strip rstrip rstripP
      rw [← List.reverse_append, List.takeWhile_append_dropWhile, List.reverse_reverse]
    rw [List.append_assoc, ← h2]; exact h1
  · intro c hc; exact List.all_eq_true.1 (List.all_takeWhile) c hc
  · intro c hc
    rw [List.mem_reverse] at hc
    exact List.all_eq_true.1 (List.all_takeWhile) c hc

theorem mem_of_mem_strip {s : Str} {c : Char} (h : c ∈ strip s) : c ∈ s := by
  obtain ⟨a, b, e, -, -⟩ := strip_decomp s
  rw [e]; simp [h]

/-! ### splitWs -/

theorem splitWs_word (s : Str) : ∀ w ∈ splitWs s, w ≠ [] ∧ ∀ c ∈ w, isSpace c = false := by
  intro w hw
  unfold splitWs at hw
  rw [List.mem_filter] at hw
  exact ⟨by intro e; simp [e] at hw, splitP_not_mem _ _ w hw.1⟩

theorem splitWs_cons_space {c : Char} (h : isSpace c = true) (s : Str) :
    splitWs (c :: s) = splitWs s := by
  unfold splitWs; rw [splitP_cons_true h]; simp

theorem splitWs_space_append (a s : Str) (h : ∀ c ∈ a, isSpace c = true) :
    splitWs (a ++ s) = splitWs s := by
  induction a with
  | nil => rfl
  | cons c cs ih =>
    rw [List.cons_append, splitWs_cons_space (h c (by simp))]
    exact ih (fun d hd => h d (by simp [hd]))

theorem splitWs_all_space (s : Str) (h : ∀ c ∈ s, isSpace c = true) : splitWs s = [] := by
  have := splitWs_space_append s [] h
  rw [List.append_nil] at this
  rw [this]; rfl

/-- a word followed by whitespace is the first word -/
theorem splitWs_word_append (w : Str) (c : Char) (s : Str) (hne : w ≠ [])
    (hw : ∀ d ∈ w, isSpace d = false) (hc : isSpace c = true) :
    splitWs (w ++ c :: s) = w :: splitWs s := by
  unfold splitWs
  rw [splitP_append_sep _ _ _ _ hw hc]
  have : (!w.isEmpty) = true := by cases w <;> simp_all
  rw [List.filter_cons, if_pos this]

theorem splitWs_single (w : Str) (hne : w ≠ []) (hw : ∀ d ∈ w, isSpace d = false) :
    splitWs w = [w] := by
  unfold splitWs
  rw [splitP_of_none _ _ hw]
  have : (!w.isEmpty) = true := by cases w <;> simp_all
  simp [this]

theorem splitP_append_space (a b : Str) (h : ∀ c ∈ b, isSpace c = true) :
    splitWs (a ++ b) = splitWs a := by
  induction a with
  | nil => simpa [splitWs, splitP] using splitWs_all_space b h
  | cons c cs ih =>
    rw [List.cons_append]
    cases hc : isSpace c with
    | true => rw [splitWs_cons_space hc, splitWs_cons_space hc, ih]
    | false =>
      -- compare the two splits field by field
      have key : ∀ t : Str, ∃ w ws, splitP isSpace (t ++ b) = w :: ws ∧
          ∃ vs, splitP isSpace t = w :: vs ∧
            ws.filter (fun w => !w.isEmpty) = vs.filter (fun w => !w.isEmpty) := by
        intro t
        induction t with
        | nil =>
          cases b with
          | nil => exact ⟨[], [], rfl, [], rfl, rfl⟩
          | cons d ds =>
            refine ⟨[], splitP isSpace ds, by simp [splitP, h d (by simp)], [], rfl, ?_⟩
            have := splitWs_all_space ds (fun x hx => h x (by simp [hx]))
            simpa [splitWs] using this
        | cons d ds ihd =>
          obtain ⟨w, ws, e1, vs, e2, e3⟩ := ihd
          cases hd : isSpace d with
          | true =>
            refine ⟨[], w :: ws, by rw [List.cons_append, splitP_cons_true hd, e1], w :: vs,
              by rw [splitP_cons_true hd, e2], ?_⟩
            rw [List.filter_cons, List.filter_cons, e3]
          | false =>
            exact ⟨d :: w, ws, by rw [List.cons_append, splitP_cons_false hd e1], vs,
              splitP_cons_false hd e2, e3⟩
      obtain ⟨w, ws, e1, vs, e2, e3⟩ := key (c :: cs)
      rw [List.cons_append] at e1
      unfold splitWs
      rw [e1, e2]
      rw [List.filter_cons, List.filter_cons, e3]

/-- splitting ignores leading and trailing whitespace -/
theorem splitWs_strip (s : Str) : splitWs (strip s) = splitWs s := by
  obtain ⟨a, b, e, ha, hb⟩ := strip_decomp s
  conv => rhs; rw [e]
  rw [splitP_append_space _ _ hb, splitWs_space_append _ _ ha]

theorem splitWs_eq_nil_iff (s : Str) : splitWs s = [] ↔ ∀ c ∈ s, isSpace c = true := by
  constructor
  · intro h
    induction s with
    | nil => simp
    | cons c cs ih =>
      cases hc : isSpace c with
      | true =>
        rw [splitWs_cons_space hc] at h
        intro d hd
        rcases List.mem_cons.1 hd with rfl | hd
        · exact hc
        · exact ih h d hd
      | false =>
        obtain ⟨w, ws, e⟩ := splitP_exists_cons isSpace cs
        unfold splitWs at h
        rw [splitP_cons_false hc e] at h
        simp at h
  · exact splitWs_all_space s

/-- `" ".join(words).split() == words` -/
theorem splitWs_join (ws : List Str) (h : ∀ w ∈ ws, w ≠ [] ∧ ∀ c ∈ w, isSpace c = false) :
    splitWs (join [' '] ws) = ws := by
  induction ws with
  | nil => rfl
  | cons w ws ih =>
    obtain ⟨h1, h2⟩ := h w (by simp)
    cases ws with
    | nil => exact splitWs_single w h1 h2
    | cons v vs =>
      rw [join_cons _ _ _ (by simp)]
      simp only [List.append_assoc, List.singleton_append]
      rw [splitWs_word_append w ' ' _ h1 h2 (by decide), ih (fun x hx => h x (by simp [hx]))]

/-! ### find -/

theorem findC_eq_none_iff (c : Char) (s : Str) : findC c s = none ↔ c ∉ s := by
  induction s with
  | nil => simp [findC]
  | cons d ds ih =>
    by_cases h : d = c
    · simp [findC, h]
    · have : ¬ c = d := fun e => h e.symm
      simp [findC, h, ih, this]

theorem findC_append (c : Char) (a b : Str) (h : c ∉ a) :
    findC c (a ++ c :: b) = some a.length := by
  induction a with
  | nil => simp [findC]
  | cons d ds ih =>
    have h1 : ¬ d = c := by rintro rfl; exact h (by simp)
    have h2 : c ∉ ds := fun hc => h (by simp [hc])
    simp [findC, h1, ih h2]

theorem findC_some (c : Char) (s : Str) (i : Nat) (h : findC c s = some i) :
    ∃ a b, s = a ++ c :: b ∧ c ∉ a ∧ a.length = i := by
  induction s generalizing i with
  | nil => simp [findC] at h
  | cons d ds ih =>
    by_cases e : d = c
    · subst e
      simp [findC] at h; subst h
      exact ⟨[], ds, rfl, by simp, rfl⟩
    · simp only [findC, e, if_false, Option.map_eq_some_iff] at h
      obtain ⟨j, hj, rfl⟩ := h
      obtain ⟨a, b, e1, e2, e3⟩ := ih j hj
      have e' : ¬ c = d := fun x => e x.symm
      exact ⟨d :: a, b, by rw [e1]; rfl, by simp [e2, e'], by simp [e3]⟩

/-- first occurrence decomposition -/
theorem mem_split_first (c : Char) (s : Str) (h : c ∈ s) :
    ∃ a b, s = a ++ c :: b ∧ c ∉ a := by
  cases hf : findC c s with
  | none => exact absurd h ((findC_eq_none_iff c s).1 hf)
  | some i => obtain ⟨a, b, e1, e2, -⟩ := findC_some c s i hf; exact ⟨a, b, e1, e2⟩

/-! ### splitlines -/

theorem isLineBreak_isSpace {c : Char} (h : isLineBreak c = true) : isSpace c = true := by
  unfold isLineBreak at h
  unfold isSpace
  simp only [Bool.or_eq_true, Bool.and_eq_true, decide_eq_true_eq, beq_iff_eq] at h ⊢
  omega

theorem isLineBreak_nl : isLineBreak '\n' = true := by decide
theorem isLineBreak_cr : isLineBreak '\r' = true := by decide

theorem splitlinesAux_nobreak (l : Str) (hl : ∀ c ∈ l, isLineBreak c = false) (cur : Str)
    (o : Bool) (rest : Str) :
    splitlinesAux (l ++ rest) cur o
      = splitlinesAux rest (l.reverse ++ cur) (o || !l.isEmpty) := by
  induction l generalizing cur o with
  | nil => simp
  | cons c cs ih =>
    have hc := hl c (by simp)
    have hcs := fun d hd => hl d (List.mem_cons_of_mem c hd)
    have hne : c ≠ '\r' := by rintro rfl; simp [isLineBreak_cr] at hc
    rw [List.cons_append]
    rw [splitlinesAux]
    · rw [if_neg (by simp [hc]), ih hcs]; simp
    · rintro cs' rfl; exact absurd rfl hne

theorem splitlinesAux_nl (rest cur : Str) (o : Bool) :
    splitlinesAux ('\n' :: rest) cur o = cur.reverse :: splitlinesAux rest [] false := by
  rw [splitlinesAux]
  · rw [if_pos isLineBreak_nl]
  · rintro cs' h; exact absurd h (by decide)

/-- lines produced by `splitlines` contain no line break character -/
theorem splitlinesAux_no_break (s cur : Str) (o : Bool) (hcur : ∀ c ∈ cur, isLineBreak c = false) :
    ∀ l ∈ splitlinesAux s cur o, ∀ c ∈ l, isLineBreak c = false := by
  fun_induction splitlinesAux s cur o with
  | case1 cur => simpa using hcur
  | case2 => simp
  | case3 cs cur o ih =>
    intro l hl
    rcases List.mem_cons.1 hl with rfl | hl
    · simpa using hcur
    · exact ih (by simp) l hl
  | case4 cur o c cs h1 h2 ih =>
    intro l hl
    rcases List.mem_cons.1 hl with rfl | hl
    · simpa using hcur
    · exact ih (by simp) l hl
  | case5 cur o c cs h1 h2 ih =>
    apply ih
    intro d hd
    rcases List.mem_cons.1 hd with rfl | hd
    · simpa using h2
    · exact hcur d hd

theorem splitlines_no_break (s : Str) : ∀ l ∈ splitlines s, ∀ c ∈ l, isLineBreak c = false :=
  splitlinesAux_no_break s [] false (by simp)

/-- `"\n".join(lines).splitlines()` gives the lines back, except that an empty last line is dropped -/
theorem splitlines_join (ls : List Str) (h : ∀ l ∈ ls, ∀ c ∈ l, isLineBreak c = false)
    (hlast : ls.getLast? ≠ some []) : splitlines (join ['\n'] ls) = ls := by
  unfold splitlines
  induction ls with
  | nil => rfl
  | cons l ls ih =>
    have hl := h l (by simp)
    cases ls with
    | nil =>
      have hne : l ≠ [] := by rintro rfl; simp at hlast
      have := splitlinesAux_nobreak l hl [] false []
      simp only [List.append_nil, Bool.false_or] at this
      rw [join_singleton, this, splitlinesAux]
      have h2 : (!l.isEmpty) = true := by cases l <;> simp_all
      simp [h2]
    | cons v vs =>
      rw [join_cons _ _ _ (by simp)]
      simp only [List.append_assoc, List.singleton_append]
      rw [splitlinesAux_nobreak l hl, splitlinesAux_nl]
      have := ih (fun x hx => h x (by simp [hx])) (by simpa using hlast)
      rw [this]; simp

theorem splitlines_join_dropLast (ls : List Str) (h : ∀ l ∈ ls, ∀ c ∈ l, isLineBreak c = false)
    (hlast : ls.getLast? = some []) : splitlines (join ['\n'] ls) = ls.dropLast := by
  unfold splitlines
  induction ls with
  | nil => rfl
  | cons l ls ih =>
    have hl := h l (by simp)
    cases ls with
    | nil =>
      have : l = [] := by simpa using hlast
      subst this; rfl
    | cons v vs =>
      rw [join_cons _ _ _ (by simp)]
      simp only [List.append_assoc, List.singleton_append]
      rw [splitlinesAux_nobreak l hl, splitlinesAux_nl]
      have := ih (fun x hx => h x (by simp [hx])) (by simpa using hlast)
      rw [this]; simp

/-- the first line of a text that begins with a non-empty line -/
theorem splitlines_head (l : Str) (ls : List Str)
    (h : ∀ x ∈ l :: ls, ∀ c ∈ x, isLineBreak c = false) (hne : l ≠ []) :
    ∃ t, splitlines (join ['\n'] (l :: ls)) = l :: t := by
  by_cases e : (l :: ls).getLast? = some []
  · rw [splitlines_join_dropLast _ h e]
    cases ls with
    | nil => simp at e; exact absurd e hne
    | cons v vs => exact ⟨(v :: vs).dropLast, rfl⟩
  · exact ⟨ls, splitlines_join _ h e⟩

end S2N.Py
