import Verif.Props.Columns
/-
Further attributes that the last line of a kind determines: C21 (column_first, column_last),
C30 (the abort message), C67 (#Q and #I).
-/
namespace S2N.Props
open S2N S2N.Py S2N.Spec

section
variable [UniDB] (env : Env) (reg : List HKey) (hr : reg.Perm HKey.all)

include hr in
/-- C21: `scan.column_first` and `scan.column_last` are the first and the last label on the #L line
that counts, as it is written there (before columns are renamed to be distinct); empty if there is no #L line. -/
theorem C21_first_last (c : ScanCtx) (hf : Fresh c.scan) (hok : (interpretScan env reg c).2 = none) :
    ∃ labels, StatedLabels (scanLines c.scan.raw) labels ∧
      (interpretScan env reg c).1.scan.columnFirst = some (labels.head?.getD []) ∧
      (interpretScan env reg c).1.scan.columnLast = some (labels.getLast?.getD []) := by
  obtain ⟨c1, c2, e1, e2, e3⟩ := interpret_ok env reg c (fresh_interpreted hf) hok
  have hx : Fresh c.scan := hf
  obtain ⟨_, _, _, _, _, _, _, _, _, e⟩ := hf
  obtain ⟨-, ⟨L, hL, hS⟩, -⟩ := inv_lines env reg hr (scanLines c.scan.raw) (scanLines_no_nl _)
    { c with scan := { c.scan with lazy := false } } (by rw [e]; rfl) (by rw [e]; rfl) (by rw [e]; rfl)
    (by rw [e1])
  have hI := lines_rev env reg (fun _ x => ∃ L, x.L = some L ∧ x.columnFirst = some (L.head?.getD []) ∧
      x.columnLast = some (L.getLast?.getD [])) ?_ (scanLines c.scan.raw) []
    { c with scan := { c.scan with lazy := false } } (scanLines_no_nl _)
    ⟨[], by rw [e]; rfl, by rw [e]; rfl, by rw [e]; rfl⟩ (by rw [e1])
  · obtain ⟨L', h1, h2, h3⟩ := hI
    rw [hL] at h1; cases h1
    refine ⟨L, hS, ?_, ?_⟩
    · have := forEach_pres (runPost env) (fun c => c.scan.columnFirst) c1.scan.post.values
        (fun f _ c => pp_columnFirst env f c) c1
      rw [e2] at this
      rw [e3, ← h2, e1]; exact this
    · have := forEach_pres (runPost env) (fun c => c.scan.columnLast) c1.scan.post.values
        (fun f _ c => pp_columnLast env f c) c1
      rw [e2] at this
      rw [e3, ← h3, e1]; exact this
  · rintro pre l c ⟨L, i1, i2, i3⟩ _
    refine ⟨fun _ => ⟨L, i1, i2, i3⟩, ?_⟩
    intro k _ hok
    by_cases hk : k = .L
    · subst hk
      simp only [procScan, onScan, procObj, procL, Res.eval] at hok ⊢
      cases hm : labelsOf c.scan.N l with
      | error e => rw [hm] at hok; simp [Res.raise] at hok
      | ok L =>
        rw [hm] at hok
        simp only at hok ⊢
        cases h1 : L.head? with
        | none => rw [h1] at hok; simp [Res.raise] at hok
        | some a =>
          rw [h1] at hok
          cases h2 : L.getLast? with
          | none => rw [h2] at hok; simp [Res.raise] at hok
          | some b => exact ⟨L, rfl, by rw [h1]; rfl, by rw [h2]; rfl⟩
    · exact ⟨L, (ps_L env k l c hk).trans i1, (ps_columnFirst env k l c hk).trans i2,
        (ps_columnLast env k l c hk).trans i3⟩

/-- the abort message on a comment line: what is written from the words "Scan aborted after" on -/
def AbortMessage (line msg : Str) : Prop :=
  p!"Scan aborted after " <+: msg ∧ ∃ before, line = before ++ msg ∧ before ≠ [] ∧
    ∀ before' after, line = before' ++ after → before'.length < before.length →
      ¬ p!"Scan aborted after " <+: after

omit [UniDB] in
theorem findS_some {t : Str} (ht : t ≠ []) : ∀ {s : Str} {p : Nat}, findS t s = some p →
    t <+: s.drop p ∧ ∀ q, q < p → ¬ t <+: s.drop q
  | [], p, h => by simp [findS, ht] at h
  | d :: ds, p, h => by
    unfold findS at h
    split at h
    · next hp =>
      cases h
      exact ⟨List.isPrefixOf_iff_prefix.1 hp, by simp⟩
    · next hp =>
      obtain ⟨p', h1, rfl⟩ := Option.map_eq_some_iff.1 h
      obtain ⟨h2, h3⟩ := findS_some ht h1
      refine ⟨h2, ?_⟩
      intro q hq
      cases q with
      | zero => rw [← List.isPrefixOf_iff_prefix]; exact hp
      | succ q => exact h3 q (by omega)

omit [UniDB] in
theorem findS_none {t : Str} (ht : t ≠ []) : ∀ {s : Str}, findS t s = none →
    ∀ q, ¬ t <+: s.drop q
  | [], _, q => by simpa using ht
  | d :: ds, h, q => by
    unfold findS at h
    split at h
    · cases h
    · next hp =>
      rw [Option.map_eq_none_iff] at h
      cases q with
      | zero => rw [← List.isPrefixOf_iff_prefix]; exact hp
      | succ q => exact findS_none ht h q

omit [UniDB] in
theorem abortMessage_iff (l m : Str) : AbortMessage l m ↔
    ∃ p, findS p!"Scan aborted after " l = some (p + 1) ∧ m = l.drop (p + 1) := by
  have ht : (p!"Scan aborted after " : Str) ≠ [] := by simp
  constructor
  · rintro ⟨h1, b, rfl, h3, h4⟩
    obtain ⟨n, hn⟩ : ∃ n, b.length = n + 1 := Nat.exists_eq_succ_of_ne_zero (by simpa using h3)
    cases hf : findS p!"Scan aborted after " (b ++ m) with
    | none =>
      exact absurd (by simpa using h1) (findS_none ht hf b.length)
    | some p =>
      obtain ⟨g1, g2⟩ := findS_some ht hf
      have : p = b.length := by
        rcases Nat.lt_trichotomy p b.length with h | h | h
        · exact absurd g1 (h4 ((b ++ m).take p) _ (List.take_append_drop _ _).symm
            (by rw [List.length_take]; omega))
        · exact h
        · exact absurd (by simpa using h1) (g2 _ h)
      refine ⟨n, by rw [this, hn], by rw [← hn]; simp⟩
  · rintro ⟨p, h1, rfl⟩
    obtain ⟨g1, g2⟩ := findS_some ht h1
    refine ⟨g1, l.take (p + 1), (List.take_append_drop _ _).symm, ?_, ?_⟩
    · intro h
      have hl : l = [] := by
        cases l with
        | nil => rfl
        | cons a as => simp at h
      rw [hl] at g1; simp at g1
    · intro b' a' e hlt
      have h5 := g2 b'.length (by rw [List.length_take] at hlt; omega)
      rw [e] at h5
      simpa using h5

include hr in
/-- C30: if a #C line carries an abort message, the last one decides `scan.aborted`; otherwise
the attribute does not exist. -/
theorem C30_aborted (c : ScanCtx) (hf : Fresh c.scan) (hok : (interpretScan env reg c).2 = none) :
    (∀ pre l post msg, ofKind .C (scanLines c.scan.raw) = pre ++ l :: post → AbortMessage l msg →
      (∀ x ∈ post, ∀ m, ¬ AbortMessage x m) → (interpretScan env reg c).1.scan.aborted = some msg) ∧
    ((∀ x ∈ ofKind .C (scanLines c.scan.raw), ∀ m, ¬ AbortMessage x m) →
      (interpretScan env reg c).1.scan.aborted = none) := by
  have hstep := interp_kind env reg hr .C (by simp) (by simp) (·.aborted)
    (fun l b => match findS p!"Scan aborted after " l with
      | some (pos + 1) => some (l.drop (pos + 1))
      | _ => b) ?_ (fun k t c hk => ps_aborted env k t c hk) (pp_aborted env) (fun _ _ => rfl)
    (fun _ _ => rfl) c (fresh_interpreted hf) hok
  · have hval : ∀ (l : Str) (b : Option Str), (∀ m, ¬ AbortMessage l m) →
        (match findS p!"Scan aborted after " l with
          | some (pos + 1) => some (l.drop (pos + 1))
          | _ => b) = b := by
      intro l b h
      split
      · next pos e => exact absurd ((abortMessage_iff l _).2 ⟨pos, e, rfl⟩) (h _)
      · rfl
    have hkeep : ∀ (ls : List Str) (b : Option Str), (∀ x ∈ ls, ∀ m, ¬ AbortMessage x m) →
        ls.foldl (fun b l => match findS p!"Scan aborted after " l with
          | some (pos + 1) => some (l.drop (pos + 1))
          | _ => b) b = b := by
      intro ls
      induction ls with
      | nil => intro b _; rfl
      | cons l ls ih =>
        intro b h
        rw [List.foldl_cons, hval l b (h l (by simp))]
        exact ih b (fun x hx => h x (by simp [hx]))
    constructor
    · intro pre l post msg e hm hp
      rw [hstep, e, List.foldl_append, List.foldl_cons, hkeep post _ hp]
      obtain ⟨p, h1, h2⟩ := (abortMessage_iff l msg).1 hm
      rw [h1, h2]
    · intro h
      rw [hstep, hkeep _ _ h]
      obtain ⟨_, _, _, _, _, _, _, _, _, e⟩ := hf
      rw [e]; rfl
  · intro t c _
    simp only [procScan, onScan, procObj, procC, Res.ok, Obj.addH5]
    repeat' split
    all_goals simp_all

omit [UniDB] in
theorem mapE_float_ok : ∀ (ws : List Str) (xs : List PyFloat), mapE Py.float ws = .ok xs →
    List.Forall₂ (fun w x => parseFloat w = some x) ws xs
  | [], xs, h => by simp [mapE] at h; subst h; exact .nil
  | w :: ws, xs, h => by
    unfold mapE Py.float at h
    cases hw : parseFloat w with
    | none => rw [hw] at h; cases h
    | some x =>
      rw [hw] at h
      cases hr : mapE Py.float ws with
      | error e => unfold Py.float at hr; rw [hr] at h; cases h
      | ok ys =>
        have hr' := hr
        unfold Py.float at hr
        rw [hr] at h; cases h
        exact .cons hw (mapE_float_ok ws ys hr')

/-- every line of the scan is handled without exception -/
theorem line_ok (c : ScanCtx) (K : HKey) (P : Str → Prop)
    (hP : ∀ t (c : ScanCtx), (procScan env K t c).2 = none → P t) :
    ∀ (lines : List Str) (c : ScanCtx), (forEach (scanLine env reg) lines c).2 = none →
      ∀ l ∈ lines, effKey reg l = some K → P l
  | [], _, _, l, hl, _ => by simp at hl
  | a :: as, c, h, l, hl, hk => by
    obtain ⟨h1, h2, h3⟩ := forEach_cons_ok h
    rcases List.mem_cons.1 hl with rfl | hl
    · rw [scanLine_eq, hk] at h1
      exact hP l c h1
    · exact line_ok c K P hP as _ h3 l hl hk

include hr in
theorem Q_ok (c : ScanCtx) (hf : Fresh c.scan) (hok : (interpretScan env reg c).2 = none) (l : Str)
    (hl : l ∈ ofKind .Q (scanLines c.scan.raw)) (hne : stripFirstWord l ≠ []) :
    ∃ q, mapE Py.float (splitWs (stripFirstWord l)) = .ok q := by
  obtain ⟨c1, c2, e1, e2, e3⟩ := interpret_ok env reg c (fresh_interpreted hf) hok
  obtain ⟨h1, h2⟩ := List.mem_filter.1 hl
  refine line_ok env reg c .Q (fun l => stripFirstWord l ≠ [] → ∃ q, mapE Py.float (splitWs (stripFirstWord l)) = .ok q)
    ?_ _ _ (by rw [e1]) l h1 ((effKey_iff reg hr l (scanLines_no_nl _ l h1) .Q (by simp) (by simp)).2 h2) hne
  intro t c hok h
  simp only [procScan, onScan, procObj, procQ] at hok
  rw [if_pos (List.length_pos_iff.2 h)] at hok
  cases hm : mapE Py.float (splitWs (stripFirstWord t)) with
  | error e => rw [hm] at hok; simp [Res.eval, Res.raise] at hok
  | ok q => exact ⟨q, rfl⟩

include hr in
/-- C67: `scan.Q` holds the numbers on the last #Q line that has any content. -/
theorem C67_Q (c : ScanCtx) (hf : Fresh c.scan) (hok : (interpretScan env reg c).2 = none) :
    (∀ pre l post, ofKind .Q (scanLines c.scan.raw) = pre ++ l :: post → stripFirstWord l ≠ [] →
      (∀ x ∈ post, stripFirstWord x = []) →
      ∃ q, (interpretScan env reg c).1.scan.Q = some q ∧ NumbersOf (stripFirstWord l) q) ∧
    ((∀ x ∈ ofKind .Q (scanLines c.scan.raw), stripFirstWord x = []) →
      (interpretScan env reg c).1.scan.Q = none) := by
  have hstep := interp_kind env reg hr .Q (by simp) (by simp) (·.Q)
    (fun l b => if stripFirstWord l = [] then b else
      match mapE Py.float (splitWs (stripFirstWord l)) with
      | .ok q => some q
      | .error _ => b) ?_ (fun k t c hk => ps_Q env k t c hk) (pp_Q env) (fun _ _ => rfl)
    (fun _ _ => rfl) c (fresh_interpreted hf) hok
  · have hkeep : ∀ (ls : List Str) (b : Option (List PyFloat)), (∀ x ∈ ls, stripFirstWord x = []) →
        ls.foldl (fun b l => if stripFirstWord l = [] then b else
          match mapE Py.float (splitWs (stripFirstWord l)) with
          | .ok q => some q
          | .error _ => b) b = b := by
      intro ls
      induction ls with
      | nil => intro b _; rfl
      | cons l ls ih =>
        intro b h
        rw [List.foldl_cons, if_pos (h l (by simp))]
        exact ih b (fun x hx => h x (by simp [hx]))
    constructor
    · intro pre l post e hne hp
      rw [hstep, e, List.foldl_append, List.foldl_cons, hkeep post _ hp, if_neg hne]
      have hmem : l ∈ ofKind .Q (scanLines c.scan.raw) := by rw [e]; simp
      obtain ⟨q, hq⟩ := Q_ok env reg hr c hf hok l hmem hne
      rw [hq]
      exact ⟨q, rfl, mapE_float_ok _ _ hq⟩
    · intro h
      rw [hstep, hkeep _ _ h]
      obtain ⟨_, _, _, _, _, _, _, _, _, e⟩ := hf
      rw [e]; rfl
  · intro t c hok
    simp only [procScan, onScan, procObj, procQ, Obj.addH5] at hok ⊢
    by_cases h : stripFirstWord t = []
    · simp [h, Res.ok]
    · rw [if_neg h]
      rw [if_pos (List.length_pos_iff.2 h)] at hok ⊢
      cases hm : mapE Py.float (splitWs (stripFirstWord t)) with
      | error e => rw [hm] at hok; simp [Res.eval, Res.raise] at hok
      | ok q => rfl

include hr in
/-- C67: `scan.I` is the number on the last #I line. -/
theorem C67_I (c : ScanCtx) (hf : Fresh c.scan) (hok : (interpretScan env reg c).2 = none) :
    (interpretScan env reg c).1.scan.I =
      ((ofKind .I (scanLines c.scan.raw)).getLast?).bind (fun l => parseFloat (stripFirstWord l)) := by
  rw [interp_kind env reg hr .I (by simp) (by simp) (·.I) (fun l _ => parseFloat (stripFirstWord l)) ?_
    (fun k t c hk => ps_I env k t c hk) (pp_I env) (fun _ _ => rfl)
    (fun _ _ => rfl) c (fresh_interpreted hf) hok, foldl_last]
  · obtain ⟨_, _, _, _, _, _, _, _, _, e⟩ := hf
    have : c.scan.I = none := by rw [e]; rfl
    rw [this]
    cases (ofKind HKey.I (scanLines c.scan.raw)).getLast? <;> rfl
  · intro t c hok
    simp only [procScan, onScan, procObj, procI, Py.float] at hok ⊢
    cases hm : parseFloat (stripFirstWord t) with
    | none => rw [hm] at hok; simp [Res.eval, Res.raise] at hok
    | some q => rfl

end

/-- a scan with #Q, #I and an abort message -/
def lastScan : ScanCtx :=
  ⟨Obj.newScan p!"f.dat" 0 (join ['\n'] [p!"#S 1 ascan  th 0 1 2 1", p!"#D Mon Jul 08 13:35:50 2019",
    p!"#Q 1 0 2.5", p!"#Q", p!"#I 3", p!"#I 0.5", p!"#Q ", p!"#N 2", p!"#L th  det", p!"0 1",
    p!"#C Mon.  Scan aborted after 1 points.", p!"#C other"]),
   { Obj.newHeader p!"f.dat" [] with date := p!"x" }⟩

theorem lastScan_fresh : Fresh lastScan.scan := ⟨_, _, _, _, _, _, _, _, _, rfl⟩

theorem C67_nonvacuous :
    (@interpretScan asciiDB demoEnv HKey.all lastScan).2 = none ∧
    (@interpretScan asciiDB demoEnv HKey.all lastScan).1.scan.I = some (.fin (1/2)) ∧
    (@interpretScan asciiDB demoEnv HKey.all lastScan).1.scan.aborted =
      some p!"Scan aborted after 1 points." ∧
    (@interpretScan asciiDB demoEnv HKey.all lastScan).1.scan.columnLast = some p!"det" ∧
    (@interpretScan asciiDB demoEnv HKey.all lastScan).1.scan.columnFirst = some p!"th" := by
  decide +kernel

end S2N.Props
