import Verif.Spec.Plot
import Verif.Spec.Cli
import Verif.Props.Last
import Verif.Props.Utils
/-
C55, C56: what line plots, hkl plots and mesh plots show.
-/
namespace S2N.Props
open S2N S2N.Py S2N.Spec S2N.Plot

section
variable [UniDB]

theorem isLast_unique {k : HKey} {lines : List Str} {a b : Str} (ha : IsLast k lines a) (hb : IsLast k lines b) :
    a = b := by
  obtain ⟨p, q, e, h1, h2⟩ := ha
  obtain ⟨p', q', e', h1', h2'⟩ := hb
  rw [e] at e'
  rcases List.append_eq_append_iff.1 e' with ⟨t, r1, r2⟩ | ⟨t, r1, r2⟩
  · cases t with
    | nil => simp at r2; exact r2.1
    | cons y t =>
      simp at r2
      have := h2 b (by rw [r2.2]; simp)
      rw [this] at h1'; cases h1'
  · cases t with
    | nil => simp at r2; exact r2.1.symm
    | cons y t =>
      simp at r2
      have := h2' a (by rw [r2.2]; simp)
      rw [this] at h1; cases h1

theorem split_unique {k : HKey} {p q p' q' : List Str} {a b : Str} (e : p ++ a :: q = p' ++ b :: q')
    (ha : isKind k a = true) (hb : isKind k b = true) (hq : ∀ x ∈ q, isKind k x = false)
    (hq' : ∀ x ∈ q', isKind k x = false) : p = p' ∧ a = b ∧ q = q' := by
  rcases List.append_eq_append_iff.1 e with ⟨t, r1, r2⟩ | ⟨t, r1, r2⟩
  · cases t with
    | nil => simp at r1 r2; exact ⟨r1.symm, r2⟩
    | cons y t =>
      simp at r2
      have := hq b (by rw [r2.2]; simp)
      rw [this] at hb; cases hb
  · cases t with
    | nil => simp at r1 r2; exact ⟨r1, r2.1.symm, r2.2.symm⟩
    | cons y t =>
      simp at r2
      have := hq' a (by rw [r2.2]; simp)
      rw [this] at ha; cases ha

theorem columnNumbers_unique {lines : List Str} {a b : List Int} (ha : ColumnNumbers lines a)
    (hb : ColumnNumbers lines b) : a = b := by
  obtain ⟨l, h1, h2⟩ := ha
  obtain ⟨l', h1', h2'⟩ := hb
  rw [isLast_unique h1' h1] at h2'
  clear h1 h1'
  generalize splitWs (stripFirstWord l) = ws at h2 h2'
  induction h2 generalizing b with
  | nil => cases h2'; rfl
  | cons h t ih =>
    cases h2' with
    | cons h' t' => rw [h] at h'; cases h'; rw [ih t']

/-- the labels that a scan states are determined by its lines -/
theorem statedLabels_unique {lines L L' : List Str} (h : StatedLabels lines L) (h' : StatedLabels lines L') :
    L = L' := by
  rcases h with ⟨rfl, hn⟩ | ⟨pre, l, post, e, hl, hp, hc⟩
  · rcases h' with ⟨rfl, _⟩ | ⟨pre, l, post, e, hl, _⟩
    · rfl
    · have := hn l (by rw [e]; simp)
      rw [this] at hl; cases hl
  · rcases h' with ⟨rfl, hn⟩ | ⟨pre', l', post', e', hl', hp', hc'⟩
    · have := hn l (by rw [e]; simp)
      rw [this] at hl; cases hl
    · rw [e] at e'
      obtain ⟨rfl, rfl, rfl⟩ := split_unique e' hl hl' hp hp'
      have key : ∀ (n : Int) (A : List Str), A = labelsOn none l → A.length ≠ 1 → labelsOn (some n) l = A := by
        intro n A hA hA1
        have h0 : labelsOn none l = splitColumnLabels (stripFirstWord l) := rfl
        rw [h0] at hA
        unfold labelsOn
        simp only
        rw [if_neg (by rw [← hA]; exact fun h => hA1 h.1), hA]
      rcases hc with ⟨nm, n, c1, c2, c3⟩ | ⟨c1, c2⟩
      · rcases hc' with ⟨nm', n', d1, d2, d3⟩ | ⟨d1, d2⟩
        · have := columnNumbers_unique c1 d1
          subst this
          rw [c2] at d2; cases d2
          rw [c3, d3]
        · rw [c3, key n L' d1 d2]
      · rcases hc' with ⟨nm', n', d1, d2, d3⟩ | ⟨d1, d2⟩
        · rw [d3, key n' L c1 c2]
        · rw [c1, d1]

omit [UniDB] in
/-- distinct labels keep their names -/
theorem renamed_distinct {labels names : List Str} (h : Renamed labels names) (hn : labels.Nodup) : names = labels := by
  have key : ∀ n, n ≤ labels.length → names.take n = labels.take n := by
    intro n
    induction n with
    | zero => intro _; simp
    | succ n ih =>
      intro hl
      have hl2 : n < names.length := by rw [h.length]; omega
      rw [List.take_succ_eq_append_getElem hl2, List.take_succ_eq_append_getElem (by omega : n < labels.length),
        ih (by omega)]
      congr 2
      obtain ⟨m, e1, e2, e3⟩ := h.name n labels[n] names[n] (List.getElem?_eq_getElem _) (List.getElem?_eq_getElem hl2)
      cases m with
      | zero => exact e1
      | succ m =>
        have := e3 0 (by omega)
        rw [ih (by omega)] at this
        obtain ⟨i, hi, hi2⟩ := List.getElem_of_mem this
        simp only [List.length_take] at hi
        rw [List.getElem_take] at hi2
        have := (List.Nodup.getElem_inj_iff hn).1 hi2
        omega
  have := key labels.length (Nat.le_refl _)
  rw [List.take_of_length_le (by rw [h.length]; exact Nat.le_refl _), List.take_of_length_le (Nat.le_refl _)] at this
  exact this

omit [UniDB] in
/-- a label is the name of a column, its own or that of a column before it -/
theorem renamed_mem {labels names : List Str} (h : Renamed labels names) {l : Str} (hl : l ∈ labels) : l ∈ names := by
  obtain ⟨i, hi, rfl⟩ := List.getElem_of_mem hl
  have hi2 : i < names.length := by rw [h.length]; exact hi
  obtain ⟨m, e1, e2, e3⟩ := h.name i _ _ (List.getElem?_eq_getElem hi) (List.getElem?_eq_getElem hi2)
  cases m with
  | zero => rw [show labels[i] = names[i] from e1.symm]; exact List.getElem_mem _
  | succ m => exact List.mem_of_mem_take (e3 0 (by omega))

omit [UniDB] in
theorem renamed_head {labels names : List Str} (h : Renamed labels names) : names.head? = labels.head? := by
  cases labels with
  | nil =>
    have := h.length
    cases names with
    | nil => rfl
    | cons => simp at this
  | cons l ls =>
    have := h.length
    cases names with
    | nil => simp at this
    | cons n ns =>
      obtain ⟨m, e1, e2, e3⟩ := h.name 0 l n rfl rfl
      cases m with
      | zero => simp [e1, candidate]
      | succ m => have := e3 0 (by omega); simp at this

omit [UniDB] in
theorem columns_get (x : Obj) : ∀ (labels : List Str) (d : Dict PVal) (k : Str),
    (labels.foldl (putColumn x) d).get? k = if k ∈ labels then
        (if x.data.has k then (x.data.get? k).map .col else d.get? k) else d.get? k := by
  intro labels
  induction labels with
  | nil => intro d k; simp
  | cons l ls ih =>
    intro d k
    rw [List.foldl_cons, ih]
    by_cases hk : k = l
    · subst hk
      unfold putColumn Dict.has
      cases x.data.get? k with
      | none => simp
      | some c => simp [Dict.get?_set_self]
    · have : (putColumn x d l).get? k = d.get? k := by
        unfold putColumn
        cases x.data.get? l with
        | none => rfl
        | some c => exact Dict.get?_set_ne _ _ (Ne.symm hk)
      rw [this]
      simp [hk]

variable (env : Env) (reg : List HKey) (hr : reg.Perm HKey.all)

omit [UniDB] in
theorem not_hasMca {dl : List Str} (h : ∀ l ∈ dl, isMcaLine l = false) : hasMca dl = false := by
  unfold hasMca
  rw [List.any_eq_false]
  intro l hl hc
  have := h l hl
  simp only [Bool.and_eq_true, decide_eq_true_eq, beq_iff_eq] at hc
  rw [← Bool.not_eq_true] at this
  apply this
  unfold isMcaLine startsWith
  rw [List.isPrefixOf_iff_prefix, ← hc.2]
  exact List.take_prefix _ _

/-- reading the data of a scan just read from the file interprets it -/
theorem read_data (c : ScanCtx) (hf : Fresh c.scan) : readAttr env reg p!"data" c = interpretScan env reg c := by
  obtain ⟨_, _, _, _, _, _, _, _, _, e⟩ := hf
  unfold readAttr
  rw [if_pos ⟨by decide +kernel, by rw [e]; rfl⟩]

omit [UniDB] in
theorem table_get {names : List Str} {rows : List (List PyFloat)} {sp : Option (Dict (List (List Num)))} {d : Dict DCol}
    (h : TableOf names rows sp d) {k : Str} (hk : k ∈ names) :
    d.get? k = some (.col (rows.map (fun r => r.getD (names.idxOf k) .nan))) := by
  exact h.column _ _ (by rw [List.getElem?_eq_getElem (List.idxOf_lt_length_iff.2 hk), List.getElem_idxOf])

include hr in
/-- C55: a line plot of a scan just read from its file shows the column that has the name on the end of
the #L line against the first column. -/
theorem C55_line_columns (c : ScanCtx) (hf : Fresh c.scan) (hok : (interpretScan env reg c).2 = none)
    (hl : dataLinesOf (scanLines c.scan.raw) ≠ []) (dataFile : Str) (td : Int) (tp : Option Int) :
    ∃ labels names, StatedLabels (scanLines c.scan.raw) labels ∧ Renamed labels names ∧
      (p!"_mca_" ∉ names ∨ (∀ l ∈ dataLinesOf (scanLines c.scan.raw), isMcaLine l = false) →
        ∃ rows, ScanRows c.scan.raw names rows ∧
        ∀ first last, labels.head? = some first → labels.getLast? = some last →
          (plotScan env reg .line {} dataFile (some td) tp c).2 =
            .ok (if rows ≠ [] ∧ tp.getD 0 < td then
              some (.xy (columnOf rows 0) (columnOf rows (names.idxOf last)) (lineTexts dataFile c.scan first last))
            else none)) := by
  obtain ⟨labels, names, nm, lines, h1, h2, h3, h4, h5, h6, h7, h8, h9⟩ := interp_data env reg hr c hf hok hl
  refine ⟨labels, names, h1, h3, ?_⟩
  intro hm
  obtain ⟨rows, sp, a1, a2, -⟩ := h9 (hm.imp id not_hasMca)
  refine ⟨rows, ⟨nm, lines, h6, h7, a2⟩, ?_⟩
  intro first last hfst hlst
  obtain ⟨labels', b1, b2, b3⟩ := C21_first_last env reg hr c hf hok
  cases statedLabels_unique b1 h1
  rw [hfst] at b2
  rw [hlst] at b3
  have hab : c.scan.aborted = none := by obtain ⟨_, _, _, _, _, _, _, _, _, e⟩ := hf; rw [e]; rfl
  have hrd := read_data env reg c hf
  have mf : first ∈ names := renamed_mem h3 (List.mem_of_mem_head? hfst)
  have ml : last ∈ names := renamed_mem h3 (List.mem_of_getLast? hlst)
  have gf := table_get a1 mf
  have gl := table_get a1 ml
  have if0 : names.idxOf first = 0 := by
    have := renamed_head h3
    rw [hfst] at this
    cases names with
    | nil => cases this
    | cons n ns => cases this; simp
  rw [if0] at gf
  unfold plotScan
  rw [hab, if_neg (by simp)]
  unfold retrieved
  simp only [titles, hrd]
  generalize hi : interpretScan env reg c = r at *
  obtain ⟨c1, e1⟩ := r
  simp only at hok h2 h4 a1 b2 b3 gf gl
  subst hok
  have hhas : Dict.has c1.scan.data last = true := by
    simp [Dict.has, gl]
  simp only [retrieve, lineData, b2, b3, h2, attr, Res.eval_ok, Option.getD_some]
  rw [if_neg (by rw [hhas]; simp)]
  simp only [Res.ok, options, lineOptions, Res.eval_ok, plottable, linePlottable, image, lineImage]
  have gc : ∀ k ∈ names, (Plot.columns c1.scan names).get? k = (c1.scan.data.get? k).map .col := by
    intro k hk
    unfold Plot.columns
    rw [columns_get, if_pos hk]
    unfold Dict.has
    cases Dict.get? c1.scan.data k <;> rfl
  simp only [gc _ ml, gc _ mf, gf, gl, Option.map_some, PVal.len, List.length_map, List.length_singleton, and_true]
  by_cases hrow : rows = []
  · subst hrow
    simp
  · have : 0 < rows.length := List.length_pos_of_ne_nil hrow
    rw [if_pos this]
    simp only [decide_true, newer]
    by_cases ht : tp.getD 0 < td
    · simp [ht, hrow, columnOf, lineTexts, orElse, orFalse]
    · simp [ht]

/-! ### Which axis varies -/

section
omit [UniDB]

theorem lt_self (a : PyFloat) : a.lt a = false := by
  rcases a with _ | (_ | _) | q <;> simp [PyFloat.lt]

theorem lt_trans' {a b c : PyFloat} (h1 : a.lt b = true) (h2 : b.lt c = true) : a.lt c = true := by
  rcases a with _ | (_ | _) | q <;> rcases b with _ | (_ | _) | q' <;> rcases c with _ | (_ | _) | q'' <;>
    simp_all [PyFloat.lt]
  grind

theorem lt_tri {a b : PyFloat} (ha : a ≠ .nan) (hb : b ≠ .nan) (h1 : a.lt b = false) (h2 : b.lt a = false) : a = b := by
  rcases a with _ | (_ | _) | q <;> rcases b with _ | (_ | _) | q' <;> simp_all [PyFloat.lt]
  exact Rat.le_antisymm (Rat.not_lt.1 h2) (Rat.not_lt.1 h1)

/-- the smallest of the values so far, by `before`: `min` and `max` -/
theorem best_fold (before : PyFloat → PyFloat → Bool) (hself : ∀ a, before a a = false)
    (htr : ∀ {a b c}, before a b = true → before b c = true → before a c = true)
    (htri : ∀ {a b}, a ≠ .nan → b ≠ .nan → before a b = false → before b a = false → a = b) :
    ∀ (xs : List PyFloat) (m : PyFloat), m ≠ .nan → (∀ x ∈ xs, x ≠ .nan) →
    let r := xs.foldl (fun m y => if before y m then y else m) m
    r ∈ m :: xs ∧ ∀ y ∈ m :: xs, before y r = false := by
  intro xs
  induction xs with
  | nil => intro m _ _; simp [hself]
  | cons y ys ih =>
    intro m hm hx
    have hy := hx y (by simp)
    have hys : ∀ x ∈ ys, x ≠ .nan := fun x h => hx x (by simp [h])
    simp only [List.foldl_cons]
    by_cases h : before y m = true
    · rw [if_pos h]
      obtain ⟨h3, h1⟩ := ih y hy hys
      refine ⟨List.mem_cons_of_mem _ h3, ?_⟩
      intro z hz
      rcases List.mem_cons.1 hz with rfl | hz
      · rw [← Bool.not_eq_true]; intro hc
        exact absurd (htr h hc) (by rw [h1 y (by simp)]; simp)
      · exact h1 z hz
    · rw [if_neg h]
      obtain ⟨h3, h1⟩ := ih m hm hys
      generalize hf : ys.foldl (fun m y => if before y m then y else m) m = f at *
      refine ⟨?_, ?_⟩
      · rcases List.mem_cons.1 h3 with e | e
        · rw [e]; simp
        · exact List.mem_cons_of_mem _ (List.mem_cons_of_mem _ e)
      · intro z hz
        rcases List.mem_cons.1 hz with rfl | hz
        · exact h1 z (by simp)
        · rcases List.mem_cons.1 hz with rfl | hz
          · rw [← Bool.not_eq_true]; intro hc
            have hfn : f ≠ .nan := by
              rcases List.mem_cons.1 h3 with e | e
              · rw [e]; exact hm
              · exact hys f e
            by_cases hfm : before f m = true
            · exact h (htr hc hfm)
            · have := htri hfn hm (by simpa using hfm) (h1 m (by simp))
              rw [this] at hc
              exact h hc
          · exact h1 z (by simp [hz])

/-- `min(data) != max(data)`, for a column with data and without NaN: there are two different values -/
theorem varies_iff (xs : List PyFloat) (hne : xs ≠ []) (hn : ∀ x ∈ xs, x ≠ .nan) :
    ∃ b, varies xs = .ok b ∧ (b = true ↔ ∃ a ∈ xs, ∃ b ∈ xs, a ≠ b) := by
  obtain ⟨x, t, rfl⟩ := List.exists_cons_of_ne_nil hne
  obtain ⟨m1, m2⟩ := best_fold PyFloat.lt lt_self lt_trans' lt_tri t x (hn x (by simp)) (fun y h => hn y (by simp [h]))
  obtain ⟨k1, k2⟩ := best_fold (fun a b => PyFloat.lt b a) lt_self (fun h1 h2 => lt_trans' h2 h1)
    (fun ha hb h1 h2 => lt_tri ha hb h2 h1) t x (hn x (by simp)) (fun y h => hn y (by simp [h]))
  refine ⟨_, rfl, ?_⟩
  generalize t.foldl (fun m y => if y.lt m then y else m) x = lo at *
  generalize t.foldl (fun m y => if m.lt y then y else m) x = hi at *
  have hlo := hn lo m1
  have hhi := hn hi k1
  unfold pyEq
  simp only [ne_eq, hlo, hhi, not_false_eq_true, Bool.and_true, Bool.not_eq_true', beq_eq_false_iff_ne,
    Bool.and_eq_false_iff, Bool.true_and]
  constructor
  · intro h
    exact ⟨lo, m1, hi, k1, by simpa [bne, hlo, hhi] using h⟩
  · rintro ⟨a, ha, b, hb, hab⟩
    have : lo ≠ hi := by
      rintro rfl
      have e1 := lt_tri (hn a ha) hlo (m2 a ha) (k2 a ha)
      have e2 := lt_tri (hn b hb) hlo (m2 b hb) (k2 b hb)
      exact hab (e1.trans e2.symm)
    simpa [bne, hlo, hhi] using this

end

include hr in
/-- **C55**: a line plot of a scan just read from its file shows the last column against the first one,
if the labels of the scan are distinct.  There is a plot unless there are no rows, or the plot file is
not older than the data file. -/
theorem C55_line (c : ScanCtx) (hf : Fresh c.scan) (hok : (interpretScan env reg c).2 = none)
    (hl : dataLinesOf (scanLines c.scan.raw) ≠ []) (dataFile : Str) (td : Int) (tp : Option Int)
    (labels : List Str) (hs : StatedLabels (scanLines c.scan.raw) labels) (hn : labels.Nodup)
    (hm : p!"_mca_" ∉ labels ∨ ∀ l ∈ dataLinesOf (scanLines c.scan.raw), isMcaLine l = false)
    (first last : Str) (hfst : labels.head? = some first) (hlst : labels.getLast? = some last) :
    ∃ rows, ScanRows c.scan.raw labels rows ∧
      (plotScan env reg .line {} dataFile (some td) tp c).2 =
        .ok (if rows ≠ [] ∧ tp.getD 0 < td then
          some (.xy (columnOf rows 0) (columnOf rows (labels.length - 1)) (lineTexts dataFile c.scan first last))
        else none) := by
  obtain ⟨labels', names, h1, h2, h3⟩ := C55_line_columns env reg hr c hf hok hl dataFile td tp
  cases statedLabels_unique h1 hs
  cases renamed_distinct h2 hn
  obtain ⟨rows, h4, h5⟩ := h3 hm
  refine ⟨rows, h4, ?_⟩
  rw [h5 first last hfst hlst]
  have : labels.idxOf last = labels.length - 1 := by
    rw [List.getLast?_eq_getElem?] at hlst
    have hlen : labels.length - 1 < labels.length := by
      rcases Nat.lt_or_ge (labels.length - 1) labels.length with h | h
      · exact h
      · rw [List.getElem?_eq_none h] at hlst; cases hlst
    rw [List.getElem?_eq_getElem hlen] at hlst
    cases hlst
    exact hn.idxOf_getElem _ _
  rw [this]

include hr in
/-- C55: a scan without data lines is refused. -/
theorem C55_no_data (c : ScanCtx) (hf : Fresh c.scan) (hok : (interpretScan env reg c).2 = none)
    (hl : dataLinesOf (scanLines c.scan.raw) = []) (dataFile : Str) (td tp : Option Int) :
    (plotScan env reg .line {} dataFile td tp c).2 = .error .NoDataToPlot := by
  obtain ⟨h1, -⟩ := C21_no_data env reg hr c hf hok hl
  obtain ⟨labels, b1, b2, b3⟩ := C21_first_last env reg hr c hf hok
  have hab : c.scan.aborted = none := by obtain ⟨_, _, _, _, _, _, _, _, _, e⟩ := hf; rw [e]; rfl
  have hrd := read_data env reg c hf
  unfold plotScan
  rw [hab, if_neg (by simp)]
  unfold retrieved
  simp only [titles, hrd]
  generalize hi : interpretScan env reg c = r at *
  obtain ⟨c1, e1⟩ := r
  simp only at hok h1 b3
  subst hok
  simp only [retrieve, lineData, b3, attr, Res.eval_ok]
  rw [if_pos (by rw [h1]; rfl)]
  rfl

section
omit [UniDB]
variable {names : List Str} {rows : List (List PyFloat)} {sp : Option (Dict (List (List Num)))} {x : Obj}
  (ht : TableOf names rows sp x.data) (hrow : rows ≠ [])
  (hnan : ∀ a ∈ [p!"H", p!"K", p!"L"], a ∈ names → ∀ r ∈ rows, r.getD (names.idxOf a) .nan ≠ .nan)

include ht in
theorem table_none {k : Str} (hk : k ∉ names) (h : k ≠ p!"_mca_") : x.data.get? k = none := by
  rw [Dict.get?_eq_none_iff, ht.keys]
  intro hc
  rcases List.mem_append.1 hc with hc | hc
  · exact hk hc
  · split at hc
    · simp at hc; exact h hc
    · cases hc

include hrow hnan in
theorem varies_moves {a : Str} (ha : a ∈ [p!"H", p!"K", p!"L"]) (hn : a ∈ names) :
    ∃ b, varies (rows.map (fun r => r.getD (names.idxOf a) .nan)) = .ok b ∧ (b = true ↔ Moves names rows a) := by
  obtain ⟨b, h1, h2⟩ := varies_iff (rows.map (fun r => r.getD (names.idxOf a) .nan)) (by simpa using hrow)
    (by
      intro y hy
      obtain ⟨r, hr, rfl⟩ := List.mem_map.1 hy
      exact hnan a ha hn r hr)
  refine ⟨b, h1, h2.trans ?_⟩
  unfold Moves
  simp only [hn, true_and, List.mem_map]
  constructor
  · rintro ⟨_, ⟨r, hr, rfl⟩, _, ⟨r', hr', rfl⟩, h⟩
    exact ⟨r, hr, r', hr', h⟩
  · rintro ⟨r, hr, r', hr', h⟩
    exact ⟨_, ⟨r, hr, rfl⟩, _, ⟨r', hr', rfl⟩, h⟩

include ht hrow hnan in
theorem hkl_moves : ∀ (pre : List Str) (axis : Str) (post : List Str) (r : Option (List PyFloat) × Str × Bool),
    (∀ a ∈ pre ++ axis :: post, a ∈ [p!"H", p!"K", p!"L"]) → (∀ a ∈ pre, ¬ Moves names rows a) →
    Moves names rows axis →
    hklLoop x (pre ++ axis :: post) r = .ok (some (rows.map (fun r => r.getD (names.idxOf axis) .nan)), axis, true) := by
  intro pre
  induction pre with
  | nil =>
    intro axis post r hin _ hm
    obtain ⟨b, h1, h2⟩ := varies_moves hrow hnan (hin axis (by simp)) hm.1
    rw [List.nil_append, hklLoop, table_get ht hm.1]
    simp only [h1, h2.2 hm]
  | cons a pre ih =>
    intro axis post r hin hs hm
    have hrest := fun r => ih axis post r (fun b hb => hin b (by simp at hb ⊢; simp [hb])) (fun b hb => hs b (by simp [hb])) hm
    rw [List.cons_append, hklLoop]
    by_cases hn : a ∈ names
    · obtain ⟨b, h1, h2⟩ := varies_moves hrow hnan (hin a (by simp)) hn
      rw [table_get ht hn]
      have : b = false := by
        rw [← Bool.not_eq_true]
        exact fun h => hs a (by simp) (h2.1 h)
      subst this
      simp only [h1]
      exact hrest _
    · rw [table_none ht hn (by
        have := hin a (by simp)
        simp at this
        rcases this with rfl | rfl | rfl <;> decide)]
      exact hrest _

include ht hrow hnan in
theorem hkl_still : ∀ (axes : List Str) (r : Option (List PyFloat) × Str × Bool),
    (∀ a ∈ axes, a ∈ [p!"H", p!"K", p!"L"]) → (∀ a ∈ axes, ¬ Moves names rows a) → ∀ last, axes.getLast? = some last →
    hklLoop x axes r = .ok (if last ∈ names then some (rows.map (fun r => r.getD (names.idxOf last) .nan)) else none, last, false) := by
  intro axes
  induction axes with
  | nil => intro r _ _ last h; cases h
  | cons a axes ih =>
    intro r hin hs last hlast
    have hstep : hklLoop x (a :: axes) r =
        hklLoop x axes (if a ∈ names then some (rows.map (fun r => r.getD (names.idxOf a) .nan)) else none, a, false) := by
      rw [hklLoop]
      by_cases hn : a ∈ names
      · obtain ⟨b, h1, h2⟩ := varies_moves hrow hnan (hin a (by simp)) hn
        rw [table_get ht hn]
        have : b = false := by
          rw [← Bool.not_eq_true]
          exact fun h => hs a (by simp) (h2.1 h)
        subst this
        simp only [h1, if_pos hn]
      · rw [table_none ht hn (by
          have := hin a (by simp)
          simp at this
          rcases this with rfl | rfl | rfl <;> decide), if_neg hn]
    rw [hstep]
    cases axes with
    | nil => simp at hlast; subst hlast; rfl
    | cons b bs =>
      exact ih _ (fun b hb => hin b (by simp [hb])) (fun b hb => hs b (by simp [hb])) last (by
        rw [List.getLast?_cons_cons] at hlast; exact hlast)

end

include hr in
/-- **C55**: a plot of an hkl scan just read from its file shows the last column against the first of the
columns H, K, L whose values differ (columns that do not exist are skipped); if there is none, against
the numbers of the points.  (There must be a column L then, and no NaN in these columns.) -/
theorem C55_hkl (c : ScanCtx) (hf : Fresh c.scan) (hok : (interpretScan env reg c).2 = none)
    (hl : dataLinesOf (scanLines c.scan.raw) ≠ []) (dataFile : Str) (td : Int) (tp : Option Int) (htm : tp.getD 0 < td) :
    ∃ labels names, StatedLabels (scanLines c.scan.raw) labels ∧ Renamed labels names ∧
      (p!"_mca_" ∉ names ∨ (∀ l ∈ dataLinesOf (scanLines c.scan.raw), isMcaLine l = false) →
        ∃ rows, ScanRows c.scan.raw names rows ∧
        (rows ≠ [] → (∀ a ∈ [p!"H", p!"K", p!"L"], a ∈ names → ∀ r ∈ rows, r.getD (names.idxOf a) .nan ≠ .nan) →
        ∀ last, labels.getLast? = some last →
          (∀ pre axis post, [p!"H", p!"K", p!"L"] = pre ++ axis :: post → (∀ a ∈ pre, ¬ Moves names rows a) →
            Moves names rows axis → (plotScan env reg .hkl {} dataFile (some td) tp c).2 =
              .ok (some (.xy (columnOf rows (names.idxOf axis)) (columnOf rows (names.idxOf last))
                (lineTexts dataFile c.scan axis last)))) ∧
          ((∀ a ∈ [p!"H", p!"K", p!"L"], ¬ Moves names rows a) →
            (p!"L" ∉ names → (plotScan env reg .hkl {} dataFile (some td) tp c).2 = .error .NotPlottable) ∧
            (p!"L" ∈ names → p!"H" ∈ names → last ≠ p!"data point number" →
              (plotScan env reg .hkl {} dataFile (some td) tp c).2 =
              .ok (some (.xy (.range rows.length) (columnOf rows (names.idxOf last))
                (lineTexts dataFile c.scan p!"data point number (hkl all held constant)" last))))))) := by
  obtain ⟨labels, names, nm, lines, h1, h2, h3, h4, h5, h6, h7, h8, h9⟩ := interp_data env reg hr c hf hok hl
  refine ⟨labels, names, h1, h3, ?_⟩
  intro hm
  obtain ⟨rows, sp, a1, a2, -⟩ := h9 (hm.imp id not_hasMca)
  refine ⟨rows, ⟨nm, lines, h6, h7, a2⟩, ?_⟩
  intro hrow hnan last hlst
  obtain ⟨labels', b1, b2, b3⟩ := C21_first_last env reg hr c hf hok
  cases statedLabels_unique b1 h1
  rw [hlst] at b3
  have hab : c.scan.aborted = none := by obtain ⟨_, _, _, _, _, _, _, _, _, e⟩ := hf; rw [e]; rfl
  have hrd := read_data env reg c hf
  have ml : last ∈ names := renamed_mem h3 (List.mem_of_getLast? hlst)
  have gl := table_get a1 ml
  have hpos : 0 < rows.length := List.length_pos_of_ne_nil hrow
  unfold plotScan
  rw [hab, if_neg (by simp)]
  unfold retrieved
  simp only [titles, hrd]
  generalize hi : interpretScan env reg c = r at *
  obtain ⟨c1, e1⟩ := r
  simp only at hok h2 h4 a1 b2 b3 gl
  subst hok
  refine ⟨?_, ?_⟩
  · intro pre axis post hax hs hmv
    have hlp := hkl_moves a1 hrow hnan pre axis post (none, [], false) (by rw [← hax]; exact fun a h => h) hs hmv
    rw [← hax] at hlp
    simp only [retrieve, hklData, hlp, Res.eval_ok, if_true, b3, attr, Option.getD_some, gl]
    have hax2 : (Dict.set (Dict.set ([] : Dict PVal) axis (.col (.col (rows.map (fun r => r.getD (names.idxOf axis) .nan))))) last
        (.col (.col (rows.map (fun r => r.getD (names.idxOf last) .nan))))).get? axis =
        some (.col (.col (rows.map (fun r => r.getD (names.idxOf axis) .nan)))) := by
      by_cases h : last = axis
      · subst h; rw [Dict.get?_set_self]
      · rw [Dict.get?_set_ne _ _ h, Dict.get?_set_self]
    simp only [Res.ok, options, lineOptions, Res.eval_ok, plottable, linePlottable, image, lineImage, Dict.get?_set_self,
      hax2, PVal.len, List.length_map, List.length_singleton, and_true, if_pos hpos, decide_true, newer, htm]
    rfl
  · intro hs
    have hlp := hkl_still a1 hrow hnan [p!"H", p!"K", p!"L"] (none, [], false) (fun a h => h) hs p!"L" rfl
    refine ⟨?_, ?_⟩
    · intro hL
      rw [if_neg hL] at hlp
      simp only [retrieve, hklData, hlp, Res.eval_ok]
      rfl
    · intro hL hH hpn
      rw [if_pos hL] at hlp
      have gH := table_get a1 hH
      have hpn' : pointNumber ≠ last := Ne.symm hpn
      have he : p!"data point number (hkl all held constant)" = pointNumber ++ p!" (hkl all held constant)" := by
        decide +kernel
      rw [he]
      obtain ⟨c0, cs0, e0⟩ : ∃ c0 cs0, pointNumber ++ p!" (hkl all held constant)" = c0 :: cs0 := ⟨_, _, rfl⟩
      simp only [retrieve, hklData, hlp, Res.eval_ok, if_true, b3, attr, Option.getD_some, gl, Bool.false_eq_true, if_false,
        ne_eq, not_true_eq_false, gH, e0, PVal.len, List.length_map, Dict.get?_set_ne _ _ hpn']
      simp only [Res.ok, options, lineOptions, Res.eval_ok, plottable, linePlottable, image, lineImage, Dict.get?_set_self,
        Dict.get?_set_ne _ _ (Ne.symm hpn'),
        PVal.len, List.length_map, List.length_singleton, and_true, if_pos hpos, decide_true, newer, htm]
      rfl

end
end S2N.Props
