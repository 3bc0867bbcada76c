import Verif.Props.Plot
import Verif.Props.Mesh
/-
C56: what mesh plots show.
-/
namespace S2N.Props
open S2N S2N.Py S2N.Spec S2N.Plot

/-- the two-dimensional columns -/
theorem meshColumns_ok (shape : List Nat) : ∀ (ls : List Str) (s : Plot.St),
    (∀ l ∈ ls, ∃ xs, s.ctx.scan.data.get? l = some (.col xs)) →
    ∃ d, forEach (Plot.meshColumn shape) ls s = ({ s with data := d }, none) ∧
      (∀ k v, s.data.get? k = some v → d.get? k = some v) ∧
      ∀ k ∈ ls, s.data.get? k = none → ∀ xs, s.ctx.scan.data.get? k = some (.col xs) →
        d.get? k = some (.nd (reshapeData (.flt .nan) (xs.map .flt) shape)) := by
  intro ls
  induction ls with
  | nil => intro s _; exact ⟨s.data, rfl, fun k v h => h, fun k h => by cases h⟩
  | cons l ls ih =>
    intro s hc
    obtain ⟨xs, hxs⟩ := hc l (by simp)
    unfold forEach
    cases hd : s.data.get? l with
    | some v =>
      have h1 : Plot.meshColumn shape l s = (s, none) := by
        unfold Plot.meshColumn Dict.has
        rw [hd]; rfl
      obtain ⟨d, e1, e2, e3⟩ := ih s (fun k hk => hc k (by simp [hk]))
      refine ⟨d, ?_, e2, ?_⟩
      · rw [h1]; exact e1
      · intro k hk hn ys hys
        rcases List.mem_cons.1 hk with rfl | hk
        · rw [hd] at hn; cases hn
        · exact e3 k hk hn ys hys
    | none =>
      have h1 : Plot.meshColumn shape l s =
          ({ s with data := s.data.set l (.nd (reshapeData (.flt .nan) (xs.map .flt) shape)) }, none) := by
        unfold Plot.meshColumn Dict.has Writer.axisOf
        rw [hd, hxs]; rfl
      obtain ⟨d, e1, e2, e3⟩ := ih { s with data := s.data.set l (.nd (reshapeData (.flt .nan) (xs.map .flt) shape)) }
        (fun k hk => hc k (by simp [hk]))
      refine ⟨d, ?_, ?_, ?_⟩
      · rw [h1]; exact e1
      · intro k v hv
        apply e2
        by_cases hk : l = k
        · subst hk; rw [hd] at hv; cases hv
        · simp only [Dict.get?_set_ne _ _ hk]; exact hv
      · intro k hk hn ys hys
        by_cases hkl : l = k
        · subst hkl
          rw [hxs] at hys; cases hys
          apply e2
          simp only [Dict.get?_set_self]
        · rcases List.mem_cons.1 hk with rfl | hk
          · exact absurd rfl hkl
          · exact e3 k hk (by simp only [Dict.get?_set_ne _ _ hkl]; exact hn) ys hys

section
variable [UniDB] (env : Env) (reg : List HKey) (hr : reg.Perm HKey.all)

/-- reading a scan changes neither its command nor its text -/
theorem read_kept (c : ScanCtx) (hf : Fresh c.scan) (hok : (interpretScan env reg c).2 = none) :
    (interpretScan env reg c).1.scan.scanCmd = c.scan.scanCmd ∧ (interpretScan env reg c).1.scan.raw = c.scan.raw := by
  obtain ⟨c1, c2, e1, e2, e3⟩ := interpret_ok env reg c (fresh_interpreted hf) hok
  have a1 := forEach_pres (scanLine env reg) (fun c => (c.scan.scanCmd, c.scan.raw)) (scanLines c.scan.raw)
    (fun l _ s => by
      rw [scanLine_eq]
      split
      · rfl
      · simp only [ps_scanCmd env _ _ s, ps_raw env _ _ s]) { c with scan := { c.scan with lazy := false } }
  have a2 := forEach_pres (runPost env) (fun c => (c.scan.scanCmd, c.scan.raw)) c1.scan.post.values
    (fun f _ c => by simp only [pp_scanCmd env f c, pp_raw env f c]) c1
  rw [e1] at a1
  rw [e2] at a2
  rw [e3]
  simp only [Prod.mk.injEq] at a1 a2
  exact ⟨a2.1.trans a1.1, a2.2.trans a1.2⟩

/-- the axis held constant in an hklmesh -/
theorem meshConstant_ok (names labels : List Str) (rows : List (List PyFloat)) (sp : Option (Dict (List (List Num)))) (s : Plot.St)
    (ht : TableOf names rows sp s.ctx.scan.data) (hrow : rows ≠ []) (hsub : ∀ l ∈ labels, l ∈ names)
    (h3 : p!"hkl" <+: s.ctx.scan.scanCmd → ∃ a ∈ [p!"H", p!"K", p!"L"], a ∈ labels) :
    ∃ d, Plot.meshConstant labels s = ({ s with data := d }, none) ∧
      ∀ k, (p!"hkl" <+: s.ctx.scan.scanCmd → k ∈ labels → k ∉ [p!"H", p!"K", p!"L"]) →
        d.get? k = s.data.get? k := by
  unfold Plot.meshConstant
  by_cases hp : p!"hkl" <+: s.ctx.scan.scanCmd
  · rw [if_pos (by unfold startsWith; exact List.isPrefixOf_iff_prefix.2 hp)]
    obtain ⟨a, ha, hal⟩ := h3 hp
    cases hfl : [p!"H", p!"K", p!"L"].filter (fun k => decide (k ∈ labels)) with
    | nil =>
      have : a ∈ [p!"H", p!"K", p!"L"].filter (fun k => decide (k ∈ labels)) := List.mem_filter.2 ⟨ha, by simpa using hal⟩
      rw [hfl] at this; cases this
    | cons l3 rest =>
      have hm : l3 ∈ [p!"H", p!"K", p!"L"].filter (fun k => decide (k ∈ labels)) := by rw [hfl]; simp
      obtain ⟨m1, m2⟩ := List.mem_filter.1 hm
      have m2 : l3 ∈ labels := by simpa using m2
      have hg := table_get ht (hsub _ m2)
      obtain ⟨r, rs, rfl⟩ := List.exists_cons_of_ne_nil hrow
      rw [List.map_cons] at hg
      simp only [hg]
      refine ⟨_, rfl, ?_⟩
      intro k k1
      have hk : l3 ≠ k := by
        rintro rfl
        exact k1 hp m2 m1
      rw [Dict.get?_set_ne _ _ hk]
  · rw [if_neg (by unfold startsWith; rw [List.isPrefixOf_iff_prefix]; exact hp)]
    exact ⟨_, rfl, fun k _ => rfl⟩

omit [UniDB] in
theorem observed_getD (names : List Str) (rows : List (List PyFloat)) (l : Str) (q : Nat) :
    (rows.map (fun r => r.getD (names.idxOf l) .nan)).getD q .nan = observed names rows l q := by
  unfold observed
  rw [List.getD_eq_getElem?_getD, List.getElem?_map]
  cases rows[q]? <;> rfl

omit [UniDB] in
theorem observed_get (names : List Str) (rows : List (List PyFloat)) (l : Str) (q : Nat) (h : q < rows.length) :
    (rows.map (fun r => r.getD (names.idxOf l) .nan))[q]? = some (observed names rows l q) := by
  unfold observed
  rw [List.getElem?_map, List.getElem?_eq_getElem h]
  rfl

omit [UniDB] in
theorem namedColumn_label {names : List Str} {x : Obj} {rows : List (List PyFloat)} {sp : Option (Dict (List (List Num)))}
    (ht : TableOf names rows sp x.data) (hL : x.L = some names) {w l : Str} {i : Nat} (hw : w ≠ p!"_mca_")
    (h : NamedColumn names w i l) : Writer.meshLabel x w i = .ok l ∧ l ∈ names := by
  unfold Writer.meshLabel
  rcases h with ⟨h1, rfl⟩ | ⟨h1, h2⟩
  · rw [if_pos (by unfold Dict.has; rw [table_get ht h1]; rfl)]
    exact ⟨rfl, h1⟩
  · rw [if_neg (by unfold Dict.has; rw [table_none ht h1 hw]; simp), hL]
    simp only [Option.getD_some, h2]
    exact ⟨trivial, List.mem_of_getElem? h2⟩

omit [UniDB] in
theorem pySlice_first (l : List PyFloat) (n : Nat) : pySlice l (some 0) (some ((n : Int) + 1)) = l.take (n + 1) := by
  have : pyBound l.length 0 = 0 := by simp [pyBound]
  unfold pySlice
  simp only [this, List.drop_zero]
  unfold pyBound
  rw [if_neg (by omega), show ((n : Int) + 1).toNat = n + 1 by omega, ← List.take_eq_take_min]

/-- the data of the two-dimensional plot -/
theorem meshGrid_ok {names : List Str} {rows : List (List PyFloat)} (s : Plot.St) (hs : s.data = [])
    (ht : TableOf names rows none s.ctx.scan.data) (hL : s.ctx.scan.L = some names) (hnd : names.Nodup) (hrow : rows ≠ [])
    (hmca : p!"_mca_" ∉ names) (n1 : Nat) (l1 l2 last : Str) (m1 : l1 ∈ names) (m2 : l2 ∈ names) (hne : l1 ≠ l2)
    (ml : last ∈ names) (hlast : s.ctx.scan.columnLast = some last) (hclean : cleanName last = .ok last)
    (hne1 : last ≠ l1) (hne2 : last ≠ l2)
    (hhkl : p!"hkl" <+: s.ctx.scan.scanCmd → last ∉ [p!"H", p!"K", p!"L"] ∧
          ∃ a ∈ [p!"H", p!"K", p!"L"], a ∈ names ∧ a ≠ l1 ∧ a ≠ l2)
    (col1 col2 coll ev : List PyFloat) (hev : Writer.everyNth ((n1 : Int) + 1) col2 = .ok ev)
    (hcl : s.ctx.scan.data.get? last = some (.col coll)) :
    ∃ d, Plot.meshGrid n1 l1 l2 col1 col2 s =
        ({ setLabels s ((names.erase l1).erase l2) with data := d, signal := some last, axes := [l1, l2] }, none) ∧
      d.get? l1 = some (.col (.col (col1.take (n1 + 1)))) ∧ d.get? l2 = some (.col (.col ev)) ∧
      d.get? last = some (.nd (reshapeData (.flt .nan) (coll.map .flt) [ev.length, (col1.take (n1 + 1)).length])) := by
  have r1 : Writer.pyRemove l1 names = .ok (names.erase l1) := by unfold Writer.pyRemove; rw [if_pos m1]
  have r2 : Writer.pyRemove l2 (names.erase l1) = .ok ((names.erase l1).erase l2) := by
    unfold Writer.pyRemove
    rw [if_pos]
    exact (List.mem_erase_of_ne (Ne.symm hne)).2 m2
  have hmem : ∀ l, l ∈ (names.erase l1).erase l2 ↔ l ∈ names ∧ l ≠ l1 ∧ l ≠ l2 := by
    intro l
    rw [(hnd.erase l1).mem_erase_iff, hnd.mem_erase_iff]
    constructor
    · rintro ⟨a, b, c⟩; exact ⟨c, b, a⟩
    · rintro ⟨a, b, c⟩; exact ⟨c, b, a⟩
  unfold Plot.meshGrid
  simp only [pySlice_first, hev, Res.eval_ok, hL, attr, r1, r2]
  generalize hS : setLabels (setLabels { s with data := (Dict.set (Dict.set s.data l1 (.col (.col (col1.take (n1 + 1))))) l2 (.col (.col ev))) } (names.erase l1)) ((names.erase l1).erase l2) = S
  have hSd : S.data = Dict.set (Dict.set [] l1 (.col (.col (col1.take (n1 + 1))))) l2 (.col (.col ev)) := by
    rw [← hS, ← hs]; rfl
  have hSx : S.ctx.scan.data = s.ctx.scan.data := by rw [← hS]; rfl
  have hSc : S.ctx.scan.scanCmd = s.ctx.scan.scanCmd := by rw [← hS]; rfl
  have hSl : S.ctx.scan.columnLast = s.ctx.scan.columnLast := by rw [← hS]; rfl
  have hg1 : S.data.get? l1 = some (.col (.col (col1.take (n1 + 1)))) := by
    rw [hSd, Dict.get?_set_ne _ _ (Ne.symm hne), Dict.get?_set_self]
  have hg2 : S.data.get? l2 = some (.col (.col ev)) := by rw [hSd, Dict.get?_set_self]
  have hgl : S.data.get? last = none := by
    rw [hSd, Dict.get?_set_ne _ _ (Ne.symm hne2), Dict.get?_set_ne _ _ (Ne.symm hne1)]; rfl
  obtain ⟨d1, u1, u2⟩ := meshConstant_ok names ((names.erase l1).erase l2) rows none S (by rw [hSx]; exact ht) hrow
    (fun l hl => ((hmem l).1 hl).1) (by
      rw [hSc]
      intro hp
      obtain ⟨_, a, q1, q2, q3, q4⟩ := hhkl hp
      exact ⟨a, q1, (hmem a).2 ⟨q2, q3, q4⟩⟩)
  rw [u1]
  have v1 : d1.get? l1 = _ := (u2 l1 (fun _ h => absurd rfl ((hmem l1).1 h).2.1)).trans hg1
  have v2 : d1.get? l2 = _ := (u2 l2 (fun _ h => absurd rfl ((hmem l2).1 h).2.2)).trans hg2
  have v3 : d1.get? last = _ := (u2 last (fun hp _ => (hhkl (hSc ▸ hp)).1)).trans hgl
  obtain ⟨d, w1, w2, w3⟩ := meshColumns_ok [ev.length, (col1.take (n1 + 1)).length] ((names.erase l1).erase l2) { S with data := d1 }
    (by
      intro l hl
      exact ⟨_, by rw [hSx]; exact table_get ht ((hmem l).1 hl).1⟩)
  simp only [Res.andThen, w1, hSl, hlast, Res.eval_ok, hclean]
  have hm0 : mcaItems S.ctx.scan = .ok [] := by
    unfold mcaItems
    rw [hSx]
    have : Dict.get? s.ctx.scan.data p!"_mca_" = none := by
      rw [Dict.get?_eq_none_iff, ht.keys]
      simpa using hmca
    simp only [this]
  simp only [hm0, Res.eval_ok, Plot.meshSpectra, Res.ok]
  refine ⟨d, ?_, w2 _ _ v1, w2 _ _ v2, w3 last ((hmem last).2 ⟨ml, hne1, hne2⟩) v3 coll (by rw [hSx]; exact hcl)⟩
  rw [← hS]
  rfl

omit [UniDB] in
theorem evenly {n : Nat} {l r : List PyFloat} (h : Writer.everyNth ((n : Int) + 1) l = .ok r) :
    (∀ j : Nat, r[j]? = l[j * (n + 1)]?) ∧ ∀ j : Nat, j < r.length ↔ j * (n + 1) < l.length := by
  have h1 := everyNth_get (by omega) h
  rw [show ((n : Int) + 1).toNat = n + 1 by omega] at h1
  refine ⟨h1, ?_⟩
  intro j
  have := h1 j
  constructor
  · intro hj
    rw [List.getElem?_eq_getElem hj] at this
    exact List.getElem?_eq_some_iff.1 this.symm |>.1
  · intro hj
    rw [List.getElem?_eq_getElem hj] at this
    exact List.getElem?_eq_some_iff.1 this |>.1

include hr in
/-- **C56**: the mesh plot of a scan just read from its file.  The command of the scan has the numbers of
intervals `n1` and `n2` of the axes.  The plot is an image with as many rows as the second axis has
values, and as many columns as the first axis has values; the element `[j][i]` of the image is the
observation `j * (n1 + 1) + i` of the last column (NaN if there is none), the value `i` of the first
axis is that of the observation `i`, and the value `j` of the second axis that of the observation
`j * (n1 + 1)`.  The label of the last column must be a clean name; scans with MCA data are left out. -/
theorem C56_mesh (c : ScanCtx) (hf : Fresh c.scan) (hok : (interpretScan env reg c).2 = none)
    (hl : dataLinesOf (scanLines c.scan.raw) ≠ [])
    (hm : ∀ l ∈ dataLinesOf (scanLines c.scan.raw), isMcaLine l = false)
    (dataFile : Str) (td : Int) (tp : Option Int) (htm : tp.getD 0 < td) (line1 : Str)
    (hl1 : (splitlines c.scan.raw).head? = some line1)
    (w w1 s1 e1 t1 w2 s2 e2 t2 t : Str) (n1 : Nat) (n2 : Int)
    (hcmd : splitWs c.scan.scanCmd = [w, w1, s1, e1, t1, w2, s2, e2, t2, t])
    (hn1 : parseInt t1 = some (n1 : Int)) (hn2 : parseInt t2 = some n2) (hw1 : w1 ≠ p!"_mca_") (hw2 : w2 ≠ p!"_mca_") :
    ∃ labels names rows, StatedLabels (scanLines c.scan.raw) labels ∧ Renamed labels names ∧
      ScanRows c.scan.raw names rows ∧
      (rows ≠ [] → n1 ≤ rows.length → p!"_mca_" ∉ names → ∀ l1 l2 last, NamedColumn names w1 0 l1 → NamedColumn names w2 1 l2 → l1 ≠ l2 →
        labels.getLast? = some last → cleanName last = .ok last → last ≠ l1 → last ≠ l2 →
        (p!"hkl" <+: c.scan.scanCmd → last ∉ [p!"H", p!"K", p!"L"] ∧
          ∃ a ∈ [p!"H", p!"K", p!"L"], a ∈ names ∧ a ≠ l1 ∧ a ≠ l2) →
        ∃ a axis1 axis2, (plotScan env reg .mesh {} dataFile (some td) tp c).2 =
            .ok (some (.image (.nd a) [.col (.col axis1), .col (.col axis2)] (meshTexts dataFile c.scan l1 l2 last line1))) ∧
          axis1.length = min (n1 + 1) rows.length ∧ (∀ j : Nat, j < axis2.length ↔ j * (n1 + 1) < rows.length) ∧
          a.shape = [axis2.length, axis1.length] ∧ a.flat.length = axis2.length * axis1.length ∧
          (∀ i : Nat, i < axis1.length → axis1[i]? = some (observed names rows l1 i)) ∧
          (∀ j : Nat, j < axis2.length → axis2[j]? = some (observed names rows l2 (j * (n1 + 1)))) ∧
          ∀ j i : Nat, j < axis2.length → i < axis1.length →
            pixel a j i = some (.flt (observed names rows last (j * (n1 + 1) + i)))) := by
  obtain ⟨labels, names, nm, lines, h1, h2, h3, h4, h5, h6, h7, h8, h9⟩ := interp_data env reg hr c hf hok hl
  obtain ⟨rows, sp, a1, a2, a3, -⟩ := h9 (.inr (not_hasMca hm))
  refine ⟨labels, names, rows, h1, h3, ⟨nm, lines, h6, h7, a2⟩, ?_⟩
  intro hrow hlen hmca l1 l2 last hc1 hc2 hne hlst hclean hne1 hne2 hhkl
  have hsp : sp = none := by
    cases sp with
    | none => rfl
    | some s =>
      obtain ⟨l, q1, q2, q3⟩ := a3.1 rfl
      rw [hm l q1] at q2; cases q2
  subst hsp
  obtain ⟨labels', b1, b2, b3⟩ := C21_first_last env reg hr c hf hok
  cases statedLabels_unique b1 h1
  rw [hlst] at b3
  have hab : c.scan.aborted = none := by obtain ⟨_, _, _, _, _, _, _, _, _, e⟩ := hf; rw [e]; rfl
  have hrd := read_data env reg c hf
  obtain ⟨k1, k2⟩ := read_kept env reg c hf hok
  have ml : last ∈ names := renamed_mem h3 (List.mem_of_getLast? hlst)
  have hnd : names.Nodup := renamed_nodup h3
  unfold plotScan
  rw [hab, if_neg (by simp)]
  unfold retrieved
  have hmw : Writer.meshWords c.scan.scanCmd = .ok (w1, t1, w2, t2) := by
    unfold Writer.meshWords; rw [hcmd]
  simp only [titles, hmw, hrd]
  generalize hi : interpretScan env reg c = r at *
  obtain ⟨c1, e1⟩ := r
  simp only at hok h2 h4 a1 b2 b3 k1 k2
  subst hok
  obtain ⟨g1, m1⟩ := namedColumn_label a1 h2 hw1 hc1
  obtain ⟨g2, m2⟩ := namedColumn_label a1 h2 hw2 hc2
  have t1g := table_get a1 m1
  have t2g := table_get a1 m2
  have tlg := table_get a1 ml
  have ax1 : Writer.axisOf c1.scan l1 = .ok (rows.map (fun r => r.getD (names.idxOf l1) .nan)) := by
    unfold Writer.axisOf; rw [t1g]
  have ax2 : Writer.axisOf c1.scan l2 = .ok (rows.map (fun r => r.getD (names.idxOf l2) .nan)) := by
    unfold Writer.axisOf; rw [t2g]
  have p1 : Py.int t1 = .ok (n1 : Int) := by simp only [Py.int, hn1]
  have p2 : Py.int t2 = .ok n2 := by simp only [Py.int, hn2]
  have hev : ∃ ev, Writer.everyNth ((n1 : Int) + 1) (rows.map (fun r => r.getD (names.idxOf l2) .nan)) = .ok ev := by
    unfold Writer.everyNth
    rw [if_neg (by omega)]
    exact ⟨_, rfl⟩
  obtain ⟨ev, hev⟩ := hev
  obtain ⟨ev1, ev2⟩ := evenly hev
  simp only [retrieve, Plot.meshData, k1, hmw, Res.eval_ok, g1, g2, p1, p2, ax1]
  have hnlt : ¬ (((rows.map (fun r => r.getD (names.idxOf l1) .nan)).length : Int) < (n1 : Int)) := by
    rw [List.length_map]; omega
  simp only [if_neg hnlt, Res.eval_ok, Bool.false_eq_true, if_false, ax2]
  obtain ⟨d, G, G1, G2, G3⟩ := meshGrid_ok (names := names) (rows := rows)
    { ctx := c1, set := { title := orElse none dataFile, subtitle := (orElse none (p!"#" ++ c.scan.scanNum ++ p!": " ++ c.scan.scanCmd)), timestamp := (orElse none c.scan.date) } }
    rfl a1 h2 hnd hrow hmca n1 l1 l2 last m1 m2 hne ml b3 hclean hne1 hne2 (by rw [k1]; exact hhkl)
    (rows.map (fun r => r.getD (names.idxOf l1) .nan)) _ _ ev hev tlg
  rw [G]
  obtain ⟨lns, hln⟩ : ∃ lns, splitlines c1.scan.raw = line1 :: lns := by
    rw [k2]
    cases hsl : splitlines c.scan.raw with
    | nil => rw [hsl] at hl1; cases hl1
    | cons x xs => rw [hsl] at hl1; cases hl1; exact ⟨_, rfl⟩
  obtain ⟨axis1, hX1⟩ : ∃ a, (rows.map (fun r => r.getD (names.idxOf l1) .nan)).take (n1 + 1) = a := ⟨_, rfl⟩
  rw [hX1] at G1 G3
  obtain ⟨A, hA⟩ : ∃ A, reshapeData (.flt .nan) ((rows.map (fun r => r.getD (names.idxOf last) .nan)).map Num.flt)
    [ev.length, axis1.length] = A := ⟨_, rfl⟩
  rw [hA] at G3
  obtain ⟨z1, z2⟩ := C36_size (Num.flt .nan) ((rows.map (fun r => r.getD (names.idxOf last) .nan)).map .flt)
    [ev.length, axis1.length]
  have z3 := C36_row_major (Num.flt .nan) ((rows.map (fun r => r.getD (names.idxOf last) .nan)).map .flt)
    [ev.length, axis1.length]
  rw [hA] at z1 z2 z3
  refine ⟨A, axis1, ev, ?_, ?_, ?_, z2, by rw [z1]; simp, ?_, ?_, ?_⟩
  · simp only [options, meshOptions, Res.ok, plottable, meshPlottable, G3, G1, G2, PVal.shape, z2, meshShapes,
      List.reverse_cons, List.reverse_nil, List.nil_append, List.singleton_append, PVal.len]
    simp [newer, htm, image, meshImage, G1, G2, G3, setLabels, hln, meshTexts, orElse, orFalse]
  · rw [← hX1]; simp
  · intro j; rw [ev2]; simp
  · intro i hi
    rw [← hX1] at hi ⊢
    simp only [List.length_take, List.length_map] at hi
    rw [List.getElem?_take_of_lt (by omega), observed_get _ _ _ _ (by omega)]
  · intro j hj
    rw [ev1, observed_get]
    have := (ev2 j).1 hj
    simpa using this
  · intro j i hj hi
    have hk : offset [ev.length, axis1.length] [j, i] = some (j * axis1.length + i) := by
      simp [offset, hj, hi]
    have := z3 [j, i] _ hk
    unfold pixel
    rw [z2, hk]
    simp only
    rw [this]
    have hpos : j * axis1.length + i = j * (n1 + 1) + i := by
      by_cases hz : j = 0
      · subst hz; simp
      · have := (ev2 j).1 hj
        rw [List.length_map] at this
        have h2 : n1 + 1 ≤ rows.length := by
          have : 1 * (n1 + 1) ≤ j * (n1 + 1) := Nat.mul_le_mul_right _ (by omega)
          omega
        have : axis1.length = n1 + 1 := by rw [← hX1]; simp; omega
        rw [this]
    rw [hpos, ← observed_getD, List.getD_eq_getElem?_getD, List.getD_eq_getElem?_getD, List.getElem?_map]
    cases (rows.map (fun r => r.getD (names.idxOf last) .nan))[j * (n1 + 1) + i]? <;> rfl

include hr in
/-- C56: a mesh scan that was stopped in its first row (fewer points than intervals on the first axis,
the second axis did not move) is shown as a line plot of the last column against the first axis. -/
theorem C56_stopped (c : ScanCtx) (hf : Fresh c.scan) (hok : (interpretScan env reg c).2 = none)
    (hl : dataLinesOf (scanLines c.scan.raw) ≠ [])
    (hm : ∀ l ∈ dataLinesOf (scanLines c.scan.raw), isMcaLine l = false)
    (dataFile : Str) (td : Int) (tp : Option Int) (htm : tp.getD 0 < td)
    (w w1 s1 e1 t1 w2 s2 e2 t2 t : Str) (n1 : Nat) (n2 : Int)
    (hcmd : splitWs c.scan.scanCmd = [w, w1, s1, e1, t1, w2, s2, e2, t2, t])
    (hn1 : parseInt t1 = some (n1 : Int)) (hn2 : parseInt t2 = some n2) (hw1 : w1 ≠ p!"_mca_") (hw2 : w2 ≠ p!"_mca_") :
    ∃ labels names rows, StatedLabels (scanLines c.scan.raw) labels ∧ Renamed labels names ∧
      ScanRows c.scan.raw names rows ∧
      (rows ≠ [] → rows.length < n1 → ∀ l1 l2 last v, NamedColumn names w1 0 l1 → NamedColumn names w2 1 l2 →
        v ≠ .nan → (∀ r ∈ rows, r.getD (names.idxOf l2) .nan = v) → labels.getLast? = some last →
        (plotScan env reg .mesh {} dataFile (some td) tp c).2 =
          .ok (some (.xy (columnOf rows (names.idxOf l1)) (columnOf rows (names.idxOf last))
            (lineTexts dataFile c.scan l1 last)))) := by
  obtain ⟨labels, names, nm, lines, h1, h2, h3, h4, h5, h6, h7, h8, h9⟩ := interp_data env reg hr c hf hok hl
  obtain ⟨rows, sp, a1, a2, -⟩ := h9 (.inr (not_hasMca hm))
  refine ⟨labels, names, rows, h1, h3, ⟨nm, lines, h6, h7, a2⟩, ?_⟩
  intro hrow hlen l1 l2 last v hc1 hc2 hv hconst hlst
  obtain ⟨labels', b1, b2, b3⟩ := C21_first_last env reg hr c hf hok
  cases statedLabels_unique b1 h1
  rw [hlst] at b3
  have hab : c.scan.aborted = none := by obtain ⟨_, _, _, _, _, _, _, _, _, e⟩ := hf; rw [e]; rfl
  have hrd := read_data env reg c hf
  obtain ⟨k1, k2⟩ := read_kept env reg c hf hok
  have ml : last ∈ names := renamed_mem h3 (List.mem_of_getLast? hlst)
  unfold plotScan
  rw [hab, if_neg (by simp)]
  unfold retrieved
  have hmw : Writer.meshWords c.scan.scanCmd = .ok (w1, t1, w2, t2) := by
    unfold Writer.meshWords; rw [hcmd]
  simp only [titles, hmw, hrd]
  generalize hi : interpretScan env reg c = r at *
  obtain ⟨c1, e1⟩ := r
  simp only at hok h2 h4 a1 b2 b3 k1 k2
  subst hok
  obtain ⟨g1, m1⟩ := namedColumn_label a1 h2 hw1 hc1
  obtain ⟨g2, m2⟩ := namedColumn_label a1 h2 hw2 hc2
  have t1g := table_get a1 m1
  have t2g := table_get a1 m2
  have tlg := table_get a1 ml
  have ax1 : Writer.axisOf c1.scan l1 = .ok (rows.map (fun r => r.getD (names.idxOf l1) .nan)) := by
    unfold Writer.axisOf; rw [t1g]
  have ax2 : Writer.axisOf c1.scan l2 = .ok (rows.map (fun r => r.getD (names.idxOf l2) .nan)) := by
    unfold Writer.axisOf; rw [t2g]
  have p1 : Py.int t1 = .ok (n1 : Int) := by simp only [Py.int, hn1]
  have p2 : Py.int t2 = .ok n2 := by simp only [Py.int, hn2]
  have hconst' : Plot.constant (.ok (rows.map (fun r => r.getD (names.idxOf l2) .nan))) = .ok true := by
    obtain ⟨b, q1, q2⟩ := varies_iff (rows.map (fun r => r.getD (names.idxOf l2) .nan)) (by simpa using hrow) (by
      intro y hy
      obtain ⟨r, hr, rfl⟩ := List.mem_map.1 hy
      rw [hconst r hr]; exact hv)
    have : b = false := by
      rw [← Bool.not_eq_true]
      intro hb
      obtain ⟨x, hx, y, hy, hxy⟩ := q2.1 hb
      obtain ⟨r, hr, rfl⟩ := List.mem_map.1 hx
      obtain ⟨r', hr', rfl⟩ := List.mem_map.1 hy
      rw [hconst r hr, hconst r' hr'] at hxy
      exact hxy rfl
    subst this
    unfold Plot.constant
    simp only [q1]
    rfl
  simp only [retrieve, Plot.meshData, k1, hmw, Res.eval_ok, g1, g2, p1, p2, ax1]
  have hlt : ((rows.map (fun r => r.getD (names.idxOf l1) .nan)).length : Int) < (n1 : Int) := by
    rw [List.length_map]; omega
  simp only [if_pos hlt, ax2, hconst', Res.eval_ok, if_true, meshLine, b3, Option.getD_some, attr, t1g, tlg, Res.ok]
  have hg : (Dict.set (Dict.set ([] : Dict PVal) l1 (.col (.col (rows.map (fun r => r.getD (names.idxOf l1) .nan))))) last
      (.col (.col (rows.map (fun r => r.getD (names.idxOf last) .nan))))).get? l1 =
      some (.col (.col (rows.map (fun r => r.getD (names.idxOf l1) .nan)))) := by
    by_cases h : last = l1
    · subst h; rw [Dict.get?_set_self]
    · rw [Dict.get?_set_ne _ _ h, Dict.get?_set_self]
  simp only [options, meshOptions, Res.ok, plottable, meshPlottable, Dict.get?_set_self, hg, PVal.shape, meshShapes,
    List.reverse_singleton, PVal.len, image, meshImage]
  simp [newer, htm, columnOf, lineTexts, orElse, orFalse]

end
end S2N.Props

namespace S2N.Props
open S2N S2N.Py S2N.Spec S2N.Plot

/-! ### Examples -/

/-- a scan as read from the file, with this command and these further lines -/
def plotDemo (cmd : Str) (lines : List Str) : ScanCtx :=
  ⟨{ Obj.newScan p!"f.dat" 0 (join ['\n'] ((p!"#S 1 " ++ cmd) :: lines)) with scanNum := p!"1", scanCmd := cmd, date := p!"today" },
   { Obj.newHeader p!"f.dat" [] with date := p!"x" }⟩

theorem plotDemo_fresh (cmd : Str) (lines : List Str) : Fresh (plotDemo cmd lines).scan :=
  ⟨p!"f.dat", 0, _, [], p!"1", cmd, p!"today", _, _, rfl⟩

/-- what the plot of such a scan shows -/
def plotOf (m : Maker) (c : ScanCtx) : ScanCtx × Except PyErr (Option Picture) :=
  @plotScan asciiDB demoEnv HKey.all m {} p!"f.dat" (some 5) none c

/-- a scan of L with constant H and K -/
def hklDemo : ScanCtx := plotDemo p!"hklscan 1 1 0 0 1 2 1 1" [p!"#N 4", p!"#L H  K  L  I", p!"1 0 1 10", p!"1 0 2 20"]

/-- C55: a case that meets the hypotheses. -/
theorem C55_nonvacuous :
    (@interpretScan asciiDB demoEnv HKey.all hklDemo).2 = none ∧
    @dataLinesOf asciiDB (scanLines hklDemo.scan.raw) = [p!"1 0 1 10", p!"1 0 2 20"] ∧
    (plotOf .line hklDemo).2 = .ok (some (.xy (.col (.col [.fin 1, .fin 1])) (.col (.col [.fin 10, .fin 20]))
      (lineTexts p!"f.dat" hklDemo.scan p!"H" p!"I"))) ∧
    (plotOf .hkl hklDemo).2 = .ok (some (.xy (.col (.col [.fin 1, .fin 2])) (.col (.col [.fin 10, .fin 20]))
      (lineTexts p!"f.dat" hklDemo.scan p!"L" p!"I"))) := by decide +kernel

/-- C55: if the last label is written twice, the line plot shows the first column with this label, not
the last column. -/
theorem C55_duplicate :
    (plotOf .line (plotDemo p!"ascan a 0 1 1 1" [p!"#N 3", p!"#L x  I  I", p!"1 2 3", p!"4 5 6"])).2 =
      .ok (some (.xy (.col (.col [.fin 1, .fin 4])) (.col (.col [.fin 2, .fin 5]))
        (lineTexts p!"f.dat" (plotDemo p!"ascan a 0 1 1 1" []).scan p!"x" p!"I"))) := by decide +kernel

/-- C55: a scan with constant H and K and without a column L is refused, though it has data. -/
theorem C55_no_L :
    (plotOf .hkl (plotDemo p!"hklscan" [p!"#N 3", p!"#L H  K  I", p!"1 2 3", p!"1 2 6"])).2 = .error .NotPlottable := by
  decide +kernel

/-- A scan aborted before its first point is refused as such only if it was read before. -/
theorem C55_aborted :
    (plotOf .line (plotDemo p!"ascan" [p!"#N 2", p!"#L H  I", p!"#C Mon.  Scan aborted after 0 points."])).2 =
      .error .NoDataToPlot ∧
    (plotOf .line (@interpretScan asciiDB demoEnv HKey.all
      (plotDemo p!"ascan" [p!"#N 2", p!"#L H  I", p!"#C Mon.  Scan aborted after 0 points."])).1).2 =
      .error .ScanAborted := by decide +kernel

/-- a mesh of 2 by 3 points, the last of them missing -/
def meshPlotDemo (label : Str) : ScanCtx := plotDemo p!"mesh a 0 1 1 b 0 2 2 1"
  [p!"#N 3", p!"#L a  b  " ++ label, p!"0 0 1", p!"1 0 2", p!"0 1 3", p!"1 1 4", p!"0 2 5"]

/-- C56: a case that meets the hypotheses. -/
theorem C56_nonvacuous :
    (@interpretScan asciiDB demoEnv HKey.all (meshPlotDemo p!"I")).2 = none ∧
    @dataLinesOf asciiDB (scanLines (meshPlotDemo p!"I").scan.raw) ≠ [] ∧
    splitWs (meshPlotDemo p!"I").scan.scanCmd =
      [p!"mesh", p!"a", p!"0", p!"1", p!"1", p!"b", p!"0", p!"2", p!"2", p!"1"] ∧
    @cleanName asciiDB p!"I" = .ok p!"I" ∧
    (plotOf .mesh (meshPlotDemo p!"I")).2 = .ok (some (.image
      (.nd ⟨[.flt (.fin 1), .flt (.fin 2), .flt (.fin 3), .flt (.fin 4), .flt (.fin 5), .flt .nan], [3, 2]⟩)
      [.col (.col [.fin 0, .fin 1]), .col (.col [.fin 0, .fin 1, .fin 2])]
      (meshTexts p!"f.dat" (meshPlotDemo p!"I").scan p!"a" p!"b" p!"I" p!"#S 1 mesh a 0 1 1 b 0 2 2 1"))) := by
  decide +kernel

/-- C56: a stopped scan that meets the hypotheses. -/
theorem C56_stopped_nonvacuous :
    (plotOf .mesh (plotDemo p!"mesh a 0 1 4 b 0 2 2 1" [p!"#N 3", p!"#L a  b  I", p!"0 0 1", p!"1 0 2"])).2 =
      .ok (some (.xy (.col (.col [.fin 0, .fin 1])) (.col (.col [.fin 1, .fin 2]))
        (lineTexts p!"f.dat" (plotDemo p!"mesh a 0 1 4 b 0 2 2 1" []).scan p!"a" p!"I"))) := by decide +kernel

/-- C56: if the label of the last column is not a clean name, no image is made, and no error is raised. -/
theorem C56_unclean_label : (plotOf .mesh (meshPlotDemo p!"I 0")).2 = .ok none := by decide +kernel

/-- C56: a mesh cannot be plotted twice; the first time removed the labels of its axes. -/
theorem C56_second_plot :
    (plotOf .mesh (plotOf .mesh (meshPlotDemo p!"I")).1).2 = .error .ValueError := by decide +kernel

end S2N.Props
