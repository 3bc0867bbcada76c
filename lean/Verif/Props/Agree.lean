import Verif.Spec.Agree
import Verif.Props.Arrive
import Verif.Props.PlotMore
import Verif.Props.Extract
import Verif.Props.Save
import Verif.Props.Determined
/-
C109: plots, extracted text and the NeXus file agree on the data of a scan.
-/
namespace S2N.Props
open S2N S2N.Py S2N.Spec S2N.H5 S2N.Writer S2N.Plot

section
variable [UniDB]

/-- the columns of a scan in the NeXus file, and what is to be plotted by default -/
theorem agree_columns {env : Env} {reg : List HKey} (hr : reg.Perm HKey.all) (hx : SchemaNames env) {texts : List Str} {s : Sdf}
    {ks : List Ref} {r : SState} (hc : Conversion env reg texts s ks r) {k : Ref} (hm : k ∈ ks) {x : Obj}
    (hk : s.getScan k = .ok (some x)) (hn : NotBy x meshMacros) (hl : dataLinesOf (scanLines x.raw) ≠ [])
    (hcl : ClearColumns x.raw) :
    Fresh x ∧ ∃ labels names rows first last sg ax, StatedLabels (scanLines x.raw) labels ∧ Renamed labels names ∧
      ScanRows x.raw names rows ∧ labels.head? = some first ∧ labels.getLast? = some last ∧
      (∀ label ∈ names, ∃ n, cleanName label = .ok n ∧
        HoldsColumn r.h5 k n label (rows.map (fun row => row.getD (names.idxOf label) .nan))) ∧
      cleanName last = .ok sg ∧ cleanName first = .ok ax ∧
      attrAt r.h5 [entryName k, p!"data"] p!"signal" = some (.str sg) ∧
      (NotBy x hklMacros → attrAt r.h5 [entryName k, p!"data"] p!"axes" = some (.str ax)) := by
  obtain ⟨-, labels, names, nm, lines, h1, h2, h3, h4, h5⟩ := C90_data hr hx hc hm hk hn hl
  obtain ⟨hne, hmca, hnd⟩ := hcl _ _ h1 h2
  obtain ⟨⟨rows, h6, h7⟩, -⟩ := h5 hmca hnd
  obtain ⟨z, hdr, ar⟩ := arrived hr hx hc hm hk
  obtain ⟨v, hsv⟩ := hc.saved
  have hz := ar.same hn
  have hid := interp_ident env reg ⟨x, hdr⟩
  have hz2 : z.scanCmd = x.scanCmd := by rw [hz]; exact congrArg Ident.scanCmd hid
  have hnz : ∀ {l}, NotBy x l → NotBy z l := by
    intro l hn m hmm
    unfold macroOf
    rw [hz2]
    exact hn m hmm
  obtain ⟨labels', a1, a2, a3⟩ := C21_first_last env reg hr ⟨x, hdr⟩ ar.fresh ar.done
  cases statedLabels_unique h1 a1
  rw [← hz] at a2 a3
  obtain ⟨first, hfst⟩ : ∃ f, labels.head? = some f := by
    cases labels with
    | nil => exact absurd rfl hne
    | cons a l => exact ⟨a, rfl⟩
  obtain ⟨last, hlst⟩ : ∃ f, labels.getLast? = some f := ⟨_, List.getLast?_eq_some_getLast hne⟩
  have hd : z.data ≠ [] := by
    obtain ⟨labels'', names', nm', lines', c1, c2, c3, c4, c5, c6, c7, c8, c9⟩ :=
      interp_data env reg hr ⟨x, hdr⟩ ar.fresh ar.done hl
    cases statedLabels_unique h1 c1
    cases renamed_unique h2 c3
    obtain ⟨rows', sp, d1, -⟩ := c9 (.inl hmca)
    rw [← hz] at d1
    have := table_get d1 (renamed_mem h2 (List.mem_of_mem_head? hfst))
    intro e; rw [e] at this; cases this
  obtain ⟨f', l', sg, ax, b1, b2, b3, b4, b5, b6⟩ := C41_signal_axes hr hx ar.savable hc.keys hsv hm ar.now (hnz hn) hd
  rw [hfst] at a2; rw [hlst] at a3
  obtain rfl : f' = first := by rw [b1] at a2; simpa using a2
  obtain rfl : l' = last := by rw [b2] at a3; simpa using a3
  refine ⟨ar.fresh, labels, names, rows, f', l', sg, ax, h1, h2, ⟨nm, lines, h3, h4, h6⟩, hfst, hlst, ?_, b3, b4, b5,
    fun hh => (b6 (hnz hh)).1⟩
  intro label hlab
  obtain ⟨n, a, g1, g2, g3⟩ := h7 (names.idxOf label) label (by
    rw [List.getElem?_eq_getElem (List.idxOf_lt_length_iff.2 hlab), List.getElem_idxOf])
  refine ⟨n, g1, a, ?_, g3⟩
  rw [g2]; simp [List.map_map, Function.comp_def]

/-- a picture of a scan that was just read shows that it can be interpreted -/
theorem plot_done {env : Env} {reg : List HKey} {m : Maker} (hm : m = .line ∨ m = .hkl) {set : Settings} {dataFile : Str}
    {td tp : Option Int} {c : ScanCtx} (hf : Fresh c.scan) {p : Picture}
    (h : (plotScan env reg m set dataFile td tp c).2 = .ok (some p)) : (interpretScan env reg c).2 = none := by
  obtain ⟨r, o, h1, -⟩ := plotScan_inv env reg h
  have hrd := read_data env reg c hf
  rw [← hrd]
  have ht : (titles dataFile { ctx := c, set := set }).ctx = c := rfl
  unfold retrieved at h1
  rw [ht] at h1
  generalize readAttr env reg p!"data" c = q at h1 ⊢
  obtain ⟨c1, e⟩ := q
  cases e with
  | none => rfl
  | some e =>
    exfalso
    rcases hm with rfl | rfl <;> cases h1

/-- **C109**: the line plot of a scan and the default plot of its entry in the NeXus file are the same: if a scan (no mesh, not in
reciprocal space) was converted, and specplot draws it, then it draws the values of the dataset that the attribute `signal` names
against those of the dataset that the attribute `axes` names, and the titles of the axes of the plot are their SPEC labels. -/
theorem C109_line {env : Env} {reg : List HKey} (hr : reg.Perm HKey.all) (hx : SchemaNames env) {texts : List Str} {s : Sdf}
    {ks : List Ref} {r : SState} (hc : Conversion env reg texts s ks r) {k : Ref} (hm : k ∈ ks) {x : Obj}
    (hk : s.getScan k = .ok (some x)) (hn : NotBy x meshMacros) (hh : NotBy x hklMacros)
    (hl : dataLinesOf (scanLines x.raw) ≠ []) (hcl : ClearColumns x.raw) {dataFile : Str} {td : Int} {tp : Option Int}
    {hdr : Obj} {pic : Picture} (hp : (plotScan env reg .line {} dataFile (some td) tp ⟨x, hdr⟩).2 = .ok (some pic)) :
    ∃ sg ax first last xs ys, attrAt r.h5 [entryName k, p!"data"] p!"signal" = some (.str sg) ∧
      attrAt r.h5 [entryName k, p!"data"] p!"axes" = some (.str ax) ∧
      HoldsColumn r.h5 k ax first xs ∧ HoldsColumn r.h5 k sg last ys ∧
      pic = .xy (.col (.col xs)) (.col (.col ys)) (lineTexts dataFile x first last) := by
  obtain ⟨hf, labels, names, rows, first, last, sg, ax, h1, h2, h3, h4, h5, h6, h7, h8, h9, h10⟩ :=
    agree_columns hr hx hc hm hk hn hl hcl
  have hok := plot_done (.inl rfl) hf hp
  obtain ⟨labels', names', g1, g2, g3⟩ := C55_line_columns env reg hr ⟨x, hdr⟩ hf hok hl dataFile td tp
  obtain ⟨hne, hmca, -⟩ := hcl _ _ g1 g2
  obtain ⟨rows', g4, g5⟩ := g3 (.inl hmca)
  obtain ⟨rfl, rfl, rfl⟩ := C21_determined h1 h2 h3 g1 g2 g4 (hcl _ _ h1 h2).1
  have := g5 first last h4 h5
  rw [hp] at this
  have mf : first ∈ names := renamed_mem h2 (List.mem_of_mem_head? h4)
  have ml : last ∈ names := renamed_mem h2 (List.mem_of_getLast? h5)
  obtain ⟨n1, e1, d1⟩ := h6 first mf
  obtain ⟨n2, e2, d2⟩ := h6 last ml
  rw [h8] at e1; injection e1 with e1; subst e1
  rw [h7] at e2; injection e2 with e2; subst e2
  have h0 : names.idxOf first = 0 := by
    have := renamed_head h2
    rw [h4] at this
    cases names with
    | nil => cases this
    | cons n ns => cases this; simp
  split at this
  · injection this with this
    injection this with this
    refine ⟨sg, ax, first, last, _, _, h9, h10 hh, d1, d2, ?_⟩
    rw [this, h0]; rfl
  · cases this

/-- **C109**: the plot of a scan in reciprocal space: it shows the dataset named by the attribute `signal` against one of the datasets
H, K, L (or the numbers of the points, if all three are constant).  (Which one of them the attribute `axes` names is decided by the
command, not by the data: `C45_axes`, `C109_hkl_differs`.) -/
theorem C109_hkl {env : Env} {reg : List HKey} (hr : reg.Perm HKey.all) (hx : SchemaNames env) {texts : List Str} {s : Sdf}
    {ks : List Ref} {r : SState} (hc : Conversion env reg texts s ks r) {k : Ref} (hm : k ∈ ks) {x : Obj}
    (hk : s.getScan k = .ok (some x)) (hn : NotBy x meshMacros) (hl : dataLinesOf (scanLines x.raw) ≠ []) (hcl : ClearColumns x.raw)
    (hnan : ∀ names rows, ColumnNames x.raw names → ScanRows x.raw names rows → rows ≠ [] ∧
      ∀ a ∈ [p!"H", p!"K", p!"L"], a ∈ names → ∀ r ∈ rows, r.getD (names.idxOf a) .nan ≠ .nan)
    (hlast : ∀ labels, StatedLabels (scanLines x.raw) labels → labels.getLast? ≠ some p!"data point number")
    {dataFile : Str} {td : Int} {tp : Option Int} (htm : tp.getD 0 < td) {hdr : Obj} {pic : Picture}
    (hp : (plotScan env reg .hkl {} dataFile (some td) tp ⟨x, hdr⟩).2 = .ok (some pic))
    (hH : ∀ names, ColumnNames x.raw names → p!"H" ∈ names) :
    ∃ sg last ys, attrAt r.h5 [entryName k, p!"data"] p!"signal" = some (.str sg) ∧ HoldsColumn r.h5 k sg last ys ∧
      ((∃ axis xs, axis ∈ [p!"H", p!"K", p!"L"] ∧ HoldsColumn r.h5 k axis axis xs ∧
          pic = .xy (.col (.col xs)) (.col (.col ys)) (lineTexts dataFile x axis last)) ∨
        (pic = .xy (.range ys.length) (.col (.col ys))
          (lineTexts dataFile x p!"data point number (hkl all held constant)" last) ∧
          ∀ axis ∈ [p!"H", p!"K", p!"L"], ∀ names, ColumnNames x.raw names → axis ∈ names →
            ∀ xs, HoldsColumn r.h5 k axis axis xs → ∀ a ∈ xs, ∀ b ∈ xs, a = b)) := by
  obtain ⟨hf, labels, names, rows, first, last, sg, ax, h1, h2, h3, h4, h5, h6, h7, h8, h9, h10⟩ :=
    agree_columns hr hx hc hm hk hn hl hcl
  have hok := plot_done (.inr rfl) hf hp
  obtain ⟨labels', names', g1, g2, g3⟩ := C55_hkl env reg hr ⟨x, hdr⟩ hf hok hl dataFile td tp htm
  obtain ⟨hne, hmca, -⟩ := hcl _ _ g1 g2
  obtain ⟨rows', g4, g5⟩ := g3 (.inl hmca)
  obtain ⟨rfl, rfl, rfl⟩ := C21_determined h1 h2 h3 g1 g2 g4 (hcl _ _ h1 h2).1
  obtain ⟨hrow, hnn⟩ := hnan names rows ⟨labels, h1, h2⟩ h3
  obtain ⟨g6, g7⟩ := g5 hrow hnn last h5
  have ml : last ∈ names := renamed_mem h2 (List.mem_of_getLast? h5)
  obtain ⟨n2, e2, d2⟩ := h6 last ml
  rw [h7] at e2; injection e2 with e2; subst e2
  have hclean : ∀ a ∈ [p!"H", p!"K", p!"L"], cleanName a = .ok a := by
    intro a ha
    apply C32_identity
    simp only [List.mem_cons, List.not_mem_nil, or_false] at ha
    rcases ha with rfl | rfl | rfl <;> exact ⟨by intro c hc; simp only [List.mem_singleton] at hc; subst hc; rfl, _, _, rfl, rfl⟩
  have hcol : ∀ axis ∈ [p!"H", p!"K", p!"L"], axis ∈ names →
      HoldsColumn r.h5 k axis axis (rows.map (fun row => row.getD (names.idxOf axis) .nan)) := by
    intro axis ha hin
    obtain ⟨n, e, d⟩ := h6 axis hin
    rw [hclean axis ha] at e; injection e with e; subst e
    exact d
  refine ⟨sg, last, _, h9, d2, ?_⟩
  have move : ∀ pre axis post, [p!"H", p!"K", p!"L"] = pre ++ axis :: post → (∀ a ∈ pre, ¬ Moves names rows a) →
      Moves names rows axis → _ := fun pre axis post e hpre hmv =>
    Or.inl (b := pic = .xy (.range (rows.map (fun row => row.getD (names.idxOf last) .nan)).length)
        (.col (.col (rows.map (fun row => row.getD (names.idxOf last) .nan))))
          (lineTexts dataFile x p!"data point number (hkl all held constant)" last) ∧
          ∀ axis ∈ [p!"H", p!"K", p!"L"], ∀ names, ColumnNames x.raw names → axis ∈ names →
            ∀ xs, HoldsColumn r.h5 k axis axis xs → ∀ a ∈ xs, ∀ b ∈ xs, a = b)
      (show ∃ axis xs, axis ∈ [p!"H", p!"K", p!"L"] ∧ HoldsColumn r.h5 k axis axis xs ∧
          pic = .xy (.col (.col xs)) (.col (.col (rows.map (fun row => row.getD (names.idxOf last) .nan))))
            (lineTexts dataFile x axis last) from
        ⟨axis, _, by rw [e]; simp, hcol axis (by rw [e]; simp) hmv.1, by
          have := g6 pre axis post e hpre hmv
          rw [hp] at this
          injection this with this
          injection this with this⟩)
  by_cases mH : Moves names rows p!"H"
  · exact move [] p!"H" [p!"K", p!"L"] rfl (by simp) mH
  by_cases mK : Moves names rows p!"K"
  · exact move [p!"H"] p!"K" [p!"L"] rfl (by simpa using mH) mK
  by_cases mL : Moves names rows p!"L"
  · exact move [p!"H", p!"K"] p!"L" [] rfl (by
      intro a ha
      simp only [List.mem_cons, List.not_mem_nil, or_false] at ha
      rcases ha with rfl | rfl
      · exact mH
      · exact mK) mL
  have hall : ∀ a ∈ [p!"H", p!"K", p!"L"], ¬ Moves names rows a := by
    intro a ha
    simp only [List.mem_cons, List.not_mem_nil, or_false] at ha
    rcases ha with rfl | rfl | rfl <;> assumption
  right
  obtain ⟨q1, q2⟩ := g7 hall
  by_cases hL : p!"L" ∈ names
  · have := q2 hL (hH names ⟨labels, h1, h2⟩) (fun e => hlast labels h1 (by rw [h5, e]))
    rw [hp] at this
    injection this with this
    injection this with this
    refine ⟨by rw [this]; simp [columnOf], ?_⟩
    intro axis ha names' hcn hin xs hold a haa b hbb
    obtain ⟨labels', t1, t2⟩ := hcn
    obtain ⟨at1, hxs, _⟩ := hold
    cases statedLabels_unique h1 t1
    cases renamed_unique h2 t2
    obtain ⟨at2, hys, -⟩ := hcol axis ha hin
    rw [hxs] at hys
    have hxs' : xs = rows.map (fun row => row.getD (names.idxOf axis) .nan) := by
      injection hys with hys
      injection hys with hys _
      injection hys with hys
      injection hys with hys _
      exact List.map_injective_iff.2 (fun a b e => by injection e) hys
    rw [hxs'] at haa hbb
    obtain ⟨ra, hra, rfl⟩ := List.mem_map.1 haa
    obtain ⟨rb, hrb, rfl⟩ := List.mem_map.1 hbb
    by_contra hne'
    exact hall axis ha ⟨hin, ra, hra, rb, hrb, hne'⟩
  · have := q1 hL
    rw [hp] at this; cases this

/-- **C109**: the text that extractSpecScan writes for a scan, and the datasets of its entry: the rows of the text are made of one
table, the columns of which are in the NeXus file. -/
theorem C109_extract {env : Env} {reg : List HKey} (hr : reg.Perm HKey.all) (hx : SchemaNames env) {texts : List Str} {s : Sdf}
    {ks : List Ref} {r : SState} (hc : Conversion env reg texts s ks r) {k : Ref} (hm : k ∈ ks) {x : Obj}
    (hk : s.getScan k = .ok (some x)) (hn : NotBy x meshMacros) (hl : dataLinesOf (scanLines x.raw) ≠ []) (hcl : ClearColumns x.raw)
    (show_ : PyFloat → Str) (a : Extract.Args) (c : Con)
    (hok : (Extract.main env reg show_ a c).2 = none) (hne : a.column ≠ [])
    (scans : List Str) (hsc : Extract.expandTerms a.scan = .ok scans) (sdf : Sdf)
    (ho : Sdf.openFile env reg a.specFile (Stored.file (c.fs.at? a.specFile)) (Stored.file (c.fs.at? a.specFile)) = .ok sdf)
    (pre : List Str) (t : Str) (post : List Str) (hs : scans = pre ++ t :: post)
    (hp : ∀ u ∈ post, c.fs.real (Extract.outputName a.specFile u) ≠ c.fs.real (Extract.outputName a.specFile t))
    (x' : Obj) (hx' : sdf.getScan (.str t) = .ok (some x')) (hf : Fresh x') (hraw : x'.raw = x.raw)
    (hcols : ∀ names, ColumnNames x.raw names → ∀ l ∈ a.column, l ∈ names) :
    ∃ names rows text, RowsText show_ a t names rows text ∧
      (Extract.main env reg show_ a c).1.fs.at? (Extract.outputName a.specFile t) = some (.text (some text) 0 0) ∧
      ∀ label ∈ a.column, ∃ n, cleanName label = .ok n ∧
        HoldsColumn r.h5 k n label (rows.map (fun row => row.getD (names.idxOf label) .nan)) := by
  obtain ⟨_, labels, names, rows, first, last, sg, ax, h1, h2, h3, h4, h5, h6, -⟩ :=
    agree_columns hr hx hc hm hk hn hl hcl
  obtain ⟨names', ⟨labels', g1, g2⟩, g3, -⟩ := C62_rows env reg hr show_ a c hok hne scans hsc sdf ho pre t post hs hp x' hx' hf
    (by rw [hraw]; exact hl)
  rw [hraw] at g1 g3
  obtain ⟨hne', hmca, -⟩ := hcl _ _ g1 g2
  obtain ⟨rows', text, g4, g5, g6⟩ := g3 (hcols names' ⟨labels', g1, g2⟩) (.inl hmca)
  obtain ⟨rfl, rfl, rfl⟩ := C21_determined h1 h2 h3 g1 g2 g4 (hcl _ _ h1 h2).1
  exact ⟨names, rows, text, g5, g6, fun label hlab => h6 label (hcols names ⟨labels, h1, h2⟩ label hlab)⟩

end
end S2N.Props
