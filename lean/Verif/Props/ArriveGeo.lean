import Verif.Props.GeoText
import Verif.Props.EntrySample
/-
C98: the diffractometer, from the text of a SPEC data file to the NeXus file.
-/
namespace S2N.Props
open S2N S2N.Py S2N.Spec S2N.H5 S2N.Writer

section
variable [UniDB]

/-- the names of the motors are kept: all #O lines are in headers; they are not needed if the header has mnemonics, or states the geometry -/
def NamesKept (texts : List Str) (head : Str) : Prop :=
  (∀ t ∈ texts, isScanText t = true → ofKind .O (scanLines t) = []) ∨ hOfKind .o (splitlines head) ≠ [] ∨ ∃ g ∈ geoDb, States head g.name

omit [UniDB] in
theorem mapE_float_of : ∀ (ws : List Str) (xs : List PyFloat),
    List.Forall₂ (fun w x => parseFloat w = some x) ws xs → mapE Py.float ws = .ok xs
  | [], _, h => by cases h; rfl
  | w :: ws, _, h => by
    cases h with
    | @cons _ y _ _ h1 h2 =>
      have := mapE_float_of ws _ h2
      have hw : Py.float w = .ok y := by unfold Py.float; rw [h1]
      unfold mapE
      rw [hw]
      simp only [this]

omit [UniDB] in
theorem wavelength_none {n : Str} {G : Dict Str} {d : Diff} {g : Geometry}
    (h : (Diff.new n).parse G = (d, none)) (hg : geoGet n = some g) (hr : ∀ xs, RowIs G p!"G4" xs → xs.length ≠ g.Q.length) : d.wavelength = none := by
  obtain ⟨g', d0, d1, d3, hg', h0, h1, h3, h4⟩ := parse_stages h
  rw [hg] at hg'; cases hg'
  have w0 : d0.wavelength = none := by
    rcases parseG0_ok h0 with rfl | ⟨_, _, _, -, -, -, rfl⟩ <;> rfl
  have w1 : d1.wavelength = none := by
    rcases parseG1_ok h1 with rfl | ⟨_, _, _, -, -, -, -, rfl⟩ <;> exact w0
  have w3 : d3.wavelength = none := by
    rcases parseG3_ok h3 with rfl | ⟨_, rfl⟩ <;> exact w1
  rcases parseG4_ok h4 with rfl | ⟨ys, hy, hyl, -⟩
  · exact w3
  · exact absurd hyl (hr ys hy)

/-- the diffractometer of an interpreted scan -/
theorem interp_diff {env : Env} {reg : List HKey} (hr : reg.Perm HKey.all) {c : ScanCtx} (hf : Fresh c.scan) (hok : (interpretScan env reg c).2 = none)
    (hne : ofKind .G (scanLines c.scan.raw) ≠ []) :
    ∃ G d n pos, (interpretScan env reg c).1.scan.G = some G ∧
      LastWins G ((ofKind .G (scanLines c.scan.raw)).map (fun l => (gName l, stripFirstWord l))) ∧
      (interpretScan env reg c).1.scan.diff = some d ∧
      geoMatch ⟨(interpretScan env reg c).1.hdr.comments, (interpretScan env reg c).1.hdr.o, (interpretScan env reg c).1.hdr.O, pos, some G⟩ = .ok n ∧
      (Diff.new n).parse G = (d, none) := by
  obtain ⟨G, g1, g2⟩ := C29_G env reg hr c hf hok
  obtain ⟨l, hl⟩ := List.exists_mem_of_ne_nil _ hne
  obtain ⟨hl1, hl2⟩ := List.mem_filter.1 hl
  obtain ⟨c1, c', q0, q1, q2, q3⟩ := interp_post env reg hr .geometry (by simp [soleLabel])
    (fun d => (d.scan.diff, d.scan.G, d.hdr)) (fun d => d.scan.G)
    (fun f d h => by simp only [pp_diff env f d h, pp_G env f d, pp_hdr]) (fun f d h => pp_G env f d) (fun _ _ => rfl) c hf hok ⟨l, hl1, .G, rfl, hl2⟩
  simp only [Prod.mk.injEq] at q3
  obtain ⟨r1, r2, r3⟩ := q3
  rw [pp_G, g1] at r2
  rw [pp_hdr] at r3
  have q2 : (postGeometry c').2 = none := q2
  have r1 : (interpretScan env reg c).1.scan.diff = (postGeometry c').1.scan.diff := r1
  unfold postGeometry at q2 r1
  have hxG : (if (c'.scan.G.getD []).length > 0 then c'.scan.addH5 p!"diffractometer geometry" .geometry else c'.scan).G = some G := by
    rw [r2]; split <;> rfl
  generalize (if (c'.scan.G.getD []).length > 0 then c'.scan.addH5 p!"diffractometer geometry" .geometry else c'.scan) = x at hxG q2 r1
  simp only at q2 r1
  rw [hxG] at q2 r1
  cases hgp : geoPost ⟨c'.hdr.comments, c'.hdr.o, c'.hdr.O, x.positioner.keys, some G⟩ with
  | error e => rw [hgp] at q2; cases q2
  | ok d =>
    rw [hgp] at r1
    simp only [Res.eval_ok] at r1
    unfold geoPost at hgp
    split at hgp
    · cases hgp
    · next n hn =>
      simp only [Option.getD_some] at hgp
      cases hp : (Diff.new n).parse G with
      | mk d' e =>
        rw [hp] at hgp
        cases e with
        | some e => cases hgp
        | none =>
          injection hgp with hgp
          subst hgp
          exact ⟨G, d', n, x.positioner.keys, g1, g2, r1, by rw [r3]; exact hn, hp⟩

section
variable {env : Env} {reg : List HKey} (hr : reg.Perm HKey.all) (hx : SchemaNames env) {texts : List Str} {s : Sdf}
  {ks : List Ref} {r : SState} (hc : Conversion env reg texts s ks r) {k : Ref} (hm : k ∈ ks) {x : Obj}
  (hk : s.getScan k = .ok (some x)) {head : Str} (hh : head = (s.headerOf x).raw)
include hr hx hc hm hk hh

/-- C98: the diffractometer of a converted scan with #G lines is the one that the first comment of the header states, or else the first
one of the catalog that suits, and what is in its entry is what the #G lines say. -/
theorem C98_diffractometer (hG : ofKind .G (scanLines x.raw) ≠ []) (hO : NamesKept texts head) :
    ∃ n g, GeometryIs head x.raw n g ∧ FromText r.h5 (entryName k) x.raw n g := by
  obtain ⟨z, hdr, A⟩ := arrived hr hx hc hm hk
  obtain ⟨G, d, n, pos, g1, g2, g3, g4, g5⟩ := interp_diff hr (c := ⟨x, hdr⟩) A.fresh A.done hG
  obtain ⟨g, d0, d1, d3, hg, -⟩ := parse_stages g5
  obtain ⟨L, hL⟩ := A.labels
  have zG : z.G = some G := by rw [hL]; exact g1
  have zd : z.diff = some d := by rw [hL]; exact g3
  have st := (states_of hr hc x).tables
  have hlike : HdrLike (s.headerOf x) (interpretScan env reg ⟨x, hdr⟩).1.hdr := A.header.trans (interp_hdrLike env reg ⟨x, hdr⟩)
  have hcm : (interpretScan env reg ⟨x, hdr⟩).1.hdr.comments = hTexts .C head := by
    obtain ⟨O, dd, e, he⟩ := hlike
    rw [he, hh]
    exact st.comments
  have ho : (interpretScan env reg ⟨x, hdr⟩).1.hdr.o = if hOfKind .o (splitlines head) = [] then none else some (wordTable .o (splitlines head)) := by
    obtain ⟨O, dd, e, he⟩ := hlike
    rw [he, hh]
    exact st.o
  have hgeo : GeometryIs head x.raw n g := by
    refine match_text (G := G) rfl g2 hcm ?_ g4 hg
    by_cases hoe : hOfKind .o (splitlines head) = []
    · rcases hO with hO | hO | hO
      · right
        have hOO : (interpretScan env reg ⟨x, hdr⟩).1.hdr.O = some (namesTable (hOfKind .O (splitlines head))) := by
          rw [interp_keepO env hr ⟨x, hdr⟩ (.inr (hO _ A.text.1 A.text.2))]
          show hdr.O = _
          rw [A.names hO, hh]
          exact st.O
        rw [ho, hOO]
        unfold motorNames motorsOf
        rw [if_pos hoe, if_pos hoe]
      · exact absurd hoe hO
      · exact .inl hO
    · right
      rw [ho]
      unfold motorNames motorsOf
      rw [if_neg hoe, if_neg hoe]
  refine ⟨n, g, hgeo, ?_⟩
  obtain ⟨v, hsv⟩ := hc.saved
  have hGne : z.G.getD [] ≠ [] := by
    rw [zG]
    intro h0
    obtain ⟨l, hl⟩ := List.exists_mem_of_ne_nil _ hG
    have hk1 : gName l ∈ G.keys := by
      rw [g2.order, firstOcc_mem, List.map_map]
      exact List.mem_map.2 ⟨l, hl, rfl⟩
    rw [show G = [] from h0] at hk1
    cases hk1
  obtain ⟨d', hd', dat, h1, -, h3, h4⟩ := (C86_diffractometer hr hx A.savable hc.keys hsv hm A.now (t := _) (c := _) rfl rfl).1 hGne
  rw [zd] at hd'
  injection hd' with hd'
  subst hd'
  have get : ∀ m, G.get? m = (gLine m x.raw).map stripFirstWord := fun m => by
    rw [g2.value, lookup_last]; rfl
  have row : ∀ m xs, GNumbers m x.raw xs → RowIs G m xs := by
    rintro m xs ⟨l, e1, e2⟩
    exact ⟨stripFirstWord l, by rw [get, e1]; rfl, mapE_float_of _ _ e2⟩
  have row' : ∀ m xs, RowIs G m xs → GNumbers m x.raw xs := by
    rintro m xs ⟨w, e1, e2⟩
    rw [get] at e1
    cases hl : gLine m x.raw with
    | none => rw [hl] at e1; cases e1
    | some l =>
      rw [hl] at e1
      injection e1 with e1
      subst e1
      exact ⟨l, hl, mapE_float_ok _ _ e2⟩
  obtain ⟨dk, ds⟩ := C64_descriptions g5 hg
  have desc : ∀ m y, d.gpar.get? m = some y → ∃ t, Described g m t ∧ describedBy d m = described t := by
    intro m y hy
    have hm1 : m ∈ d.gdesc.keys := by
      rw [dk]
      by_contra hc
      rw [(Dict.get?_eq_none_iff _ _).2 hc] at hy
      cases hy
    cases ht : d.gdesc.get? m with
    | none => exact absurd hm1 ((Dict.get?_eq_none_iff _ _).1 ht)
    | some t => exact ⟨t, ds m t ht, by unfold describedBy described; rw [ht]; rfl⟩
  have num : ∀ m y, d.gpar.get? m = some (.num y) → NumberAt r.h5 (entryName k) g m y := by
    intro m y hy
    obtain ⟨t, t1, t2⟩ := desc m _ hy
    refine ⟨t, t1, ?_⟩
    rw [← t2]
    exact dat.value m _ (Dict.mem_of_get? hy)
  have hlat : ∀ {l : Lattice}, d.lattice = some l → sampleNames d ≠ [] := by
    intro l hl h0
    unfold sampleNames at h0
    rw [hl] at h0
    simp only [List.append_eq_nil_iff] at h0
    cases l <;> simp [latticeNames] at h0
  refine ⟨?_, ?_, ?_, ?_, ?_, ?_, ?_, ?_, ?_, ?_, ?_⟩
  · rw [dat.name, parse_full g5]
  · intro xs hxs hl
    by_cases hU : g.U = none
    · obtain ⟨_, _, _, _, _, _, _, _, _, _, _, _, _, _, _, -, -, e, -⟩ := C64_lattice_reflections g5 hg hU (row _ _ hxs) hl
      exact (h1 (hlat e)).group
    · obtain ⟨_, _, _, _, _, _, _, -, -, e, -⟩ := C64_twoc g5 hg hU (row _ _ hxs) hl
      exact (h1 (hlat e)).group
  · intro xs hxs hl i m y hi hy hU
    have := C64_G g5 hg (row _ _ hxs) hl i m hi (by
      rcases hU with h | h
      · left; rw [get, h]; rfl
      · exact .inr h)
    rw [hy] at this
    exact num m y this
  · intro xs hxs hl i m y hi hy
    exact num m y (C64_U g5 hg (row _ _ hxs) hl i m hi y hy)
  · intro xs hxs hl i m y hi hy
    obtain ⟨a, b⟩ := C64_Q g5 hg (row _ _ hxs) hl i m hi
    rw [hy] at a
    refine ⟨num m y a, fun e => h3 y ?_⟩
    rw [b e, hy]
  · intro h
    exact h4 (wavelength_none g5 hg (fun xs hxs => h xs (row' _ _ hxs)))
  · intro xs hxs hl
    obtain ⟨m, -, m1, m2, m3, -⟩ := C64_UB g5 (row _ _ hxs) hl
    have hpv : paramValue (.mat m) = .nums ⟨xs.map .flt, [3, 3]⟩ := by
      have : matShape m = [3, 3] := by
        obtain ⟨a, m', rfl, ha, m4⟩ := List.map_eq_cons_iff.1 m3
        have : m'.length = 2 := by rw [← List.length_map (f := List.length) (as := m'), m4]; rfl
        simp [matShape, ha, this]
      simp only [paramValue, m2, this]
    have hne : sampleNames d ≠ [] := by
      intro h0
      unfold sampleNames at h0
      rw [m1] at h0
      simp at h0
    refine ⟨by rw [← hpv]; exact (h1 hne).matrix _ m1, ?_⟩
    obtain ⟨t, t1, t2⟩ := desc _ _ m1
    refine ⟨t, t1, ?_⟩
    rw [← t2, ← hpv]
    exact dat.value _ _ (Dict.mem_of_get? m1)
  · intro hU xs hxs hl
    obtain ⟨a, b, c, al, be, ga, h0, k0, l0, w0, h1', k1, l1, w1, v, e0, e1, e2, f1, f2, f3, f4, f5, f6, f7, f8, e3⟩ :=
      C64_lattice_reflections g5 hg hU (row _ _ hxs) hl
    have S := h1 (hlat e2)
    exact ⟨a, b, c, al, be, ga, h0, k0, l0, w0, h1', k1, l1, w1, v, e0, e1, S.lattice _ e2, f1, f2, f3, f4, f5, f6, f7, f8,
      S.reflections 0 _ (by rw [e3]; rfl), S.reflections 1 _ (by rw [e3]; rfl)⟩
  · intro hU xs hxs hl
    obtain ⟨a, b, ga, h0, k0, w0, v, e0, e1, e2, f1, f2, f3, e3⟩ := C64_twoc g5 hg hU (row _ _ hxs) hl
    have S := h1 (hlat e2)
    exact ⟨a, b, ga, h0, k0, w0, v, e0, e1, S.lattice _ e2, f1, f2, f3, S.reflections 0 _ (by rw [e3]; rfl)⟩
  · intro xs hxs hl i y hi hy j t hj ht
    have := C64_mode g5 hg (row _ _ hxs) hl i hi y hy j hj t ht
    have hne : sampleNames d ≠ [] := by
      intro h0
      unfold sampleNames at h0
      rw [this] at h0
      simp at h0
    exact (h1 hne).mode _ this
  · intro xs hxs hl i y hi hy
    obtain ⟨j, j1, j2⟩ := C64_sector g5 hg (row _ _ hxs) hl i hi y hy
    have hne : sampleNames d ≠ [] := by
      intro h0
      unfold sampleNames at h0
      rw [j2] at h0
      simp at h0
    exact ⟨j, j1, (h1 hne).sector _ j2⟩

omit hh in
/-- C98: without #G lines there is no diffractometer, and no group `sample`, in the entry. -/
theorem C98_none (hG : ofKind .G (scanLines x.raw) = []) :
    objAt r.h5 [entryName k, p!"sample"] = none ∧
      ∀ n ∈ [p!"name", p!"geometry_parameters", p!"diffractometer", p!"monochromator"],
        objAt r.h5 [entryName k, p!"instrument", n] = none := by
  obtain ⟨z, hdr, A⟩ := arrived hr hx hc hm hk
  obtain ⟨G, g1, g2⟩ := C29_G env reg hr ⟨x, hdr⟩ A.fresh A.done
  obtain ⟨L, hL⟩ := A.labels
  have zG : z.G = some G := by rw [hL]; exact g1
  obtain ⟨v, hsv⟩ := hc.saved
  refine (C86_diffractometer hr hx A.savable hc.keys hsv hm A.now (t := _) (c := _) rfl rfl).2 ?_
  rw [zG, Option.getD_some]
  have : G.keys = [] := by
    rw [g2.order]
    show firstOcc (List.map _ (List.map _ (ofKind .G (scanLines x.raw)))) = []
    rw [hG]; rfl
  exact List.map_eq_nil_iff.1 this

end

end
end S2N.Props
