import Verif.Props.Entry
/-
C83: the group `data` of an entry whose scan has no data.
-/
namespace S2N.Props
open S2N Py Spec H5 Writer
section
variable [UniDB]

/-- C83: the entry of a scan without data lines has a group `data` to plot, which says that there are no data: the signal
`no_y_data` over `no_x_data`, both 0, 1, and nothing else. -/
theorem C83_placeholder {env : Env} {reg : List HKey} (hr : reg.Perm HKey.all) (hx : SchemaNames env) {v : Versions}
    {ks : List Ref} {s : Sdf} {r : SState} (hs : Savable s) (hk : ∀ k ∈ ks, PlainText k.text)
    (h : save env reg v ks s = (r, none)) {k : Ref} (hm : k ∈ ks) {z : Obj} (hz : r.sdf.getScan k = .ok (some z))
    (hd : z.dataLines.getD [] = []) :
    groupAt r.h5 [entryName k, p!"data"] = some [(p!"NX_class", .str p!"NXdata"), (p!"signal", .str p!"no_y_data"),
      (p!"axes", .str p!"no_x_data"), (p!"no_x_data_indices", .nums [.int 0])] ∧
    childrenAt r.h5 [entryName k, p!"data"] = [p!"no_x_data", p!"no_y_data"] ∧
    ∀ n ∈ [p!"no_x_data", p!"no_y_data"], datasetAt r.h5 [entryName k, p!"data", n] =
      some (.nums ⟨[.int 0, .int 1], [2]⟩, [(p!"units", .str p!"none"), (p!"long_name", .str p!"no data points in this scan")]) := by
  obtain ⟨m, x, y, e, chE, en, hw, hh, hi⟩ := entry_of' hr hx hs hk h hm hz
  obtain ⟨L, hL⟩ := en.z_eq
  have hd' : x.dataLines.getD [] = [] := by rw [hL] at hd; exact hd
  have hno : .scanData ∉ x.h5.values := by
    intro hm
    obtain ⟨p, hp, e⟩ := List.mem_map.1 hm
    have hwx := hw.label
    rw [hL] at hwx
    have hl := hwx p hp
    rw [e] at hl
    have hk := hw.keys
    rw [hL] at hk
    have : x.h5.get? p!"scan_data" = some .scanData := (Dict.mem_iff_get? _ hk _ _).1 (by
      have : p = (p!"scan_data", .scanData) := Prod.ext hl e
      rw [← this]; exact hp)
    exact en.dscan.lines (by rw [this]; simp) hd'
  obtain ⟨g, n1, n2, i, j, n3, n4, n5, n6, n7⟩ := en.noData hno
  have ho : objAt r.h5 [entryName k, p!"data"] = some (.group [(p!"no_x_data", i), (p!"no_y_data", j)] noDataAttrs) := by
    unfold objAt entryName; rw [en.walk, walk_one en.entry n1]; exact n3
  have hwalk : ∀ (n : Str) (a : Nat), (show Dict Nat from [(p!"no_x_data", i), (p!"no_y_data", j)]).get? n = some a →
      objAt r.h5 [entryName k, p!"data", n] = r.h5[a]? := by
    intro n a hn
    unfold objAt entryName
    rw [en.walk]
    have : walk r.h5 e [p!"data", n] = some a := by
      simp only [walk, en.entry, n1, n3]
      rw [hn]
    rw [this]
  refine ⟨by unfold groupAt; rw [ho]; rfl, by unfold childrenAt; rw [ho]; rfl, ?_⟩
  intro n hn
  simp only [List.mem_cons, List.not_mem_nil, or_false] at hn
  rcases hn with rfl | rfl
  · unfold datasetAt; rw [hwalk _ i rfl, n6]; rfl
  · unfold datasetAt; rw [hwalk _ j rfl, n7]; rfl

end

/-- C83: in the file saved in the example of C40, scan 3 has no data lines -/
theorem C83_nonvacuous : letI : UniDB := asciiDB
    ∃ s r z, Savable s ∧ save saveEnv HKey.all saveVersions [.int 3] s = (r, none) ∧
      r.sdf.getScan (.int 3) = .ok (some z) ∧ z.dataLines.getD [] = [] := by
  letI : UniDB := asciiDB
  have hd : (match saveDemo [.int 3] with
    | none => false
    | some (b, e, _, sdf) =>
      b && e.isNone &&
      (match sdf.getScan (.int 3) with
      | .ok (some z1) => decide (z1.dataLines.getD [] = [])
      | _ => false)) = true := by decide +kernel
  unfold saveDemo at hd
  cases hs : savedFile with
  | error e => rw [hs] at hd; cases hd
  | ok s =>
    rw [hs] at hd
    simp only at hd
    cases hr : save saveEnv HKey.all saveVersions [.int 3] s with
    | mk r e =>
      rw [hr] at hd
      simp only at hd
      cases h1 : r.sdf.getScan (.int 3) with
      | error e => rw [h1] at hd; simp at hd
      | ok o1 =>
        rw [h1] at hd
        cases o1 with
        | none => simp at hd
        | some z =>
          simp only [Bool.and_eq_true, decide_eq_true_eq, Option.isNone_iff_eq_none] at hd
          obtain ⟨⟨b1, b2⟩, b3⟩ := hd
          subst b2
          exact ⟨s, r, z, savable_of_b b1, hr, h1, b3⟩

end S2N.Props
