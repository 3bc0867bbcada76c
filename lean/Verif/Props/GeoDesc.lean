import Verif.Props.Diffractometers
/-
C64: the descriptions of the geometry parameters.
-/
namespace S2N.Props
open S2N Py Spec

/-- every key of the catalog has a description -/
theorem geoDb_descs : ∀ g ∈ geoDb, g.Gd.length = g.G.length ∧ g.Qd.length = g.Q.length ∧
    (g.Ud.getD defaultUd).length = (g.U.getD defaultU).length := by decide +kernel

theorem geoDb_noDiff : ∀ g ∈ geoDb, ∀ k ∈ g.G, startsWith k p!"diffractometer_" = false := by decide +kernel

theorem new_nodup (n : Str) : (Diff.new n).gdesc.keys.Nodup := by
  show [p!"diffractometer_full", p!"diffractometer_simple", p!"diffractometer_variant"].Nodup
  decide

theorem keys_set_congr {α β : Type} {d : Dict α} {e : Dict β} (h : d.keys = e.keys) (k : Str) (a : α) (b : β) :
    (d.set k a).keys = (e.set k b).keys := by
  rw [Dict.keys_set, Dict.keys_set, h]

theorem foldl_keys {α β γ δ : Type} {f : Dict γ → Str → α → γ} {f' : Dict δ → Str → β → δ} (l : List (Str × α)) (m : List (Str × β))
    (h : l.map (·.1) = m.map (·.1)) {d : Dict γ} {e : Dict δ} (hd : d.keys = e.keys) :
    (l.foldl (fun d kv => d.set kv.1 (f d kv.1 kv.2)) d).keys = (m.foldl (fun d kv => d.set kv.1 (f' d kv.1 kv.2)) e).keys := by
  induction l generalizing m d e with
  | nil =>
    cases m with
    | nil => exact hd
    | cons _ _ => simp at h
  | cons a l ih =>
    cases m with
    | nil => simp at h
    | cons b m =>
      simp only [List.map_cons, List.cons.injEq] at h
      rw [List.foldl_cons, List.foldl_cons]
      refine ih m h.2 ?_
      rw [h.1]
      exact keys_set_congr hd _ _ _

theorem foldl_get {α : Type} (l : List (Str × α)) (d : Dict α) (k : Str) (t : α)
    (h : (l.foldl (fun d kv => d.set kv.1 kv.2) d).get? k = some t) : d.get? k = some t ∨ (k, t) ∈ l := by
  induction l generalizing d with
  | nil => exact .inl h
  | cons a l ih =>
    rw [List.foldl_cons] at h
    rcases ih _ h with h | h
    · by_cases e : a.1 = k
      · subst e
        rw [Dict.get?_set_self] at h
        injection h with h
        exact .inr (by rw [← h]; simp)
      · rw [Dict.get?_set_ne _ _ e] at h
        exact .inl h
    · exact .inr (by simp [h])

theorem updDesc_get {d : Dict Str} {ks ds : List Str} {n : Nat} {k t : Str} (h : (updDesc d ks ds n).get? k = some t) :
    d.get? k = some t ∨ ∃ i : Nat, ks[i]? = some k ∧ ds[i]? = some t := by
  rcases foldl_get _ _ _ _ h with h | h
  · exact .inl h
  · obtain ⟨i, hi⟩ := List.mem_iff_getElem?.1 (List.mem_of_mem_take h)
    rw [List.getElem?_zip_eq_some] at hi
    exact .inr ⟨i, hi⟩

theorem updDesc_keys {d : Dict Str} {e : Dict GVal} (hk : d.keys = e.keys) {ks ds : List Str} {xs : List PyFloat}
    (hl : ds.length = ks.length) (hn : ks.Nodup) : (updDesc d ks ds xs.length).keys = (updNum e (zipDict ks xs)).keys := by
  unfold updDesc updNum
  rw [zipDict_eq _ _ hn]
  refine foldl_keys (f := fun _ _ v => v) (f' := fun _ _ v => .num v) _ _ ?_ hk
  rw [List.map_take, List.map_fst_zip (by omega)]
  clear hk hl hn
  induction ks generalizing xs with
  | nil => simp
  | cons k ks ih =>
    cases xs with
    | nil => rfl
    | cons x xs => simp only [List.length_cons, List.take_succ_cons, List.zip_cons_cons, List.map_cons, ih]

/-- a parameter of the catalog has a description -/
theorem updDesc_has (d : Dict Str) {ks ds : List Str} (hl : ds.length = ks.length) {k : Str} (hk : k ∈ ks) :
    ∃ t, (updDesc d ks ds ks.length).get? k = some t := by
  have : k ∈ (updDesc d ks ds ks.length).keys := by
    have h0 : ((ks.zip ds).take ks.length).map (·.1) = ks := by
      rw [List.map_take, List.map_fst_zip (by omega), List.take_length]
    unfold updDesc
    rw [← h0] at hk
    generalize (ks.zip ds).take ks.length = l at hk
    induction l generalizing d with
    | nil => simp at hk
    | cons a l ih =>
      rw [List.foldl_cons]
      rcases List.mem_cons.1 hk with rfl | hk
      · have : ∀ (l : List (Str × Str)) (d : Dict Str) (k : Str), k ∈ d.keys →
            k ∈ (l.foldl (fun d kv => d.set kv.1 kv.2) d).keys := by
          intro l
          induction l with
          | nil => intro d k h; exact h
          | cons a l ih =>
            intro d k h
            refine ih _ _ ?_
            rw [Dict.keys_set]
            split
            · exact h
            · simp [h]
        refine this _ _ _ ?_
        rw [Dict.keys_set]
        split
        · next h => exact h
        · simp
      · exact ih _ hk
  cases h : (updDesc d ks ds ks.length).get? k with
  | none => exact absurd this ((Dict.get?_eq_none_iff _ _).1 h)
  | some t => exact ⟨t, rfl⟩

/-- the descriptions of the modes -/
theorem adds_desc {g : Geometry} (hg : g ∈ geoDb) (adds : List (Str × Str))
    (ha : ∀ a ∈ adds, ∃ k ∈ g.G, a.1 = k ++ p!"_name") (D : Dict Str)
    (h0 : ∀ k t, D.get? k = some t → Described g k t)
    (h1 : ∀ k ∈ g.G, ∃ i : Nat, ∃ t, g.G[i]? = some k ∧ g.Gd[i]? = some t ∧ D.get? k = some t) (k t : Str)
    (h : (adds.foldl (fun g a => g.set a.1 (nameDesc g a.1)) D).get? k = some t) : Described g k t := by
  induction adds generalizing D with
  | nil => exact h0 k t h
  | cons a l ih =>
    rw [List.foldl_cons] at h
    obtain ⟨k0, hk0, e⟩ := ha a (by simp)
    have hne : ∀ k ∈ g.G, a.1 ≠ k := by
      intro k hk hc
      have h2 := ((geoDb_disjoint g hg).2.2 k hk).2.1
      rw [← hc, e] at h2
      unfold endsWith at h2
      have h3 : (p!"_name").isSuffixOf (k0 ++ p!"_name") = true := List.isSuffixOf_iff_suffix.2 (List.suffix_append _ _)
      rw [h3] at h2
      cases h2
    refine ih (fun b hb => ha b (by simp [hb])) _ ?_ ?_ h
    · intro k t ht
      by_cases hc : a.1 = k
      · subst hc
        rw [Dict.get?_set_self] at ht
        injection ht with ht
        subst ht
        obtain ⟨i, t, i1, i2, i3⟩ := h1 k0 hk0
        have : nameDesc D a.1 = p!"name of " ++ t := by
          unfold nameDesc
          have : a.1.take (a.1.length - 5) = k0 := by
            rw [e]
            simp
          rw [this, i3]
          rfl
        rw [this, e]
        exact .mode i i1 i2
      · rw [Dict.get?_set_ne _ _ hc] at ht
        exact h0 k t ht
    · intro k hk
      obtain ⟨i, t, i1, i2, i3⟩ := h1 k hk
      exact ⟨i, t, i1, i2, by rw [Dict.get?_set_ne _ _ (hne k hk)]; exact i3⟩

/-- C64: every parameter of the diffractometer, and nothing else, has a description, which is the one of the catalog. -/
theorem C64_descriptions {n : Str} {G : Dict Str} {d : Diff} {g : Geometry}
    (h : (Diff.new n).parse G = (d, none)) (hg : geoGet n = some g) :
    d.gdesc.keys = d.gpar.keys ∧ ∀ k t, d.gdesc.get? k = some t → Described g k t := by
  obtain ⟨g', d0, d1, d3, hg', h0, h1, h3, h4⟩ := parse_stages h
  rw [hg] at hg'; cases hg'
  have hmem := (geoGet_mem hg).1
  obtain ⟨nG, nQ, nU, -⟩ := geoDb_facts g hmem
  obtain ⟨lG, lQ, lU⟩ := geoDb_descs g hmem
  have hnew : ∀ k t, (Diff.new n).gdesc.get? k = some t → Described g k t := by
    intro k t ht
    have := (Dict.mem_iff_get? _ (new_nodup n) _ _).2 ht
    simp only [Diff.new, List.mem_cons, Prod.mk.injEq, List.not_mem_nil, or_false] at this
    rcases this with ⟨rfl, rfl⟩ | ⟨rfl, rfl⟩ | ⟨rfl, rfl⟩
    · exact .full
    · exact .simple
    · exact .variant
  have s0 : d0.gdesc.keys = d0.gpar.keys ∧ ∀ k t, d0.gdesc.get? k = some t → Described g k t := by
    rcases parseG0_ok h0 with rfl | ⟨xs, sec, adds, -, hl, hloop, rfl⟩
    · exact ⟨rfl, hnew⟩
    · constructor
      · exact foldl_keys (f := fun g k _ => nameDesc g k) (f' := fun _ _ v => .str v) adds adds rfl
          (updDesc_keys (show (Diff.new n).gdesc.keys = (Diff.new n).gpar.keys from rfl) lG nG)
      · intro k t ht
        refine adds_desc hmem adds ?_ _ ?_ ?_ k t ht
        · intro a ha
          rw [(g0Loop_ok _ _ _ _ _ _ hloop).1, List.nil_append, List.mem_filterMap] at ha
          obtain ⟨kv, hkv, e⟩ := ha
          rw [zipDict_eq _ _ nG] at hkv
          exact ⟨kv.1, (List.of_mem_zip hkv).1, modeAdd_key e⟩
        · intro k t ht
          rcases updDesc_get ht with h | ⟨i, i1, i2⟩
          · exact hnew k t h
          · exact .G i i1 i2
        · intro k hk
          rw [hl]
          obtain ⟨t, ht⟩ := updDesc_has (Diff.new n).gdesc lG hk
          rcases updDesc_get ht with h | ⟨i, i1, i2⟩
          · exfalso
            have := (Dict.mem_iff_get? _ (new_nodup n) _ _).2 h
            have h9 := geoDb_noDiff g hmem k hk
            simp only [Diff.new, List.mem_cons, Prod.mk.injEq, List.not_mem_nil, or_false] at this
            rcases this with ⟨rfl, rfl⟩ | ⟨rfl, rfl⟩ | ⟨rfl, rfl⟩ <;> exact absurd h9 (by decide)
          · exact ⟨i, t, i1, i2, ht⟩
  have s1 : d1.gdesc.keys = d1.gpar.keys ∧ ∀ k t, d1.gdesc.get? k = some t → Described g k t := by
    rcases parseG1_ok h1 with rfl | ⟨xs, l, rs, -, -, -, -, rfl⟩
    · exact s0
    · refine ⟨updDesc_keys s0.1 lU nU, fun k t ht => ?_⟩
      rcases updDesc_get ht with h | ⟨i, i1, i2⟩
      · exact s0.2 k t h
      · exact .U i i1 i2
  have s3 : d3.gdesc.keys = d3.gpar.keys ∧ ∀ k t, d3.gdesc.get? k = some t → Described g k t := by
    rcases parseG3_ok h3 with rfl | ⟨m, rfl⟩
    · exact s1
    · refine ⟨keys_set_congr s1.1 _ _ _, fun k t ht => ?_⟩
      by_cases e : p!"ub_matrix" = k
      · subst e
        rw [Dict.get?_set_self] at ht
        injection ht with ht
        subst ht
        exact .UB
      · rw [Dict.get?_set_ne _ _ e] at ht
        exact s1.2 k t ht
  rcases parseG4_ok h4 with rfl | ⟨xs, -, -, rfl⟩
  · exact s3
  · refine ⟨updDesc_keys s3.1 lQ nQ, fun k t ht => ?_⟩
    rcases updDesc_get ht with h | ⟨i, i1, i2⟩
    · exact s3.2 k t h
    · exact .Q i i1 i2

/-- C64: the hypotheses of `C64_descriptions` are met by a four circle scan -/
theorem C64_descriptions_nonvacuous :
    let row (m : Nat) := join [' '] ((List.range m).map natStr)
    let G : Dict Str := [(p!"G0", row 27), (p!"G1", row 34), (p!"G3", row 9), (p!"G4", row 26)]
    let d := ((Diff.new p!"fourc.default").parse G).1
    ((Diff.new p!"fourc.default").parse G).2 = none ∧ geoGet p!"fourc.default" = some geo2 ∧
      d.gdesc.get? p!"g_mode_name" = some p!"name of spectrometer mode" ∧
      d.gdesc.get? p!"H" = some p!"1st Miller index" ∧ d.gdesc.get? p!"ALPHA" = some p!"" ∧ d.gdesc.length = 92 := by
  decide +kernel

end S2N.Props
