import Verif.Props.EntryGeo
import Verif.Lemmas.ZoneSample
import Verif.Lemmas.Uxml
import Verif.Spec.Sample
/-
The diffractometer and the set points of the temperature in an entry.
-/
namespace S2N.Props
open S2N Py H5 Eznx Writer Spec
variable [UniDB]

/-! ### reading -/

omit [UniDB] in
theorem obj_of_walk {s : H5} {P : List Str} {i : Nat} (h : H5.walk s 0 P = some i) : objAt s P = s[i]? := by
  unfold objAt; rw [h]

omit [UniDB] in
theorem ds_of_walk {s : H5} {P : List Str} {i : Nat} {d : HData} {a : Dict AVal} (h : H5.walk s 0 P = some i)
    (hi : s[i]? = some (.dset d a)) : datasetAt s P = some (d, a) := by
  unfold datasetAt; rw [obj_of_walk h, hi]

omit [UniDB] in
theorem grp_of_walk {s : H5} {P : List Str} {i : Nat} {ch : Dict Nat} {a : Dict AVal} (h : H5.walk s 0 P = some i)
    (hi : s[i]? = some (.group ch a)) : groupAt s P = some a ∧ childrenAt s P = ch.keys := by
  unfold groupAt childrenAt
  rw [obj_of_walk h, hi]
  exact ⟨rfl, rfl⟩

omit [UniDB] in
theorem walk_more {s : H5} {P : List Str} {i : Nat} {ch : Dict Nat} {a : Dict AVal} (h : H5.walk s 0 P = some i)
    (hi : s[i]? = some (.group ch a)) (n : Str) : H5.walk s 0 (P ++ [n]) = ch.get? n := by
  rw [walk_append, h]
  exact walk_single n hi

/-- a group of datasets -/
theorem grp_read {K : Nat → Prop} {s : H5} {P : List Str} {i : Nat} {V : Sets} {A : Dict AVal} (h : H5.walk s 0 P = some i)
    (hh : Holds K s i (.grp V A)) : groupAt s P = some A ∧ childrenAt s P = Dict.keys V ∧ ∀ n, datasetAt s (P ++ [n]) = Dict.get? V n := by
  obtain ⟨ch, k1, k2, k3⟩ := hh
  obtain ⟨g1, g2⟩ := grp_of_walk h k1
  refine ⟨g1, ?_, fun n => ?_⟩
  · rw [g2]
    clear * - k3
    induction k3 with
    | nil => rfl
    | cons a _ ih => simp only [Dict.keys, List.map_cons] at ih ⊢; rw [a.1, ih]
  · have hw := walk_more h k1 n
    unfold datasetAt objAt
    rw [hw]
    rcases forall2_get2 k3 n with ⟨e1, e2⟩ | ⟨j, d, a, e1, e2, e3⟩
    · simp only [e1, e2]
    · simp only [e1, e2, e3]

/-- the group "sample" -/
theorem sam_read {K : Nat → Prop} {s : H5} {P : List Str} {b : Nat} {M : List (Str × Content)} (h : H5.walk s 0 P = some b)
    (hS : SamIn K s b M) : groupAt s P = some samAttrs ∧ childrenAt s P = M.map (·.1) ∧
      (∀ n x a, (n, Content.ds x a) ∈ M → datasetAt s (P ++ [n]) = some (x, a)) ∧
      (∀ n V A, (n, Content.grp V A) ∈ M → groupAt s (P ++ [n]) = some A ∧ childrenAt s (P ++ [n]) = Dict.keys V ∧
        ∀ m, datasetAt s (P ++ [n] ++ [m]) = Dict.get? V m) := by
  have hS0 := hS
  obtain ⟨kb, ch, k1, k2, k3⟩ := hS
  obtain ⟨g1, g2⟩ := grp_of_walk h k1
  have key : ∀ n q, (n, q) ∈ M → ∃ j, H5.walk s 0 (P ++ [n]) = some j ∧ Holds K s j q := by
    intro n q hq
    have : ∃ j, (n, j) ∈ ch ∧ Holds K s j q := by
      clear * - k3 hq
      induction k3 with
      | nil => cases hq
      | @cons p q' ch M h1 h2 ih =>
        rcases List.mem_cons.1 hq with e | e
        · subst e
          obtain ⟨n', j⟩ := p
          obtain ⟨e1, e2, e3, e4⟩ := h1
          simp only at e1 e4
          subst e1
          exact ⟨j, by simp, e4⟩
        · obtain ⟨j, j1, j2⟩ := ih e
          exact ⟨j, by simp [j1], j2⟩
    obtain ⟨j, j1, j2⟩ := this
    exact ⟨j, (walk_more h k1 n).trans (get?_of_mem_nodup k2 j1), j2⟩
  refine ⟨g1, by rw [g2]; exact hS0.keys k1, fun n x a hq => ?_, fun n V A hq => ?_⟩
  · obtain ⟨j, j1, j2⟩ := key _ _ hq
    exact ds_of_walk j1 j2
  · obtain ⟨j, j1, j2⟩ := key _ _ hq
    exact grp_read j1 j2

/-! ### the writers -/

omit [UniDB] in
theorem geo_steps {hdr x : Obj} {fs : List H5Fn} {w w' : GeoW}
    (h : Steps (fun f => f = .geometry ∨ f = .temperature) (GeoStep hdr) x fs w w') :
    w'.temp = ((if .temperature ∈ fs then x.tempSP else none) <|> w.temp) ∧
    w'.degc = ((if .temperature ∈ fs then x.degcSP else none) <|> w.degc) ∧
    (.geometry ∉ fs → w'.diff = w.diff) ∧
    (.geometry ∈ fs → w.diff = none ∧ ∃ d, x.diff = some d ∧ (d.gpar ≠ [] → w'.diff = some d)) := by
  induction h with
  | nil W => exact ⟨rfl, rfl, fun _ => rfl, fun q => by cases q⟩
  | @skip f fs W W' hF _ ih =>
    have h1 : (H5Fn.temperature ∈ f :: fs) = (H5Fn.temperature ∈ fs) := by
      rw [List.mem_cons]; simp [show ¬ H5Fn.temperature = f from fun e => hF (.inr e.symm)]
    have h2 : (H5Fn.geometry ∈ f :: fs) = (H5Fn.geometry ∈ fs) := by
      rw [List.mem_cons]; simp [show ¬ H5Fn.geometry = f from fun e => hF (.inl e.symm)]
    simp only [h1, h2]
    exact ih
  | @step f fs W W1 W' hF hR hS ih =>
    obtain ⟨i1, i2, i3, i4⟩ := ih
    rcases hR with ⟨rfl, rfl⟩ | ⟨rfl, hn, d, hd, rfl⟩
    · have h2 : (H5Fn.geometry ∈ H5Fn.temperature :: fs) = (H5Fn.geometry ∈ fs) := by simp
      simp only [h2]
      refine ⟨?_, ?_, i3, i4⟩
      · rw [i1, if_pos (show H5Fn.temperature ∈ H5Fn.temperature :: fs by simp)]
        split <;> cases x.tempSP <;> rfl
      · rw [i2, if_pos (show H5Fn.temperature ∈ H5Fn.temperature :: fs by simp)]
        split <;> cases x.degcSP <;> rfl
    · have h1 : (H5Fn.temperature ∈ H5Fn.geometry :: fs) = (H5Fn.temperature ∈ fs) := by simp
      simp only [h1]
      refine ⟨i1, i2, fun q => absurd (by simp) q, fun _ => ⟨hn, d, hd, fun hg => ?_⟩⟩
      rw [if_neg hg] at i3 i4
      by_cases hm : H5Fn.geometry ∈ fs
      · have := (i4 hm).1
        cases this
      · exact i3 hm

/-- what is known of the entry at the end -/
structure SamOf (k : Ref) (S : SState) (z : Obj) (e : Nat) (chE : Dict Nat) (t c : Option SVal) (w : GeoW) (K : Nat → Prop)
    (v u : Str → Option Nat) : Prop where
  geo : GeoΨ (entryName k) w K v u S.h5
  temp : w.temp = t
  degc : w.degc = c
  none' : z.G.getD [] = [] → w.diff = none
  some' : z.G.getD [] ≠ [] → ∃ d, z.diff = some d ∧ w.diff = some d ∧ GeoNames d
  entry : ∀ N, SamX N → H5.walk S.h5 0 [entryName k, N] = v N
  inst : ∀ N, SamXI N → H5.walk S.h5 0 [entryName k, p!"instrument", N] = u N

theorem sam_of {env : Env} {reg : List HKey} (hr : reg.Perm HKey.all) (hx : SchemaNames env) {vs : Versions}
    {ks : List Ref} {s : Sdf} {r : SState} (hs : Savable s) (hk : ∀ k ∈ ks, PlainText k.text)
    (h : save env reg vs ks s = (r, none)) {k : Ref} (hm : k ∈ ks) {z : Obj} (hz : r.sdf.getScan k = .ok (some z))
    {t c : Option SVal} (ht : t = (z.tempSP <|> (r.sdf.headerOf z).tempSP)) (hc : c = (z.degcSP <|> (r.sdf.headerOf z).degcSP)) :
    ∃ e chE w K v u, SamOf k r z e chE t c w K v u := by
  obtain ⟨m, x, y, e, chE, en, hw, hh, -⟩ := entry_of' hr hx hs hk h hm hz
  obtain ⟨hdr, w1, w2, K, v, u, hlk, q1, q2, hΨ, hv, hvi, hhub, hno⟩ := en.zonesTo zoned_geometry (Ψ := GeoΨ) geo_last GeoΨ.keep
    (by unfold SamX; decide) (by unfold SamX; decide) (by unfold SamX; decide) (fun _ _ => trivial) trivial
  have hwh : Writers .header hdr := hh.hdrLike hlk.symm
  have e1 : hdr.tempSP = (r.sdf.headerOf z).tempSP ∧ hdr.degcSP = (r.sdf.headerOf z).degcSP := by
    obtain ⟨O, d, ep, e⟩ := hlk; rw [e]; exact ⟨rfl, rfl⟩
  have own : ∀ {k : Kind} {x : Obj}, Writers k x → (if H5Fn.temperature ∈ x.h5.values then x.tempSP else none) = x.tempSP ∧
      (if H5Fn.temperature ∈ x.h5.values then x.degcSP else none) = x.degcSP := by
    intro k x hw
    obtain ⟨_, _, _, _, _, _, _, _, _, hT, _⟩ := hw.more
    by_cases hq : H5Fn.temperature ∈ x.h5.values
    · rw [if_pos hq, if_pos hq]; exact ⟨rfl, rfl⟩
    · rw [if_neg hq, if_neg hq]
      constructor
      · by_contra hne
        exact hq (hT (.inl fun q => hne q.symm))
      · by_contra hne
        exact hq (hT (.inr fun q => hne q.symm))
  obtain ⟨a1, a2, a3, a4⟩ := geo_steps q1
  obtain ⟨b1, b2, b3, b4⟩ := geo_steps q2
  rw [(own hwh).1] at a1
  rw [(own hwh).2] at a2
  rw [(own hw).1] at b1
  rw [(own hw).2] at b2
  have hg := geometry_iff en hw
  have hd1 : w1.diff = none := a3 fun hm => by
    have := hwh.date (.inr hm)
    cases this
  obtain ⟨_, ⟨_, _, _, _, _, _, _, _, r5, _⟩, _⟩ := en.ran
  obtain ⟨L, hL⟩ := en.z_eq
  refine ⟨e, chE, w2, K, v, u, hΨ, ?_, ?_, ?_, ?_, fun N hN => ?_, fun N hN => ?_⟩
  · rw [b1, a1, ht, e1.1]; cases (r.sdf.headerOf z).tempSP <;> rfl
  · rw [b2, a2, hc, e1.2]; cases (r.sdf.headerOf z).degcSP <;> rfl
  · intro hG
    rw [b3 fun hm => hg.1 hm hG, hd1]
  · intro hG
    obtain ⟨_, d, d1, d2⟩ := b4 (hg.2 hG)
    have hn : GeoNames d := r5.fields d (by
      have : z.diff = x.diff := by rw [hL]
      rw [← this]; exact d1)
    exact ⟨d, d1, d2 hn.some, hn⟩
  · unfold entryName
    rw [en.walk, walk_single _ en.entry]
    exact hv N hN
  · unfold entryName
    rw [en.walk]
    cases hI : v inst with
    | none => rw [walk_none en.entry (hvi.trans hI)]; exact (hno hI N hN).symm
    | some I =>
      obtain ⟨ch, a, g1, g2⟩ := hhub I hI
      rw [walk_one en.entry (hvi.trans hI), walk_single _ g1]
      exact g2 N hN

/-! ### the members of the group "sample" -/

omit [UniDB] in
theorem addTo_getD {α : Type} (W o : Option (List α)) : (addTo W o).getD [] = W.getD [] ++ o.getD [] := by
  cases o <;> simp [addTo]

omit [UniDB] in
theorem addTo_none {α : Type} {W o : Option (List α)} : addTo W o = none ↔ W = none ∧ o = none := by
  cases o <;> simp [addTo]

omit [UniDB] in
theorem param_eq (g : GVal) : paramData g = paramValue g := by
  rcases g with t | f | (_ | ⟨r, rs⟩) <;> rfl

omit [UniDB] in
theorem desc_eq (d : Diff) (k : Str) : descAttr d k = describedBy d k := by
  unfold descAttr describedBy
  rcases d.gdesc.get? k with _ | (_ | _) <;> rfl

omit [UniDB] in
theorem point_eq (x : SVal) : spData x = setPoint x := by cases x <;> rfl

/-- the parts of the group -/
theorem members_parts (E : Str) (d : Diff) : (samMembers E d).getD [] =
    ((d.lattice.map latticeSets).getD [] ++ ((d.gpar.get? p!"ub_matrix").map fun g => [(p!"ub_matrix", Content.ds (paramData g) [])]).getD [] ++
    (d.mode.map fun m => [(p!"diffractometer_mode", Content.ds (.text [ascii m]) [])]).getD [] ++
    (d.sector.map fun i => [(p!"diffractometer_sector", Content.ds (oneI i) [])]).getD [] ++
    ((List.range d.reflections.length).zip d.reflections).map reflMember ++
    (d.wavelength.map fun wl => [beamMember E wl]).getD []) := by
  unfold samMembers samFirst
  rw [addTo_getD, addTo_getD, addTo_getD, addTo_getD, addTo_getD, addTo_getD]
  congr 2
  cases d.reflections <;> simp

theorem members_names (E : Str) (d : Diff) : ((samMembers E d).getD []).map (·.1) = sampleNames d := by
  rw [members_parts]
  unfold sampleNames
  simp only [List.map_append]
  refine congrArg₂ _ (congrArg₂ _ (congrArg₂ _ (congrArg₂ _ (congrArg₂ _ ?_ ?_) ?_) ?_) ?_) ?_
  · rcases d.lattice with _ | (_ | _) <;> rfl
  · cases d.gpar.get? p!"ub_matrix" <;> rfl
  · cases d.mode <;> rfl
  · cases d.sector <;> rfl
  · rw [List.map_map]
    show List.map (reflName ∘ Prod.fst) _ = _
    rw [← List.map_map, List.map_fst_zip (by simp)]
  · cases d.wavelength <;> rfl

theorem members_none (E : Str) (d : Diff) : samMembers E d = none ↔ sampleNames d = [] := by
  constructor
  · intro h
    rw [← members_names E d, h]; rfl
  · intro h
    unfold sampleNames at h
    simp only [List.append_eq_nil_iff] at h
    obtain ⟨⟨⟨⟨⟨h1, h2⟩, h3⟩, h4⟩, h5⟩, h6⟩ := h
    unfold samMembers samFirst
    simp only [addTo_none]
    refine ⟨⟨⟨⟨⟨⟨trivial, ?_⟩, ?_⟩, ?_⟩, ?_⟩, ?_⟩, ?_⟩
    · rcases hq : d.lattice with _ | (_ | _)
      · rfl
      · rw [hq] at h1; cases h1
      · rw [hq] at h1; cases h1
    · cases hq : d.gpar.get? p!"ub_matrix" with
      | none => rfl
      | some _ => rw [hq] at h2; cases h2
    · cases hq : d.mode with
      | none => rfl
      | some _ => rw [hq] at h3; cases h3
    · cases hq : d.sector with
      | none => rfl
      | some _ => rw [hq] at h4; cases h4
    · rw [if_pos]
      cases hq : d.reflections with
      | nil => rfl
      | cons _ _ => rw [hq] at h5; simp [List.range_succ] at h5
    · cases hq : d.wavelength with
      | none => rfl
      | some _ => rw [hq] at h6; cases h6

/-- without repetitions the datasets are those that were written -/
theorem puts_id {T : Sets} (hT : (Dict.keys T).Nodup) : Sets.puts [] T = T := by
  have gen : ∀ (T V : Sets), (Dict.keys (V ++ T)).Nodup → Sets.puts V T = V ++ T := by
    intro T
    induction T with
    | nil => intro V _; rw [List.append_nil]; rfl
    | cons q T ih =>
      intro V hn
      have h1 : Dict.del V q.1 = V := by
        refine Dict.del_of_not_has _ _ ((Dict.not_has_iff _ _).2 fun hc => ?_)
        unfold Dict.keys at hn hc
        rw [List.map_append, List.nodup_append] at hn
        exact hn.2.2 _ hc _ (by simp) rfl
      show Sets.puts (V.put q.1 q.2.1 q.2.2) T = _
      have h2 : V.put q.1 q.2.1 q.2.2 = V ++ [q] := by unfold Sets.put; rw [h1]
      rw [h2, ih]
      · simp
      · rw [List.append_assoc]; exact hn
  exact gen T [] hT

/-- the fields of a reflection -/
theorem refl_nodup {d : Diff} (hn : GeoNames d) {r : Reflection} (hr : r ∈ d.reflections) : (Dict.keys (reflSets r)).Nodup := by
  obtain ⟨h1, h2⟩ := hn.angles r hr
  have hk : (Dict.keys ((angles r).map fun ka => (ka.1, oneF ka.2, angleAttrs))) = (angles r).keys := by
    unfold Dict.keys; rw [List.map_map]; rfl
  unfold reflSets
  unfold Dict.keys at hk ⊢
  rw [List.map_append, hk, List.nodup_append]
  refine ⟨?_, h1, ?_⟩
  · cases r with
    | three => exact (by decide : [p!"h", p!"k", p!"l", p!"wavelength"].Nodup)
    | two => exact (by decide : [p!"h", p!"k", p!"wavelength"].Nodup)
  · rintro a ha b hb rfl
    refine (h2 a hb).2 ?_
    cases r with
    | three => exact ha
    | two =>
      revert ha
      exact (show ∀ a ∈ [p!"h", p!"k", p!"wavelength"], a ∈ reflNames by decide) a

theorem reflection_read {s : H5} {E : Str} {d : Diff} (hn : GeoNames d) {i : Nat} {r : Reflection} (hr : d.reflections[i]? = some r)
    {V : Sets} (hV : V = Sets.puts [] (reflSets r))
    (h1 : groupAt s [E, p!"sample", reflName i] = some (reflAttrs i)) (h2 : childrenAt s [E, p!"sample", reflName i] = Dict.keys V)
    (h3 : ∀ m, datasetAt s [E, p!"sample", reflName i, m] = Dict.get? V m) : ReflectionAt s E i r := by
  have hd := refl_nodup hn (List.mem_of_getElem? hr)
  rw [puts_id hd] at hV
  subst hV
  have get : ∀ {n : Str} {x : HData × Dict AVal}, (n, x) ∈ reflSets r → datasetAt s [E, p!"sample", reflName i, n] = some x :=
    fun hm => (h3 _).trans (get?_of_mem_nodup hd hm)
  have hk : (Dict.keys ((angles r).map fun ka => (ka.1, oneF ka.2, angleAttrs))) = (angles r).keys := by
    unfold Dict.keys; rw [List.map_map]; rfl
  refine ⟨h1, ?_, fun n a hm => ?_⟩
  · cases r with
    | three h k l wl an =>
      refine ⟨get (x := (oneF h, [])) (by simp [reflSets]), get (x := (oneF k, [])) (by simp [reflSets]), get (x := (oneF l, [])) (by simp [reflSets]),
        get (x := (oneF wl, unitsAttr p!"Angstrom")) (by simp [reflSets]), ?_⟩
      rw [h2]
      unfold reflSets
      unfold Dict.keys at hk ⊢
      rw [List.map_append, hk]
      rfl
    | two h k wl an =>
      refine ⟨get (x := (oneF h, [])) (by simp [reflSets]), get (x := (oneF k, [])) (by simp [reflSets]),
        get (x := (oneF wl, unitsAttr p!"Angstrom")) (by simp [reflSets]), ?_⟩
      rw [h2]
      unfold reflSets
      unfold Dict.keys at hk ⊢
      rw [List.map_append, hk]
      rfl
  · refine get (x := (oneF a, angleAttrs)) ?_
    unfold reflSets
    exact List.mem_append_right _ (List.mem_map.2 ⟨_, hm, rfl⟩)

/-- the group "sample" -/
theorem sample_read {K : Nat → Prop} {s : H5} {E : Str} {w : GeoW} {d : Diff} {b : Nat} {M : List (Str × Content)} (hn : GeoNames d)
    (h : H5.walk s 0 [E, p!"sample"] = some b) (hM : finMembers E w d = some M) (hS : SamIn K s b M) : SampleAt s E d w.logged := by
  obtain ⟨s1, s2, s3, s4⟩ := sam_read h hS
  have hMe : M = (samMembers E d).getD [] ++ (if w.logged then [(p!"temperature", .grp (logSets E w) logAttrs)] else []) := by
    unfold finMembers at hM
    cases hq : w.logged with
    | true =>
      rw [hq] at hM
      injection hM with hM
      exact hM.symm
    | false =>
      rw [hq] at hM
      replace hM : samMembers E d = some M := hM
      rw [hM]
      exact (List.append_nil _).symm
  have hin : ∀ q ∈ (samMembers E d).getD [], q ∈ M := fun q hq => by rw [hMe]; exact List.mem_append_left _ hq
  have hp := members_parts E d
  refine ⟨s1, ?_, fun l hl => ?_, fun m hm => ?_, fun m hm => ?_, fun i hi => ?_, fun i r hr => ?_⟩
  · rw [s2, hMe, List.map_append, members_names]
    cases w.logged <;> rfl
  · have hl' : ∀ q ∈ latticeSets l, q ∈ M := fun q hq => hin q (by rw [hp, hl]; simp [hq])
    cases l with
    | three a b c al be ga =>
      exact ⟨s3 _ _ _ (hl' _ (by simp [latticeSets]; exact ⟨rfl, rfl⟩)), s3 _ _ _ (hl' _ (by simp [latticeSets]; exact ⟨rfl, rfl⟩)),
        s3 _ _ _ (hl' _ (by simp [latticeSets]; rfl))⟩
    | two a b ga =>
      exact ⟨s3 _ _ _ (hl' _ (by simp [latticeSets]; exact ⟨rfl, rfl⟩)), s3 _ _ _ (hl' _ (by simp [latticeSets]; exact ⟨rfl, rfl⟩)),
        s3 _ _ _ (hl' _ (by simp [latticeSets]; exact ⟨rfl, rfl⟩))⟩
  · rw [← param_eq]
    exact s3 _ _ _ (hin _ (by rw [hp, hm]; simp))
  · exact s3 _ _ _ (hin _ (by rw [hp, hm]; simp))
  · exact s3 _ (oneI i) _ (hin _ (by rw [hp, hi]; simp))
  · have hm : reflMember (i, r) ∈ M := hin _ (by
      rw [hp]
      refine List.mem_append_left _ (List.mem_append_right _ (List.mem_map.2 ⟨(i, r), ?_, rfl⟩))
      rw [List.mem_iff_getElem?]
      refine ⟨i, ?_⟩
      have hil := (List.getElem?_eq_some_iff.1 hr).1
      rw [List.getElem?_zip_eq_some]
      exact ⟨by rw [List.getElem?_range hil], hr⟩)
    obtain ⟨g1, g2, g3⟩ := s4 _ _ _ hm
    exact reflection_read hn hr rfl g1 g2 g3

/-- the wavelength -/
theorem wave_read {K : Nat → Prop} {s : H5} {E : Str} {wl : PyFloat} {m b : Nat} (hm : H5.walk s 0 [E, p!"instrument", p!"monochromator"] = some m)
    (hb : H5.walk s 0 [E, p!"sample"] = some b) (h : WaveAt K s E wl m b) : WavelengthAt s E wl := by
  obtain ⟨L, chb, bm, -, h2, -, h4, -, h6, h7, -, h9⟩ := h
  have w1 : H5.walk s 0 [E, p!"instrument", p!"monochromator", p!"wavelength"] = some L :=
    (walk_more (P := [E, p!"instrument", p!"monochromator"]) hm h2 p!"wavelength").trans rfl
  have w2 : H5.walk s 0 [E, p!"sample", p!"beam"] = some bm := (walk_more (P := [E, p!"sample"]) hb h6 p!"beam").trans h7
  have w3 : H5.walk s 0 [E, p!"sample", p!"beam", p!"incident_wavelength"] = some L :=
    (walk_more (P := [E, p!"sample", p!"beam"]) w2 h9 p!"incident_wavelength").trans rfl
  exact ⟨grp_of_walk hm h2, ds_of_walk w1 h4, grp_of_walk w2 h9, L, w3, w1⟩

/-- C86: the diffractometer that was found for the #G lines of a scan, its name, its parameters, the lattice, the orientation
matrix and reflections and the wavelength are in the groups `instrument` and `sample` of its entry.  Without #G lines there is
nothing of it. -/
theorem C86_diffractometer {env : Env} {reg : List HKey} (hr : reg.Perm HKey.all) (hx : SchemaNames env) {v : Versions}
    {ks : List Ref} {s : Sdf} {r : SState} (hs : Savable s) (hk : ∀ k ∈ ks, PlainText k.text)
    (h : save env reg v ks s = (r, none)) {k : Ref} (hm : k ∈ ks) {z : Obj} (hz : r.sdf.getScan k = .ok (some z))
    {t c : Option SVal} (ht : t = (z.tempSP <|> (r.sdf.headerOf z).tempSP)) (hc : c = (z.degcSP <|> (r.sdf.headerOf z).degcSP)) :
    (z.G.getD [] ≠ [] → ∃ d, z.diff = some d ∧ DiffractometerAt r.h5 (entryName k) d ∧
      (sampleNames d ≠ [] → SampleAt r.h5 (entryName k) d (t.isSome || c.isSome)) ∧
      (sampleNames d = [] → objAt r.h5 [entryName k, p!"sample"] = none) ∧
      (∀ wl, d.wavelength = some wl → WavelengthAt r.h5 (entryName k) wl) ∧
      (d.wavelength = none → objAt r.h5 [entryName k, p!"instrument", p!"monochromator"] = none)) ∧
    (z.G.getD [] = [] → objAt r.h5 [entryName k, p!"sample"] = none ∧
      ∀ n ∈ [p!"name", p!"geometry_parameters", p!"diffractometer", p!"monochromator"],
        objAt r.h5 [entryName k, p!"instrument", n] = none) := by
  obtain ⟨e, chE, w, K, vv, u, ⟨⟨g1, g2, g3, g4⟩, hT, hD, hN, hS, hE, hI⟩⟩ := sam_of hr hx hs hk h hm hz ht hc
  have no : ∀ {P : List Str}, H5.walk r.h5 0 P = none → objAt r.h5 P = none := by
    intro P q
    unfold objAt; rw [q]
  have hsam : H5.walk r.h5 0 [entryName k, p!"sample"] = vv sam := hE sam (.inl rfl)
  constructor
  · intro hG
    obtain ⟨d, d1, d2, hn⟩ := hS hG
    obtain ⟨g, k1, k2, ⟨⟨j, j1, -, j3⟩, k3, k4, k5, k6, k7, k8⟩, k9⟩ := g4 d d2
    have hlog : w.logged = (t.isSome || c.isSome) := by unfold GeoW.logged; rw [hT, hD]
    have wg : H5.walk r.h5 0 [entryName k, p!"instrument", p!"geometry_parameters"] = some g := (hI gpN (.inr (.inl rfl))).trans k3
    obtain ⟨f1, f2, f3⟩ := grp_read wg k4
    have hnd : (Dict.keys (gparSets d)).Nodup := by
      have : Dict.keys (gparSets d) = d.gpar.keys := by unfold gparSets Dict.keys; rw [List.map_map]; rfl
      rw [this]; exact hn.distinct
    rw [puts_id hnd] at f2 f3
    refine ⟨d, d1, ⟨ds_of_walk ((hI p!"name" (.inl rfl)).trans j1) j3, f1, ⟨g, (hI diffN (.inr (.inr (.inl rfl)))).trans k2, wg⟩, ?_, fun n x hx => ?_⟩,
      fun hne => ?_, fun he => ?_, fun wl hwl => ?_, fun he => no ((hI mono (.inr (.inr (.inr rfl)))).trans (k7 he))⟩
    · rw [f2]
      unfold gparSets Dict.keys
      rw [List.map_map]; rfl
    · rw [← param_eq, ← desc_eq]
      exact (f3 n).trans (get?_of_mem_nodup hnd (List.mem_map.2 ⟨_, hx, rfl⟩))
    · rw [← hlog]
      cases hM : finMembers (entryName k) w d with
      | none =>
        exfalso
        unfold finMembers at hM
        split at hM
        · cases hM
        · exact hne ((members_none _ _).1 hM)
      | some M =>
        obtain ⟨b, b1, b2⟩ := k6 M hM
        exact sample_read hn (hsam.trans b1) hM b2
    · refine no (hsam.trans (k5 ?_))
      unfold finMembers
      have h0 : samMembers (entryName k) d = none := (members_none _ _).2 he
      cases hq : w.logged with
      | true => exact absurd h0 (k9 hq).1
      | false => exact h0
    · obtain ⟨m, b, b1, b2, b3⟩ := k8 wl hwl
      exact wave_read ((hI mono (.inr (.inr (.inr rfl)))).trans b1) (hsam.trans b2) b3
  · intro hG
    obtain ⟨q1, q2, -⟩ := g3 (hN hG)
    refine ⟨no (hsam.trans q1), fun n hn => ?_⟩
    have hX : SamXI n := by
      simp only [List.mem_cons, List.not_mem_nil, or_false] at hn
      exact hn
    exact no ((hI n hX).trans (q2 n hX))

/-- C87: the set points of the temperature, those of the scan or else those of the header, are in its entry, and in the
group `sample` of the diffractometer: a scan with set points but without #G lines cannot be saved. -/
theorem C87_temperature {env : Env} {reg : List HKey} (hr : reg.Perm HKey.all) (hx : SchemaNames env) {v : Versions}
    {ks : List Ref} {s : Sdf} {r : SState} (hs : Savable s) (hk : ∀ k ∈ ks, PlainText k.text)
    (h : save env reg v ks s = (r, none)) {k : Ref} (hm : k ∈ ks) {z : Obj} (hz : r.sdf.getScan k = .ok (some z))
    {t c : Option SVal} (ht : t = (z.tempSP <|> (r.sdf.headerOf z).tempSP)) (hc : c = (z.degcSP <|> (r.sdf.headerOf z).degcSP)) :
    TemperatureAt r.h5 (entryName k) t c ∧ (t ≠ none ∨ c ≠ none → z.G.getD [] ≠ []) := by
  obtain ⟨e, chE, w, K, vv, u, ⟨⟨g1, g2, g3, g4⟩, hT, hD, hN, hS, hE, hI⟩⟩ := sam_of hr hx hs hk h hm hz ht hc
  have no : ∀ {P : List Str}, H5.walk r.h5 0 P = none → objAt r.h5 P = none := by
    intro P q
    unfold objAt; rw [q]
  have hsam : H5.walk r.h5 0 [entryName k, p!"sample"] = vv sam := hE sam (.inl rfl)
  have hlog : (t ≠ none ∨ c ≠ none) ↔ w.logged = true := by
    unfold GeoW.logged; rw [hT, hD]
    cases t <;> cases c <;> simp
  have hG : t ≠ none ∨ c ≠ none → z.G.getD [] ≠ [] := by
    intro q hG
    have := (g3 (hN hG)).2.2
    rw [hlog.1 q] at this; cases this
  rw [hT] at g1
  rw [hD] at g2
  have main : t ≠ none ∨ c ≠ none → ∃ d M b chb tg cht, finMembers (entryName k) w d = some M ∧ vv sam = some b ∧ SamIn K r.h5 b M ∧
      r.h5[b]? = some (.group chb samAttrs) ∧ chb.get? p!"temperature" = some tg ∧ r.h5[tg]? = some (.group cht logAttrs) ∧
      (∀ x, t = some x → cht.get? p!"target_value" = vv p!"TEMP_SP") ∧ (∀ x, c = some x → cht.get? p!"value" = vv p!"DEGC_SP") := by
    intro q
    obtain ⟨d, d1, d2, hn⟩ := hS (hG q)
    obtain ⟨g, k1, k2, ⟨-, k3, k4, k5, k6, k7, k8⟩, k9⟩ := g4 d d2
    obtain ⟨-, b, chb, tg, cht, l1, l2, l3, l4, l5, l6, l7, l8⟩ := k9 (hlog.1 q)
    obtain ⟨M, hM⟩ : ∃ M, finMembers (entryName k) w d = some M := by unfold finMembers; rw [hlog.1 q]; exact ⟨_, rfl⟩
    obtain ⟨b', m1, m2⟩ := k6 M hM
    rw [l1] at m1
    injection m1 with m1
    subst m1
    rw [hT] at l7
    rw [hD] at l8
    exact ⟨d, M, b, chb, tg, cht, hM, l1, m2, l3, l4, l6, l7, l8⟩
  have tgt : ∀ {b chb tg cht} {n : Str} {i : Nat}, vv sam = some b → r.h5[b]? = some (.group chb samAttrs) → chb.get? p!"temperature" = some tg →
      r.h5[tg]? = some (.group cht logAttrs) → cht.get? n = some i →
      H5.walk r.h5 0 [entryName k, p!"sample", p!"temperature", n] = some i := by
    intro b chb tg cht n i q1 q2 q3 q4 q5
    have := (walk_more (P := [entryName k, p!"sample"]) (hsam.trans q1) q2 p!"temperature").trans q3
    exact (walk_more (P := [entryName k, p!"sample", p!"temperature"]) this q4 n).trans q5
  refine ⟨⟨fun x hx => ?_, fun x hx => ?_, fun q => no ((hE p!"TEMP_SP" (.inr (.inl rfl))).trans (g1.1 q)),
    fun q => no ((hE p!"DEGC_SP" (.inr (.inr (.inl rfl)))).trans (g2.1 q)), fun q => ?_, fun q1 q2 => ?_⟩, hG⟩
  · obtain ⟨i, i1, -, i3⟩ := g1.2 x hx
    obtain ⟨d, M, b, chb, tg, cht, m1, m2, m3, m4, m5, m6, m7, m8⟩ := main (.inl (by rw [hx]; simp))
    have hw := (hE p!"TEMP_SP" (.inr (.inl rfl))).trans i1
    refine ⟨?_, i, tgt m2 m4 m5 m6 ((m7 x hx).trans i1), hw⟩
    rw [← point_eq]
    exact ds_of_walk hw i3
  · obtain ⟨i, i1, -, i3⟩ := g2.2 x hx
    obtain ⟨d, M, b, chb, tg, cht, m1, m2, m3, m4, m5, m6, m7, m8⟩ := main (.inr (by rw [hx]; simp))
    have hw := (hE p!"DEGC_SP" (.inr (.inr (.inl rfl)))).trans i1
    refine ⟨?_, i, tgt m2 m4 m5 m6 ((m8 x hx).trans i1), hw⟩
    rw [← point_eq]
    exact ds_of_walk hw i3
  · obtain ⟨d, M, b, chb, tg, cht, m1, m2, m3, m4, m5, m6, m7, m8⟩ := main q
    obtain ⟨-, -, -, s4⟩ := sam_read (hsam.trans m2) m3
    have hin : (p!"temperature", Content.grp (logSets (entryName k) w) logAttrs) ∈ M := by
      unfold finMembers at m1
      rw [hlog.1 q] at m1
      injection m1 with m1
      rw [← m1]; simp
    obtain ⟨f1, f2, -⟩ := s4 _ _ _ hin
    refine ⟨f1, ?_⟩
    refine Eq.trans f2 ?_
    unfold logSets
    rw [hT, hD]
    cases t <;> cases c <;> rfl
  · have hl : w.logged = false := by
      unfold GeoW.logged; rw [hT, hD, q1, q2]; rfl
    refine no ?_
    by_cases hg : z.G.getD [] = []
    · show H5.walk r.h5 0 ([entryName k, p!"sample"] ++ [p!"temperature"]) = none
      rw [walk_append, hsam, (g3 (hN hg)).1]; rfl
    · obtain ⟨d, d1, d2, hn⟩ := hS hg
      obtain ⟨g, k1, k2, ⟨-, k3, k4, k5, k6, k7, k8⟩, k9⟩ := g4 d d2
      cases hM : finMembers (entryName k) w d with
      | none =>
        show H5.walk r.h5 0 ([entryName k, p!"sample"] ++ [p!"temperature"]) = none
        rw [walk_append, hsam, k5 hM]; rfl
      | some M =>
        obtain ⟨b, b1, b2⟩ := k6 M hM
        have b3 := b2
        obtain ⟨-, ch, c1, -⟩ := b2
        have hkeys := b3.keys c1
        refine (walk_more (P := [entryName k, p!"sample"]) (hsam.trans b1) c1 p!"temperature").trans ?_
        rw [Dict.get?_eq_none_iff, hkeys]
        have : M = (samMembers (entryName k) d).getD [] := by
          unfold finMembers at hM
          rw [hl] at hM
          replace hM : samMembers (entryName k) d = some M := hM
          rw [hM]; rfl
        rw [this]
        intro hc
        unfold samMembers at hc
        rcases mem_addTo hc with hc | hc
        · rcases first_names d _ hc with q | ⟨i, q⟩
          · exact absurd q (by decide)
          · have : some 't' = some 'o' := congrArg List.head? q
            cases this
        · cases hq : d.wavelength with
          | none => rw [hq] at hc; cases hc
          | some wl =>
            rw [hq] at hc
            simp only [Option.map_some, Option.getD_some, List.map_cons, List.map_nil, List.mem_singleton] at hc
            exact absurd hc (by decide : ¬ p!"temperature" = p!"beam")

end S2N.Props
