import Verif.Lemmas.ZoneFlat
/-
The group of the positioners: one group for each positioner.
-/
namespace S2N
open Py H5 Eznx Writer Spec

/-- the group `j` of a positioner -/
def PosNode (s : H5) (name : Str) (p : PyFloat × Dict AVal) (j : Nat) : Prop :=
  ∃ k1 k2, s[j]? = some (.group [(p!"name", k1), (p!"value", k2)] [(p!"NX_class", .str p!"NXpositioner")]) ∧
    s[k1]? = some (.dset (.text [ascii name]) p.2) ∧ s[k2]? = some (.dset (oneF p.1) p.2)

/-- the tree of the positioners `M` below the group `b` -/
structure PosIn (b : Nat) (A : Dict AVal) (M : Dict (PyFloat × Dict AVal)) (s : H5) : Prop where
  sound : Sound b s
  tree : ∃ ch, s[b]? = some (.group ch A) ∧ (Dict.keys ch).Nodup ∧ (ch.map (·.2)).Nodup ∧ b ∉ ch.map (·.2) ∧
    List.Forall₂ (fun (q : Str × Nat) (p : Str × (PyFloat × Dict AVal)) => q.1 = p.1 ∧ PosNode s p.1 p.2 q.2) ch M

theorem forall2_mem {α β : Type} {R R' : α → β → Prop} : ∀ {l : List α} {m : List β}, List.Forall₂ R l m →
    (∀ q ∈ l, ∀ p, R q p → R' q p) → List.Forall₂ R' l m
  | _, _, .nil, _ => .nil
  | _ :: _, _ :: _, .cons h1 h2, ho =>
    .cons (ho _ (List.mem_cons_self ..) _ h1) (forall2_mem h2 fun q hq p => ho q (List.mem_cons_of_mem _ hq) p)

theorem forall2_setR {α β : Type} {R R' : Str × α → Str × β → Prop} (hk : ∀ q p, R q p → q.1 = p.1) {N : Str} {j : α} {x : β} :
    ∀ {ch : Dict α} {M : Dict β}, List.Forall₂ R ch M → (Dict.keys ch).Nodup → ch.get? N = some j →
      (∀ q ∈ ch, ∀ p, q.1 ≠ N → R q p → R' q p) → R' (N, j) (N, x) → List.Forall₂ R' ch (M.set N x)
  | _, _, .nil, _, h, _, _ => by cases h
  | (n, i) :: ch, (m, y) :: M, .cons h1 h2, hd, h, ho, hn => by
    have e := hk _ _ h1
    simp only at e
    subst e
    rw [Dict.keys, List.map_cons, List.nodup_cons] at hd
    rw [Dict.get?_cons] at h
    by_cases q : n = N
    · subst q
      rw [if_pos rfl] at h
      injection h with h
      subst h
      rw [Dict.set, if_pos rfl]
      refine .cons hn ?_
      refine forall2_mem h2 fun q hq p => ho q (List.mem_cons_of_mem _ hq) p ?_
      intro e
      exact hd.1 (List.mem_map.2 ⟨q, hq, e⟩)
    · rw [if_neg q] at h
      rw [Dict.set, if_neg q]
      exact .cons (ho _ (List.mem_cons_self ..) _ q h1) (forall2_setR hk h2 hd.2 h (fun q hq p => ho q (List.mem_cons_of_mem _ hq) p) hn)

theorem forall2_get {α β : Type} {R : Str × α → Str × β → Prop} (hk : ∀ q p, R q p → q.1 = p.1) {N : Str} {j : α} :
    ∀ {ch : Dict α} {M : Dict β}, List.Forall₂ R ch M → ch.get? N = some j → ∃ x, R (N, j) (N, x)
  | _, _, .nil, h => by cases h
  | (n, i) :: ch, (m, y) :: M, .cons h1 h2, h => by
    have e := hk _ _ h1
    simp only at e
    subst e
    rw [Dict.get?_cons] at h
    by_cases q : n = N
    · subst q
      rw [if_pos rfl] at h
      injection h with h
      subst h
      exact ⟨y, h1⟩
    · rw [if_neg q] at h
      exact forall2_get hk h2 h

theorem nodup_snd {ch : Dict Nat} (h : (ch.map (·.2)).Nodup) {n m : Str} {i : Nat} (h1 : (n, i) ∈ ch) (h2 : (m, i) ∈ ch) : n = m := by
  induction ch with
  | nil => cases h1
  | cons q ch ih =>
    rw [List.map_cons, List.nodup_cons] at h
    rcases List.mem_cons.1 h1 with e1 | e1 <;> rcases List.mem_cons.1 h2 with e2 | e2
    · rw [← e1] at e2; injection e2 with e2 _; exact e2.symm
    · exact absurd (List.mem_map.2 ⟨_, e2, by rw [← e1]⟩) h.1
    · exact absurd (List.mem_map.2 ⟨_, e1, by rw [← e2]⟩) h.1
    · exact ih h.2 e1 e2

/-- the two datasets of a positioner -/
theorem pos_two {s s' : H5} {g : HRef} {ch : Dict Nat} {a A : Dict AVal} {name : Str} {v : PyFloat} {r : Unit}
    (hg : s[g.id]? = some (.group ch a)) (hc : ch = [] ∨ ∃ k1 k2, ch = [(p!"name", k1), (p!"value", k2)])
    (hA : Dict.update [] A = A)
    (hw : (do
      let _ ← writeDataset g p!"name" (.str name) A
      let _ ← writeDataset g p!"value" (one v) A
      pure () : HM Unit) s = (s', .ok r)) :
    s'[g.id]? = some (.group [(p!"name", s.length), (p!"value", s.length + 1)] a) ∧ s'.length = s.length + 2 ∧
      s'[s.length]? = some (.dset (.text [ascii name]) A) ∧ s'[s.length + 1]? = some (.dset (oneF v) A) ∧
      ∀ i, i ≠ g.id → i < s.length → s'[i]? = s[i]? := by
  have hgl := lt_of_get? hg
  have hs1 : Single p!"name" := (by decide : Plain p!"name").single
  have hs2 : Single p!"value" := (by decide : Plain p!"value").single
  have hd : (Dict.keys ch).Nodup := by
    rcases hc with rfl | ⟨k1, k2, rfl⟩
    · exact List.nodup_nil
    · show List.Nodup [p!"name", p!"value"]
      decide
  obtain ⟨s1, _, w1, w2⟩ := HM.bind_inv hw
  obtain ⟨s2, _, w3, w4⟩ := HM.bind_inv w2
  obtain ⟨-, rfl⟩ := HM.pure_inv w4
  rw [writeDataset_eq hg hd hs1 (v := .text [ascii name]) rfl] at w1
  injection w1 with w1 _
  have hA1 : Dict.update [] (noteAttrs (.str name) A) = A := hA
  have hA2 : Dict.update [] (noteAttrs (one v) A) = A := hA
  rw [hA1] at w1
  have g1 := get?_set_snoc hgl (.group ((ch.del p!"name").set p!"name" s.length) a) (.dset (.text [ascii name]) A)
  have l1 : s1.length = s.length + 1 := by rw [← w1]; simp
  rw [w1] at g1
  have hg1 : s1[g.id]? = some (.group ((ch.del p!"name").set p!"name" s.length) a) := by rw [g1, if_pos rfl]
  rw [writeDataset_eq hg1 (del_set_nodup hd) hs2 (v := oneF v) rfl] at w3
  injection w3 with w3 _
  rw [hA2] at w3
  have g2 := get?_set_snoc (lt_of_get? hg1) (.group ((((ch.del p!"name").set p!"name" s.length).del p!"value").set p!"value" s1.length) a)
    (.dset (oneF v) A)
  have l2 : s'.length = s1.length + 1 := by rw [← w3]; simp
  rw [w3] at g2
  have hch : ((((ch.del p!"name").set p!"name" s.length).del p!"value").set p!"value" s1.length) =
      [(p!"name", s.length), (p!"value", s.length + 1)] := by
    rw [l1]
    rcases hc with rfl | ⟨k1, k2, rfl⟩
    · rfl
    · rfl
  refine ⟨by rw [g2, if_pos rfl, hch], by omega, ?_, ?_, ?_⟩
  · rw [g2, if_neg (by omega), if_neg (by omega), g1, if_neg (by omega), if_pos rfl]
  · rw [g2, if_neg (by omega), if_pos l1.symm]
  · intro i h1 h2
    rw [g2, if_neg h1, if_neg (by omega), g1, if_neg h1, if_neg (by omega)]

theorem mneAttr_cases {xref : Option (Dict Str)} {i : Nat} {mne : Dict AVal} (h : mneAttr xref i = .ok mne) :
    mne = [] ∨ ∃ m, mne = [(p!"spec_mne", .str m)] := by
  unfold mneAttr at h
  cases xref with
  | none => injection h with h; exact .inl h.symm
  | some d =>
    simp only at h
    cases hk : d.keys[i]? with
    | none => rw [hk] at h; cases h
    | some m => rw [hk] at h; injection h with h; exact .inr ⟨m, h.symm⟩

variable [UniDB]

/-- one positioner -/
theorem PosIn.step {b : Nat} {A : Dict AVal} {M : Dict (PyFloat × Dict AVal)} {s s' : H5} (h : PosIn b A M s) {g : HRef}
    (hg : g.id = b) {xref : Option (Dict Str)} {p : Nat × Str × PyFloat} {r : Unit} (hw : wPositioner g xref p s = (s', .ok r)) :
    ∃ name mne, cleanName p.2.1 = .ok name ∧ mneAttr xref p.1 = .ok mne ∧
      PosIn b A (M.set name (p.2.2, (p!"spec_name", .str p.2.1) :: mne)) s' ∧ s.length ≤ s'.length ∧
      ∀ i, i < b → s'[i]? = s[i]? := by
  unfold wPositioner at hw
  obtain ⟨name, hn, w1⟩ := HM.bind_lift_inv hw
  obtain ⟨s1, pg, w2, w3⟩ := HM.bind_inv w1
  obtain ⟨mne, hm, w4⟩ := HM.bind_lift_inv w3
  refine ⟨name, mne, hn, hm, ?_⟩
  have hs := clean_single hn
  obtain ⟨ch, h1, h2, h3, h4, h5⟩ := h.tree
  have h1' : s[g.id]? = some (.group ch A) := by rw [hg]; exact h1
  have hbl := lt_of_get? h1
  have hA : Dict.update [] ((p!"spec_name", AVal.str p.2.1) :: mne) = (p!"spec_name", .str p.2.1) :: mne := by
    rcases mneAttr_cases hm with rfl | ⟨m, rfl⟩ <;> rfl
  have hkeys : ∀ q : Str × Nat, ∀ x : Str × (PyFloat × Dict AVal), q.1 = x.1 ∧ PosNode s x.1 x.2 q.2 → q.1 = x.1 := fun _ _ h => h.1
  cases hf : ch.has name with
  | false =>
    have hnm : name ∉ Dict.keys ch := (Dict.not_has_iff _ _).1 hf
    rw [openGroup_new h1' hs hf, makeGroup_eq h1' hs hf, Dict.update_nil] at w2
    injection w2 with w2 wr
    injection wr with wr
    have g1 := get?_set_snoc (by rw [hg]; exact hbl) (.group (ch.set name s.length) A)
      (.group [] [(p!"NX_class", AVal.str p!"NXpositioner")]) (k := g.id) (s := s)
    have l1 : s1.length = s.length + 1 := by rw [← w2]; simp
    rw [w2, hg] at g1
    have hid : pg.id = s.length := by rw [← wr]
    obtain ⟨k1, k2, k3, k4, k5⟩ := pos_two (g := pg) (s := s1) (by rw [hid, g1, if_neg (by omega), if_pos rfl]) (.inl rfl) hA w4
    have hsame : ∀ i, i ≠ b → i < s.length → s'[i]? = s[i]? := by
      intro i q1 q2
      rw [k5 i (by omega) (by omega), g1, if_neg q1, if_neg (by omega)]
    have hb' : s'[b]? = some (.group (ch.set name s.length) A) := by
      rw [k5 b (by omega) (by omega), g1, if_pos rfl]
    rw [Dict.set_of_not_mem _ _ _ hnm] at hb'
    have hnd : (Dict.keys (ch ++ [(name, s.length)])).Nodup := by
      rw [← Dict.set_of_not_mem _ _ _ hnm]
      exact Dict.nodup_keys_set _ _ _ h2
    refine ⟨⟨?_, ch ++ [(name, s.length)], hb', ?_, ?_, ?_, ?_⟩, by omega, fun i hi => hsame i (by omega) (by omega)⟩
    · intro i chi a hi e
      by_cases q1 : i = b
      · subst q1
        rw [hb'] at e
        injection e with e
        injection e with e _
        subst e
        refine ⟨hnd, ?_⟩
        intro n j hj
        rw [List.mem_append] at hj
        rcases hj with hj | hj
        · have := (h.sound i ch A (Nat.le_refl _) h1).2 n j hj
          omega
        · simp only [List.mem_cons, List.not_mem_nil, or_false, Prod.mk.injEq] at hj
          omega
      · by_cases q2 : i < s.length
        · rw [hsame i q1 q2] at e
          have := h.sound i chi a hi e
          exact ⟨this.1, fun n j hj => by have := this.2 n j hj; omega⟩
        · have hil := lt_of_get? e
          have hi3 : i = s.length ∨ i = s.length + 1 ∨ i = s.length + 2 := by omega
          rcases hi3 with rfl | rfl | rfl
          · rw [← hid, k1] at e
            injection e with e
            injection e with e _
            subst e
            refine ⟨by show List.Nodup [p!"name", p!"value"]; decide, ?_⟩
            intro n j hj
            simp only [List.mem_cons, List.not_mem_nil, or_false, Prod.mk.injEq] at hj
            omega
          · rw [← l1, k3] at e; cases e
          · rw [show s.length + 2 = s1.length + 1 by omega, k4] at e; cases e
    · exact hnd
    · rw [List.map_append]
      refine List.Nodup.append h3 (List.nodup_singleton _) ?_
      intro j hj hj'
      simp only [List.map_cons, List.map_nil, List.mem_cons, List.not_mem_nil, or_false] at hj'
      obtain ⟨⟨n, i⟩, hq, rfl⟩ := List.mem_map.1 hj
      have := (h.sound b ch A (Nat.le_refl _) h1).2 n i hq
      simp only at hj'
      omega
    · rw [List.map_append, List.mem_append]
      rintro (q | q)
      · exact h4 q
      · simp only [List.map_cons, List.map_nil, List.mem_cons, List.not_mem_nil, or_false] at q
        omega
    · have hkM : Dict.keys ch = Dict.keys M := by
        clear * - h5
        induction h5 with
        | nil => rfl
        | cons a _ ih => simp only [Dict.keys, List.map_cons] at ih ⊢; rw [a.1, ih]
      rw [Dict.set_of_not_mem M _ _ (hkM ▸ hnm)]
      refine List.rel_append (forall2_mem h5 ?_) (.cons ⟨rfl, s.length + 1, s.length + 2, ?_, ?_, ?_⟩ .nil)
      · rintro ⟨n, i⟩ hq ⟨m, x⟩ ⟨e0, j1, j2, e1, e2, e3⟩
        have hne : ∀ j, (∃ y, s[j]? = some y ∧ (j = i ∨ ∃ d a, y = HNode.dset d a)) → s'[j]? = s[j]? := by
          rintro j ⟨y, hy, hj⟩
          refine hsame j ?_ (lt_of_get? hy)
          rintro rfl
          rcases hj with rfl | ⟨d, a, rfl⟩
          · exact h4 (List.mem_map_of_mem hq)
          · rw [h1] at hy; cases hy
        exact ⟨e0, j1, j2, (hne _ ⟨_, e1, .inl rfl⟩).trans e1, (hne _ ⟨_, e2, .inr ⟨_, _, rfl⟩⟩).trans e2,
          (hne _ ⟨_, e3, .inr ⟨_, _, rfl⟩⟩).trans e3⟩
      · rw [hid, l1] at k1
        exact k1
      · rw [← l1, k3]
      · rw [show s.length + 2 = s1.length + 1 by omega, k4]
  | true =>
    obtain ⟨j, hj⟩ : ∃ j, ch.get? name = some j := by
      unfold Dict.has at hf
      exact Option.isSome_iff_exists.1 hf
    have hjm : (name, j) ∈ ch := Dict.mem_of_get? hj
    have hjb : j ≠ b := fun q => h4 (q ▸ List.mem_map_of_mem (f := fun q : Str × Nat => q.2) hjm)
    obtain ⟨x, -, j1, j2, e1, e2, e3⟩ := forall2_get hkeys h5 hj
    rw [openGroup_old h1' hs hj e1, Dict.update_nil, HNode.withAttrs_self, set_same e1] at w2
    injection w2 with w2 wr
    injection wr with wr
    subst w2
    have hid : pg.id = j := by rw [← wr]
    obtain ⟨k1, k2, k3, k4, k5⟩ := pos_two (g := pg) (s := s) (by rw [hid]; exact e1) (.inr ⟨_, _, rfl⟩) hA w4
    rw [hid] at k1 k5
    have hb' := (k5 b (Ne.symm hjb) hbl).trans h1
    have hbj := (h.sound b ch A (Nat.le_refl _) h1).2 _ _ hjm
    refine ⟨⟨?_, ch, hb', h2, h3, h4, ?_⟩, by omega, fun i hi => k5 i (by omega) (by omega)⟩
    · intro i chi a hi e
      by_cases q1 : i = j
      · subst q1
        rw [k1] at e
        injection e with e
        injection e with e _
        subst e
        refine ⟨by show List.Nodup [p!"name", p!"value"]; decide, ?_⟩
        intro n j hj
        simp only [List.mem_cons, List.not_mem_nil, or_false, Prod.mk.injEq] at hj
        omega
      · by_cases q2 : i < s.length
        · rw [k5 i q1 q2] at e
          have := h.sound i chi a hi e
          exact ⟨this.1, fun n j hj => by have := this.2 n j hj; omega⟩
        · have hil := lt_of_get? e
          have hi3 : i = s.length ∨ i = s.length + 1 := by omega
          rcases hi3 with rfl | rfl
          · rw [k3] at e; cases e
          · rw [k4] at e; cases e
    · refine forall2_setR hkeys h5 h2 hj ?_ ⟨rfl, s.length, s.length + 1, k1, k3, k4⟩
      rintro ⟨n, i⟩ hq ⟨m, y⟩ hn ⟨e0, i1, i2, f1, f2, f3⟩
      have hij : i ≠ j := by
        rintro rfl
        have := nodup_snd h3 hq hjm
        exact hn this
      have hd : ∀ (k : Nat) d a, s[k]? = some (HNode.dset d a) → s'[k]? = s[k]? := by
        intro k d a q
        refine k5 k ?_ (lt_of_get? q)
        rintro rfl
        rw [e1] at q; cases q
      exact ⟨e0, i1, i2, (k5 i hij (lt_of_get? f1)).trans f1, (hd _ _ _ f2).trans f2, (hd _ _ _ f3).trans f3⟩

/-- the names and contents of the groups of the positioners -/
def posTable (xref : Option (Dict Str)) : List (Nat × Str × PyFloat) → Dict (PyFloat × Dict AVal) → Dict (PyFloat × Dict AVal) → Prop
  | [], M, M' => M' = M
  | p :: l, M, M' => ∃ name mne, cleanName p.2.1 = .ok name ∧ mneAttr xref p.1 = .ok mne ∧
      posTable xref l (M.set name (p.2.2, (p!"spec_name", .str p.2.1) :: mne)) M'

theorem PosIn.each {b : Nat} {A : Dict AVal} {g : HRef} (hg : g.id = b) {xref : Option (Dict Str)} :
    ∀ (l : List (Nat × Str × PyFloat)) {M : Dict (PyFloat × Dict AVal)} {s s' : H5}, PosIn b A M s →
      HM.each (wPositioner g xref) l s = (s', .ok ()) →
      ∃ M', posTable xref l M M' ∧ PosIn b A M' s' ∧ s.length ≤ s'.length ∧ ∀ i, i < b → s'[i]? = s[i]?
  | [], M, s, s', h, hw => by
    obtain ⟨-, rfl⟩ := HM.ret_inv hw
    exact ⟨M, rfl, h, Nat.le_refl _, fun _ _ => rfl⟩
  | p :: l, M, s, s', h, hw => by
    obtain ⟨s1, w1, w2⟩ := HM.each_inv_cons hw
    obtain ⟨name, mne, h1, h2, h3, h4, h5⟩ := h.step hg w1
    obtain ⟨M', k1, k2, k3, k4⟩ := PosIn.each hg l h3 w2
    exact ⟨M', ⟨name, mne, h1, h2, k1⟩, k2, Nat.le_trans h4 k3, fun i hi => (k4 i hi).trans (h5 i hi)⟩

/-- the group `b` of the positioners `M`, all of whose objects are protected -/
def PosAt (K : Nat → Prop) (s : H5) (b : Nat) (A : Dict AVal) (M : Dict (PyFloat × Dict AVal)) : Prop :=
  K b ∧ ∃ ch, s[b]? = some (.group ch A) ∧ (Dict.keys ch).Nodup ∧
    List.Forall₂ (fun (q : Str × Nat) (p : Str × (PyFloat × Dict AVal)) => q.1 = p.1 ∧ K q.2 ∧ q.2 ≠ b ∧ ∃ k1 k2, K k1 ∧ K k2 ∧
      s[q.2]? = some (.group [(p!"name", k1), (p!"value", k2)] [(p!"NX_class", .str p!"NXpositioner")]) ∧
      s[k1]? = some (.dset (.text [ascii p.1]) p.2.2) ∧ s[k2]? = some (.dset (oneF p.2.1) p.2.2)) ch M

omit [UniDB] in
theorem PosAt.keep {K K' : Nat → Prop} {s s' : H5} {b : Nat} {A A' : Dict AVal} {M : Dict (PyFloat × Dict AVal)} (h : PosAt K s b A M)
    (hK : ∀ i, K i → K' i) (hs : ∀ i, K i → i ≠ b → s'[i]? = s[i]?)
    (hb : ∀ ch, s[b]? = some (.group ch A) → s'[b]? = some (.group ch A')) : PosAt K' s' b A' M := by
  obtain ⟨h1, ch, h2, h3, h4⟩ := h
  refine ⟨hK _ h1, ch, hb ch h2, h3, h4.imp ?_⟩
  rintro q p ⟨e1, e2, e2', k1, k2, e3, e4, e5, e6, e7⟩
  have hd : ∀ (k : Nat) d a, K k → s[k]? = some (HNode.dset d a) → s'[k]? = s[k]? := by
    intro k d a hk q
    refine hs k hk ?_
    rintro rfl
    rw [h2] at q; cases q
  exact ⟨e1, hK _ e2, e2', k1, k2, hK _ e3, hK _ e4, (hs _ e2 e2').trans e5, (hd _ _ _ e3 e6).trans e6, (hd _ _ _ e4 e7).trans e7⟩

omit [UniDB] in
theorem PosIn.to {b : Nat} {A : Dict AVal} {M : Dict (PyFloat × Dict AVal)} {s : H5} (h : PosIn b A M s) {K : Nat → Prop}
    (hK : ∀ i, b ≤ i → i < s.length → K i) : PosAt K s b A M := by
  obtain ⟨ch, h1, h2, h3, h4, h5⟩ := h.tree
  refine ⟨hK _ (Nat.le_refl _) (lt_of_get? h1), ch, h1, h2, forall2_mem h5 ?_⟩
  rintro ⟨n, i⟩ hq p ⟨e1, k1, k2, e2, e3, e4⟩
  have g1 := (h.sound b ch A (Nat.le_refl _) h1).2 n i hq
  have g2 := (h.sound _ _ _ g1.1 e2).2
  have g3 := g2 p!"name" k1 (by simp)
  have g4 := g2 p!"value" k2 (by simp)
  exact ⟨e1, hK _ g1.1 g1.2, fun q => h4 (List.mem_map.2 ⟨_, hq, q⟩), k1, k2, hK _ g3.1 g3.2, hK _ g4.1 g4.2, e2, e3, e4⟩

/-- the attributes of the group of the positioners -/
def posAttrs (E : Str) (fin : Bool) : Dict AVal :=
  [(p!"NX_class", .str p!"NXnote"), (p!"description", .str p!"SPEC positioners (#P & #O lines)"),
    (p!"target", .str (p!"/" ++ E ++ (if fin then p!"/instrument/positioners" else p!"/positioners")))]

/-- what the group of the positioners shows -/
def PosΦ (E : Str) (w : Option (Dict (PyFloat × Dict AVal) × Bool)) (K : Nat → Prop) (v u : Str → Option Nat) (s : H5) : Prop :=
  match w with
  | none => v p!"positioners" = none ∧ u p!"positioners" = none
  | some (M, f) => ∃ b, v p!"positioners" = some b ∧ u p!"positioners" = some b ∧ PosAt K s b (posAttrs E f) M

theorem zoned_positioners : Zoned (fun n => n = p!"positioners") (fun n => n = p!"positioners") (fun f => f = .positioners) Always
    PosΦ (fun hdr _ x w w' => w = none ∧ ∃ M, posTable hdr.positionerXref ((List.range x.positioner.length).zip x.positioner) [] M ∧
      w' = some (M, false)) none (fun _ w => w.map fun q => (q.1, true)) where
  data := by simp
  avoids := zone_avoids (by intro f hf; cases f <;> first | exact ⟨by decide, by decide⟩ | exact absurd rfl hf) (by intro _; decide)
  step := by
    rintro f rfl c e hdr x y K v u w s s' _ _ hid hp hz hΦ hw
    obtain ⟨t, _, hb, h2⟩ := HM.andThen_inv hw
    obtain ⟨_, rfl⟩ := HM.ret_inv h2
    unfold wPositioners at hb
    obtain ⟨s1, g, w1, w2⟩ := HM.bind_inv hb
    obtain ⟨s2, _, w3, w4⟩ := HM.bind_inv w2
    obtain ⟨s3, ins, w5, w6⟩ := HM.bind_inv w4
    have hN : Plain p!"positioners" := by decide
    obtain ⟨g1, g2, g3, g4, g5, g6, -⟩ := hz.newGroup hid rfl (by decide) hN.single w1
    have hid' : g.id = s.length := by rw [g2]
    have hw0 : w = none := by
      rcases w with _ | ⟨M, f⟩
      · rfl
      · obtain ⟨b, q, -⟩ := hΦ
        rw [g1] at q; cases q
    subst hw0
    obtain ⟨M, k1, k2, k3, k4⟩ := PosIn.each (b := s.length) hid' _ (M := []) (A := Dict.update [(p!"NX_class", AVal.str containerClass)]
      (attr1 p!"description" p!"SPEC positioners (#P & #O lines)")) ⟨by
        intro i ch a hi e
        have := lt_of_get? e
        have : i = s.length := by omega
        subst this
        rw [g5] at e
        injection e with e
        injection e with e _
        subst e
        exact ⟨List.nodup_nil, fun _ _ h => by cases h⟩, [], g5, List.nodup_nil, List.nodup_nil, by simp, .nil⟩ w3
    have z2 := g6.tree g3 (.inr rfl) g4 k3 k4 k2.sound
    have p2 : PosAt (fun i => (K i ∨ i = s.length) ∨ (s.length ≤ i ∧ i < s2.length)) s2 s.length _ M := k2.to fun i h1 h2 => .inr ⟨h1, h2⟩
    obtain ⟨v3, z3, hI, hip, hv3, -, hk3, -⟩ := z2.openHub hid w5
    have hk3' : ∀ i, ((K i ∨ i = s.length) ∨ (s.length ≤ i ∧ i < s2.length)) → s3[i]? = s2[i]? := fun i hi =>
      hk3 i (z2.held.ne_entry (K := fun i => ((K i ∨ i = s.length) ∨ (s.length ≤ i ∧ i < s2.length)) ∨ _ = some i) (.inl hi))
        (z2.held.inv.lt i (.inr (.inl hi)))
    have p3 := p2.keep (s' := s3) (A' := _) (fun _ h => h) (fun i hi _ => hk3' i hi) (fun ch h => (hk3' _ p2.1).trans h)
    have p3' := p3
    obtain ⟨hK, chP, hP1, -, -⟩ := p3'
    have hvN : v3 p!"positioners" = some g.id := by rw [hv3 _ (by decide), upd_self, hid']
    obtain ⟨u1, u2, u3, -, u5⟩ := z3.linkOwn hI (by rw [hip, hp]; rfl) rfl rfl hN (by rw [g2, hp]; rfl) hvN (by rw [hid']; exact hK)
      (by rw [hid']; exact hP1) w6
    rw [hid'] at hvN u2 u3 u5
    refine ⟨_, v3, _, some (M, false), u2, ⟨s.length, hvN, upd_self .., ?_⟩, rfl, M, k1, rfl⟩
    refine p3.keep (fun _ h => h) u5 ?_
    intro ch hc
    rw [hP1] at hc
    injection hc with hc
    injection hc with hc _
    subst hc
    rw [u3]
    have hn : nameOf g = p!"/" ++ c.E ++ p!"/positioners" := by
      rw [g2]; unfold nameOf; rw [hp]; simp [join]
    rw [hn]
    rfl
  keep := by
    rintro E (_ | ⟨M, f⟩) K v v' u s s' hv hk h
    · exact ⟨(hv _ (by decide)).trans h.1, h.2⟩
    · obtain ⟨b, h1, h2, h3⟩ := h
      exact ⟨b, (hv _ (by decide)).trans h1, h2, h3.keep (fun _ h => h) (fun i hi _ => hk i hi) (fun ch h => (hk _ h3.1).trans h)⟩
  last := by
    intro c e K v u w s s' hid hp hz hΦ hw
    obtain ⟨s1, s2, hasM, hasT, a1, a2, a3⟩ := additions_parts hw
    obtain ⟨k1, l1⟩ := zone_addGeometry hz hid (by decide) (by decide) a1
    have hmid : Zone c (fun n => n = p!"positioners") (fun n => n = p!"positioners") K v u s2 ∧
        PosΦ c.E (w.map fun q => (q.1, true)) K v u s2 := by
      have hs : Single p!"positioners" := (by decide : Plain p!"positioners").single
      obtain ⟨chE, aE, e1, e2⟩ := k1.held.entry
      have e1' : s1[e.id]? = some (.group chE aE) := by rw [hid]; exact e1
      unfold addPositioners at a2
      obtain ⟨t, bo, w1, w2⟩ := HM.andThen_inv a2
      rw [contains_eq e1' hs] at w1
      injection w1 with w1 wb
      injection wb with wb
      subst w1
      have hhas : chE.has p!"positioners" = (v p!"positioners").isSome := by
        rw [Dict.has, e2 _ (.inl rfl)]
      rcases w with _ | ⟨M, f⟩
      · rw [hhas, hΦ.1] at wb
        subst wb
        obtain ⟨-, rfl⟩ := HM.ret_inv w2
        exact ⟨k1, hΦ⟩
      · obtain ⟨b, b1, b2, b3⟩ := hΦ
        rw [hhas, b1] at wb
        subst wb
        have b4 := b3.keep (s' := s1) (A' := _) (fun _ h => h) (fun i hi _ => l1 i hi) (fun ch h => (l1 _ b3.1).trans h)
        cases hI : v inst with
        | none =>
          have := k1.noHub hI p!"positioners" rfl
          rw [b2] at this; cases this
        | some I =>
          obtain ⟨-, ch1, a1', g0, g1, -⟩ := k1.hub _ hI
          have hwk : H5.walk s1 e.id [inst, p!"positioners"] = some b := by
            rw [walk_one e1' ((e2 inst (.inr rfl)).trans hI), walk_single _ g0]
            exact (g1 _ rfl).trans b2
          have hb : H5.base e p!"instrument/positioners" = e := by
            unfold H5.base; exact if_neg (by decide)
          have hc : comps p!"instrument/positioners" = [inst, p!"positioners"] := by decide
          replace w2 : HM.andThen (contains e p!"instrument/positioners") (fun b => HM.onlyIf b do
            let target ← H5.get e p!"instrument/positioners"
            setTarget target target) s1 = (s2, .ok ()) := w2
          obtain ⟨t1, bo, w3, w4⟩ := HM.andThen_inv w2
          unfold H5.contains HM.look at w3
          beta_reduce at w3
          rw [hb, hc, hwk] at w3
          injection w3 with w3 wb
          injection wb with wb
          subst w3 wb
          replace w4 : (do
            let target ← H5.get e p!"instrument/positioners"
            setTarget target target : HM Unit) s1 = (s2, .ok ()) := w4
          obtain ⟨t2, tg, c1, c2⟩ := HM.bind_inv w4
          unfold H5.get HM.lookE at c1
          beta_reduce at c1
          rw [hb, hc, hwk] at c1
          injection c1 with c1 cr
          injection cr with cr
          subst c1
          have b4' := b4
          obtain ⟨hK, chP, hP1, -, -⟩ := b4'
          have hid2 : tg.id = b := by rw [← cr]
          have hpt : nameOf tg = p!"/" ++ c.E ++ p!"/instrument/positioners" := by
            rw [← cr]; unfold nameOf; rw [hp]; simp [join, inst]
          rw [setTarget, setAttr_eq (by rw [hid2]; exact hP1)] at c2
          injection c2 with c2 _
          rw [hid2, hpt] at c2
          have hz2 := k1.retag hK hP1 ((HNode.group chP (posAttrs c.E f)).attrs.set p!"target" (.str (p!"/" ++ c.E ++ p!"/instrument/positioners")))
          rw [show s1.set b _ = s2 from c2] at hz2
          refine ⟨hz2, b, b1, b2, b4.keep (fun _ h => h) ?_ ?_⟩
          · intro i _ hi
            rw [← c2, set_get? _ _ _ _ (lt_of_get? hP1), if_neg hi]
          · intro ch hch
            rw [hP1] at hch
            injection hch with hch
            injection hch with hch _
            subst hch
            rw [← c2, set_get? _ _ _ _ (lt_of_get? hP1), if_pos rfl]
            cases f <;> rfl
    obtain ⟨m1, m2⟩ := hmid
    obtain ⟨k3, l3⟩ := zone_addOthers m1 hid hp (by decide) a3
    refine ⟨K, v, u, k3, ?_⟩
    rcases w with _ | ⟨M, f⟩
    · exact m2
    · obtain ⟨b, b1, b2, b3⟩ := m2
      exact ⟨b, b1, b2, b3.keep (fun _ h => h) (fun i hi _ => l3 i hi) (fun ch h => (l3 _ b3.1).trans h)⟩
  init := fun _ _ => ⟨rfl, rfl⟩
  pL := fun _ _ _ => trivial
  withL := fun _ _ _ _ _ h _ => h

end S2N
