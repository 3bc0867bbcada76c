import Verif.Lemmas.LiveRun
/-
Saving scans does not raise.
-/
namespace S2N
open Py H5 Eznx Writer Spec

variable {E : Str} {e : Nat} {I S : Option Nat} {b : Book} {s : H5}

theorem walk_two (s : H5) (i : Nat) (m n : Str) : walk s i [m, n] = (child s i m).bind fun j => child s j n := by
  unfold child kids
  rw [walk]
  cases hs : s[i]? with
  | none => rfl
  | some node =>
    cases node with
    | dset d a => rfl
    | group ch a =>
      cases hc : ch.get? m with
      | none => simp [hc]
      | some j =>
        simp only [Option.bind_some, hc]
        rw [walk]
        cases hj : s[j]? with
        | none => rfl
        | some node =>
          cases node with
          | dset d a => rfl
          | group ch' a' =>
            simp only [Option.bind_some]
            cases ch'.get? n <;> simp [walk]

/-- a member of the entry -/
theorem Live.contains (h : Live E e I S b s) {n : Str} (hn : Single n) :
    Runs (H5.contains ⟨e, [E]⟩ n) s fun c s' => c = (child s e n).isSome ∧ s' = s := by
  obtain ⟨ch, hc⟩ := h.group
  rw [child_eq hc]
  exact runs_contains (r := ⟨e, [E]⟩) hc hn

theorem Live.get (h : Live E e I S b s) {n : Str} (hn : Single n) {j : Nat} (hj : child s e n = some j) :
    Runs (H5.get ⟨e, [E]⟩ n) s fun o s' => o = ⟨j, [E, n]⟩ ∧ s' = s := by
  obtain ⟨ch, hc⟩ := h.group
  rw [child_eq hc] at hj
  exact runs_get (r := ⟨e, [E]⟩) hc hn hj

/-- the links added afterwards: "diffractometer" -/
theorem live_addGeometry (h : Live E e I S b s) (hd : p!"diffractometer" ∉ b.inst) :
    Runs (addGeometry ⟨e, [E]⟩) s fun _ s' => ∃ b', Live E e I S b' s' ∧ b'.top = b.top ∧ b'.samp = b.samp ∧ b'.must = b.must := by
  unfold addGeometry
  have hbase : base ⟨e, [E]⟩ p!"instrument/geometry_parameters" = ⟨e, [E]⟩ := rfl
  have hcomps : comps p!"instrument/geometry_parameters" = [inst, p!"geometry_parameters"] := by decide
  refine Runs.andThen (P := fun c s' => c = (walk s e [inst, p!"geometry_parameters"]).isSome ∧ s' = s)
    ⟨_, s, rfl, by rw [hbase, hcomps], rfl⟩ ?_
  rintro c s1 ⟨rfl, rfl⟩
  refine Runs.onlyIf (fun hc => ?_) fun _ => ⟨b, h, rfl, rfl, rfl⟩
  obtain ⟨j, hj⟩ := Option.isSome_iff_exists.1 hc
  rw [walk_two, h.isInst] at hj
  cases I with
  | none => cases hj
  | some i =>
    replace hj : child s1 i p!"geometry_parameters" = some j := hj
    obtain ⟨q1, q2, q3, q4, q5⟩ := h.hub i rfl
    obtain ⟨ch, hc⟩ := q1
    have hjl := (child_lt h.wf hj).2.1
    refine Runs.bind (h.get ((by decide : Plain inst).single) h.isInst) ?_
    rintro o s2 ⟨rfl, rfl⟩
    have hj' := hj
    rw [child_eq hc] at hj'
    refine Runs.bind (runs_get (r := ⟨i, [E, inst]⟩) hc ((by decide : Plain p!"geometry_parameters").single) hj') ?_
    rintro o s3 ⟨rfl, rfl⟩
    have hfree : ch.get? p!"diffractometer" = none := by
      rw [← child_eq hc]
      cases hm : child s3 i p!"diffractometer" with
      | none => rfl
      | some k => exact absurd (q5 _ (by rw [hm]; simp)) hd
    refine Runs.bind (runs_setLink (r := ⟨i, [E, inst]⟩) h.wf hc ((by decide : Plain p!"diffractometer").single) hfree hjl) ?_
    rintro _ s4 ⟨st, hl⟩
    have l4 := h.putInst rfl st
    obtain ⟨⟨ch', hc'⟩, c2, -⟩ := st.child ⟨ch, hc⟩
    have hjl' := (child_lt l4.wf c2).2.1
    rw [child_eq hc'] at c2
    refine Runs.bind (runs_get (r := ⟨i, [E, inst]⟩) hc' ((by decide : Plain p!"diffractometer").single) c2) ?_
    rintro o s5 ⟨rfl, rfl⟩
    exact (runs_setAttr l4.wf hjl' _ _).mono fun _ s' st => ⟨_, l4.stay st, rfl, rfl, rfl⟩

theorem live_addPositioners (h : Live E e I S b s) : Runs (addPositioners ⟨e, [E]⟩) s fun _ s' => Live E e I S b s' := by
  unfold addPositioners
  refine Runs.andThen (h.contains ((by decide : Plain p!"positioners").single)) ?_
  rintro c s1 ⟨-, rfl⟩
  refine Runs.onlyIf (fun _ => ?_) fun _ => h
  have hbase : base ⟨e, [E]⟩ p!"instrument/positioners" = ⟨e, [E]⟩ := rfl
  have hcomps : comps p!"instrument/positioners" = [inst, p!"positioners"] := by decide
  refine Runs.andThen (P := fun c s' => c = (walk s1 e [inst, p!"positioners"]).isSome ∧ s' = s1)
    ⟨_, s1, rfl, by rw [hbase, hcomps], rfl⟩ ?_
  rintro c s2 ⟨rfl, rfl⟩
  refine Runs.onlyIf (fun hc => ?_) fun _ => h
  obtain ⟨j, hj⟩ := Option.isSome_iff_exists.1 hc
  have hjl : j < s2.length := by
    rw [walk_two, h.isInst] at hj
    cases I with
    | none => cases hj
    | some i => exact (child_lt h.wf hj).2.1
  refine Runs.bind (P := fun o s' => o = ⟨j, [E] ++ [inst, p!"positioners"]⟩ ∧ s' = s2) ⟨⟨j, [E] ++ [inst, p!"positioners"]⟩, s2, ?_, rfl, rfl⟩ ?_
  · unfold H5.get HM.lookE
    beta_reduce
    rw [hbase, hcomps]
    simp only
    rw [hj]
  · rintro o s3 ⟨rfl, rfl⟩
    exact (runs_setAttr h.wf hjl _ _).mono fun _ s' st => h.stay st

/-- a link in a group of one's own -/
theorem Work.setLink {v : Str → Option Nat} {g o : HRef} (h : Work E e I S b g.id v s) {n : Str} (hn : Single n) (hf : child s g.id n = none)
    (ho : o.id < s.length) : Runs (H5.setLink g n o) s fun _ s' => Work E e I S b g.id v s' ∧ s'.length = s.length ∧ child s' g.id n = some o.id ∧
      ∀ m, m ≠ n → child s' g.id m = child s g.id m := by
  obtain ⟨ch, hc⟩ := h.grp
  rw [child_eq hc] at hf
  refine (runs_setLink h.live.wf hc hn hf ho).mono ?_
  rintro _ s' ⟨st, hl⟩
  exact ⟨⟨h.live.far st h.own, h.own, st.group h.grp, fun m => (st.other h.live.group.lt (Ne.symm h.own.entry) m).trans (h.ent m)⟩, hl,
    (st.child h.grp).2.1, (st.child h.grp).2.2⟩

/-- an object linked in a group of one's own, with the attribute "target" -/
theorem Work.linked {v : Str → Option Nat} {g o : HRef} (h : Work E e I S b g.id v s) {n : Str} (hn : Single n) (hf : child s g.id n = none)
    (ho : o.id < s.length) : Runs (H5.setLink g n o >>= fun _ => H5.get g n >>= fun p => setTarget o p) s fun _ s' => Work E e I S b g.id v s' ∧
      s'.length = s.length ∧ ∀ m, m ≠ n → child s' g.id m = child s g.id m := by
  refine Runs.bind (h.setLink hn hf ho) ?_
  rintro _ s1 ⟨w, hl, hc, hm⟩
  obtain ⟨ch, hch⟩ := w.grp
  rw [child_eq hch] at hc
  refine Runs.bind (runs_get hch hn hc) ?_
  rintro p s2 ⟨rfl, rfl⟩
  refine (runs_setAttr w.live.wf (by rw [hl]; exact ho) _ _).mono fun _ s' st => ?_
  exact ⟨⟨w.live.stay st, w.own, st.group w.grp, fun m => (st.child e m).trans (w.ent m)⟩, st.len.trans hl, fun m q => (st.child _ m).trans (hm m q)⟩

theorem live_addPreset (h : Live E e I S b s) (hm : p!"monitor" ∉ b.top) {n : Str} (hn : Single n) (hc : child s e n ≠ none) :
    Runs (addPreset ⟨e, [E]⟩ n) s fun _ s' => Live E e I S (b.add p!"monitor") s' := by
  obtain ⟨j, hj⟩ := Option.ne_none_iff_exists'.1 hc
  have hjl := (child_lt h.wf hj).2.1
  unfold addPreset
  refine Runs.bind (h.get hn hj) ?_
  rintro o s1 ⟨rfl, rfl⟩
  refine Runs.bind (h.make (ordinary_lit (by decide) (by decide)) hm _ _) ?_
  rintro g s2 ⟨rfl, hk, v, -, w⟩
  have hgl := w.grp.lt
  exact (w.linked (o := ⟨j, [E, n]⟩) ((by decide : Plain p!"preset").single) (child_nil hk _) (Nat.lt_trans hjl hgl)).mono fun _ s' q => q.1.live

theorem live_addLast (h : Live E e I S b s) (ht : p!"temperature" ∉ b.samp) (hs : p!"TEMP_SP" ∈ b.top ∨ p!"DEGC_SP" ∈ b.top → smp ∈ b.must) :
    Runs (addLast ⟨e, [E]⟩) s fun _ s' => ∃ b', Live E e I S b' s' ∧ b'.top = b.top := by
  unfold addLast
  refine Runs.bind (h.contains ((by decide : Plain p!"TEMP_SP").single)) ?_
  rintro c1 s1 ⟨hc1, rfl⟩
  refine Runs.bind (h.contains ((by decide : Plain p!"DEGC_SP").single)) ?_
  rintro c2 s2 ⟨hc2, rfl⟩
  refine Runs.onlyIf (fun hc => ?_) fun _ => ⟨b, h, rfl⟩
  have hm : child s2 e smp ≠ none := by
    refine h.must smp (hs ?_)
    rw [Bool.or_eq_true] at hc
    rcases hc with hc | hc
    · exact .inl (h.top _ (by rw [hc] at hc1; intro q; rw [q] at hc1; cases hc1))
    · exact .inr (h.top _ (by rw [hc] at hc2; intro q; rw [q] at hc2; cases hc2))
  obtain ⟨i, hi⟩ := Option.ne_none_iff_exists'.1 hm
  have hS : S = some i := h.isSamp.symm.trans hi
  subst hS
  obtain ⟨q1, q2, q3, q5⟩ := h.samp i rfl
  obtain ⟨ch, hch⟩ := q1
  refine Runs.bind (h.get ((by decide : Plain smp).single) hi) ?_
  rintro o s3 ⟨rfl, rfl⟩
  have hfree : ch.get? p!"temperature" = none := by
    rw [← child_eq hch]
    cases hm : child s3 i p!"temperature" with
    | none => rfl
    | some k => exact absurd (q5 _ (by rw [hm]; simp)) ht
  refine Runs.bind (runs_make (r := ⟨i, [E, smp]⟩) h.wf hch ((by decide : Plain p!"temperature").single) hfree _ _) ?_
  rintro g s4 ⟨rfl, st, hl4, hk4⟩
  have w4 : Work E e I (some i) (b.addSamp p!"temperature") s3.length (child s3 e) s4 :=
    ⟨h.putSamp rfl st, h.own, ⟨_, hk4⟩, fun m => st.other h.group.lt (Ne.symm q3) m⟩
  have hlt : ∀ n j, child s3 e n = some j → j < s4.length := fun n j hj => Nat.lt_of_lt_of_le (child_lt h.wf hj).2.1 st.len
  refine Runs.bind (P := fun _ s' => Work E e I (some i) (b.addSamp p!"temperature") s3.length (child s3 e) s' ∧ s'.length = s4.length ∧
    child s' s3.length p!"value" = none) ?_ ?_
  · refine Runs.onlyIf (fun hc => ?_) fun _ => ⟨w4, rfl, child_nil hk4 _⟩
    obtain ⟨j, hj⟩ := Option.isSome_iff_exists.1 (hc1.symm.trans hc)
    refine Runs.bind (w4.live.get ((by decide : Plain p!"TEMP_SP").single) ((w4.ent _).trans hj)) ?_
    rintro o s5 ⟨rfl, rfl⟩
    refine (Work.linked (g := ⟨s3.length, [E, smp] ++ [p!"temperature"]⟩) (o := ⟨j, [E, p!"TEMP_SP"]⟩) w4
      ((by decide : Plain p!"target_value").single) (child_nil hk4 _) (hlt _ j hj)).mono ?_
    rintro _ s6 ⟨w6, hl6, hc6⟩
    exact ⟨w6, hl6, (hc6 _ (by decide)).trans (child_nil hk4 _)⟩
  · rintro _ s5 ⟨w5, hl5, hv5⟩
    refine Runs.onlyIf (fun hc => ?_) fun _ => ⟨_, w5.live, rfl⟩
    obtain ⟨j, hj⟩ := Option.isSome_iff_exists.1 (hc2.symm.trans hc)
    refine Runs.bind (w5.live.get ((by decide : Plain p!"DEGC_SP").single) ((w5.ent _).trans hj)) ?_
    rintro o s6 ⟨rfl, rfl⟩
    exact (Work.linked (g := ⟨s3.length, [E, smp] ++ [p!"temperature"]⟩) (o := ⟨j, [E, p!"DEGC_SP"]⟩) w5
      ((by decide : Plain p!"value").single) hv5 (by rw [hl5]; exact hlt _ j hj)).mono fun _ s' q => ⟨_, q.1.live, rfl⟩

theorem live_additions (h : Live E e I S b s) (hd : p!"diffractometer" ∉ b.inst) (hm : p!"monitor" ∉ b.top) (ht : p!"temperature" ∉ b.samp)
    (hs : p!"TEMP_SP" ∈ b.top ∨ p!"DEGC_SP" ∈ b.top → smp ∈ b.must) :
    Runs (additions ⟨e, [E]⟩) s fun _ s' => ∃ b', Live E e I S b' s' ∧ ∀ n ∈ b'.top, n ∈ b.top ∨ n = p!"monitor" := by
  unfold additions
  refine Runs.bind (live_addGeometry h hd) ?_
  rintro _ s1 ⟨b1, h1, t1, sa1, m1⟩
  refine Runs.bind (live_addPositioners h1) ?_
  intro _ s2 h2
  refine Runs.bind (h2.contains ((by decide : Plain p!"M").single)) ?_
  rintro hasM s3 ⟨hM, rfl⟩
  refine Runs.bind (h2.contains ((by decide : Plain p!"T").single)) ?_
  rintro hasT s4 ⟨hT, rfl⟩
  refine Runs.bind (P := fun _ s' => ∃ b', Live E e I S b' s' ∧ (∀ n ∈ b'.top, n ∈ b.top ∨ n = p!"monitor") ∧ b'.samp = b.samp ∧ ∀ n ∈ b.must, n ∈ b'.must) ?_ ?_
  · refine Runs.onlyIf (fun hc => ?_) fun _ => ⟨b1, h2, fun n hn => .inl (t1 ▸ hn), sa1, fun n hn => m1 ▸ hn⟩
    refine (live_addPreset (n := if hasM then p!"M" else p!"T") h2 (t1 ▸ hm) ?_ ?_).mono fun _ s' q => ⟨_, q, ?_, sa1, fun n hn => List.mem_cons_of_mem _ (m1 ▸ hn)⟩
    · cases hasM
      · exact (by decide : Plain p!"T").single
      · exact (by decide : Plain p!"M").single
    · cases hasM with
      | true =>
        intro q
        replace q : child s4 e p!"M" = none := q
        rw [q] at hM
        cases hM
      | false =>
        intro q
        replace q : child s4 e p!"T" = none := q
        rw [q] at hT
        subst hT
        cases hc
    · intro n hn
      rcases List.mem_cons.1 hn with hn | hn
      · exact .inr hn
      · exact .inl (t1 ▸ hn)
  · rintro _ s5 ⟨b5, h5, t5, sa5, m5⟩
    refine (live_addLast h5 (sa5 ▸ ht) ?_).mono ?_
    · intro q
      refine m5 _ (hs ?_)
      rcases q with q | q
      · rcases t5 _ q with r | r
        · exact .inl r
        · exact absurd r (by decide)
      · rcases t5 _ q with r | r
        · exact .inr r
        · exact absurd r (by decide)
    · rintro _ s6 ⟨b6, h6, t6⟩
      exact ⟨b6, h6, fun n hn => t5 n (t6 ▸ hn)⟩

/-! ## One scan -/

theorem live_noData (h : Live E e I S b s) (hf : p!"data" ∉ b.top) : Runs (noData ⟨e, [E]⟩) s fun _ _ => True := by
  unfold noData
  refine Runs.bind (h.make (ordinary_lit (by decide) (by decide)) hf _ _) ?_
  rintro g s1 ⟨rfl, hk, v, -, w⟩
  refine Runs.bind (runs_makeDataset (r := ⟨s.length, [E, p!"data"]⟩) w.live.wf hk ((by decide : Plain p!"no_x_data").single) rfl rfl _) ?_
  rintro _ s2 ⟨-, st, -, -⟩
  obtain ⟨⟨ch, hc⟩, c2, c3⟩ := st.child ⟨_, hk⟩
  have hfree : ch.get? p!"no_y_data" = none := by
    rw [← child_eq hc]
    refine (c3 _ (by decide)).trans (child_nil hk _)
  exact Runs.drop ((runs_makeDataset (r := ⟨s.length, [E, p!"data"]⟩) st.wf hc ((by decide : Plain p!"no_y_data").single) hfree rfl _).mono fun _ _ _ => trivial)

theorem live_closeEntry (h : Live E e I S b s) (first : Bool) {key : Ref} :
    Runs (closeEntry first key ⟨e, [E]⟩) s fun _ _ => True := by
  unfold closeEntry
  refine Runs.bind (P := fun _ s' => Live E e I S b s' ∧ Stay s s') ?_ ?_
  · exact Runs.onlyIf (fun _ => (runs_addAttributes (r := root) h.wf h.zero _).mono fun _ s' st => ⟨h.stay st, st⟩) fun _ => ⟨h, Stay.refl h.wf⟩
  · rintro _ s1 ⟨h1, st⟩
    refine Runs.andThen (h1.contains ((by decide : Plain p!"data").single)) ?_
    rintro c s2 ⟨hc, rfl⟩
    refine Runs.onlyIf (fun q => ?_) fun _ => trivial
    have hn : child s2 e p!"data" = none := by
      cases hd : child s2 e p!"data" with
      | none => rfl
      | some j => rw [hd] at hc; subst hc; cases q
    exact live_noData (b := { b with top := b.top.filter (fun n => n ≠ p!"data") }) { h1 with
      top := fun n hm => List.mem_filter.2 ⟨h1.top n hm, by
        have : n ≠ p!"data" := by rintro rfl; exact hm hn
        simpa using this⟩ } (by simp)

/-- a new entry -/
theorem runs_openEntry {key : Ref} (hk : Plain (p!"S" ++ key.text)) (hs : FileOk s) (hf : child s 0 (p!"S" ++ key.text) = none) :
    Runs (openEntry key) s fun o s' => o = ⟨s.length, [p!"S" ++ key.text]⟩ ∧
      Live (p!"S" ++ key.text) s.length none none ⟨[p!"experiment_description"], [], [], []⟩ s' := by
  unfold openEntry
  obtain ⟨ch, a, h0⟩ := hs.root
  have hk0 := kids_eq h0
  have hl0 := lt_of_get? h0
  rw [child_eq hk0] at hf
  refine Runs.bind (runs_make (r := root) hs.wf hk0 hk.single hf _ _) ?_
  rintro o s1 ⟨rfl, st1, hl1, hk1⟩
  refine Runs.bind (runs_makeDataset (r := ⟨s.length, root.path ++ [p!"S" ++ key.text]⟩) st1.wf hk1 ((by decide : Plain p!"experiment_description").single) rfl rfl _) ?_
  rintro _ s2 ⟨-, st2, hl2, -⟩
  refine Runs.pure ⟨rfl, ?_⟩
  obtain ⟨c1, c2, c3⟩ := st2.child ⟨_, hk1⟩
  have hnone : ∀ m, m ≠ p!"experiment_description" → child s2 s.length m = none := fun m hm => (c3 m hm).trans (child_nil hk1 m)
  refine ⟨st2.wf, hk, by omega, ?_, c1, ?_, (by intro n hn; cases hn), hnone _ (by decide), hnone _ (by decide), ?_, (by intro i hi; cases hi), (by intro i hi; cases hi)⟩
  · rw [st2.other (Nat.lt_of_lt_of_le hl0 st1.len) (by show 0 ≠ s.length; omega)]
    exact (st1.child ⟨_, hk0⟩).2.1
  · intro n hn
    by_cases q : n = p!"experiment_description"
    · rw [q]; simp
    · exact absurd (hnone n q) hn
  · intro n hn j hj
    have q : n ≠ p!"experiment_description" := by rintro rfl; exact absurd hn (by decide)
    rw [hnone n q] at hj
    cases hj

theorem group_table : ∀ f ∈ allFns, ∀ g ∈ allFns, labelOf f = labelOf g → f ∈ groupWriters → g ∈ groupWriters := by decide +kernel

theorem group_label {f g : H5Fn} (h : labelOf f = labelOf g) (hf : f ∈ groupWriters) (hg : g ∉ groupWriters) : False :=
  hg (group_table f (mem_allFns f) g (mem_allFns g) h hf)

section
variable [UniDB]

theorem _root_.S2N.Spec.Writers.hasIt {k : Kind} {x : Obj} (h : Writers k x) {f : H5Fn} (hf : f ∈ x.h5.values) : HasIt x f := by
  obtain ⟨-, -, -, -, -, -, m1, m2, m3, -, -⟩ := h.more
  cases f with
  | hkl => exact h.hkl.1 hf
  | userResults => exact h.userResults.1 hf
  | userReserved => exact h.userReserved.1 hf
  | unrec => exact h.unrec.1 hf
  | VA => exact (m1.1 hf).2
  | VD => exact (m2.1 hf).2
  | VE => exact (m3.1 hf).2
  | _ => trivial

theorem _root_.S2N.Spec.Writers.labels {k : Kind} {x : Obj} (h : Writers k x) : (x.h5.values.map labelOf).Nodup := by
  have : x.h5.values.map labelOf = x.h5.keys := by
    unfold Dict.values Dict.keys
    rw [List.map_map]
    exact List.map_congr_left fun p hp => (h.label p hp).symm
  rw [this]
  exact h.keys

theorem live_saveScan (h : Live E e none none ⟨[p!"experiment_description"], [], [], []⟩ s) {hdr x : Obj} (hc : CanSave hdr x)
    (hw : Writers .header hdr) (hw' : Writers .scan x) (hh : RelNames hdr) (hx : RelNames x) :
    Runs (saveScan ⟨e, [E]⟩ hdr x) s fun y s' => ((∃ L, y = { x with L := L }) ∧ (NotBy x meshMacros → y = x)) ∧
      ∃ I S b, Live E e I S b s' := by
  unfold saveScan
  refine Runs.bind (runs_addAttributes (r := ⟨e, [E]⟩) h.wf h.group.lt _) ?_
  intro _ s1 st1
  have h1 := h.stay st1
  refine Runs.bind (h1.write (n := p!"title") (ordinary_lit (by decide) (by decide)) (toH_str _) []) ?_
  rintro _ s2 ⟨h2, -⟩
  obtain ⟨nums, hnums⟩ := hc.number
  refine Runs.lift hnums ?_
  refine Runs.bind (h2.write (n := p!"scan_number") (ordinary_lit (by decide) (by decide)) (toH_num _) []) ?_
  rintro ds s3 ⟨h3, hl3⟩
  refine Runs.bind (runs_addAttributes (r := ds) h3.wf hl3 _) ?_
  intro _ s4 st4
  have h4 := h3.stay st4
  refine Runs.bind (P := fun _ s' => Stay s4 s') (Runs.onlyIf (fun _ => runs_addAttributes (r := ds) h4.wf (by rw [st4.len]; exact hl3) _) fun _ => Stay.refl h4.wf) ?_
  intro _ s5 st5
  have h5 := h4.stay st5
  refine Runs.bind (h5.write (n := p!"command") (ordinary_lit (by decide) (by decide)) (toH_str _) []) ?_
  rintro _ s6 ⟨h6, -⟩
  have by6 : Book.By ((((Book.mk [p!"experiment_description"] [] [] []).add p!"title").add p!"scan_number").add p!"command") [] := by
    refine ⟨fun n hn => .inl ?_, fun n hn => (by cases hn), fun n hn => (by cases hn)⟩
    have : ∀ n ∈ [p!"command", p!"scan_number", p!"title", p!"experiment_description"], n ∈ firstNames := by decide
    exact this n hn
  refine Runs.bind (live_runWriters hdr.h5.values [] hdr h6 by6 hh.fields (fun f hf => ⟨hc.header f hf, hw.hasIt hf⟩) hw.labels (fun _ _ _ _ q => by cases q)) ?_
  rintro _ s7 ⟨-, I7, S7, b7, h7, by7, -, -⟩
  rw [List.nil_append] at by7
  refine Runs.bind (live_runWriters x.h5.values hdr.h5.values x h7 by7 hx.fields (fun f hf => ⟨hc.scan f hf, hw'.hasIt hf⟩) hw'.labels ?_) ?_
  · intro f hf hg g hgm q
    have := hc.apart g hgm f hf q.symm
    exact group_label q hg this
  rintro y s8 ⟨hy, I8, S8, b8, h8, by8, -, hs8⟩
  have hrest : ∀ n, n ∉ firstNames → n.take 13 ≠ p!"unrecognized_" → n ∈ b8.top → ∃ f ∈ hdr.h5.values ++ x.h5.values, n ∈ usedBy f := by
    intro n q1 q2 hn
    rcases by8.top n hn with q | q | ⟨i, rfl⟩
    · exact absurd q q1
    · exact q
    · exact absurd (unrec_take i) q2
  refine Runs.bind (live_additions h8 ?_ ?_ (fun q => by8.samp _ q rfl) ?_) ?_
  · intro q
    obtain ⟨f, -, r⟩ := by8.inst _ q
    exact (rest_table f (mem_allFns f)).2.1 r
  · intro q
    obtain ⟨f, -, r⟩ := hrest _ (by decide) (by decide) q
    exact (rest_table f (mem_allFns f)).1 r
  · intro q
    have : H5Fn.temperature ∈ hdr.h5.values ++ x.h5.values := by
      rcases q with q | q
      · obtain ⟨f, hf, r⟩ := hrest _ (by decide) (by decide) q
        rw [(rest_table f (mem_allFns f)).2.2.1 (.inl r)] at hf
        exact hf
      · obtain ⟨f, hf, r⟩ := hrest _ (by decide) (by decide) q
        rw [(rest_table f (mem_allFns f)).2.2.1 (.inr r)] at hf
        exact hf
    obtain ⟨r1, r2⟩ := hc.sample (List.mem_append.1 this)
    exact hs8 r1 r2
  rintro _ s9 ⟨b9, h9, t9⟩
  exact Runs.pure ⟨hy, _, _, b9, h9⟩

end
end S2N
