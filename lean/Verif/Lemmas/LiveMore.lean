import Verif.Lemmas.LiveAll
/-
The writers of positioners, spectra and data do not raise.
-/
namespace S2N
open Py H5 Eznx Writer Spec

variable {E : Str} {e : Nat} {I S : Option Nat} {b : Book} {s : H5}

/-- a group of groups -/
structure Rack (E : Str) (e : Nat) (I S : Option Nat) (b : Book) (g : Nat) (v : Str → Option Nat) (s : H5) : Prop where
  work : Work E e I S b g v s
  groups : ∀ n j, child s g n = some j → IsGroup s j ∧ Own e I S j ∧ j ≠ g

/-- a dataset in a group of the group -/
theorem Rack.write {v : Str → Option Nat} {g : Nat} (h : Rack E e I S b g v s) {p : HRef} (hp : IsGroup s p.id ∧ Own e I S p.id ∧ p.id ≠ g)
    {n : Str} (hn : Single n) {d : PData} (hd : ∃ y, d.toH = .ok y) (a : Dict AVal) :
    Runs (writeDataset p n d a) s fun _ s' => Rack E e I S b g v s' ∧ (IsGroup s' p.id ∧ Own e I S p.id ∧ p.id ≠ g) := by
  obtain ⟨y, hd⟩ := hd
  obtain ⟨hg, ho, hne⟩ := hp
  obtain ⟨ch, hc⟩ := hg
  refine (runs_write h.work.live.wf hc hn hd a).mono ?_
  rintro o s' ⟨-, st, -, -⟩
  refine ⟨⟨⟨h.work.live.far st ho, h.work.own, st.group h.work.grp,
    fun m => (st.other h.work.live.group.lt (Ne.symm ho.entry) m).trans (h.work.ent m)⟩, ?_⟩, st.group ⟨ch, hc⟩, ho, hne⟩
  intro m j hj
  rw [st.other h.work.grp.lt (Ne.symm hne)] at hj
  obtain ⟨q1, q2, q3⟩ := h.groups m j hj
  exact ⟨st.group q1, q2, q3⟩

/-- a group of the group -/
theorem Rack.openAt {v : Str → Option Nat} {g : HRef} (h : Rack E e I S b g.id v s) {n : Str} (hn : Single n) (cls : Str) (a : Dict AVal) :
    Runs (openGroup g n cls a) s fun p s' => Rack E e I S b g.id v s' ∧ (IsGroup s' p.id ∧ Own e I S p.id ∧ p.id ≠ g.id) := by
  obtain ⟨ch, hc⟩ := h.work.grp
  cases hj : child s g.id n with
  | some j =>
    have hj' := hj
    rw [child_eq hc] at hj'
    refine (runs_openOld h.work.live.wf hc hn hj' cls a).mono ?_
    rintro o s' ⟨rfl, st⟩
    obtain ⟨q1, q2, q3⟩ := h.groups n j hj
    refine ⟨⟨⟨h.work.live.stay st, h.work.own, st.group h.work.grp, fun m => (st.child e m).trans (h.work.ent m)⟩, ?_⟩, st.group q1, q2, q3⟩
    intro m k hk
    rw [st.child] at hk
    obtain ⟨r1, r2, r3⟩ := h.groups m k hk
    exact ⟨st.group r1, r2, r3⟩
  | none =>
    have hj' := hj
    rw [child_eq hc] at hj'
    refine (runs_openNew h.work.live.wf hc hn hj' cls a).mono ?_
    rintro o s' ⟨rfl, st, -, hk⟩
    have hgl := h.work.grp.lt
    have hne : s.length ≠ g.id := by omega
    refine ⟨⟨⟨h.work.live.far st h.work.own, h.work.own, st.group h.work.grp,
      fun m => (st.other h.work.live.group.lt (Ne.symm h.work.own.entry) m).trans (h.work.ent m)⟩, ?_⟩, ⟨_, hk⟩, h.work.live.own, hne⟩
    intro m j hm
    obtain ⟨c1, c2, c3⟩ := st.child h.work.grp
    by_cases q : m = n
    · subst q
      rw [c2] at hm
      injection hm with hm
      subst hm
      exact ⟨⟨_, hk⟩, h.work.live.own, hne⟩
    · rw [c3 m q] at hm
      obtain ⟨r1, r2, r3⟩ := h.groups m j hm
      exact ⟨st.group r1, r2, r3⟩

section
variable [UniDB]

theorem mne_ok {xref : Option (Dict Str)} {i : Nat} (h : ∀ d, xref = some d → i < d.length) : ∃ a, mneAttr xref i = .ok a := by
  unfold mneAttr
  cases xref with
  | none => exact ⟨_, rfl⟩
  | some d =>
    have : i < d.keys.length := by rw [Dict.keys, List.length_map]; exact h d rfl
    simp only [List.getElem?_eq_getElem this]
    exact ⟨_, rfl⟩

theorem live_positioners (h : Live E e I S b s) (hf : p!"positioners" ∉ b.top) (hi : p!"positioners" ∉ b.inst) {hdr x : Obj}
    (hx : (∀ n ∈ x.positioner.keys, n ≠ []) ∧ ∀ d, hdr.positionerXref = some d → x.positioner.length ≤ d.length) :
    Runs (wPositioners ⟨e, [E]⟩ hdr x) s fun _ s' => Done .positioners E e b s' := by
  unfold wPositioners
  refine Runs.bind (h.make (ordinary_lit (by decide) (by decide)) hf _ _) ?_
  rintro g s1 ⟨rfl, hk, v, hv, w⟩
  refine Runs.bind (P := fun _ s' => Rack E e I S (b.add p!"positioners") s.length v s') ?_ ?_
  · refine Runs.each (J := fun s' => Rack E e I S (b.add p!"positioners") s.length v s') ⟨w, fun n j hj => by rw [child_nil hk] at hj; cases hj⟩ ?_
    rintro ⟨i, n, val⟩ hp s2 r2
    have hi' : i < x.positioner.length := List.mem_range.1 (List.of_mem_zip hp).1
    have hn : n ≠ [] := hx.1 n (List.mem_map.2 ⟨_, (List.of_mem_zip hp).2, rfl⟩)
    obtain ⟨nm, c1, c2⟩ := clean_ok hn
    obtain ⟨a, ha⟩ := mne_ok (xref := hdr.positionerXref) (i := i) fun d hd => Nat.lt_of_lt_of_le hi' (hx.2 d hd)
    unfold wPositioner
    refine Runs.lift c1 ?_
    refine Runs.bind (Rack.openAt (g := ⟨s.length, [E, p!"positioners"]⟩) r2 c2 _ _) ?_
    rintro p s3 ⟨r3, p3⟩
    refine Runs.lift ha ?_
    refine Runs.bind (r3.write p3 ((by decide : Plain p!"name").single) (toH_str _) _) ?_
    rintro _ s4 ⟨r4, p4⟩
    exact Runs.drop ((r4.write p4 ((by decide : Plain p!"value").single) (toH_num _) _).mono fun _ _ q => q.1)
  · intro _ s2 r2
    refine (r2.work.link (g := ⟨s.length, [E, p!"positioners"]⟩) (N := p!"positioners") (M := p!"positioners") (by decide) rfl (by decide) hv (by decide) hi _).mono ?_
    rintro _ s' ⟨i, l⟩
    exact ⟨_, _, _, l, (((Grow.refl _ _).add (.inl (by decide))).add (.inl (by decide))).addInst (by decide)⟩

/-! ## Spectra -/

theorem live_calib (h : Live E e I S b s) (x : Obj) : Runs (wCalib ⟨e, [E]⟩ x) s fun _ s' => Done .calib E e b s' := by
  unfold wCalib
  split
  · unfold mcaGroup
    refine Runs.bind (h.openShared (by decide) _ _) ?_
    rintro g s1 ⟨-, v, -, w⟩
    refine Runs.bind (w.write ((by decide : Plain p!"calib_a").single) (toH_num _) _) fun _ s2 w => ?_
    refine Runs.bind (w.write ((by decide : Plain p!"calib_b").single) (toH_num _) _) fun _ s3 w => ?_
    refine Runs.drop ((w.write ((by decide : Plain p!"calib_c").single) (toH_num _) _).mono fun _ s' q => ?_)
    exact ⟨_, _, _, q.live, (Grow.refl _ _).add (.inl (by decide))⟩
  · exact Runs.ret ⟨_, _, _, h, Grow.refl _ _⟩

/-- the group MCA in the group "instrument" -/
theorem Work.linkMca {v : Str → Option Nat} {g : HRef} (h : Work E e I S b g.id v s) (hg : g.path = [E, p!"MCA"]) (hv : v p!"MCA" = some g.id) :
    Runs (linkMca ⟨e, [E]⟩ g) s fun o s' => ∃ i, o = ⟨i, [E, inst]⟩ ∧ child s' i p!"MCA" ≠ none ∧
      Live E e (some i) S ((b.add inst).addInst p!"MCA") s' := by
  unfold Writer.linkMca
  refine Runs.bind (h.live.openInst _ []) ?_
  rintro o s1 ⟨i, rfl, l1, -, op⟩
  obtain ⟨q1, q2, q3, q4, q5⟩ := l1.hub i rfl
  obtain ⟨ch, hc⟩ := q1
  have hge : child s1 e p!"MCA" = some g.id := by rw [op.entry _ (by decide), h.ent, hv]
  have hgl : g.id < s1.length := Nat.lt_of_lt_of_le h.grp.lt op.len
  refine Runs.bind (P := fun _ s' => child s' i p!"MCA" ≠ none ∧ Live E e (some i) S ((b.add inst).addInst p!"MCA") s') ?_ ?_
  · refine Runs.andThen (runs_contains (r := ⟨i, [E, inst]⟩) hc ((by decide : Plain p!"MCA").single)) ?_
    rintro c s2 ⟨rfl, rfl⟩
    refine Runs.onlyIf (fun hb => ?_) fun hb => ?_
    · have hfree : ch.get? p!"MCA" = none := by
        cases hm : ch.get? p!"MCA" with
        | none => rfl
        | some j => rw [hm] at hb; cases hb
      refine (runs_makeLink l1.wf ⟨e, [E]⟩ (o := g) (k := g.id) (q := [E, inst]) (m := p!"MCA") (t := i) ?_ ?_ hgl hgl ?_ ?_ hc hfree (nameOf_three i 0 E p!"MCA")).mono ?_
      · rw [hg]
        intro c hc
        simp only [List.mem_cons, List.not_mem_nil, or_false] at hc
        rcases hc with rfl | rfl
        · exact l1.plain
        · decide
      · rw [hg]
        exact .step l1.root (.step hge (.nil _))
      · intro c hc
        simp only [List.cons_append, List.nil_append, List.mem_cons, List.not_mem_nil, or_false] at hc
        rcases hc with rfl | rfl | rfl
        · exact l1.plain
        · decide
        · decide
      · exact .step l1.root (.step l1.isInst (.nil _))
      · rintro _ s2 ⟨st, -⟩
        refine ⟨?_, l1.putInst rfl st⟩
        rw [(st.child ⟨ch, hc⟩).2.1]
        simp
    · refine ⟨?_, l1.weaken (fun _ q => q) (fun _ q => List.mem_cons_of_mem _ q) (fun _ q => q) l1.must⟩
      rw [child_eq hc]
      intro q
      rw [q] at hb
      cases hb
  · rintro _ s2 ⟨r1, r2⟩
    exact Runs.pure ⟨i, rfl, r1, r2⟩

theorem live_chann (h : Live E e I S b s) (x : Obj) : Runs (wChann ⟨e, [E]⟩ x) s fun _ s' => Done .chann E e b s' := by
  unfold wChann
  split
  · exact Runs.ret ⟨_, _, _, h, Grow.refl _ _⟩
  · next m _ =>
    unfold mcaGroup
    refine Runs.bind (h.openShared (by decide) _ _) ?_
    rintro g s1 ⟨hg, v, hv, w⟩
    refine Runs.bind (P := fun _ s' => Work E e I S (b.add p!"MCA") g.id v s') ?_ ?_
    · refine Runs.ifSome (fun c _ => ?_) fun _ => w
      refine Runs.bind (w.write ((by decide : Plain p!"number_saved").single) (toH_num _) _) fun _ s2 w => ?_
      refine Runs.bind (w.write ((by decide : Plain p!"first_saved").single) (toH_num _) _) fun _ s3 w => ?_
      refine Runs.bind (w.write ((by decide : Plain p!"last_saved").single) (toH_num _) _) fun _ s3 w => ?_
      exact Runs.drop (w.write ((by decide : Plain p!"reduction_coef").single) (toH_num _) _)
    · intro _ s2 w2
      refine Runs.bind (w2.linkMca hg hv) ?_
      rintro o s3 ⟨i, rfl, hc, l⟩
      obtain ⟨j, hj⟩ := Option.ne_none_iff_exists'.1 hc
      obtain ⟨ch, hch⟩ := (l.hub i rfl).1
      have hjl := (child_lt l.wf hj).2.1
      rw [child_eq hch] at hj
      refine Runs.bind (runs_get (r := ⟨i, [E, inst]⟩) hch ((by decide : Plain p!"MCA").single) hj) ?_
      rintro o s4 ⟨rfl, rfl⟩
      refine (runs_setAttr l.wf hjl _ _).mono fun _ s' st => ?_
      exact ⟨_, _, _, l.stay st, (((Grow.refl _ _).add (.inl (by decide))).add (.inl (by decide))).addInst (by decide)⟩

theorem live_ctime (h : Live E e I S b s) (x : Obj) : Runs (wCtime ⟨e, [E]⟩ x) s fun _ s' => Done .ctime E e b s' := by
  unfold wCtime
  split
  · exact Runs.ret ⟨_, _, _, h, Grow.refl _ _⟩
  · next m _ =>
    unfold mcaGroup
    refine Runs.bind (h.openShared (by decide) _ _) ?_
    rintro g s1 ⟨hg, v, hv, w⟩
    refine Runs.bind (P := fun _ s' => Work E e I S (b.add p!"MCA") g.id v s') ?_ ?_
    · refine Runs.ifSome (fun c _ => ?_) fun _ => w
      refine Runs.bind (w.write ((by decide : Plain p!"preset_time").single) (toH_num _) _) fun _ s2 w => ?_
      refine Runs.bind (w.write ((by decide : Plain p!"elapsed_live_time").single) (toH_num _) _) fun _ s3 w => ?_
      exact Runs.drop (w.write ((by decide : Plain p!"elapsed_real_time").single) (toH_num _) _)
    · intro _ s2 w2
      refine Runs.drop ((w2.linkMca hg hv).mono ?_)
      rintro o s3 ⟨i, rfl, hc, l⟩
      exact ⟨_, _, _, l, (((Grow.refl _ _).add (.inl (by decide))).add (.inl (by decide))).addInst (by decide)⟩

end
end S2N
