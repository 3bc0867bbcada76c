import Verif.Lemmas.LiveMore
/-
The writer of the geometry does not raise.
-/
namespace S2N
open Py H5 Eznx Writer Spec

variable {E : Str} {e : Nat} {I S : Option Nat} {b : Book} {s : H5}

/-- the group "sample" is there, or new -/
theorem Live.openSamp (h : Live E e I S b s) (cls : Str) (a : Dict AVal) :
    Runs (openGroup ⟨e, [E]⟩ smp cls a) s fun o s' => ∃ j, o = ⟨j, [E, smp]⟩ ∧ Live E e I (some j) (b.add smp) s' ∧
      (∀ g, g < s.length → Own e I S g → Own e I (some j) g) ∧ Opened e smp s s' := by
  obtain ⟨ch, hc⟩ := h.group
  have hs : Single smp := (by decide : Plain smp).single
  have hi := h.isSamp
  cases S with
  | some i =>
    have hj := hi
    rw [child_eq hc] at hj
    refine (runs_openOld (r := ⟨e, [E]⟩) h.wf hc hs hj cls a).mono ?_
    rintro o s' ⟨rfl, st⟩
    exact ⟨i, rfl, (h.stay st).noted (by rw [st.child, hi]; simp), fun _ _ q => q, st.opened e smp⟩
  | none =>
    have hj := hi
    rw [child_eq hc] at hj
    refine (runs_openNew (r := ⟨e, [E]⟩) h.wf hc hs hj cls a).mono ?_
    rintro o s' ⟨rfl, st, hl, hk⟩
    refine ⟨s.length, rfl, h.newSamp st hk, fun g hg q => ⟨q.root, q.entry, q.hub, ?_⟩, st.opened h.group⟩
    intro q
    injection q with q
    omega

/-- The instrument `i` and the sample `S` while the geometry is written: what names they have. -/
structure SiteIs (E : Str) (e i : Nat) (b0 : Book) (T : Str → Prop) (N : List Str) (S : Option Nat) (b : Book) (s : H5) : Prop where
  live : Live E e (some i) S b s
  grow : Grow .geometry b0 b
  names : ∀ n ∈ b.samp, T n
  hub : ∀ n ∈ b.inst, n ∈ b0.inst ∨ n ∈ N

/-- the same with a sample if `p` -/
def Site (E : Str) (e i : Nat) (b0 : Book) (p : Prop) (T : Str → Prop) (N : List Str) (s : H5) : Prop :=
  ∃ S b, SiteIs E e i b0 T N S b s ∧ (p → smp ∈ b.must)

/-- the same with the sample `j` -/
def SiteAt (E : Str) (e i : Nat) (b0 : Book) (T : Str → Prop) (N : List Str) (j : Nat) (s : H5) : Prop :=
  ∃ b, SiteIs E e i b0 T N (some j) b s ∧ smp ∈ b.must

variable {i j : Nat} {b0 : Book} {p q : Prop} {T T' : Str → Prop} {N N' : List Str}

theorem SiteAt.site (h : SiteAt E e i b0 T N j s) (p : Prop) : Site E e i b0 p T N s := by
  obtain ⟨b, h1, h2⟩ := h
  exact ⟨_, b, h1, fun _ => h2⟩

theorem Site.less (h : Site E e i b0 p T N s) (hq : q → p) : Site E e i b0 q T N s := by
  obtain ⟨S, b, h1, h2⟩ := h
  exact ⟨S, b, h1, fun x => h2 (hq x)⟩

theorem SiteAt.names (h : SiteAt E e i b0 T N j s) (ht : ∀ n, T n → T' n) : SiteAt E e i b0 T' N j s := by
  obtain ⟨b, h1, h2⟩ := h
  exact ⟨b, ⟨h1.live, h1.grow, fun n hn => ht n (h1.names n hn), h1.hub⟩, h2⟩

theorem Site.names (h : Site E e i b0 p T N s) (ht : ∀ n, T n → T' n) : Site E e i b0 p T' N s := by
  obtain ⟨S, b, h1, h2⟩ := h
  exact ⟨S, b, ⟨h1.live, h1.grow, fun n hn => ht n (h1.names n hn), h1.hub⟩, h2⟩

theorem Site.hubs (h : Site E e i b0 p T N s) (ht : ∀ n ∈ N, n ∈ N') : Site E e i b0 p T N' s := by
  obtain ⟨S, b, h1, h2⟩ := h
  exact ⟨S, b, ⟨h1.live, h1.grow, h1.names, fun n hn => (h1.hub n hn).imp_right (ht n)⟩, h2⟩

theorem Site.openAt (h : Site E e i b0 p T N s) (cls : Str) (a : Dict AVal) :
    Runs (openGroup ⟨e, [E]⟩ smp cls a) s fun o s' => ∃ j, o = ⟨j, [E, smp]⟩ ∧ SiteAt E e i b0 T N j s' ∧ Opened e smp s s' := by
  obtain ⟨S, b, h1, -⟩ := h
  refine (h1.live.openSamp cls a).mono ?_
  rintro o s' ⟨j, rfl, l, -, op⟩
  exact ⟨j, rfl, ⟨_, ⟨l, h1.grow.add (.inl (by decide)), h1.names, h1.hub⟩, List.mem_cons_self⟩, op⟩

/-- a dataset of the sample -/
theorem SiteAt.write (h : SiteAt E e i b0 T N j s) {n : Str} (hn : Single n) (ht : T n) (hp : n ≠ p!"temperature") {d : PData}
    (hd : ∃ y, d.toH = .ok y) (a : Dict AVal) :
    Runs (writeDataset ⟨j, [E, smp]⟩ n d a) s fun _ s' => SiteAt E e i b0 T N j s' := by
  obtain ⟨b, h1, h2⟩ := h
  obtain ⟨y, hd⟩ := hd
  obtain ⟨ch, hc⟩ := (h1.live.samp j rfl).1
  refine (runs_write (r := ⟨j, [E, smp]⟩) h1.live.wf hc hn hd a).mono ?_
  rintro o s' ⟨-, st, -, -⟩
  refine ⟨_, ⟨h1.live.putSamp rfl st, h1.grow.addSamp hp, fun m hm => ?_, h1.hub⟩, h2⟩
  rcases List.mem_cons.1 hm with rfl | hm
  · exact ht
  · exact h1.names m hm

/-- the fixed names in the group "sample" -/
def sampleFixed : List Str := [p!"unit_cell_abc", p!"unit_cell_alphabetagamma", p!"unit_cell", p!"unit_cell_a", p!"unit_cell_b",
  p!"unit_cell_gamma", p!"ub_matrix", p!"diffractometer_mode", p!"diffractometer_sector"]

theorem fixed_facts : ∀ n ∈ sampleFixed, Plain n ∧ n ≠ p!"temperature" := by decide

/-- a dataset of a fixed name -/
theorem SiteAt.fixed (h : SiteAt E e i b0 (· ∈ sampleFixed) N j s) {n : Str} (hn : n ∈ sampleFixed) {d : PData}
    (hd : ∃ y, d.toH = .ok y) (a : Dict AVal) :
    Runs (writeDataset ⟨j, [E, smp]⟩ n d a) s fun _ s' => SiteAt E e i b0 (· ∈ sampleFixed) N j s' :=
  h.write (fixed_facts n hn).1.single hn (fixed_facts n hn).2 hd a

theorem site_lattice (h : Site E e i b0 p (· ∈ sampleFixed) N s) (l : Lattice) :
    Runs (wLattice ⟨e, [E]⟩ l) s fun _ s' => Site E e i b0 True (· ∈ sampleFixed) N s' := by
  unfold wLattice
  refine Runs.bind (h.openAt _ _) ?_
  rintro o s1 ⟨j, rfl, h1, -⟩
  cases l with
  | three a b c al be ga =>
    refine Runs.bind (h1.fixed (by decide) (toH_nums _) _) fun _ s2 h2 => ?_
    refine Runs.bind (h2.fixed (by decide) (toH_nums _) _) fun _ s3 h3 => ?_
    exact Runs.drop ((h3.fixed (by decide) (toH_nums _) _).mono fun _ _ q => q.site _)
  | two a b ga =>
    refine Runs.bind (h1.fixed (by decide) (toH_nums _) _) fun _ s2 h2 => ?_
    refine Runs.bind (h2.fixed (by decide) (toH_nums _) _) fun _ s3 h3 => ?_
    exact Runs.drop ((h3.fixed (by decide) (toH_nums _) _).mono fun _ _ q => q.site _)

theorem site_sample (h : Site E e i b0 p (· ∈ sampleFixed) N s) {n : Str} (hn : n ∈ sampleFixed) {d : Option PData}
    (hd : ∀ x, d = some x → ∃ y, x.toH = .ok y) :
    Runs (wSample ⟨e, [E]⟩ n d) s fun _ s' => Site E e i b0 (p ∨ d ≠ none) (· ∈ sampleFixed) N s' := by
  unfold wSample
  cases d with
  | none => exact Runs.ret (h.less (by simp))
  | some x =>
    refine Runs.bind (h.openAt _ _) ?_
    rintro o s1 ⟨j, rfl, h1, -⟩
    exact Runs.drop ((h1.fixed hn (hd x rfl) _).mono fun _ _ q => q.site _)

section
variable [UniDB]

/-! ## Reflections -/

/-- the names after `k` reflections -/
def upToOr (k : Nat) (n : Str) : Prop := n ∈ sampleFixed ∨ ∃ j, j < k ∧ n = p!"or" ++ natStr j

theorem single_or (k : Nat) : Single (p!"or" ++ natStr k) := (plain_num (by decide) (by decide) k).single

theorem or_ne (k : Nat) {n : Str} (h : n.head? ≠ some 'o') : p!"or" ++ natStr k ≠ n := by
  intro e
  exact h (by rw [← e]; rfl)

theorem fixed_head : ∀ n ∈ sampleFixed, n.head? ≠ some 'o' := by decide

theorem or_new (k : Nat) : ¬ upToOr k (p!"or" ++ natStr k) := by
  rintro (h | ⟨j, hj, e⟩)
  · exact fixed_head _ h rfl
  · have := natStr_injective (List.append_cancel_left e)
    omega

theorem reflFields {v : Str → Option Nat} {g : HRef} (h : Work E e I S b g.id v s) (hh kk : PyFloat) (l : Option PyFloat) (wl : PyFloat)
    {ang : Dict PyFloat} (ha : ∀ k ∈ ang.keys, NoSlash k) :
    Runs (wReflectionFields g hh kk l wl ang) s fun _ s' => Work E e I S b g.id v s' := by
  unfold wReflectionFields
  refine Runs.bind (h.write ((by decide : Plain p!"h").single) (toH_num _) _) fun _ s2 w => ?_
  refine Runs.bind (w.write ((by decide : Plain p!"k").single) (toH_num _) _) fun _ s3 w => ?_
  refine Runs.bind (P := fun _ s' => Work E e I S b g.id v s') ?_ fun _ s4 w => ?_
  · exact Runs.ifSome (fun _ _ => Runs.drop (w.write ((by decide : Plain p!"l").single) (toH_num _) _)) fun _ => w
  refine Runs.bind (w.write ((by decide : Plain p!"wavelength").single) (toH_num _) _) fun _ s5 w => ?_
  refine Runs.each (J := fun s' => Work E e I S b g.id v s') w fun kv hkv s6 w6 => ?_
  exact Runs.drop (w6.write (NoSlash.single (ha kv.1 (List.mem_map.2 ⟨kv, hkv, rfl⟩))) (toH_num _) _)

/-- a new group of the sample -/
theorem SiteAt.newGroup (h : SiteAt E e i b0 T N j s) {n : Str} (hn : Single n) (hf : ¬ T n) (hp : n ≠ p!"temperature") (cls : Str) (a : Dict AVal)
    (ht : ∀ m, T m → T' m) (ht' : T' n) :
    Runs (openGroup ⟨j, [E, smp]⟩ n cls a) s fun o s' => o = ⟨s.length, [E, smp, n]⟩ ∧ kids s' s.length = some [] ∧ Step j n s.length s s' ∧
      ∃ b, SiteIs E e i b0 T' N (some j) b s' ∧ smp ∈ b.must ∧ Work E e (some i) (some j) b s.length (child s' e) s' := by
  obtain ⟨b, h1, h2⟩ := h
  have hs := h1.live.samp j rfl
  obtain ⟨ch, hc⟩ := hs.1
  have hfree : ch.get? n = none := by
    rw [← child_eq hc]
    cases hm : child s j n with
    | none => rfl
    | some k => exact absurd (h1.names n (hs.2.2.2 n (by rw [hm]; simp))) hf
  refine (runs_openNew (r := ⟨j, [E, smp]⟩) h1.live.wf hc hn hfree cls a).mono ?_
  rintro o s' ⟨rfl, st, hl, hk⟩
  have hlive := h1.live.putSamp rfl st
  refine ⟨rfl, hk, st, _, ⟨hlive, h1.grow.addSamp hp, fun m hm => ?_, h1.hub⟩, h2, hlive, h1.live.own, ⟨_, hk⟩, fun _ => rfl⟩
  rcases List.mem_cons.1 hm with rfl | hm
  · exact ht'
  · exact ht m (h1.names m hm)

theorem site_reflection (h : SiteAt E e i b0 (upToOr k) N j s) {r : Reflection} (hr : ∀ n ∈ (angles r).keys, NoSlash n) :
    Runs (wReflection ⟨j, [E, smp]⟩ (k, r)) s fun _ s' => SiteAt E e i b0 (upToOr (k + 1)) N j s' := by
  unfold wReflection
  refine Runs.bind (h.newGroup (T' := upToOr (k + 1)) (single_or k) (or_new k) (or_ne k (by decide)) _ _ ?_ (.inr ⟨k, by omega, rfl⟩)) ?_
  · rintro m (hm | ⟨j, hj, rfl⟩)
    · exact .inl hm
    · exact .inr ⟨j, by omega, rfl⟩
  rintro o s1 ⟨rfl, -, -, b, h1, h2, w⟩
  cases r with
  | three hh kk l wl ang => exact (reflFields (g := ⟨s.length, [E, smp, p!"or" ++ natStr k]⟩) w hh kk (some l) wl hr).mono fun _ s' w' => ⟨b, ⟨w'.live, h1.grow, h1.names, h1.hub⟩, h2⟩
  | two hh kk wl ang => exact (reflFields (g := ⟨s.length, [E, smp, p!"or" ++ natStr k]⟩) w hh kk none wl hr).mono fun _ s' w' => ⟨b, ⟨w'.live, h1.grow, h1.names, h1.hub⟩, h2⟩

theorem site_reflections : ∀ (l : List Reflection) (k : Nat) {s : H5}, SiteAt E e i b0 (upToOr k) N j s → (∀ r ∈ l, ∀ n ∈ (angles r).keys, NoSlash n) →
    Runs (HM.each (wReflection ⟨j, [E, smp]⟩) ((List.range' k l.length).zip l)) s fun _ s' => SiteAt E e i b0 (upToOr (k + l.length)) N j s'
  | [], k, s, h, _ => Runs.ret h
  | r :: l, k, s, h, hr => by
    rw [List.length_cons, List.range'_succ, List.zip_cons_cons]
    refine Runs.andThen (site_reflection h (hr r (by simp))) fun _ s1 h1 => ?_
    have := site_reflections l (k + 1) h1 fun r' hr' => hr r' (by simp [hr'])
    rw [Nat.add_right_comm, Nat.add_assoc] at this
    exact this

/-! ## Wavelength -/

theorem nameOf_four (i j : Nat) (A B C M : Str) : nameOf ⟨i, [A, B, C]⟩ ++ '/' :: M = nameOf ⟨j, [A, B, C, M]⟩ := by
  simp [nameOf, join]

/-- a new group of the instrument -/
theorem SiteIs.newHub (h : SiteIs E e i b0 T N S b s) {n : Str} (hn : Single n) (hf : n ∉ b0.inst) (hf' : n ∉ N) (hu : n ∈ instBy .geometry)
    (cls : Str) (a : Dict AVal) :
    Runs (openGroup ⟨i, [E, inst]⟩ n cls a) s fun o s' => o = ⟨s.length, [E, inst, n]⟩ ∧ kids s' s.length = some [] ∧ Step i n s.length s s' ∧
      SiteIs E e i b0 T (n :: N) S (b.addInst n) s' ∧ Work E e (some i) S (b.addInst n) s.length (child s' e) s' := by
  have hs := h.live.hub i rfl
  obtain ⟨ch, hc⟩ := hs.1
  have hfree : ch.get? n = none := by
    rw [← child_eq hc]
    cases hm : child s i n with
    | none => rfl
    | some k =>
      rcases h.hub n (hs.2.2.2.2 n (by rw [hm]; simp)) with q | q
      · exact absurd q hf
      · exact absurd q hf'
  refine (runs_openNew (r := ⟨i, [E, inst]⟩) h.live.wf hc hn hfree cls a).mono ?_
  rintro o s' ⟨rfl, st, hl, hk⟩
  have hlive := h.live.putInst rfl st
  refine ⟨rfl, hk, st, ⟨hlive, h.grow.addInst hu, h.names, fun m hm => ?_⟩, hlive, h.live.own, ⟨_, hk⟩, fun _ => rfl⟩
  rcases List.mem_cons.1 hm with rfl | hm
  · exact .inr List.mem_cons_self
  · exact (h.hub m hm).imp_right (List.mem_cons_of_mem _)

theorem beam_new (k : Nat) : ¬ upToOr k p!"beam" := by
  rintro (h | ⟨j, _, e⟩)
  · exact absurd h (by decide)
  · exact or_ne j (by decide) e.symm

theorem site_wavelength (h : Site E e i b0 p (upToOr k) N s) (hf : p!"monochromator" ∉ b0.inst) (hf' : p!"monochromator" ∉ N) (wl : PyFloat) :
    Runs (wWavelength ⟨e, [E]⟩ ⟨i, [E, inst]⟩ wl) s fun _ s' => Site E e i b0 True (fun _ => True) (p!"monochromator" :: N) s' := by
  obtain ⟨S, b, h0, -⟩ := h
  unfold wWavelength
  refine Runs.bind (h0.newHub ((by decide : Plain p!"monochromator").single) hf hf' (by decide) _ _) ?_
  rintro o s1 ⟨rfl, hk1, st1, h1, w1⟩
  refine Runs.bind (runs_write (r := ⟨s.length, [E, inst, p!"monochromator"]⟩) h1.live.wf hk1 ((by decide : Plain p!"wavelength").single)
    rfl _) ?_
  rintro ds s2 ⟨rfl, st2, hl2, -⟩
  have hm2 : child s2 s.length p!"wavelength" = some s1.length := (st2.child w1.grp).2.1
  have hgi := (h0.live.hub i rfl)
  have hmi : i ≠ s.length := fun q => w1.own.hub (by rw [q])
  have hi2 : child s2 i p!"monochromator" = some s.length := by
    rw [st2.other (Nat.lt_of_lt_of_le hgi.1.lt st1.len) hmi]
    exact (st1.child hgi.1).2.1
  have live2 := h1.live.far st2 w1.own
  have hgm2 : IsGroup s2 s.length := st2.group w1.grp
  refine Runs.bind (live2.openSamp _ _) ?_
  rintro o s3 ⟨j, rfl, live3, own3, op3⟩
  have hown3 := own3 s.length hgm2.lt w1.own
  have hgi2 := (live2.hub i rfl)
  have hm3 : child s3 s.length p!"wavelength" = some s1.length := by rw [op3.other _ hgm2.lt w1.own.entry]; exact hm2
  have hi3 : child s3 i p!"monochromator" = some s.length := by rw [op3.other _ hgi2.1.lt hgi2.2.2.1]; exact hi2
  have h3 : SiteAt E e i b0 (upToOr k) (p!"monochromator" :: N) j s3 :=
    ⟨_, ⟨live3, h1.grow.add (.inl (by decide)), h1.names, h1.hub⟩, List.mem_cons_self⟩
  refine Runs.bind (h3.newGroup (T' := fun _ => True) ((by decide : Plain p!"beam").single) (beam_new k) (by decide) _ _ (fun _ _ => trivial) trivial) ?_
  rintro o s4 ⟨rfl, hk4, st4, b4, h4, m4, w4⟩
  have hgi3 := (live3.hub i rfl)
  have hij : i ≠ j := fun q => hgi3.2.2.2.1 (by rw [q])
  have hmj : s.length ≠ j := fun q => hown3.samp (by rw [q])
  have hm4 : child s4 s.length p!"wavelength" = some s1.length := by
    rw [st4.other (op3.group _ hgm2).lt hmj]; exact hm3
  have hi4 : child s4 i p!"monochromator" = some s.length := by rw [st4.other hgi3.1.lt hij]; exact hi3
  have hj4 : child s4 j p!"beam" = some s3.length := (st4.child (live3.samp j rfl).1).2.1
  have hkl : s1.length < s4.length := (child_lt h4.live.wf hm4).2.1
  refine (runs_makeLink h4.live.wf ⟨j, [E, smp]⟩ (o := ⟨s1.length, [E, inst, p!"monochromator"] ++ [p!"wavelength"]⟩) (k := s1.length)
    (q := [E, smp, p!"beam"]) (m := p!"incident_wavelength") (t := s3.length) ?_ ?_ hkl hkl ?_ ?_ hk4 rfl
    (nameOf_four _ 0 E smp p!"beam" p!"incident_wavelength")).mono ?_
  · intro c hc
    simp only [List.cons_append, List.nil_append, List.mem_cons, List.not_mem_nil, or_false] at hc
    rcases hc with rfl | rfl | rfl | rfl
    · exact h4.live.plain
    · decide
    · decide
    · decide
  · exact .step h4.live.root (.step h4.live.isInst (.step hi4 (.step hm4 (.nil _))))
  · intro c hc
    simp only [List.cons_append, List.nil_append, List.mem_cons, List.not_mem_nil, or_false] at hc
    rcases hc with rfl | rfl | rfl | rfl
    · exact h4.live.plain
    · decide
    · decide
    · decide
  · exact .step h4.live.root (.step h4.live.isSamp (.step hj4 (.nil _)))
  · rintro _ s5 ⟨st5, -⟩
    exact ⟨_, b4, ⟨h4.live.far st5 w4.own, h4.grow, h4.names, h4.hub⟩, fun _ => m4⟩

/-! ## The writer -/

theorem gValues_ok {G : Dict Str} (h : ∀ kv ∈ G, kv.1 ≠ [] ∧ ∀ w ∈ splitWs kv.2, Numeric w) :
    ∃ dd, gValues G = .ok dd ∧ ∀ kv ∈ dd, kv.1 ≠ [] ∧ ∃ y, kv.2.toH = .ok y := by
  have hn : ∀ l : List Str, (∀ w ∈ l, Numeric w) → ∃ xs, mapE Py.float l = .ok xs := by
    intro l
    induction l with
    | nil => intro _; exact ⟨[], rfl⟩
    | cons w l ih =>
      intro hw
      obtain ⟨v, hv⟩ := hw w (by simp)
      obtain ⟨xs, hxs⟩ := ih fun w' hw' => hw w' (by simp [hw'])
      exact ⟨v :: xs, by simp [mapE, hv, hxs]⟩
  induction G with
  | nil => exact ⟨[], rfl, by simp⟩
  | cons kv G ih =>
    obtain ⟨xs, hxs⟩ := hn _ (h kv (by simp)).2
    obtain ⟨dd, h1, h2⟩ := ih fun kv' hk => h kv' (by simp [hk])
    unfold gValues at h1
    refine ⟨(kv.1, flts xs) :: dd, by simp [gValues, mapE, hxs, h1], ?_⟩
    intro p hp
    rcases List.mem_cons.1 hp with rfl | hp
    · exact ⟨(h kv (by simp)).1, toH_nums _⟩
    · exact h2 p hp

theorem toH_gData {v : GVal} (h : ∀ rows, v = .mat rows → ∀ r ∈ rows, r.length = 3) : ∃ y, (gData v).toH = .ok y := by
  cases v with
  | str t => exact ⟨_, rfl⟩
  | num f => exact ⟨_, rfl⟩
  | mat rows =>
    refine toH_rows ?_
    cases rows with
    | nil => exact .inl rfl
    | cons r rs =>
      refine .inr ⟨r.map .flt, rs.map (·.map .flt), rfl, ?_⟩
      intro r' hr'
      obtain ⟨q, hq, rfl⟩ := List.mem_map.1 hr'
      simp [h _ rfl r (by simp), h _ rfl q (by simp [hq])]

theorem live_geometry (h : Live E e I S b s) (hG : p!"G" ∉ b.top) (hS : smp ∉ b.top) (hm : p!"monochromator" ∉ b.inst)
    (hg : p!"geometry_parameters" ∉ b.inst) {x : Obj} (hx : GeometryOk x) (hn : ∀ d, x.diff = some d → GeoNames d) :
    Runs (wGeometry ⟨e, [E]⟩ x) s fun _ s' => ∃ I S b', Live E e I S b' s' ∧ Grow .geometry b b' ∧ (HasSample x → smp ∈ b'.must) := by
  obtain ⟨⟨G, hG1, hG2⟩, hdiff⟩ := hx
  obtain ⟨d, hd⟩ := Option.ne_none_iff_exists'.1 hdiff
  have gn := hn d hd
  obtain ⟨dd, hdd, hddk⟩ := gValues_ok hG2
  have hnone : S = none := h.isSamp.symm.trans (h.missing hS)
  subst hnone
  unfold wGeometry
  have hb0 : Live E e I none { b with samp := [] } s :=
    { h with
      samp := fun _ q => by cases q }
  refine Runs.bind (hb0.make (ordinary_lit (by decide) (by decide)) hG _ _) ?_
  rintro g s1 ⟨rfl, -, v, -, w1⟩
  refine Runs.need hG1 (Runs.lift hdd ?_)
  refine Runs.bind (w1.saveDict hddk) fun _ s2 w2 => ?_
  refine Runs.need hd ?_
  rw [if_neg gn.some]
  refine Runs.bind (w2.live.openInst _ _) ?_
  rintro o s3 ⟨i, rfl, l3, -, -⟩
  obtain ⟨ch, hc⟩ := (l3.hub i rfl).1
  refine Runs.bind (P := fun _ s' => Site E e i b False (· ∈ sampleFixed) [p!"name"] s') ?_ ?_
  · refine (runs_write (r := ⟨i, [E, inst]⟩) l3.wf hc ((by decide : Plain p!"name").single) rfl _).mono ?_
    rintro o s4 ⟨-, st4, -, -⟩
    refine ⟨none, _, ⟨l3.putInst rfl st4, ⟨fun n hn => ?_, fun n hn => ?_, fun n hn => (by cases hn), fun n hn => ?_⟩, fun n hn => (by cases hn), fun n hn => ?_⟩, fun q => q.elim⟩
    · rcases List.mem_cons.1 hn with rfl | hn
      · exact .inr (.inl (by decide))
      · rcases List.mem_cons.1 hn with rfl | hn
        · exact .inr (.inl (by decide))
        · exact .inl hn
    · rcases List.mem_cons.1 hn with rfl | hn
      · exact .inr (by decide)
      · exact .inl hn
    · exact List.mem_cons_of_mem _ (List.mem_cons_of_mem _ hn)
    · rcases List.mem_cons.1 hn with rfl | hn
      · exact .inr (by decide)
      · exact .inl hn
  intro _ s4 h4
  refine Runs.bind (P := fun _ s' => Site E e i b (d.lattice ≠ none) (· ∈ sampleFixed) [p!"name"] s') ?_ fun _ s5 h5 => ?_
  · exact Runs.ifSome (fun l _ => (site_lattice h4 l).mono fun _ _ q => q.less fun _ => trivial) fun q => h4.less fun r => r q
  refine Runs.bind (site_sample h5 (n := p!"ub_matrix") (by decide) ?_) fun _ s6 h6 => ?_
  · intro y hy
    obtain ⟨v, hv, rfl⟩ := Option.map_eq_some_iff.1 hy
    exact toH_gData fun rows e => gn.matrices _ rows (e ▸ Dict.mem_of_get? hv)
  refine Runs.bind (site_sample h6 (n := p!"diffractometer_mode") (by decide) ?_) fun _ s7 h7 => ?_
  · intro y hy
    obtain ⟨v, hv, rfl⟩ := Option.map_eq_some_iff.1 hy
    exact toH_str _
  refine Runs.bind (site_sample h7 (n := p!"diffractometer_sector") (by decide) ?_) fun _ s8 h8 => ?_
  · intro y hy
    obtain ⟨v, hv, rfl⟩ := Option.map_eq_some_iff.1 hy
    exact toH_num _
  simp only [ne_eq, Option.map_eq_none_iff] at h8
  have h8' := h8.names (T' := upToOr 0) fun n hn => .inl hn
  refine Runs.bind (P := fun _ s' => Site E e i b ((((d.lattice ≠ none ∨ d.gpar.get? p!"ub_matrix" ≠ none) ∨ d.mode ≠ none) ∨ d.sector ≠ none) ∨
    d.reflections ≠ []) (upToOr (d.reflections.length)) [p!"name"] s') ?_ fun _ s9 h9 => ?_
  · refine Runs.onlyIf (fun hb => ?_) fun hb => ?_
    · refine Runs.bind (h8'.openAt _ _) ?_
      rintro o t ⟨j, rfl, h9, -⟩
      have := site_reflections d.reflections 0 h9 fun r hr n hn => ((gn.angles r hr).2 n hn).1
      rw [Nat.zero_add] at this
      rw [List.range_eq_range']
      exact this.mono fun _ _ q => q.site _
    · have he : d.reflections = [] := by
        cases hr : d.reflections with
        | nil => rfl
        | cons r l => rw [hr] at hb; cases hb
      rw [he]
      refine h8'.less ?_
      rintro (q | q)
      · exact q
      · exact absurd rfl q
  refine Runs.bind (P := fun _ s' => Site E e i b (HasSample x) (fun _ => True) [p!"monochromator", p!"name"] s') ?_ fun _ s10 h10 => ?_
  · refine Runs.ifSome (fun wl _ => (site_wavelength h9 hm (by decide) wl).mono fun _ _ q => q.less fun _ => trivial) fun hw => ?_
    refine ((h9.names (T' := fun _ => True) fun _ _ => trivial).hubs fun n hn => List.mem_cons_of_mem _ hn).less ?_
    rintro ⟨d', hd', q⟩
    rw [hd] at hd'
    injection hd' with hd'
    subst hd'
    rcases q with q | q | q | q | q | q
    · exact .inl (.inl (.inl (.inl q)))
    · exact .inl (.inl (.inl (.inr q)))
    · exact .inl (.inl (.inr q))
    · exact .inl (.inr q)
    · exact .inr q
    · exact absurd hw q
  obtain ⟨S', b', h11, h12⟩ := h10
  refine Runs.bind (h11.newHub ((by decide : Plain p!"geometry_parameters").single) hg (by decide) (by decide) _ _) ?_
  rintro o s11 ⟨rfl, -, -, h13, w13⟩
  refine (Runs.each (J := fun t => Work E e (some i) S' (b'.addInst p!"geometry_parameters") s10.length (child s11 e) t) w13 fun kv hkv t w => ?_).mono ?_
  · refine Runs.drop (Work.write (g := ⟨s10.length, [E, inst, p!"geometry_parameters"]⟩) w (NoSlash.single (gn.params kv.1 (List.mem_map.2 ⟨kv, hkv, rfl⟩))) (toH_gData fun rows e => ?_) _)
    refine gn.matrices kv.1 rows ?_
    rw [← e]
    exact hkv
  · intro _ t w
    exact ⟨_, _, _, w.live, h13.grow, h12⟩

end
end S2N
