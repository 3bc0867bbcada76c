import Verif.Lemmas.LiveUxml
/-
All the writers of a scan do not raise.
-/
namespace S2N
open Py H5 Eznx Writer Spec

variable {E : Str} {e : Nat} {I S : Option Nat} {b : Book} {s : H5}

/-- the names of the entry that a writer makes, and which must not be there -/
def freshTop : H5Fn → List Str
  | .geometry => [p!"G", smp]
  | .counterJ => [p!"counter_cross_reference"]
  | .counterj => [p!"counter_cross_reference"]
  | .positionerXref => [p!"positioner_cross_reference"]
  | .positioners => [p!"positioners"]
  | .scanData => [p!"data"]
  | .metadata => [p!"metadata"]
  | .VA => [p!"VA"]
  | .VD => [p!"VD"]
  | .VE => [p!"VE"]
  | .MD => [p!"bluesky_metadata"]
  | .uxml => [p!"UXML"]
  | _ => []

/-- the same for the group "instrument" -/
def freshInst : H5Fn → List Str
  | .geometry => [p!"monochromator", p!"geometry_parameters"]
  | .positioners => [p!"positioners"]
  | .metadata => [p!"metadata"]
  | _ => []

/-- what a writer takes for granted -/
def HasIt (x : Obj) : H5Fn → Prop
  | .hkl => x.Q ≠ none
  | .userResults => x.R ≠ none
  | .userReserved => x.U ≠ none
  | .unrec => x.unrecognized ≠ none
  | .VA => x.VA ≠ none
  | .VD => x.VD ≠ none
  | .VE => x.VE ≠ none
  | _ => True

section
variable [UniDB]

/-- what is known after one writer of `x` -/
def After (f : H5Fn) (E : Str) (e : Nat) (b : Book) (x : Obj) (y : Obj) (s : H5) : Prop :=
  ((∃ L, y = { x with L := L }) ∧ (f ≠ .scanData ∨ NotBy x meshMacros → y = x)) ∧
  ∃ I S b', Live E e I S b' s ∧ Grow f b b' ∧ (f = .geometry → HasSample x → smp ∈ b'.must)

theorem live_runWriter (h : Live E e I S b s) {f : H5Fn} (ht : ∀ n ∈ freshTop f, n ∉ b.top) (hi : ∀ n ∈ freshInst f, n ∉ b.inst)
    {hdr x : Obj} (hn : ∀ d, x.diff = some d → GeoNames d) (hx : CanWrite hdr x f) (hh : HasIt x f) :
    Runs (runWriter f ⟨e, [E]⟩ hdr x) s fun y s' => After f E e b x y s' := by
  have k : ∀ {m : HM Unit} {f : H5Fn}, f ≠ .geometry → Runs m s (fun _ s' => Done f E e b s') → Runs (HM.andThen m fun _ => HM.ret x) s fun y s' => After f E e b x y s' := by
    intro m f hf hm
    refine Runs.andThen hm ?_
    rintro _ s' ⟨I', S', b', q1, q2⟩
    exact Runs.ret ⟨⟨⟨x.L, rfl⟩, fun _ => rfl⟩, I', S', b', q1, q2, fun q => absurd q hf⟩
  cases f with
  | date => exact k (by decide) (live_date h hx)
  | comments => exact k (by decide) (live_comments h x)
  | geometry =>
    refine Runs.andThen (live_geometry h (ht _ (by decide)) (ht _ (by decide)) (hi _ (by decide)) (hi _ (by decide)) hx hn) ?_
    rintro _ s' ⟨I', S', b', q1, q2, q3⟩
    exact Runs.ret ⟨⟨⟨x.L, rfl⟩, fun _ => rfl⟩, I', S', b', q1, q2, fun _ => q3⟩
  | counterJ =>
    refine k (by decide) ?_
    unfold wCounterXref
    simp only
    split
    · exact Runs.ret ⟨_, _, _, h, Grow.refl _ _⟩
    · exact live_xref h (ordinary_lit (by decide) (by decide)) (by decide) (ht _ (by decide)) _ _ hx
  | counterj =>
    refine k (by decide) ?_
    unfold wCounterXref
    simp only
    split
    · exact Runs.ret ⟨_, _, _, h, Grow.refl _ _⟩
    · exact live_xref h (ordinary_lit (by decide) (by decide)) (by decide) (ht _ (by decide)) _ _ hx
  | positionerXref =>
    refine k (by decide) ?_
    unfold wPositionerXref
    simp only
    split
    · exact Runs.ret ⟨_, _, _, h, Grow.refl _ _⟩
    · exact live_xref h (ordinary_lit (by decide) (by decide)) (by decide) (ht _ (by decide)) _ _ hx
  | monitor => exact k (by decide) (live_preset h (ordinary_lit (by decide) (by decide)) (by decide) (by decide) hx)
  | countTime => exact k (by decide) (live_preset h (ordinary_lit (by decide) (by decide)) (by decide) (by decide) hx)
  | positioners => exact k (by decide) (live_positioners h (ht _ (by decide)) (hi _ (by decide)) hx)
  | hkl => exact k (by decide) (live_hkl h hh)
  | userResults => exact k (by decide) (live_lines h (by decide) (by decide) (by decide) _ hh)
  | userReserved => exact k (by decide) (live_lines h (by decide) (by decide) (by decide) _ hh)
  | temperature => exact k (by decide) (live_temperature h x)
  | calib => exact k (by decide) (live_calib h x)
  | chann => exact k (by decide) (live_chann h x)
  | ctime => exact k (by decide) (live_ctime h x)
  | scanData =>
    refine (live_scanData h (ht _ (by decide)) hx).mono ?_
    rintro y s' ⟨q0, I', S', b', q1, q2⟩
    exact ⟨⟨q0.1, fun q => q0.2 (q.resolve_left fun r => r rfl)⟩, I', S', b', q1, q2, fun q => by cases q⟩
  | metadata => exact k (by decide) (live_metadata h (ht _ (by decide)) (hi _ (by decide)) hx)
  | VA => exact k (by decide) (live_V h (ordinary_lit (by decide) (by decide)) (by decide) (ht _ (by decide)) hh hx)
  | VD => exact k (by decide) (live_V h (ordinary_lit (by decide) (by decide)) (by decide) (ht _ (by decide)) hh hx)
  | VE => exact k (by decide) (live_V h (ordinary_lit (by decide) (by decide)) (by decide) (ht _ (by decide)) hh hx)
  | XPCS => exact Runs.ret ⟨⟨⟨x.L, rfl⟩, fun _ => rfl⟩, _, _, _, h, Grow.refl _ _, fun q => by cases q⟩
  | CCD => exact Runs.ret ⟨⟨⟨x.L, rfl⟩, fun _ => rfl⟩, _, _, _, h, Grow.refl _ _, fun q => by cases q⟩
  | MD => exact k (by decide) (live_MD h (ht _ (by decide)) hx)
  | unrec => exact k (by decide) (live_unrec h hh)
  | uxml => exact k (by decide) (live_uxml h (ht _ (by decide)) hx)

/-! ## The names -/

/-- all writers -/
def allFns : List H5Fn := [.date, .comments, .geometry, .counterJ, .counterj, .positionerXref, .monitor, .positioners, .hkl, .userResults,
  .countTime, .userReserved, .temperature, .calib, .chann, .ctime, .scanData, .metadata, .VA, .VD, .VE, .XPCS, .CCD, .MD, .unrec, .uxml]

omit [UniDB] in
theorem mem_allFns (f : H5Fn) : f ∈ allFns := by cases f <;> decide

/-- the names that an entry has from the beginning -/
def firstNames : List Str := [p!"experiment_description", p!"title", p!"scan_number", p!"command"]

omit [UniDB] in
theorem fresh_table : ∀ f ∈ allFns, (freshTop f ≠ [] ∨ freshInst f ≠ [] → f ∈ groupWriters) ∧
    (∀ n ∈ freshTop f, n ∉ firstNames ∧ n.take 13 ≠ p!"unrecognized_") ∧
    ∀ g ∈ allFns, labelOf f ≠ labelOf g → (∀ n ∈ freshTop f, n ∉ usedBy g) ∧ ∀ n ∈ freshInst f, n ∉ instBy g := by decide +kernel

omit [UniDB] in
theorem rest_table : ∀ f ∈ allFns, p!"monitor" ∉ usedBy f ∧ p!"diffractometer" ∉ instBy f ∧
    (p!"TEMP_SP" ∈ usedBy f ∨ p!"DEGC_SP" ∈ usedBy f → f = .temperature) ∧ (p!"data" ∈ usedBy f → f = .scanData) := by decide +kernel

/-- what is known of the entry after the writers `fs` -/
structure Book.By (b : Book) (fs : List H5Fn) : Prop where
  top : ∀ n ∈ b.top, n ∈ firstNames ∨ (∃ f ∈ fs, n ∈ usedBy f) ∨ ∃ i, n = p!"unrecognized_" ++ natStr i
  inst : ∀ n ∈ b.inst, ∃ f ∈ fs, n ∈ instBy f
  samp : ∀ n ∈ b.samp, n ≠ p!"temperature"

omit [UniDB] in
theorem unrec_take (i : Nat) : (p!"unrecognized_" ++ natStr i).take 13 = p!"unrecognized_" := rfl

omit [UniDB] in
/-- a writer with another label than the earlier ones finds its names free -/
theorem By.fresh {fs : List H5Fn} (h : b.By fs) {f : H5Fn} (hf : f ∈ groupWriters → ∀ g ∈ fs, labelOf f ≠ labelOf g) :
    (∀ n ∈ freshTop f, n ∉ b.top) ∧ ∀ n ∈ freshInst f, n ∉ b.inst := by
  obtain ⟨t1, t2, t3⟩ := fresh_table f (mem_allFns f)
  refine ⟨fun n hn hb => ?_, fun n hn hb => ?_⟩
  · have hg := hf (t1 (.inl (List.ne_nil_of_mem hn)))
    rcases h.top n hb with q | ⟨g, hgs, q⟩ | ⟨i, rfl⟩
    · exact (t2 n hn).1 q
    · exact (t3 g (mem_allFns g) (hg g hgs)).1 n hn q
    · exact (t2 _ hn).2 (unrec_take i)
  · have hg := hf (t1 (.inr (List.ne_nil_of_mem hn)))
    obtain ⟨g, hgs, q⟩ := h.inst n hb
    exact (t3 g (mem_allFns g) (hg g hgs)).2 n hn q

omit [UniDB] in
theorem By.grow {fs : List H5Fn} (h : b.By fs) {f : H5Fn} {b' : Book} (g : Grow f b b') : b'.By (fs ++ [f]) := by
  refine ⟨fun n hn => ?_, fun n hn => ?_, fun n hn => ?_⟩
  · rcases g.top n hn with q | q | q
    · rcases h.top n q with r | ⟨g, hg, r⟩ | r
      · exact .inl r
      · exact .inr (.inl ⟨g, List.mem_append_left _ hg, r⟩)
      · exact .inr (.inr r)
    · exact .inr (.inl ⟨f, by simp, q⟩)
    · exact .inr (.inr q)
  · rcases g.inst n hn with q | q
    · obtain ⟨g, hg, r⟩ := h.inst n q
      exact ⟨g, List.mem_append_left _ hg, r⟩
    · exact ⟨f, by simp, q⟩
  · rcases g.samp n hn with q | q
    · exact h.samp n q
    · exact q

theorem canWrite_withL {hdr x : Obj} (L : Option (List Str)) {f : H5Fn} (hf : f ≠ .scanData) (h : CanWrite hdr x f) :
    CanWrite hdr { x with L := L } f := by
  cases f <;> first | exact absurd rfl hf | exact h | exact ⟨h.lines, h.diff⟩

omit [UniDB] in
theorem hasIt_withL {x : Obj} (L : Option (List Str)) {f : H5Fn} (h : HasIt x f) : HasIt { x with L := L } f := by
  cases f <;> exact h

/-- the writers of a header or a scan -/
theorem live_runWriters {hdr : Obj} : ∀ (fs : List H5Fn) (done : List H5Fn) (x : Obj) {I S : Option Nat} {b : Book} {s : H5}, Live E e I S b s → b.By done →
    (∀ d, x.diff = some d → GeoNames d) → (∀ f ∈ fs, CanWrite hdr x f ∧ HasIt x f) → (fs.map labelOf).Nodup →
    (∀ f ∈ fs, f ∈ groupWriters → ∀ g ∈ done, labelOf f ≠ labelOf g) →
    Runs (runWriters ⟨e, [E]⟩ hdr fs x) s fun y s' => ((∃ L, y = { x with L := L }) ∧ (NotBy x meshMacros → y = x)) ∧
      ∃ I S b', Live E e I S b' s' ∧ b'.By (done ++ fs) ∧ (∀ n ∈ b.must, n ∈ b'.must) ∧ (.geometry ∈ fs → HasSample x → smp ∈ b'.must)
  | [], done, x, I, S, b, s, h, hb, _, _, _, _ => Runs.ret ⟨⟨⟨x.L, rfl⟩, fun _ => rfl⟩, I, S, b, h, by rw [List.append_nil]; exact hb, fun _ q => q, fun q => by cases q⟩
  | f :: fs, done, x, I, S, b, s, h, hb, hn, hc, hd, hg => by
    rw [runWriters]
    rw [List.map_cons, List.nodup_cons] at hd
    obtain ⟨fr1, fr2⟩ := By.fresh hb (hg f (by simp))
    refine Runs.andThen (live_runWriter h fr1 fr2 hn (hc f (by simp)).1 (hc f (by simp)).2) ?_
    rintro y s1 ⟨⟨⟨L, hL⟩, hy⟩, I1, S1, b1, h1, g1, m1⟩
    have hfs : ∀ f' ∈ fs, CanWrite hdr y f' ∧ HasIt y f' := by
      intro f' hf'
      obtain ⟨c1, c2⟩ := hc f' (by simp [hf'])
      by_cases q : f = .scanData
      · subst hL
        refine ⟨canWrite_withL L ?_ c1, hasIt_withL L c2⟩
        rintro rfl
        exact hd.1 (List.mem_map.2 ⟨_, hf', by rw [q]⟩)
      · rw [hy (.inl q)]
        exact ⟨c1, c2⟩
    have hdiff : y.diff = x.diff := by rw [hL]
    have hcmd : y.scanCmd = x.scanCmd := by rw [hL]
    refine (live_runWriters fs (done ++ [f]) y h1 (By.grow hb g1) (fun d hd => hn d (hdiff ▸ hd)) hfs hd.2 ?_).mono ?_
    · intro f' hf' hgr g hgm
      rcases List.mem_append.1 hgm with q | q
      · exact hg f' (by simp [hf']) hgr g q
      · rw [List.mem_singleton.1 q]
        intro r
        exact hd.1 (List.mem_map.2 ⟨f', hf', r⟩)
    · rintro z s2 ⟨⟨⟨L', hL'⟩, hz⟩, I2, S2, b2, h2, by2, m2, hs2⟩
      refine ⟨⟨⟨L', by rw [hL', hL]⟩, fun q => ?_⟩, I2, S2, b2, h2, by rw [List.append_assoc] at by2; exact by2, fun n hn => m2 n (g1.must n hn), fun q hh => ?_⟩
      · have hyx := hy (.inr q)
        rw [hz (by rw [hyx]; exact q), hyx]
      · rcases List.mem_cons.1 q with q | q
        · exact m2 _ (m1 q.symm hh)
        · refine hs2 q ?_
          obtain ⟨d, hd, hh⟩ := hh
          exact ⟨d, hdiff ▸ hd, hh⟩

end
end S2N
