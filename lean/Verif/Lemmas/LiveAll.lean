import Verif.Lemmas.LiveWriters
/-
Each writer does not raise.
-/
namespace S2N
open Py H5 Eznx Writer Spec

/-- the names that a writer uses in the group "instrument" -/
def instBy : H5Fn → List Str
  | .geometry => [p!"name", p!"monochromator", p!"geometry_parameters"]
  | .positioners => [p!"positioners"]
  | .metadata => [p!"metadata"]
  | .chann => [p!"MCA"]
  | .ctime => [p!"MCA"]
  | _ => []

/-- what is known after a writer -/
structure Grow (f : H5Fn) (b b' : Book) : Prop where
  top : ∀ n ∈ b'.top, n ∈ b.top ∨ n ∈ usedBy f ∨ ∃ i, n = p!"unrecognized_" ++ natStr i
  inst : ∀ n ∈ b'.inst, n ∈ b.inst ∨ n ∈ instBy f
  samp : ∀ n ∈ b'.samp, n ∈ b.samp ∨ n ≠ p!"temperature"
  must : ∀ n ∈ b.must, n ∈ b'.must

/-- the writer has done its work -/
def Done (f : H5Fn) (E : Str) (e : Nat) (b : Book) (s : H5) : Prop := ∃ I S b', Live E e I S b' s ∧ Grow f b b'

variable {E : Str} {e : Nat} {I S : Option Nat} {b : Book} {s : H5}

theorem Grow.refl (f : H5Fn) (b : Book) : Grow f b b := ⟨fun _ h => .inl h, fun _ h => .inl h, fun _ h => .inl h, fun _ h => h⟩

theorem Grow.add {f : H5Fn} {b b' : Book} (h : Grow f b b') {n : Str} (hn : n ∈ usedBy f ∨ ∃ i, n = p!"unrecognized_" ++ natStr i) :
    Grow f b (b'.add n) :=
  ⟨fun m hm => by
    rcases List.mem_cons.1 hm with rfl | hm
    · exact .inr hn
    · exact h.top m hm, h.inst, h.samp, fun m hm => List.mem_cons_of_mem _ (h.must m hm)⟩

theorem Grow.addInst {f : H5Fn} {b b' : Book} (h : Grow f b b') {n : Str} (hn : n ∈ instBy f) : Grow f b (b'.addInst n) :=
  ⟨h.top, fun m hm => by
    rcases List.mem_cons.1 hm with rfl | hm
    · exact .inr hn
    · exact h.inst m hm, h.samp, h.must⟩

theorem Grow.addSamp {f : H5Fn} {b b' : Book} (h : Grow f b b') {n : Str} (hn : n ≠ p!"temperature") : Grow f b (b'.addSamp n) :=
  ⟨h.top, h.inst, fun m hm => by
    rcases List.mem_cons.1 hm with rfl | hm
    · exact .inr hn
    · exact h.samp m hm, h.must⟩

theorem ordinary_lit {n : Str} (h : Plain n) (h1 : n ≠ inst ∧ n ≠ smp ∧ n ∉ sharedGroups) : Ordinary n := ⟨h.single, h1⟩

section
variable [UniDB]

theorem live_date (h : Live E e I S b s) {x : Obj} (hx : DatedText x.date) : Runs (wDate ⟨e, [E]⟩ x) s fun _ s' => Done .date E e b s' := by
  obtain ⟨d, hd⟩ := hx
  unfold wDate
  refine Runs.lift hd (Runs.drop ?_)
  refine (h.write (ordinary_lit (by decide) (by decide)) (toH_str d) []).mono fun _ s' q => ?_
  exact ⟨_, _, _, q.1, (Grow.refl _ _).add (.inl (by decide))⟩

theorem live_comments (h : Live E e I S b s) (x : Obj) : Runs (wComments ⟨e, [E]⟩ x) s fun _ s' => Done .comments E e b s' := by
  unfold wComments
  refine Runs.drop ?_
  refine (h.write (ordinary_lit (by decide) (by decide)) (toH_str _) []).mono fun _ s' q => ?_
  exact ⟨_, _, _, q.1, (Grow.refl _ _).add (.inl (by decide))⟩

/-- a cross reference -/
theorem live_xref (h : Live E e I S b s) {f : H5Fn} {n : Str} (hn : Ordinary n) (hu : n ∈ usedBy f) (hf : n ∉ b.top) (desc comment : Str) {d : Dict Str}
    (hd : ∀ m ∈ d.keys, NoSlash m) : Runs (wXref ⟨e, [E]⟩ n desc comment d) s fun _ s' => Done f E e b s' := by
  unfold wXref
  refine Runs.bind (h.make hn hf _ _) ?_
  rintro g s1 ⟨-, -, v, -, w⟩
  refine (Runs.each (J := fun s => Work E e I S (b.add n) g.id v s) w fun kv hkv s2 w2 => ?_).mono fun _ s' q => ⟨_, _, _, q.live, (Grow.refl _ _).add (.inl hu)⟩
  refine Runs.drop (w2.write (NoSlash.single (hd kv.1 ?_)) (toH_str _) [])
  unfold sortedItems at hkv
  exact List.mem_map.2 ⟨kv, ((sortBy_perm _ _).mem_iff).1 hkv, rfl⟩

/-- #M and #T -/
theorem live_preset (h : Live E e I S b s) {f : H5Fn} {n units desc : Str} (hn : Ordinary n) (hu : n ∈ usedBy f) (hb : p!"counting_basis" ∈ usedBy f)
    {o : Option Str} (ho : ∃ t, o = some t ∧ Numeric t) : Runs (wPreset ⟨e, [E]⟩ n units desc o) s fun _ s' => Done f E e b s' := by
  obtain ⟨t, rfl, v, hv⟩ := ho
  unfold wPreset
  refine Runs.bind (h.write (n := p!"counting_basis") (ordinary_lit (by decide) (by decide)) (toH_str _) []) fun _ s1 q => ?_
  refine Runs.need rfl (Runs.lift hv (Runs.drop ?_))
  refine (q.1.write hn (toH_num _) _).mono fun _ s' q => ?_
  exact ⟨_, _, _, q.1, ((Grow.refl _ _).add (.inl hb)).add (.inl hu)⟩

theorem live_hkl (h : Live E e I S b s) {x : Obj} (hx : x.Q ≠ none) : Runs (wHkl ⟨e, [E]⟩ x) s fun _ s' => Done .hkl E e b s' := by
  obtain ⟨q, hq⟩ := Option.ne_none_iff_exists'.1 hx
  unfold wHkl
  refine Runs.need hq (Runs.drop ?_)
  refine (h.write (ordinary_lit (by decide) (by decide)) (toH_nums _) _).mono fun _ s' q => ?_
  exact ⟨_, _, _, q.1, (Grow.refl _ _).add (.inl (by decide))⟩

theorem live_lines (h : Live E e I S b s) {f : H5Fn} {n desc tag key : Str} (hn : n ∈ sharedGroups) (hu : n ∈ usedBy f) (ht : Plain tag) (kind : Kind)
    {o : Option (List Str)} (ho : o ≠ none) : Runs (wLines ⟨e, [E]⟩ n desc tag key kind o) s fun _ s' => Done f E e b s' := by
  obtain ⟨l, rfl⟩ := Option.ne_none_iff_exists'.1 ho
  unfold wLines
  refine Runs.bind (h.openShared hn _ _) ?_
  rintro g s1 ⟨-, v, -, w⟩
  refine Runs.need rfl ?_
  simp only
  refine (Runs.each (J := fun s => Work E e I S (b.add n) g.id v s) w fun p hp s2 w2 => ?_).mono fun _ s' q => ⟨_, _, _, q.live, (Grow.refl _ _).add (.inl hu)⟩
  refine Runs.drop (w2.write (single_tag ?_ _) (toH_str _) _)
  split
  · decide
  · exact ht

theorem toH_sData (v : SVal) : ∃ y, (sData v).toH = .ok y := by cases v <;> exact ⟨_, rfl⟩

theorem live_temperature (h : Live E e I S b s) (x : Obj) : Runs (wTemperature ⟨e, [E]⟩ x) s fun _ s' => Done .temperature E e b s' := by
  unfold wTemperature
  refine Runs.bind (P := fun _ s' => Done .temperature E e b s') ?_ ?_
  · refine Runs.ifSome (fun v _ => Runs.drop ?_) fun _ => ⟨_, _, _, h, Grow.refl _ _⟩
    refine (h.write (ordinary_lit (by decide) (by decide)) (toH_sData _) _).mono fun _ s' q => ?_
    exact ⟨_, _, _, q.1, (Grow.refl _ _).add (.inl (by decide))⟩
  · rintro _ s1 ⟨I1, S1, b1, h1, g1⟩
    refine Runs.ifSome (fun v _ => Runs.drop ?_) fun _ => ⟨_, _, _, h1, g1⟩
    refine (h1.write (ordinary_lit (by decide) (by decide)) (toH_sData _) _).mono fun _ s' q => ?_
    exact ⟨_, _, _, q.1, g1.add (.inl (by decide))⟩

/-- a group of texts or numbers -/
theorem live_dict (h : Live E e I S b s) {f : H5Fn} {n cls : Str} {a : Dict AVal} (hn : Ordinary n) (hu : n ∈ usedBy f) (hf : n ∉ b.top) {d : Dict PData}
    (hd : ∀ kv ∈ d, kv.1 ≠ [] ∧ ∃ y, kv.2.toH = .ok y) :
    Runs (makeGroup ⟨e, [E]⟩ n cls a >>= fun g => saveDict g d) s fun _ s' => Done f E e b s' := by
  refine Runs.bind (h.make hn hf _ _) ?_
  rintro g s1 ⟨-, -, v, -, w⟩
  exact (w.saveDict hd).mono fun _ s' q => ⟨_, _, _, q.live, (Grow.refl _ _).add (.inl hu)⟩

theorem live_V (h : Live E e I S b s) {f : H5Fn} {n : Str} (hn : Ordinary n) (hu : n ∈ usedBy f) (hf : n ∉ b.top) {o : Option (Dict Str)} (ho : o ≠ none)
    (hk : ∀ k ∈ (o.getD []).keys, k ≠ []) : Runs (wV ⟨e, [E]⟩ n o) s fun _ s' => Done f E e b s' := by
  obtain ⟨d, rfl⟩ := Option.ne_none_iff_exists'.1 ho
  refine live_dict h hn hu hf ?_
  intro kv hkv
  obtain ⟨p, hp, rfl⟩ := List.mem_map.1 hkv
  exact ⟨hk p.1 (List.mem_map.2 ⟨p, hp, rfl⟩), toH_strs _⟩

theorem live_MD (h : Live E e I S b s) (hf : p!"bluesky_metadata" ∉ b.top) {x : Obj} (hk : ∀ k ∈ (x.MD.getD []).keys, k ≠ []) :
    Runs (wMD ⟨e, [E]⟩ x) s fun _ s' => Done .MD E e b s' := by
  unfold wMD
  rcases hm : x.MD with _ | (_ | ⟨kv0, d0⟩)
  · exact Runs.ret ⟨_, _, _, h, Grow.refl _ _⟩
  · exact Runs.ret ⟨_, _, _, h, Grow.refl _ _⟩
  · refine live_dict h (ordinary_lit (by decide) (by decide)) (by decide) hf ?_
    intro kv hkv
    obtain ⟨p, hp, rfl⟩ := List.mem_map.1 hkv
    refine ⟨hk p.1 ?_, toH_str _⟩
    rw [hm]
    exact List.mem_map.2 ⟨p, hp, rfl⟩

theorem toH_mData (v : MVal) : ∃ y, (mData v).toH = .ok y := by cases v <;> exact ⟨_, rfl⟩

theorem live_metadata (h : Live E e I S b s) (hf : p!"metadata" ∉ b.top) (hi : p!"metadata" ∉ b.inst) {x : Obj} (hk : ∀ k ∈ (x.metadata.getD []).keys, k ≠ []) :
    Runs (wMetadata ⟨e, [E]⟩ x) s fun _ s' => Done .metadata E e b s' := by
  unfold wMetadata
  rcases hm : x.metadata with _ | (_ | ⟨kv0, d0⟩)
  · exact Runs.ret ⟨_, _, _, h, Grow.refl _ _⟩
  · exact Runs.ret ⟨_, _, _, h, Grow.refl _ _⟩
  · refine Runs.bind (h.make (ordinary_lit (by decide) (by decide)) hf _ _) ?_
    rintro g s1 ⟨rfl, -, v, hv, w⟩
    refine Runs.bind (w.saveDict ?_) fun _ s2 w2 => ?_
    · intro kv hkv
      obtain ⟨p, hp, rfl⟩ := List.mem_map.1 hkv
      refine ⟨hk p.1 ?_, toH_mData _⟩
      rw [hm]
      exact List.mem_map.2 ⟨p, hp, rfl⟩
    · refine (w2.link (N := p!"metadata") (M := p!"metadata") (by decide) rfl (by decide) hv (by decide) hi _).mono ?_
      rintro _ s' ⟨i, l⟩
      exact ⟨_, _, _, l, (((Grow.refl _ _).add (.inl (by decide))).add (.inl (by decide))).addInst (by decide)⟩

/-- the free name for unrecognized lines -/
theorem freeUnrec_free (taken : Str → Bool) : ∀ (n i : Nat), (∃ j, freeUnrec taken n i = p!"unrecognized_" ++ natStr j) ∧
    (taken (freeUnrec taken n i) = true → ∀ j, i ≤ j → j ≤ i + n → taken (p!"unrecognized_" ++ natStr j) = true)
  | 0, i => ⟨⟨i, rfl⟩, fun h j h1 h2 => by
      have : j = i := by omega
      subst this
      exact h⟩
  | n + 1, i => by
    unfold freeUnrec
    split
    · next ht =>
      obtain ⟨h1, h2⟩ := freeUnrec_free taken n (i + 1)
      refine ⟨h1, fun h j hj hj' => ?_⟩
      by_cases e : j = i
      · subst e; exact ht
      · exact h2 h j (by omega) (by omega)
    · next ht => exact ⟨⟨i, rfl⟩, fun h => absurd h ht⟩

theorem single_unrec (i : Nat) : Single (p!"unrecognized_" ++ natStr i) := single_tag (tag := p!"unrecognized") (by decide) i

theorem ordinary_unrec (i : Nat) : Ordinary (p!"unrecognized_" ++ natStr i) := by
  have hh : ∀ t : Str, t.head? ≠ some 'u' → p!"unrecognized_" ++ natStr i ≠ t := by
    intro t ht e
    exact ht (by rw [← e]; rfl)
  refine ⟨single_unrec i, hh _ (by decide), hh _ (by decide), ?_⟩
  unfold sharedGroups
  simp only [List.mem_cons, List.not_mem_nil, or_false, not_or]
  exact ⟨hh _ (by decide), hh _ (by decide), hh _ (by decide)⟩

theorem single_u (i : Nat) : (p!"u" ++ natStr i) ≠ [] := by simp

theorem live_unrec (h : Live E e I S b s) {x : Obj} (hx : x.unrecognized ≠ none) : Runs (wUnrec ⟨e, [E]⟩ x) s fun _ s' => Done .unrec E e b s' := by
  obtain ⟨l, hl⟩ := Option.ne_none_iff_exists'.1 hx
  unfold wUnrec
  obtain ⟨ch, hc⟩ := h.group
  obtain ⟨a, ha⟩ := kids_inv hc
  have hw : ∀ j, (walk s e (comps (p!"unrecognized_" ++ natStr j))).isSome = (ch.get? (p!"unrecognized_" ++ natStr j)).isSome := by
    intro j
    rw [comps_single (single_unrec j), walk_single _ ha]
  obtain ⟨⟨j, hj⟩, hfree⟩ := freeUnrec_free (fun n => (walk s e (comps n)).isSome) (childCount s e) 1
  have hnone : ch.get? (p!"unrecognized_" ++ natStr j) = none := by
    cases hn : ch.get? (p!"unrecognized_" ++ natStr j) with
    | none => rfl
    | some k =>
      exfalso
      have hall := hfree (by rw [hj, hw, hn]; rfl)
      have hcc : childCount s e = ch.length := by unfold childCount; rw [ha]
      rw [hcc] at hall
      have hnd : ((List.range' 1 (ch.length + 1)).map (fun j => p!"unrecognized_" ++ natStr j)).Nodup := by
        refine (List.nodup_range' (step := 1)).map_on ?_
        intro a _ b _ e
        exact natStr_injective (List.append_cancel_left e)
      have hsub : ((List.range' 1 (ch.length + 1)).map (fun j => p!"unrecognized_" ++ natStr j)) ⊆ Dict.keys ch := by
        intro n hn
        obtain ⟨j, hj, rfl⟩ := List.mem_map.1 hn
        rw [List.mem_range'_1] at hj
        have := hall j hj.1 (by omega)
        rw [hw] at this
        rw [← Dict.has_iff_mem]
        exact this
      have := (hnd.subperm hsub).length_le
      rw [List.length_map, List.length_range', Dict.keys, List.length_map] at this
      omega
  refine Runs.bind (P := fun n s' => n = p!"unrecognized_" ++ natStr j ∧ s' = s) ⟨_, s, rfl, hj, rfl⟩ ?_
  rintro n s1 ⟨rfl, rfl⟩
  refine Runs.bind (P := fun g s' => ∃ v, Work E e I S (b.add (p!"unrecognized_" ++ natStr j)) g.id v s') ?_ ?_
  · refine (runs_make (r := ⟨e, [E]⟩) h.wf hc (single_unrec j) hnone _ _).mono ?_
    rintro o s' ⟨rfl, st, hl, hk⟩
    have ho := ordinary_unrec j
    exact ⟨child s' e, h.put st ho.2.1 ho.2.2.1 (fun q => absurd q ho.2.2.2), h.own, ⟨_, hk⟩, fun _ => rfl⟩
  · rintro g s2 ⟨v, w⟩
    refine Runs.need hl ?_
    refine (w.saveDict ?_).mono fun _ s' q => ⟨_, _, _, q.live, (Grow.refl _ _).add (.inr ⟨j, rfl⟩)⟩
    intro kv hkv
    obtain ⟨p, hp, rfl⟩ := List.mem_map.1 hkv
    exact ⟨single_u p.1, toH_str _⟩

end
end S2N
