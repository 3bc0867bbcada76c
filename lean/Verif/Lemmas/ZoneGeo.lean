import Verif.Lemmas.ZoneOwn
/-
The groups "sample" and "instrument" of an entry after the writer of the geometry.
-/
namespace S2N
open Py H5 Eznx Writer Spec

abbrev sam : Str := p!"sample"

/-- the attributes of the group "sample" -/
def samAttrs : Dict AVal := [(p!"NX_class", .str p!"NXsample")]

theorem Holds.mono {K K' : Nat → Prop} {s : H5} {i : Nat} {w : Content} (h : Holds K s i w) (hK : ∀ j, K j → K' j) :
    Holds K' s i w := by
  cases w with
  | ds d a => exact h
  | grp V A =>
    obtain ⟨ch, h1, h2, h3⟩ := h
    exact ⟨ch, h1, h2, h3.imp fun p q ⟨e1, e2, e3⟩ => ⟨e1, hK _ e2, e3⟩⟩

/-- the same, if a group and what is in it, other than the node `b`, which is another group, do not change -/
theorem Holds.keep' {K K' : Nat → Prop} {s s' : H5} {i b : Nat} {w : Content} (h : Holds K s i w) (hi : K i) (hib : i ≠ b)
    {ch : Dict Nat} {a : Dict AVal} (hb : s[b]? = some (.group ch a))
    (hs : ∀ j, K j → j ≠ b → s'[j]? = s[j]?) (hK : ∀ j, K j → K' j) : Holds K' s' i w := by
  cases w with
  | ds d a => exact (hs i hi hib).trans h
  | grp V A =>
    obtain ⟨ch, h1, h2, h3⟩ := h
    refine ⟨ch, (hs i hi hib).trans h1, h2, h3.imp fun p q ⟨e1, e2, e3⟩ => ⟨e1, hK _ e2, (hs _ e2 ?_).trans e3⟩⟩
    intro e
    rw [e, hb] at e3
    cases e3

/-- what is in the group "sample", the node `b` -/
def SamIn (KS : Nat → Prop) (s : H5) (b : Nat) (W : List (Str × Content)) : Prop :=
  KS b ∧ ∃ ch, s[b]? = some (.group ch samAttrs) ∧ (Dict.keys ch).Nodup ∧
    List.Forall₂ (fun (p : Str × Nat) (q : Str × Content) => p.1 = q.1 ∧ KS p.2 ∧ p.2 ≠ b ∧ Holds KS s p.2 q.2) ch W

theorem SamIn.keys {KS : Nat → Prop} {s : H5} {b : Nat} {W : List (Str × Content)} (h : SamIn KS s b W) {ch : Dict Nat}
    {a : Dict AVal} (hc : s[b]? = some (.group ch a)) : Dict.keys ch = W.map (·.1) := by
  obtain ⟨-, ch0, h1, -, h3⟩ := h
  rw [hc] at h1
  injection h1 with h1
  injection h1 with h1 _
  subst h1
  clear hc
  induction h3 with
  | nil => rfl
  | cons e _ ih => simp only [Dict.keys, List.map_cons] at ih ⊢; rw [e.1, ih]

theorem SamIn.more {KS KS' : Nat → Prop} {s s' : H5} {b : Nat} {W : List (Str × Content)} (h : SamIn KS s b W) {ch : Dict Nat}
    (hc : s[b]? = some (.group ch samAttrs)) {n : Str} {j : Nat} (hb : s'[b]? = some (.group (ch.set n j) samAttrs))
    (hn : n ∉ W.map (·.1)) (hold : ∀ i, KS i → i ≠ b → s'[i]? = s[i]?) (hK : ∀ i, KS i → KS' i) (hj : KS' j) (hjb : j ≠ b)
    {q : Content} (hh : Holds KS' s' j q) : SamIn KS' s' b (W ++ [(n, q)]) := by
  have hn' : n ∉ Dict.keys ch := by rw [h.keys hc]; exact hn
  obtain ⟨h0, ch0, h1, h2, h3⟩ := h
  rw [hc] at h1
  injection h1 with h1
  injection h1 with h1 _
  subst h1
  refine ⟨hK b h0, _, hb, Dict.nodup_keys_set _ _ _ h2, ?_⟩
  rw [Dict.set_of_not_mem _ _ _ hn']
  refine List.rel_append (h3.imp fun p q ⟨e1, e2, e3, e4⟩ => ⟨e1, hK _ e2, e3, ?_⟩) (.cons ⟨rfl, hj, hjb, hh⟩ .nil)
  exact e4.keep' e2 e3 hc hold hK

theorem SamIn.keep {KS KS' : Nat → Prop} {s s' : H5} {b : Nat} {W : List (Str × Content)} (h : SamIn KS s b W)
    (hs : ∀ j, KS j → s'[j]? = s[j]?) (hK : ∀ j, KS j → KS' j) : SamIn KS' s' b W := by
  obtain ⟨h0, ch0, h1, h2, h3⟩ := h
  exact ⟨hK _ h0, ch0, (hs b h0).trans h1, h2, h3.imp fun p q ⟨e1, e2, e3, e4⟩ => ⟨e1, hK _ e2, e3, e4.keep e2 hs hK⟩⟩

/-! ### a group of datasets that is filled -/

/-- the group `g` has the datasets `V`; since the state `s1`, in which it was empty, nothing else was changed -/
structure GrpAt (c : Scope) (X XI : Str → Prop) (v u : Str → Option Nat) (s1 : H5) (K1 : Nat → Prop) (g : Nat) (A : Dict AVal)
    (K : Nat → Prop) (V : Sets) (s : H5) : Prop where
  zone : Zone c X XI K v u s
  holds : Holds (fun i => K i ∧ s1.length ≤ i) s g (.grp V A)
  kg : K g
  lt : g < s1.length
  le : s1.length ≤ s.length
  old : ∀ i, i ≠ g → i < s1.length → s[i]? = s1[i]?
  sub : ∀ i, K1 i → K i

section
variable {c : Scope} {X XI : Str → Prop} {K K1 : Nat → Prop} {v u : Str → Option Nat} {s s' s1 : H5} {A : Dict AVal}

theorem GrpAt.start (h : Zone c X XI K v u s) {g : Nat} (hg : s[g]? = some (.group [] A)) (hK : K g) :
    GrpAt c X XI v u s K g A K [] s :=
  ⟨h, ⟨[], hg, List.nodup_nil, .nil⟩, hK, lt_of_get? hg, Nat.le_refl _, fun _ _ _ => rfl, fun _ => id⟩

theorem GrpAt.write {g : HRef} {V : Sets} (h : GrpAt c X XI v u s1 K1 g.id A K V s) {n : Str} (hs : Single n) {d : PData}
    {a : Dict AVal} {r : HRef} (hw : writeDataset g n d a s = (s', .ok r)) :
    ∃ x, d.toH = .ok x ∧ GrpAt c X XI v u s1 K1 g.id A (fun i => K i ∨ i = s.length)
      (V.put n x (Dict.update [] (noteAttrs d a))) s' := by
  obtain ⟨ch, k1, k2, k3⟩ := h.holds
  have hnI : ¬ v inst = some g.id := fun q => (h.zone.hub _ q).1 h.kg
  obtain ⟨x, e1, -, e3, e4, e5, e6, e7⟩ := h.zone.write (.inl h.kg) k1 (fun q => absurd q hnI) hs hw
  rw [if_neg hnI] at e6
  have hlt := h.lt
  have hle := h.le
  refine ⟨x, e1, e6, ?_, .inl h.kg, h.lt, by omega, ?_, fun i hi => .inl (h.sub i hi)⟩
  · have hnm : n ∉ Dict.keys (ch.del n) := (Dict.not_has_iff _ _).1 (Dict.has_del_self _ _ k2)
    refine ⟨_, e5, del_set_nodup k2, ?_⟩
    rw [Dict.set_of_not_mem _ _ _ hnm]
    unfold Sets.put
    refine List.rel_append ?_ (.cons ⟨rfl, ⟨.inr rfl, hle⟩, e4⟩ .nil)
    refine Dict.forall2_del (fun _ _ h => h.1) (k3.imp fun p q ⟨y1, y2, y3⟩ => ⟨y1, ⟨.inl y2.1, y2.2⟩, ?_⟩) n
    rw [e7 _ ?_ (lt_of_get? y3), y3]
    have := y2.2
    omega
  · intro i hi hil
    rw [e7 i hi (by omega), h.old i hi hil]

/-- datasets written one after the other -/
theorem GrpAt.each {α : Type} {g : HRef} (f : α → Str × PData × Dict AVal) : ∀ (l : List α) {K : Nat → Prop} {V : Sets} {s s' : H5}
    {r : Unit}, GrpAt c X XI v u s1 K1 g.id A K V s → (∀ x ∈ l, Single (f x).1) →
    HM.each (fun x => do
      let _ ← writeDataset g (f x).1 (f x).2.1 (f x).2.2
      pure ()) l s = (s', .ok r) →
    ∃ K' qs, List.Forall₂ (fun x (q : Str × HData × Dict AVal) => q.1 = (f x).1 ∧ (f x).2.1.toH = .ok q.2.1 ∧
        q.2.2 = Dict.update [] (noteAttrs (f x).2.1 (f x).2.2)) l qs ∧
      GrpAt c X XI v u s1 K1 g.id A K' (V.puts qs) s'
  | [], K, V, s, s', r, h, _, hw => by
    obtain ⟨_, rfl⟩ := HM.ret_inv hw
    exact ⟨K, [], .nil, h⟩
  | x :: l, K, V, s, s', r, h, hl, hw => by
    obtain ⟨t, h1, h2⟩ := HM.each_inv_cons hw
    obtain ⟨t', _, h3, h4⟩ := HM.bind_inv h1
    obtain ⟨_, rfl⟩ := HM.ret_inv h4
    obtain ⟨y, y1, y2⟩ := h.write (hl x (by simp)) h3
    obtain ⟨K', qs, q1, q2⟩ := GrpAt.each f l y2 (fun x' hx => hl x' (by simp [hx])) h2
    exact ⟨K', ((f x).1, y, _) :: qs, .cons ⟨rfl, y1, rfl⟩ q1, q2⟩

end

/-! ### the group "sample" -/

/-- the group "sample" has the members `W`; since the state `s0`, in which it was not there, nothing else was changed; the nodes `ex` do not belong to it -/
structure SamAt (c : Scope) (X XI : Str → Prop) (v0 u : Str → Option Nat) (K0 : Nat → Prop) (s0 : H5) (ex K : Nat → Prop)
    (v : Str → Option Nat) (W : Option (List (Str × Content))) (s : H5) : Prop where
  zone : Zone c X XI K v u s
  le : s0.length ≤ s.length
  old : ∀ i, i ≠ c.e → i < s0.length → s[i]? = s0[i]?
  names : ∀ n, n ≠ sam → v n = v0 n
  sub : ∀ i, K0 i → K i
  none' : W = none → v sam = none
  some' : ∀ M, W = some M → ∃ b, v sam = some b ∧ SamIn (fun i => K i ∧ s0.length ≤ i ∧ ¬ ex i) s b M
  exlt : ∀ i, ex i → i < s.length

section
variable {c : Scope} {X XI : Str → Prop} {K K0 ex : Nat → Prop} {v v0 u : Str → Option Nat} {s s' s0 : H5}
  {W : Option (List (Str × Content))}

theorem SamAt.start (h : Zone c X XI K v u s) (hv : v sam = none) : SamAt c X XI v u K s (fun _ => False) K v none s :=
  ⟨h, Nat.le_refl _, fun _ _ _ => rfl, fun _ _ => rfl, fun _ => id, fun _ => hv, (fun _ e => by cases e), fun _ h => h.elim⟩

/-- the group is opened -/
theorem SamAt.open' (h : SamAt c X XI v0 u K0 s0 ex K v W s) (hX : X sam) {e : HRef} (hid : e.id = c.e) {r : HRef}
    (hw : openGroup e sam p!"NXsample" [] s = (s', .ok r)) :
    ∃ K' v', SamAt c X XI v0 u K0 s0 ex K' v' (some (W.getD [])) s' ∧ v' sam = some r.id ∧ r.path = e.path ++ [sam] ∧
      (∀ i, K i → K' i) ∧ (∀ i, i ≠ c.e → i < s.length → s'[i]? = s[i]?) ∧ s.length ≤ s'.length := by
  obtain ⟨ch, a0, he, hv⟩ := h.zone.held.entry
  have he' : s[e.id]? = some (.group ch a0) := by rw [hid]; exact he
  have hs : Single sam := (by decide : Plain sam).single
  have hle := h.le
  cases W with
  | none =>
    have hg : ch.get? sam = none := (hv sam (.inl hX)).trans (h.none' rfl)
    rw [openGroup_new he' hs (by simp [Dict.has, hg])] at hw
    obtain ⟨-, g2, g3, g4, g5, g6, -⟩ := h.zone.newGroup hid hX (by decide) hs hw
    obtain ⟨-, -, -, -, -, f6⟩ := h.zone.held.addGroup (N := sam) (.inl hX) hid hs hw
    refine ⟨_, _, ⟨g6, by omega, ?_, ?_, fun i hi => .inl (h.sub i hi), (fun e => by cases e), ?_, fun i hi => by have := h.exlt i hi; omega⟩, by rw [g2, upd_self], by rw [g2],
      fun i hi => .inl hi, f6, by omega⟩
    · intro i hi hil
      rw [f6 i hi (by omega), h.old i hi hil]
    · intro n hn
      rw [upd_ne _ _ hn, h.names n hn]
    · intro M e
      injection e with e
      subst e
      exact ⟨s.length, upd_self .., ⟨.inr rfl, hle, fun q => by have := h.exlt _ q; omega⟩, [], g5, List.nodup_nil, .nil⟩
  | some M =>
    obtain ⟨b, b1, b2, chb, k1, k2, k3⟩ := h.some' M rfl
    rw [openGroup_old he' hs ((hv sam (.inl hX)).trans b1) k1] at hw
    injection hw with q1 q2
    injection q2 with q2
    have : s.set b ((HNode.group chb samAttrs).withAttrs (Dict.update samAttrs [])) = s := set_same k1
    have hss : s' = s := q1.symm.trans this
    subst hss
    exact ⟨K, v, h, by rw [← q2]; exact b1, by rw [← q2], fun _ => id, fun _ _ _ => rfl, Nat.le_refl _⟩

/-- a dataset in the group -/
theorem SamAt.write {M : List (Str × Content)} (h : SamAt c X XI v0 u K0 s0 ex K v (some M) s) {g : HRef} (hv : v sam = some g.id)
    {n : Str} (hs : Single n) (hn : n ∉ M.map (·.1)) {d : PData} {a : Dict AVal} {r : HRef}
    (hw : writeDataset g n d a s = (s', .ok r)) :
    ∃ x, d.toH = .ok x ∧ SamAt c X XI v0 u K0 s0 ex (fun i => K i ∨ i = s.length) v
      (some (M ++ [(n, .ds x (Dict.update [] (noteAttrs d a)))])) s' := by
  obtain ⟨b, b1, hS⟩ := h.some' M rfl
  rw [hv] at b1
  injection b1 with b1
  subst b1
  have hS0 := hS
  obtain ⟨b2, ch, k1, k2, k3⟩ := hS
  have hnI : ¬ v inst = some g.id := fun q => (h.zone.hub _ q).1 b2.1
  obtain ⟨x, e1, e2, e3, e4, e5, e6, e7⟩ := h.zone.write (.inl b2.1) k1 (fun q => absurd q hnI) hs hw
  rw [if_neg hnI] at e6
  have hle := h.le
  have hb2 := b2.2.1
  refine ⟨x, e1, e6, by omega, ?_, h.names, fun i hi => .inl (h.sub i hi), (fun e => by cases e), ?_, fun i hi => by have := h.exlt i hi; omega⟩
  · intro i hi hil
    rw [e7 i (by omega) (by omega), h.old i hi hil]
  · intro M' e
    injection e with e
    subst e
    refine ⟨g.id, hv, ?_⟩
    have hch : n ∉ Dict.keys ch := by rw [hS0.keys k1]; exact hn
    have hdel : ch.del n = ch := Dict.del_of_not_has _ _ ((Dict.not_has_iff _ _).2 hch)
    rw [hdel] at e5
    exact hS0.more k1 e5 hn (fun i hi hib => e7 i hib (h.zone.held.inv.lt i (.inr (.inl hi.1))))
      (fun i hi => ⟨.inl hi.1, hi.2⟩) ⟨.inr rfl, hle, fun q => by have := h.exlt _ q; omega⟩ (by have := lt_of_get? k1; omega) e4


/-- a group of datasets in the group -/
theorem SamAt.group {M : List (Str × Content)} (h : SamAt c X XI v0 u K0 s0 ex K v (some M) s) {g : HRef} (hv : v sam = some g.id)
    {n : Str} (hs : Single n) (hn : n ∉ M.map (·.1)) {cls : Str} {a : Dict AVal} {r : HRef}
    (hw : openGroup g n cls a s = (s', .ok r)) :
    r = ⟨s.length, g.path ++ [n]⟩ ∧ s'.length = s.length + 1 ∧ ∃ K1, (∀ i, K1 i ↔ K i ∨ i = s.length) ∧
      GrpAt c X XI v u s' K1 r.id (Dict.update [(p!"NX_class", AVal.str cls)] a) K1 [] s' ∧
      (∀ i, i ≠ g.id → i < s.length → s'[i]? = s[i]?) ∧
      (∃ ch, s[g.id]? = some (.group ch samAttrs) ∧ s'[g.id]? = some (.group (ch.set n s.length) samAttrs)) ∧
      ∀ {K' : Nat → Prop} {V : Sets} {t : H5},
        GrpAt c X XI v u s' K1 r.id (Dict.update [(p!"NX_class", AVal.str cls)] a) K' V t →
        SamAt c X XI v0 u K0 s0 ex K' v (some (M ++ [(n, .grp V (Dict.update [(p!"NX_class", AVal.str cls)] a))])) t := by
  obtain ⟨b, b1, hS⟩ := h.some' M rfl
  rw [hv] at b1
  injection b1 with b1
  subst b1
  have hS0 := hS
  obtain ⟨b2, ch, k1, k2, k3⟩ := hS
  have hnI : ¬ v inst = some g.id := fun q => (h.zone.hub _ q).1 b2.1
  have hch : n ∉ Dict.keys ch := by rw [hS0.keys k1]; exact hn
  obtain ⟨e2, e3, e4, e5, e6, e7⟩ := h.zone.openNew (.inl b2.1) k1 (fun q => absurd q hnI) hs ((Dict.not_has_iff _ _).2 hch) hw
  rw [if_neg hnI] at e6
  have hle := h.le
  have hb2 : s0.length ≤ g.id := b2.2.1
  have hgl := lt_of_get? k1
  subst e2
  refine ⟨rfl, e3, _, fun i => Iff.rfl, GrpAt.start e6 e4 (.inr rfl), e7, ⟨ch, k1, e5⟩, ?_⟩
  intro K' V t hG
  have hG2 := hG.le
  refine ⟨hG.zone, by omega, ?_, h.names, fun i hi => hG.sub i (.inl (h.sub i hi)), (fun e => by cases e), ?_, fun i hi => by have := h.exlt i hi; omega⟩
  · intro i hi hil
    rw [hG.old i (show i ≠ s.length by omega) (by omega), e7 i (by omega) (by omega), h.old i hi hil]
  · intro M' e
    injection e with e
    subst e
    refine ⟨g.id, hv, hS0.more k1 (j := s.length) ?_ hn ?_ (fun i hi => ⟨hG.sub i (.inl hi.1), hi.2⟩) ⟨hG.kg, hle, fun q => by have := h.exlt _ q; omega⟩
      (by omega) (hG.holds.mono fun j hj => ⟨hj.1, by have := hj.2; omega, fun q => by have := h.exlt _ q; have := hj.2; omega⟩)⟩
    · rw [hG.old g.id (show g.id ≠ s.length by omega) (by omega), e5]
    · intro i hi hib
      have hil : i < s.length := h.zone.held.inv.lt i (.inr (.inl hi.1))
      rw [hG.old i (show i ≠ s.length by omega) (by omega), e7 i hib hil]

end

/-! ### what the writer of the geometry leaves in the group "sample" -/

/-- numbers as a dataset -/
def numsF (l : List PyFloat) : HData := .nums ⟨l.map .flt, [l.length]⟩

theorem flts_toH (l : List PyFloat) : (flts l).toH = .ok (numsF l) := by
  unfold flts numsF
  rw [PData.toH, unify_flt, List.length_map]

def unitsAttr (t : Str) : Dict AVal := [(p!"units", .str t)]

/-- the members for the lattice -/
def latticeSets : Lattice → List (Str × Content)
  | .three a b c al be ga => [(p!"unit_cell_abc", .ds (numsF [a, b, c]) (unitsAttr p!"angstrom")),
      (p!"unit_cell_alphabetagamma", .ds (numsF [al, be, ga]) (unitsAttr p!"degrees")),
      (p!"unit_cell", .ds (numsF [a, b, c, al, be, ga]) [])]
  | .two a b ga => [(p!"unit_cell_a", .ds (numsF [a]) (unitsAttr p!"angstrom")),
      (p!"unit_cell_b", .ds (numsF [b]) (unitsAttr p!"angstrom")),
      (p!"unit_cell_gamma", .ds (numsF [ga]) (unitsAttr p!"degrees"))]

/-- the attributes of an angle -/
def angleAttrs : Dict AVal := [(p!"units", .str p!"degrees"), (p!"description", .str p!"diffractometer angle")]

/-- the datasets of an orientation reflection -/
def reflSets (r : Reflection) : Sets :=
  (match r with
    | .three h k l wl _ => [(p!"h", oneF h, []), (p!"k", oneF k, []), (p!"l", oneF l, []), (p!"wavelength", oneF wl, unitsAttr p!"Angstrom")]
    | .two h k wl _ => [(p!"h", oneF h, []), (p!"k", oneF k, []), (p!"wavelength", oneF wl, unitsAttr p!"Angstrom")]) ++
  (angles r).map fun ka => (ka.1, oneF ka.2, angleAttrs)

/-- the name of an orientation reflection -/
def orName (i : Nat) : Str := p!"or" ++ natStr i

def reflAttrs (i : Nat) : Dict AVal :=
  [(p!"NX_class", .str p!"NXnote"), (p!"description", .str (orName i ++ p!": orientation reflection"))]

/-- the member for an orientation reflection -/
def reflMember (ir : Nat × Reflection) : Str × Content := (orName ir.1, .grp (Sets.puts [] (reflSets ir.2)) (reflAttrs ir.1))

/-- more members, if there are -/
def addTo {α : Type} (W o : Option (List α)) : Option (List α) :=
  match o with
  | none => W
  | some l => some (W.getD [] ++ l)

section
variable [UniDB] {c : Scope} {X XI : Str → Prop} {K K0 K1 ex : Nat → Prop} {v v0 u : Str → Option Nat} {s s' s0 s1 : H5}
  {W : Option (List (Str × Content))} {A : Dict AVal}

/-- one number in a group -/
theorem GrpAt.one {g : HRef} {V : Sets} (h : GrpAt c X XI v u s1 K1 g.id A K V s) {n : Str} (hs : Plain n) {f : PyFloat}
    {a : Dict AVal} {r : HRef} (hw : writeDataset g n (Writer.one f) a s = (s', .ok r)) :
    ∃ K', GrpAt c X XI v u s1 K1 g.id A K' (V.puts [(n, oneF f, Dict.update [] a)]) s' := by
  obtain ⟨x, x1, x2⟩ := h.write hs.single hw
  cases x1
  exact ⟨_, x2⟩

theorem _root_.S2N.Spec.NoSlash.single {k : Str} (h : NoSlash k) : Single k := ⟨h.1, h.2.1, h.2.2⟩

theorem GrpAt.angles {g : HRef} {V : Sets} (h : GrpAt c X XI v u s1 K1 g.id A K V s) (l : Dict PyFloat)
    (hl : ∀ k ∈ l.keys, NoSlash k) {r : Unit}
    (hw : HM.each (fun ka : Str × PyFloat => do
      let _ ← writeDataset g ka.1 (Writer.one ka.2)
        [(p!"units", .str p!"degrees"), (p!"description", .str p!"diffractometer angle")]
      pure ()) l s = (s', .ok r)) :
    ∃ K', GrpAt c X XI v u s1 K1 g.id A K' (V.puts (l.map fun ka => (ka.1, oneF ka.2, angleAttrs))) s' := by
  obtain ⟨K', qs, q1, q2⟩ := GrpAt.each (fun ka : Str × PyFloat => (ka.1, Writer.one ka.2, angleAttrs)) l h
    (fun x hx => NoSlash.single (hl x.1 (List.mem_map.2 ⟨x, hx, rfl⟩))) hw
  have : qs = l.map fun ka => (ka.1, oneF ka.2, angleAttrs) := by
    clear * - q1
    induction q1 with
    | nil => rfl
    | cons e _ ih =>
      rename_i q _ _ _
      obtain ⟨e1, e2, e3⟩ := e
      cases e2' : q with
      | mk n p =>
        cases p with
        | mk d a =>
          subst e2'
          simp only at e1 e2 e3
          cases e2
          rw [List.map_cons, ih, e1, e3]
          rfl
  rw [this] at q2
  exact ⟨K', q2⟩

/-- an orientation reflection -/
theorem SamAt.reflection {M : List (Str × Content)} (h : SamAt c X XI v0 u K0 s0 ex K v (some M) s) {g : HRef} (hv : v sam = some g.id)
    (ir : Nat × Reflection) (hn : orName ir.1 ∉ M.map (·.1)) (hk : ∀ k ∈ (angles ir.2).keys, NoSlash k) {r : Unit}
    (hw : wReflection g ir s = (s', .ok r)) :
    ∃ K', SamAt c X XI v0 u K0 s0 ex K' v (some (M ++ [reflMember ir])) s' := by
  unfold wReflection at hw
  obtain ⟨s1, note, w1, w2⟩ := HM.bind_inv hw
  have hs : Single (orName ir.1) := (plain_num (by decide : Plain p!"or") (by decide) _).single
  obtain ⟨e1, e2, K1, -, e3, -, -, e4⟩ := h.group hv hs hn w1
  suffices hG : ∃ K', GrpAt c X XI v u s1 K1 note.id (reflAttrs ir.1) K' (Sets.puts [] (reflSets ir.2)) s' by
    obtain ⟨K', hG⟩ := hG
    exact ⟨K', e4 hG⟩
  have e3 : GrpAt c X XI v u s1 K1 note.id (reflAttrs ir.1) K1 [] s1 := e3
  cases hr : ir.2 with
  | three hh k l wl an =>
    rw [hr] at w2 hk
    simp only [wReflectionFields] at w2
    obtain ⟨t1, _, a1, b1⟩ := HM.bind_inv w2
    obtain ⟨t2, _, a2, b2⟩ := HM.bind_inv b1
    obtain ⟨t3, _, a3, b3⟩ := HM.bind_inv b2
    obtain ⟨t4, _, a4, b4⟩ := HM.bind_inv b3
    obtain ⟨t5, _, a5, b5⟩ := HM.bind_inv a3
    obtain ⟨-, rfl⟩ := HM.pure_inv b5
    obtain ⟨_, c1⟩ := e3.one (by decide) a1
    obtain ⟨_, c2⟩ := c1.one (by decide) a2
    obtain ⟨_, c3⟩ := c2.one (by decide) a5
    obtain ⟨_, c4⟩ := c3.one (by decide) a4
    obtain ⟨K', c5⟩ := c4.angles an hk b4
    rw [← puts_append, ← puts_append, ← puts_append, ← puts_append] at c5
    exact ⟨K', c5⟩
  | two hh k wl an =>
    rw [hr] at w2 hk
    simp only [wReflectionFields] at w2
    obtain ⟨t1, _, a1, b1⟩ := HM.bind_inv w2
    obtain ⟨t2, _, a2, b2⟩ := HM.bind_inv b1
    obtain ⟨t3, _, a3, b3⟩ := HM.bind_inv b2
    obtain ⟨t4, _, a4, b4⟩ := HM.bind_inv b3
    obtain ⟨-, rfl⟩ := HM.ret_inv a3
    obtain ⟨_, c1⟩ := e3.one (by decide) a1
    obtain ⟨_, c2⟩ := c1.one (by decide) a2
    obtain ⟨_, c4⟩ := c2.one (by decide) a4
    obtain ⟨K', c5⟩ := c4.angles an hk b4
    rw [← puts_append, ← puts_append, ← puts_append] at c5
    exact ⟨K', c5⟩

theorem SamAt.reflections {g : HRef} : ∀ (l : List (Nat × Reflection)) {M : List (Str × Content)} {K : Nat → Prop} {s s' : H5}
    {r : Unit}, SamAt c X XI v0 u K0 s0 ex K v (some M) s → v sam = some g.id → (l.map (·.1)).Nodup →
    (∀ ir ∈ l, orName ir.1 ∉ M.map (·.1)) → (∀ ir ∈ l, ∀ k ∈ (angles ir.2).keys, NoSlash k) →
    HM.each (wReflection g) l s = (s', .ok r) →
    ∃ K', SamAt c X XI v0 u K0 s0 ex K' v (some (M ++ l.map reflMember)) s'
  | [], M, K, s, s', r, h, _, _, _, _, hw => by
    obtain ⟨_, rfl⟩ := HM.ret_inv hw
    exact ⟨K, by simpa using h⟩
  | ir :: l, M, K, s, s', r, h, hv, hd, hn, hk, hw => by
    obtain ⟨t, h1, h2⟩ := HM.each_inv_cons hw
    obtain ⟨K1, k1⟩ := h.reflection hv ir (hn ir (by simp)) (hk ir (by simp)) h1
    simp only [List.map_cons, List.nodup_cons] at hd
    obtain ⟨K2, k2⟩ := SamAt.reflections l k1 hv hd.2 (by
      intro jr hj
      rw [List.map_append, List.mem_append, not_or]
      refine ⟨hn jr (by simp [hj]), ?_⟩
      simp only [reflMember, List.map_cons, List.map_nil, List.mem_singleton]
      intro e
      have : jr.1 = ir.1 := natStr_injective (List.append_cancel_left e)
      exact hd.1 (this ▸ List.mem_map_of_mem hj)) (fun jr hj => hk jr (by simp [hj])) h2
    rw [List.append_assoc] at k2
    exact ⟨K2, k2⟩

/-- a dataset in the group "sample", if there is a value -/
theorem SamAt.sample (h : SamAt c X XI v0 u K0 s0 ex K v W s) (hX : X sam) {e : HRef} (hid : e.id = c.e) {n : Str} (hn : Plain n)
    (hf : n ∉ (W.getD []).map (·.1)) (o : Option PData) (val : Option HData) (h0 : o = none → val = none)
    (h1 : ∀ d, o = some d → noteAttrs d [] = [] ∧ ∀ y, d.toH = .ok y → val = some y) {r : Unit}
    (hw : wSample e n o s = (s', .ok r)) :
    ∃ K' v', SamAt c X XI v0 u K0 s0 ex K' v' (addTo W (val.map fun x => [(n, .ds x [])])) s' := by
  cases o with
  | none =>
    obtain ⟨_, rfl⟩ := HM.ret_inv hw
    rw [h0 rfl]
    exact ⟨K, v, h⟩
  | some d =>
    obtain ⟨t1, sa, a1, b1⟩ := HM.bind_inv hw
    obtain ⟨t2, _, a2, b2⟩ := HM.bind_inv b1
    obtain ⟨-, rfl⟩ := HM.pure_inv b2
    obtain ⟨K1, v1, k1, k2, -, -⟩ := h.open' hX hid a1
    obtain ⟨x, x1, x2⟩ := k1.write k2 hn.single hf a2
    obtain ⟨y1, y2⟩ := h1 d rfl
    rw [y1] at x2
    rw [y2 x x1]
    exact ⟨_, _, x2⟩

/-- the lattice -/
theorem SamAt.lattice (h : SamAt c X XI v0 u K0 s0 ex K v W s) (hX : X sam) {e : HRef} (hid : e.id = c.e) (hW : W = none)
    (o : Option Lattice) {r : Unit} (hw : HM.ifSome o (wLattice e) s = (s', .ok r)) :
    ∃ K' v', SamAt c X XI v0 u K0 s0 ex K' v' (addTo W (o.map latticeSets)) s' := by
  subst hW
  cases o with
  | none =>
    obtain ⟨_, rfl⟩ := HM.ret_inv hw
    exact ⟨K, v, h⟩
  | some l =>
    replace hw : wLattice e l s = (s', .ok r) := hw
    unfold wLattice at hw
    obtain ⟨t1, sa, a1, b1⟩ := HM.bind_inv hw
    obtain ⟨K1, v1, k1, k2, -, -⟩ := h.open' hX hid a1
    cases l with
    | three a b c al be ga =>
      obtain ⟨t2, _, a2, b2⟩ := HM.bind_inv b1
      obtain ⟨t3, _, a3, b3⟩ := HM.bind_inv b2
      obtain ⟨t4, _, a4, b4⟩ := HM.bind_inv b3
      obtain ⟨-, rfl⟩ := HM.pure_inv b4
      obtain ⟨x, x1, x2⟩ := k1.write k2 (by decide : Plain p!"unit_cell_abc").single (by simp) a2
      obtain ⟨y, y1, y2⟩ := x2.write k2 (by decide : Plain p!"unit_cell_alphabetagamma").single (by simp) a3
      obtain ⟨z, z1, z2⟩ := y2.write k2 (by decide : Plain p!"unit_cell").single (by simp) a4
      rw [flts_toH] at x1 y1 z1
      cases x1; cases y1; cases z1
      exact ⟨_, _, z2⟩
    | two a b ga =>
      obtain ⟨t2, _, a2, b2⟩ := HM.bind_inv b1
      obtain ⟨t3, _, a3, b3⟩ := HM.bind_inv b2
      obtain ⟨t4, _, a4, b4⟩ := HM.bind_inv b3
      obtain ⟨-, rfl⟩ := HM.pure_inv b4
      obtain ⟨x, x1, x2⟩ := k1.write k2 (by decide : Plain p!"unit_cell_a").single (by simp) a2
      obtain ⟨y, y1, y2⟩ := x2.write k2 (by decide : Plain p!"unit_cell_b").single (by simp) a3
      obtain ⟨z, z1, z2⟩ := y2.write k2 (by decide : Plain p!"unit_cell_gamma").single (by simp) a4
      rw [flts_toH] at x1 y1 z1
      cases x1; cases y1; cases z1
      exact ⟨_, _, z2⟩

omit [UniDB] in
theorem mem_addTo {W o : Option (List (Str × Content))} {n : Str} (h : n ∈ ((addTo W o).getD []).map (·.1)) :
    n ∈ (W.getD []).map (·.1) ∨ n ∈ (o.getD []).map (·.1) := by
  cases o with
  | none => exact .inl h
  | some l =>
    simp only [addTo, Option.getD_some, List.map_append, List.mem_append] at h
    exact h

/-- a parameter as a dataset -/
def paramData : GVal → HData
  | .str t => .text [ascii t]
  | .num f => oneF f
  | .mat [] => .nums ⟨[], [0]⟩
  | .mat (r :: rs) => .nums ⟨(r :: rs).flatten.map .flt, [rs.length + 1, r.length]⟩

omit [UniDB] in
theorem gData_toH {g : GVal} {y : HData} (h : (gData g).toH = .ok y) : y = paramData g := by
  cases g with
  | str t => cases h; rfl
  | num f => cases h; rfl
  | mat m =>
    cases m with
    | nil => cases h; rfl
    | cons r rs =>
      simp only [gData, List.map_cons, PData.toH] at h
      split at h
      · injection h with h
        rw [← h]
        unfold paramData
        simp only [List.length_map]
        have : (List.map (fun x => Num.flt x) r :: List.map (fun x => List.map Num.flt x) rs).flatten = (r :: rs).flatten.map Num.flt := by
          rw [List.map_flatten]; rfl
        rw [this, unify_flt]
      · cases h

omit [UniDB] in
theorem gData_note (g : GVal) (a : Dict AVal) : noteAttrs (gData g) a = a := by cases g <;> rfl

/-- the names of the first members -/
def samNames : List Str := [p!"unit_cell_abc", p!"unit_cell_alphabetagamma", p!"unit_cell", p!"unit_cell_a", p!"unit_cell_b",
  p!"unit_cell_gamma", p!"ub_matrix", p!"diffractometer_mode", p!"diffractometer_sector"]

/-- the members of the group "sample" before the wavelength -/
def samFirst (d : Diff) : Option (List (Str × Content)) :=
  addTo (addTo (addTo (addTo (addTo none (d.lattice.map latticeSets))
    ((d.gpar.get? p!"ub_matrix").map fun g => [(p!"ub_matrix", .ds (paramData g) [])]))
    (d.mode.map fun m => [(p!"diffractometer_mode", .ds (.text [ascii m]) [])]))
    (d.sector.map fun i => [(p!"diffractometer_sector", .ds (oneI i) [])]))
    (if d.reflections.isEmpty then none
      else some (((List.range d.reflections.length).zip d.reflections).map reflMember))

omit [UniDB] in
theorem lattice_names (o : Option Lattice) : ∀ n ∈ ((addTo none (o.map latticeSets)).getD []).map (·.1),
    n ∈ [p!"unit_cell_abc", p!"unit_cell_alphabetagamma", p!"unit_cell", p!"unit_cell_a", p!"unit_cell_b", p!"unit_cell_gamma"] := by
  rcases o with _ | (_ | _)
  · intro n hn; cases hn
  · intro n hn
    simp only [addTo, Option.map_some, Option.getD_some, latticeSets, Option.getD_none, List.nil_append, List.map_cons, List.map_nil] at hn
    revert n; decide
  · intro n hn
    simp only [addTo, Option.map_some, Option.getD_some, latticeSets, Option.getD_none, List.nil_append, List.map_cons, List.map_nil] at hn
    revert n; decide

omit [UniDB] in
theorem or_not_first (i : Nat) : orName i ∉ samNames := by
  intro h
  have : ∀ n ∈ samNames, n.take 2 ≠ p!"or" := by decide
  exact this _ h rfl

/-- the group "sample" before the wavelength -/
theorem SamAt.first (h : SamAt c X XI v0 u K0 s0 ex K v none s) (hX : X sam) {e : HRef} (hid : e.id = c.e) {diff : Diff}
    (hd : GeoNames diff) {t3 t4 t5 t6 : H5} {r3 r4 r5 r6 r7 : Unit}
    (a3 : HM.ifSome diff.lattice (wLattice e) s = (t3, .ok r3))
    (a4 : wSample e p!"ub_matrix" ((diff.gpar.get? p!"ub_matrix").map gData) t3 = (t4, .ok r4))
    (a5 : wSample e p!"diffractometer_mode" (diff.mode.map .str) t4 = (t5, .ok r5))
    (a6 : wSample e p!"diffractometer_sector" (diff.sector.map (fun i => .num (.int i))) t5 = (t6, .ok r6))
    (a7 : HM.onlyIf (!diff.reflections.isEmpty) (do
      let sample ← openGroup e p!"sample" p!"NXsample" []
      HM.each (wReflection sample) ((List.range diff.reflections.length).zip diff.reflections)) t6 = (s', .ok r7)) :
    ∃ K' v', SamAt c X XI v0 u K0 s0 ex K' v' (samFirst diff) s' := by
  obtain ⟨_, _, k3⟩ := h.lattice hX hid rfl _ a3
  have n3 := lattice_names diff.lattice
  generalize hW3 : addTo none (diff.lattice.map latticeSets) = W3 at k3 n3
  obtain ⟨_, _, k4⟩ := k3.sample hX hid (by decide : Plain p!"ub_matrix") (fun hm => absurd (n3 _ hm) (by decide)) _
    ((diff.gpar.get? p!"ub_matrix").map paramData) (by cases diff.gpar.get? p!"ub_matrix" <;> simp) (by
      intro d hd
      cases hg : diff.gpar.get? p!"ub_matrix" with
      | none => rw [hg] at hd; cases hd
      | some g =>
        rw [hg] at hd
        cases hd
        exact ⟨gData_note _ _, fun y hy => by rw [gData_toH hy]; rfl⟩) a4
  rw [Option.map_map] at k4
  have n4 : ∀ n ∈ ((addTo W3 ((diff.gpar.get? p!"ub_matrix").map ((fun x => [(p!"ub_matrix", Content.ds x [])]) ∘ paramData))).getD []).map (·.1),
      n ∈ samNames := by
    intro n hn
    rcases mem_addTo hn with q | q
    · exact (show ∀ n ∈ _, n ∈ samNames by decide) n (n3 n q)
    · cases hg : diff.gpar.get? p!"ub_matrix" with
      | none => rw [hg] at q; cases q
      | some g =>
        rw [hg] at q
        simp only [Option.map_some, Option.getD_some, Function.comp, List.map_cons, List.map_nil, List.mem_singleton] at q
        rw [q]; decide
  have n4' : ∀ n ∈ ((addTo W3 ((diff.gpar.get? p!"ub_matrix").map ((fun x => [(p!"ub_matrix", Content.ds x [])]) ∘ paramData))).getD []).map (·.1),
      n ≠ p!"diffractometer_mode" ∧ n ≠ p!"diffractometer_sector" := by
    intro n hn
    rcases mem_addTo hn with q | q
    · exact (show ∀ n ∈ [p!"unit_cell_abc", p!"unit_cell_alphabetagamma", p!"unit_cell", p!"unit_cell_a", p!"unit_cell_b",
        p!"unit_cell_gamma"], n ≠ p!"diffractometer_mode" ∧ n ≠ p!"diffractometer_sector" by decide) n (n3 n q)
    · cases hg : diff.gpar.get? p!"ub_matrix" with
      | none => rw [hg] at q; cases q
      | some g =>
        rw [hg] at q
        simp only [Option.map_some, Option.getD_some, Function.comp, List.map_cons, List.map_nil, List.mem_singleton] at q
        rw [q]; decide
  generalize hW4 : addTo W3 ((diff.gpar.get? p!"ub_matrix").map ((fun x => [(p!"ub_matrix", Content.ds x [])]) ∘ paramData)) = W4 at k4 n4 n4'
  obtain ⟨_, _, k5⟩ := k4.sample hX hid (by decide : Plain p!"diffractometer_mode") (fun hm => (n4' _ hm).1 rfl) _
    (diff.mode.map fun m => .text [ascii m]) (by cases diff.mode <;> simp) (by
      intro d hd
      cases hg : diff.mode with
      | none => rw [hg] at hd; cases hd
      | some g =>
        rw [hg] at hd
        cases hd
        exact ⟨rfl, fun y hy => by cases hy; rfl⟩) a5
  rw [Option.map_map] at k5
  have n5 : ∀ n ∈ ((addTo W4 (diff.mode.map ((fun x => [(p!"diffractometer_mode", Content.ds x [])]) ∘ fun m => HData.text [ascii m]))).getD []).map (·.1),
      n ∈ samNames ∧ n ≠ p!"diffractometer_sector" := by
    intro n hn
    rcases mem_addTo hn with q | q
    · exact ⟨n4 n q, (n4' n q).2⟩
    · cases hg : diff.mode with
      | none => rw [hg] at q; cases q
      | some g =>
        rw [hg] at q
        simp only [Option.map_some, Option.getD_some, Function.comp, List.map_cons, List.map_nil, List.mem_singleton] at q
        rw [q]; decide
  generalize hW5 : addTo W4 (diff.mode.map ((fun x => [(p!"diffractometer_mode", Content.ds x [])]) ∘ fun m => HData.text [ascii m])) = W5 at k5 n5
  obtain ⟨_, _, k6⟩ := k5.sample hX hid (by decide : Plain p!"diffractometer_sector") (fun hm => (n5 _ hm).2 rfl) _
    (diff.sector.map oneI) (by cases diff.sector <;> simp) (by
      intro d hd
      cases hg : diff.sector with
      | none => rw [hg] at hd; cases hd
      | some g =>
        rw [hg] at hd
        cases hd
        exact ⟨rfl, fun y hy => by cases hy; rfl⟩) a6
  rw [Option.map_map] at k6
  have n6 : ∀ n ∈ ((addTo W5 (diff.sector.map ((fun x => [(p!"diffractometer_sector", Content.ds x [])]) ∘ oneI))).getD []).map (·.1),
      n ∈ samNames := by
    intro n hn
    rcases mem_addTo hn with q | q
    · exact (n5 n q).1
    · cases hg : diff.sector with
      | none => rw [hg] at q; cases q
      | some g =>
        rw [hg] at q
        simp only [Option.map_some, Option.getD_some, Function.comp, List.map_cons, List.map_nil, List.mem_singleton] at q
        rw [q]; decide
  generalize hW6 : addTo W5 (diff.sector.map ((fun x => [(p!"diffractometer_sector", Content.ds x [])]) ∘ oneI)) = W6 at k6 n6
  have hres : samFirst diff = addTo W6 (if diff.reflections.isEmpty then none
      else some (((List.range diff.reflections.length).zip diff.reflections).map reflMember)) := by
    rw [← hW6, ← hW5, ← hW4, ← hW3]; rfl
  rw [hres]
  cases he : diff.reflections.isEmpty with
  | true =>
    rw [he] at a7
    obtain ⟨_, rfl⟩ := HM.ret_inv a7
    exact ⟨_, _, k6⟩
  | false =>
    rw [he] at a7
    replace a7 : (do
      let sample ← openGroup e p!"sample" p!"NXsample" []
      HM.each (wReflection sample) ((List.range diff.reflections.length).zip diff.reflections) : HM Unit) t6 = (s', .ok r7) := a7
    obtain ⟨t, sa, b1, b2⟩ := HM.bind_inv a7
    obtain ⟨K1, v1, k7, k8, -, -⟩ := k6.open' hX hid b1
    obtain ⟨K2, k9⟩ := SamAt.reflections _ k7 k8 (by
      have : ((List.range diff.reflections.length).zip diff.reflections).map (·.1) = List.range diff.reflections.length := by
        rw [← List.unzip_fst, List.unzip_zip (by simp)]
      rw [this]; exact List.nodup_range) (fun ir _ hm => or_not_first _ (n6 _ hm)) (fun ir hir k hk =>
        ((hd.angles _ (List.of_mem_zip hir).2).2 k hk).1) b2
    exact ⟨K2, v1, k9⟩


/-! ### the wavelength -/

abbrev mono : Str := p!"monochromator"

/-- the attributes of the wavelength -/
def waveAttrs (E : Str) : Dict AVal :=
  [(p!"units", .str p!"angstrom"), (p!"target", .str ('/' :: (E ++ p!"/instrument/monochromator/wavelength")))]

def beamAttrs : Dict AVal := [(p!"NX_class", .str p!"NXbeam")]

def monoAttrs : Dict AVal := [(p!"NX_class", .str p!"NXmonochromator")]

/-- the wavelength in the groups "monochromator", the node `m`, and "sample", the node `b` -/
def WaveAt (K : Nat → Prop) (s : H5) (E : Str) (wl : PyFloat) (m b : Nat) : Prop :=
  ∃ L chb bm, K m ∧ s[m]? = some (.group [(p!"wavelength", L)] monoAttrs) ∧ K L ∧ s[L]? = some (.dset (oneF wl) (waveAttrs E)) ∧
    K b ∧ s[b]? = some (.group chb samAttrs) ∧ chb.get? p!"beam" = some bm ∧ K bm ∧
    s[bm]? = some (.group [(p!"incident_wavelength", L)] beamAttrs)

/-- the member for the wavelength -/
def beamMember (E : Str) (wl : PyFloat) : Str × Content :=
  (p!"beam", .grp [(p!"incident_wavelength", oneF wl, waveAttrs E)] beamAttrs)

theorem SamAt.wave (h : SamAt c X XI v0 u K0 s0 (fun _ => False) K v W s) (hX : X sam) (hXI : XI mono) {e ins : HRef} (hid : e.id = c.e)
    (hp : e.path = [c.E]) (hI : v inst = some ins.id) (hip : ins.path = [c.E, inst]) (hm : u mono = none)
    (hn : p!"beam" ∉ (W.getD []).map (·.1)) {wl : PyFloat} (hw : wWavelength e ins wl s = (s', .ok ())) :
    ∃ K' v' m b, Zone c X XI K' v' (upd u mono (some m)) s' ∧ (∀ n, n ≠ sam → v' n = v n) ∧ (∀ i, K i → K' i) ∧
      s0.length ≤ s'.length ∧ (∀ i, i ≠ c.e → v inst ≠ some i → i < s0.length → s'[i]? = s0[i]?) ∧ v' sam = some b ∧
      SamIn (fun i => K' i ∧ s0.length ≤ i) s' b (W.getD [] ++ [beamMember c.E wl]) ∧
      WaveAt (fun i => K' i ∧ s0.length ≤ i) s' c.E wl m b := by
  unfold wWavelength at hw
  obtain ⟨s1, mo, w1, w2⟩ := HM.bind_inv hw
  obtain ⟨s2, ds, w3, w4⟩ := HM.bind_inv w2
  obtain ⟨s3, sample, w5, w6⟩ := HM.bind_inv w4
  obtain ⟨s4, beam, w7, w8⟩ := HM.bind_inv w6
  have hle := h.le
  obtain ⟨hKI, chI, aI, e0, e1, -⟩ := h.zone.hub _ hI
  have hIl := lt_of_get? e0
  obtain ⟨a1, a2, a3, a4, a5, a6⟩ := h.zone.openNew (.inr hI) e0 (fun _ => hXI) (by decide : Plain mono).single
    (by simp [Dict.has, e1 _ hXI, hm]) w1
  rw [if_pos hI] at a5
  have hmI : ¬ v inst = some mo.id := by
    rw [hI, a1]
    intro q
    injection q with q
    have q : ins.id = s.length := q
    omega
  obtain ⟨x, b1, b2, b3, b4, b5, b6, b7⟩ := a5.write (g := mo) (.inl (.inr (by rw [a1]))) (by rw [a1]; exact a3)
    (fun q => absurd q hmI) (by decide : Plain p!"wavelength").single w3
  rw [if_neg hmI] at b6
  cases b1
  have b4 : s2[s.length + 1]? = some (.dset (oneF wl) [(p!"units", .str p!"angstrom")]) := by rw [← a2]; exact b4
  have b5 : s2[s.length]? = some (.group [(p!"wavelength", s.length + 1)] monoAttrs) := by
    rw [a1, a2] at b5; exact b5
  have hmo : mo.id = s.length := by rw [a1]
  have hfr : ∀ i, i ≠ ins.id → i < s.length → s2[i]? = s[i]? := fun i hi hil => by
    rw [b7 i (by omega) (by omega), a6 i hi hil]
  have hlen : (s2.take s0.length).length = s0.length := by rw [List.length_take]; omega
  have hS2 : SamAt c X XI v (upd u mono (some s.length)) K (s2.take s0.length) (fun i => i = s.length ∨ i = s.length + 1)
      (fun i => (K i ∨ i = s.length) ∨ i = s1.length) v W s2 := by
    refine ⟨b6, by rw [hlen]; omega, ?_, fun _ _ => rfl, fun i hi => .inl (.inl hi), h.none', ?_, ?_⟩
    · intro i _ hil
      rw [hlen] at hil
      rw [List.getElem?_take, if_pos hil]
    · intro M hM
      obtain ⟨b, k1, k2⟩ := h.some' M hM
      refine ⟨b, k1, k2.keep (fun j hj => hfr j (fun q => hKI (q ▸ hj.1)) (h.zone.held.inv.lt j (.inr (.inl hj.1)))) fun j hj => ?_⟩
      have : j < s.length := h.zone.held.inv.lt j (.inr (.inl hj.1))
      rw [hlen]
      exact ⟨.inl (.inl hj.1), hj.2.1, by omega⟩
    · intro i hi
      rcases hi with hi | hi <;> omega
  obtain ⟨K3, v3, c1, c2, c3, c4, c5, c6⟩ := hS2.open' hX hid w5
  have hsp : Single p!"beam" := (by decide : Plain p!"beam").single
  obtain ⟨d1, d2, K4, d3, d4, d5, ⟨chb, d6, d7⟩, d8⟩ := c1.group c2 hsp hn w7
  obtain ⟨b, g1, g2⟩ := c1.some' _ rfl
  rw [c2] at g1
  injection g1 with g1
  subst g1
  have hbK := g2.1
  rw [hlen] at hbK
  have hbs : sample.id ≠ s.length + 1 := fun q => hbK.2.2 (.inr q)
  have hbm : sample.id ≠ s.length := fun q => hbK.2.2 (.inl q)
  have hel : c.e < s.length := h.zone.held.inv.elt
  have hL4 : s4[s.length + 1]? = some (.dset (oneF wl) [(p!"units", .str p!"angstrom")]) := by
    rw [d5 _ hbs.symm (by omega), c5 _ (by omega) (by omega), b4]
  have hm4 : s4[s.length]? = some (.group [(p!"wavelength", s.length + 1)] monoAttrs) := by
    rw [d5 _ hbm.symm (by omega), c5 _ (by omega) (by omega), b5]
  have hLK : K4 (s.length + 1) := (d3 _).2 (.inl (c4 _ (.inr a2.symm)))
  have hmK : K4 s.length := (d3 _).2 (.inl (c4 _ (.inl (.inr rfl))))
  unfold makeLink at w8
  obtain ⟨s5, _, w9, w10⟩ := HM.bind_inv w8
  obtain ⟨s6, obj, w11, w12⟩ := HM.bind_inv w10
  have hds : ds = ⟨s.length + 1, [c.E, inst, mono, p!"wavelength"]⟩ := by
    rw [b2, a1, a2, hip]; rfl
  have hdn : nameOf ds = '/' :: (c.E ++ p!"/instrument/monochromator/wavelength") := by
    rw [hds]; simp [nameOf, join]
  have hs5 : s5 = s4.set (s.length + 1) (.dset (oneF wl) (waveAttrs c.E)) := by
    obtain ⟨t, bb, y1, y2⟩ := HM.andThen_inv w9
    have hb : t = s4 ∧ bb = false := by
      unfold H5.hasAttr HM.look at y1
      beta_reduce at y1
      rw [hds, hL4] at y1
      injection y1 with q1 q2
      injection q2 with q2
      exact ⟨q1.symm, q2.symm⟩
    obtain ⟨rfl, rfl⟩ := hb
    have y2 : setAttr ds p!"target" (.str (nameOf ds)) t = (s5, .ok ()) := y2
    have hL4' : t[ds.id]? = some (.dset (oneF wl) [(p!"units", .str p!"angstrom")]) := by rw [hds]; exact hL4
    rw [setAttr_eq hL4'] at y2
    injection y2 with y2 _
    rw [← y2, hdn, hds]
    rfl
  have hz5 : Zone c X XI K4 v3 (upd u mono (some s.length)) s5 := by
    rw [hs5]; exact d4.zone.retag hLK hL4 _
  have hl5 : s5.length = s4.length := by rw [hs5, List.length_set]
  have h5 : ∀ i, i ≠ s.length + 1 → s5[i]? = s4[i]? := fun i hi => by
    rw [hs5, set_get? _ _ _ _ (lt_of_get? hL4), if_neg hi]
  have h5L : s5[s.length + 1]? = some (.dset (oneF wl) (waveAttrs c.E)) := by
    rw [hs5, set_get? _ _ _ _ (lt_of_get? hL4), if_pos rfl]
  have hv3 : v3 inst = some ins.id := (c1.names inst (by decide)).trans hI
  have hobj : s6 = s5 ∧ obj.id = s.length + 1 := by
    unfold H5.get HM.lookE at w11
    beta_reduce at w11
    rw [base_name, hds, comps_name (by
      intro q hq
      simp only [List.mem_cons, List.not_mem_nil, or_false] at hq
      rcases hq with rfl | rfl | rfl | rfl
      · exact h.zone.held.inv.plain
      all_goals decide), show root.id = 0 from rfl, hz5.walk (.inr rfl) hv3] at w11
    obtain ⟨-, chJ, aJ, f0, f1, -⟩ := hz5.hub _ hv3
    have f2 : chJ.get? mono = some s.length := (f1 _ hXI).trans (upd_self ..)
    rw [walk_one f0 f2, walk_single _ ((h5 _ (by omega)).trans hm4)] at w11
    injection w11 with q1 q2
    injection q2 with q2
    exact ⟨q1.symm, by rw [← q2]⟩
  obtain ⟨rfl, ho⟩ := hobj
  have hbeam : beam = ⟨s3.length, [c.E, sam, p!"beam"]⟩ := by rw [d1, c3, hp]; rfl
  have hb5 : s6[sample.id]? = some (.group (chb.set p!"beam" s3.length) samAttrs) := (h5 _ hbs).trans d7
  obtain ⟨chB, k1, -, k3⟩ := d4.holds
  cases k3
  rw [d1] at k1
  have k1 : s4[s3.length]? = some (.group [] beamAttrs) := k1
  have hbm5 : s6[s3.length]? = some (.group [] beamAttrs) := (h5 _ (by omega)).trans k1
  have hs' : s' = s6.set s3.length (.group [(p!"incident_wavelength", s.length + 1)] beamAttrs) := by
    unfold H5.setLink HM.change at w12
    beta_reduce at w12
    have hnm : nameOf beam ++ p!"/incident_wavelength" = nameOf ⟨0, [c.E, sam, p!"beam", p!"incident_wavelength"]⟩ := by
      rw [hbeam]; simp [nameOf, join]
    rw [hnm, base_name, comps_name (by
      intro q hq
      simp only [List.mem_cons, List.not_mem_nil, or_false] at hq
      rcases hq with rfl | rfl | rfl | rfl
      · exact h.zone.held.inv.plain
      all_goals decide), ho, h5L] at w12
    obtain ⟨ch0, a0, f1, f2'⟩ := hz5.held.inv.entry
    have f2 : ch0.get? c.E = some c.e := f2'
    obtain ⟨ch1, a1', f3, f4⟩ := hz5.held.entry
    have f5 := (f4 sam (.inl hX)).trans c2
    have f1' : s6[root.id]? = some (.group ch0 a0) := f1
    simp only [H5.link, f1', f2, f3, f5, hb5, Dict.get?_set_self, hbm5] at w12
    injection w12 with w12 _
    exact w12.symm
  have hK4b : K4 s3.length := (d3 _).2 (.inr rfl)
  have hz6 : Zone c X XI K4 v3 (upd u mono (some s.length)) s' := by
    rw [hs']
    exact hz5.put hK4b hbm5 (by simp [Dict.keys]) (by
      intro m j hmj
      simp only [List.mem_singleton] at hmj
      injection hmj with _ q
      rw [q]
      exact .inr hLK)
  have hbl := lt_of_get? hbm5
  have h6 : ∀ i, i ≠ s3.length → s'[i]? = s6[i]? := fun i hi => by rw [hs', set_get? _ _ _ _ hbl, if_neg hi]
  have h6b : s'[s3.length]? = some (.group [(p!"incident_wavelength", s.length + 1)] beamAttrs) := by
    rw [hs', set_get? _ _ _ _ hbl, if_pos rfl]
  have hsl := lt_of_get? d6
  have hall : ∀ i, i ≠ c.e → i ≠ sample.id → i < s2.length → i ≠ s.length + 1 → s'[i]? = s2[i]? := fun i h1 h2 h3 h4 => by
    rw [h6 i (by omega), h5 i h4, d5 i h2 (by omega), c5 i h1 h3]
  have hb' : s'[sample.id]? = some (.group (chb.set p!"beam" s3.length) samAttrs) := by rw [h6 _ (by omega), hb5]
  have hL' : s'[s.length + 1]? = some (.dset (oneF wl) (waveAttrs c.E)) := by rw [h6 _ (by omega), h5L]
  have hl' : s'.length = s6.length := by rw [hs', List.length_set]
  refine ⟨K4, v3, s.length, sample.id, hz6, fun n hn => c1.names n hn, fun i hi => (d3 _).2 (.inl (c4 _ (.inl (.inl hi)))), by omega, ?_,
    c2, ?_, ?_⟩
  · intro i hi hiI hil
    rw [hall i hi (by omega) (by omega) (by omega), hfr i (fun q => hiI (q ▸ hI)) (by omega), h.old i hi hil]
  · refine SamIn.more (KS := fun i => K3 i ∧ (s2.take s0.length).length ≤ i ∧ ¬ (i = s.length ∨ i = s.length + 1)) g2 d6 hb' hn ?_ ?_
      ⟨hK4b, by omega⟩ (by omega) ⟨[(p!"incident_wavelength", s.length + 1)], h6b, by simp [Dict.keys], .cons ⟨rfl, ⟨hLK, by omega⟩, hL'⟩ .nil⟩
    · intro i hi hib
      have : i < s3.length := c1.zone.held.inv.lt i (.inr (.inl hi.1))
      rw [h6 i (by omega), h5 i (fun q => hi.2.2 (.inr q)), d5 i hib this]
    · intro i hi
      have := hi.2.1
      rw [hlen] at this
      exact ⟨(d3 _).2 (.inl hi.1), this⟩
  · refine ⟨s.length + 1, chb.set p!"beam" s3.length, s3.length, ⟨hmK, by omega⟩, ?_, ⟨hLK, by omega⟩, hL',
      ⟨(d3 _).2 (.inl hbK.1), by omega⟩, hb', Dict.get?_set_self _ _ _, ⟨hK4b, by omega⟩, h6b⟩
    rw [h6 _ (by omega), h5 _ (by omega), hm4]

end
end S2N
