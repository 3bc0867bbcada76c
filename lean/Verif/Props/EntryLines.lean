import Verif.Props.Entry
import Verif.Spec.Entry
/-
The lines of a header and a scan that have no meaning of their own, in the entry of the scan.
-/
namespace S2N.Props
open S2N Py H5 Eznx Writer Spec

theorem puts_fresh (qs : Sets) : ∀ V : Sets, (Dict.keys (V ++ qs)).Nodup → Sets.puts V qs = V ++ qs := by
  induction qs with
  | nil => intro V _; simp [Sets.puts]
  | cons q qs ih =>
    intro V h
    have hk : Dict.keys (V ++ q :: qs) = Dict.keys V ++ q.1 :: Dict.keys qs := by simp [Dict.keys]
    have hn : q.1 ∉ Dict.keys V := by
      intro hm
      rw [hk, List.nodup_append] at h
      exact h.2.2 _ hm _ (by simp) rfl
    have hp : Sets.put V q.1 q.2.1 q.2.2 = V ++ [q] := by
      unfold Sets.put
      rw [Dict.del_of_not_has]
      exact (Dict.not_has_iff _ _).2 hn
    show Sets.puts (Sets.put V q.1 q.2.1 q.2.2) qs = _
    rw [hp, ih _ (by simpa using h)]
    simp

theorem get?_append_left {α : Type} {V U : Dict α} {n : Str} {q : α} (h : Dict.get? V n = some q) :
    Dict.get? (V ++ U) n = some q := by
  unfold Dict.get? at *
  rw [List.lookup_append, h]; rfl

theorem get?_append_right {α : Type} {V U : Dict α} {n : Str} (h : n ∉ Dict.keys V) :
    Dict.get? (V ++ U) n = Dict.get? U n := by
  induction V with
  | nil => rfl
  | cons p V ih =>
    have h1 : p.1 ≠ n := fun e => h (by simp [Dict.keys, e])
    have h2 : n ∉ Dict.keys V := fun e => h (by simp [Dict.keys] at e ⊢; exact .inr e)
    rw [← ih h2]
    rcases p with ⟨k, v⟩
    show List.lookup n ((k, v) :: (V ++ U)) = _
    have : (n == k) = false := beq_false_of_ne (Ne.symm h1)
    simp only [List.lookup, this]
    rfl

theorem numbered_keys (tag key : Str) (l : List Str) :
    Dict.keys (numbered tag key l) = (List.range l.length).map (fun i => tag ++ p!"_" ++ natStr (i + 1)) := by
  unfold numbered Dict.keys
  rw [List.map_map]
  have : (List.range l.length) = ((List.range l.length).zip l).map Prod.fst := by
    rw [List.map_fst_zip]; simp
  conv => rhs; rw [this, List.map_map]
  rfl

theorem numbered_nodup (tag key : Str) (l : List Str) : (Dict.keys (numbered tag key l)).Nodup := by
  rw [numbered_keys]
  refine List.Nodup.map ?_ List.nodup_range
  intro a b h
  have := natStr_injective (List.append_cancel_left h)
  omega

theorem zip_range_get? {l : List Str} {i : Nat} {t : Str} (h : l[i]? = some t) : (i, t) ∈ (List.range l.length).zip l := by
  refine List.mem_iff_getElem?.2 ⟨i, ?_⟩
  rw [List.getElem?_zip_eq_some]
  obtain ⟨h1, h2⟩ := List.getElem?_eq_some_iff.1 h
  exact ⟨by simp [h1], h⟩

theorem get?_of_mem_nodup {α : Type} {d : Dict α} (h : (Dict.keys d).Nodup) {k : Str} {v : α} (hm : (k, v) ∈ d) :
    Dict.get? d k = some v := by
  induction d with
  | nil => cases hm
  | cons p d ih =>
    have hk : Dict.keys (p :: d) = p.1 :: Dict.keys d := rfl
    rw [hk, List.nodup_cons] at h
    rcases List.mem_cons.1 hm with e | e
    · subst e; simp [Dict.get?, List.lookup]
    · have hne : k ≠ p.1 := fun e' => h.1 (e' ▸ List.mem_map.2 ⟨_, e, rfl⟩)
      have := beq_false_of_ne hne
      rcases p with ⟨a, b⟩
      simp only [Dict.get?, List.lookup, this]
      exact ih h.2 e

theorem numbered_get? {tag key : Str} {l : List Str} {i : Nat} {t : Str} (h : l[i]? = some t) :
    Dict.get? (numbered tag key l) (tag ++ p!"_" ++ natStr (i + 1)) =
      some (textDs t (attr1 p!"description" (p!"#" ++ key ++ p!" line " ++ natStr (i + 1)))) :=
  get?_of_mem_nodup (numbered_nodup ..) (List.mem_map.2 ⟨_, zip_range_get? h, rfl⟩)

theorem numbered_disjoint (key : Str) (hl sl : List Str) :
    (Dict.keys (numbered p!"header" key hl ++ numbered p!"item" key sl)).Nodup := by
  have : Dict.keys (numbered p!"header" key hl ++ numbered p!"item" key sl) =
      Dict.keys (numbered p!"header" key hl) ++ Dict.keys (numbered p!"item" key sl) := by simp [Dict.keys]
  rw [this, List.nodup_append]
  refine ⟨numbered_nodup .., numbered_nodup .., ?_⟩
  rw [numbered_keys, numbered_keys]
  intro a ha b hb e
  obtain ⟨i, _, rfl⟩ := List.mem_map.1 ha
  obtain ⟨j, _, rfl⟩ := List.mem_map.1 hb
  simp at e

section
variable [UniDB]

/-- what is shown of lines that were written -/
theorem noted_of_shown {s : H5} {E G desc key : Str} {hl sl : List Str} {A : Dict AVal}
    (hA : A = [(p!"NX_class", .str p!"NXnote"), (p!"description", .str desc)])
    (h : Shown s E G (some (.grp (numbered p!"header" key hl ++ numbered p!"item" key sl) A))) :
    Noted s E G desc key hl sl := by
  obtain ⟨h1, h2, h3⟩ := h
  subst hA
  refine ⟨h1, ?_, fun i t hi => ?_, fun i t hi => ?_⟩
  · have e1 := numbered_keys p!"header" key hl
    have e2 := numbered_keys p!"item" key sl
    have : Dict.keys (numbered p!"header" key hl ++ numbered p!"item" key sl) =
      Dict.keys (numbered p!"header" key hl) ++ Dict.keys (numbered p!"item" key sl) := by simp [Dict.keys]
    rw [h2, this, e1, e2]
    rfl
  · exact (h3 _).trans (get?_append_left (numbered_get? (tag := p!"header") hi))
  · refine (h3 _).trans ((get?_append_right ?_).trans (numbered_get? (tag := p!"item") hi))
    rw [numbered_keys]
    intro hm
    obtain ⟨j, _, e⟩ := List.mem_map.1 hm
    simp at e

theorem noted_attrs (desc : Str) : Dict.update [(p!"NX_class", AVal.str p!"NXnote")] (attr1 p!"description" desc) =
    [(p!"NX_class", .str p!"NXnote"), (p!"description", .str desc)] := rfl

theorem noted_again (desc : Str) : Dict.update [(p!"NX_class", AVal.str p!"NXnote"), (p!"description", .str desc)]
    (attr1 p!"description" desc) = [(p!"NX_class", .str p!"NXnote"), (p!"description", .str desc)] := rfl

/-- the two writers of lines, for the header and the scan -/
theorem noted_run {s : H5} {E G desc key : Str} {o : Obj → Option (List Str)} {hdr z : Obj} {W1 W2 : Known}
    (hk : hdr.kind = .header) (zk : z.kind = .scan)
    (h1 : (o hdr ≠ none ∧ LinesR G desc key o hdr Known.nil W1) ∨ (o hdr = none ∧ W1 = Known.nil))
    (h2 : (o z ≠ none ∧ LinesR G desc key o z W1 W2) ∨ (o z = none ∧ W2 = W1))
    (hs : Shown s E G (W2 G)) :
    (o hdr = none → o z = none → objAt s [E, G] = none) ∧
    ((o hdr ≠ none ∨ o z ≠ none) → Noted s E G desc key ((o hdr).getD []) ((o z).getD [])) := by
  have e0 : ∀ l, numbered p!"header" key l ++ numbered p!"item" key [] = numbered p!"header" key l := by
    intro l; simp [numbered]
  have e1 : ∀ l, numbered p!"header" key [] ++ numbered p!"item" key l = numbered p!"item" key l := by
    intro l; simp [numbered]
  rcases h1 with ⟨a1, l1, V1, A1, b1, b2, b3⟩ | ⟨a1, rfl⟩
  · have b3 : V1 = [] ∧ A1 = [(p!"NX_class", .str p!"NXnote"), (p!"description", .str desc)] := by
      rcases b3 with ⟨_, e, e'⟩ | ⟨A0, e, _⟩
      · exact ⟨e, e'⟩
      · cases e
    obtain ⟨rfl, rfl⟩ := b3
    rw [if_pos hk, puts_fresh _ _ (by simpa using numbered_nodup ..)] at b2
    rcases h2 with ⟨a2, l2, V2, A2, c1, c2, c3⟩ | ⟨a2, rfl⟩
    · refine ⟨fun e => absurd e a1, fun _ => ?_⟩
      rw [b1, c1]
      rw [b2, upd_self] at c3
      rcases c3 with ⟨e, _⟩ | ⟨A0, e, e'⟩
      · cases e
      · injection e with e
        injection e with e3 e4
        subst e3 e4 e'
        rw [c2, upd_self, zk, if_neg (by decide), List.nil_append, puts_fresh _ _ (numbered_disjoint ..)] at hs
        exact noted_of_shown (noted_again _) hs
    · refine ⟨fun e => absurd e a1, fun _ => ?_⟩
      rw [b1, a2]
      rw [b2, upd_self] at hs
      refine noted_of_shown rfl ?_
      show Shown s E G (some (.grp (_ ++ numbered p!"item" key []) _))
      rw [e0]
      exact hs
  · rcases h2 with ⟨a2, l2, V2, A2, c1, c2, c3⟩ | ⟨a2, rfl⟩
    · refine ⟨fun _ e => absurd e a2, fun _ => ?_⟩
      have c3 : V2 = [] ∧ A2 = [(p!"NX_class", .str p!"NXnote"), (p!"description", .str desc)] := by
        rcases c3 with ⟨_, e, e'⟩ | ⟨A0, e, _⟩
        · exact ⟨e, e'⟩
        · cases e
      obtain ⟨rfl, rfl⟩ := c3
      rw [a1, c1]
      rw [c2, upd_self, zk, if_neg (by decide), puts_fresh _ _ (by simpa using numbered_nodup ..)] at hs
      refine noted_of_shown rfl ?_
      show Shown s E G (some (.grp (numbered p!"header" key [] ++ _) _))
      rw [e1]
      exact hs
    · exact ⟨fun _ _ => hs, fun h => by rcases h with h | h <;> contradiction⟩

theorem outcome_lines {f0 : H5Fn} {R : Obj → Known → Known → Prop} {x : Obj} {W W' : Known} {α : Type} {o : Option α}
    (h : Outcome (fun f => f = f0) (fun _ => R) x.h5.values x W W') (hw : f0 ∈ x.h5.values ↔ o ≠ none) :
    (o ≠ none ∧ R x W W') ∨ (o = none ∧ W' = W) := by
  by_cases e : o = none
  · exact .inr ⟨e, outcome_zero h (fun hm => (hw.1 hm) e)⟩
  · exact .inl ⟨e, outcome_one h (hw.2 e)⟩

/-- C44: the #R lines of the header and of the scan are the numbered texts of `UserResults`. -/
theorem C44_results {env : Env} {reg : List HKey} (hr : reg.Perm HKey.all) (hx : SchemaNames env) {v : Versions}
    {ks : List Ref} {s : Sdf} {r : SState} (hs : Savable s) (hk : ∀ k ∈ ks, PlainText k.text)
    (h : save env reg v ks s = (r, none)) {k : Ref} (hm : k ∈ ks) {z : Obj} (hz : r.sdf.getScan k = .ok (some z)) :
    ((r.sdf.headerOf z).R = none → z.R = none → objAt r.h5 [entryName k, p!"UserResults"] = none) ∧
    ((r.sdf.headerOf z).R ≠ none ∨ z.R ≠ none → Noted r.h5 (entryName k) p!"UserResults"
      p!"SPEC control line \"#R: Reserved for user results\"" p!"R" ((r.sdf.headerOf z).R.getD []) (z.R.getD [])) := by
  obtain ⟨m, x, y, e, chE, en, hw, hh, hi⟩ := entry_of' hr hx hs hk h hm hz
  obtain ⟨hdr, W1, W2, hl, hwh, o1, o2, hsh⟩ := en.slots slotted_results (by rintro _ _ rfl rfl; rfl) hw hh (by decide) (by decide)
    (by decide) (by decide) (fun _ _ => trivial) trivial
  have hQ : (r.sdf.headerOf z).R = hdr.R := by obtain ⟨O, d, ep, e⟩ := hl; rw [e]
  rw [hQ]
  exact noted_run hwh.kind hw.kind (outcome_lines o1 hwh.userResults) (outcome_lines o2 hw.userResults) (hsh _ rfl)

/-- C44: the #U lines of the header and of the scan are the numbered texts of `UserReserved`. -/
theorem C44_reserved {env : Env} {reg : List HKey} (hr : reg.Perm HKey.all) (hx : SchemaNames env) {v : Versions}
    {ks : List Ref} {s : Sdf} {r : SState} (hs : Savable s) (hk : ∀ k ∈ ks, PlainText k.text)
    (h : save env reg v ks s = (r, none)) {k : Ref} (hm : k ∈ ks) {z : Obj} (hz : r.sdf.getScan k = .ok (some z)) :
    ((r.sdf.headerOf z).U = none → z.U = none → objAt r.h5 [entryName k, p!"UserReserved"] = none) ∧
    ((r.sdf.headerOf z).U ≠ none ∨ z.U ≠ none → Noted r.h5 (entryName k) p!"UserReserved"
      p!"SPEC control line \"#U: Reserved for user\"" p!"U" ((r.sdf.headerOf z).U.getD []) (z.U.getD [])) := by
  obtain ⟨m, x, y, e, chE, en, hw, hh, hi⟩ := entry_of' hr hx hs hk h hm hz
  obtain ⟨hdr, W1, W2, hl, hwh, o1, o2, hsh⟩ := en.slots slotted_reserved (by rintro _ _ rfl rfl; rfl) hw hh (by decide) (by decide)
    (by decide) (by decide) (fun _ _ => trivial) trivial
  have hQ : (r.sdf.headerOf z).U = hdr.U := by obtain ⟨O, d, ep, e⟩ := hl; rw [e]
  rw [hQ]
  exact noted_run hwh.kind hw.kind (outcome_lines o1 hwh.userReserved) (outcome_lines o2 hw.userReserved) (hsh _ rfl)

/-! ### unrecognized lines -/

theorem clean_u (j : Nat) : cleanName (p!"u" ++ natStr j) = .ok (p!"u" ++ natStr j) := by
  refine C32_identity _ ⟨?_, 'u', natStr j, rfl, rfl⟩
  intro c hc
  rcases List.mem_append.1 hc with e | e
  · simp only [List.mem_singleton] at e; subst e; rfl
  · have := natStr_isDig j c e
    unfold isDig at this
    unfold isWord asciiWord
    simp only [Bool.and_eq_true, decide_eq_true_eq] at this ⊢
    have h1 : c.toNat < 128 := by
      have := this.2
      omega
    rw [if_pos h1]
    simp [this.1, this.2]

/-- the datasets of the unrecognized lines -/
def unrecSets (l : List Str) : Sets :=
  ((List.range l.length).zip l).map (fun p => (p!"u" ++ natStr p.1, (.text [ascii p.2], [(p!"spec_name", .str (p!"u" ++ natStr p.1))])))

theorem unrec_sets {l : List Str} {qs : Sets} (h : List.Forall₂ OpPut (unrecOps l) qs) : qs = unrecSets l := by
  unfold unrecOps at h
  unfold unrecSets
  rw [List.forall₂_map_left_iff] at h
  generalize (List.range l.length).zip l = ps at h
  induction h with
  | nil => rfl
  | @cons p q ps qs h1 _ ih =>
    obtain ⟨a1, a2, a3⟩ := h1
    rw [clean_u] at a1
    simp only [PData.toH, Except.ok.injEq] at a1 a2
    rw [List.map_cons, ih]
    rcases q with ⟨q1, q2, q3⟩
    simp only at a1 a2 a3
    subst a1 a2 a3
    rfl

theorem unrec_keys (l : List Str) : Dict.keys (unrecSets l) = (List.range l.length).map (fun j => p!"u" ++ natStr j) := by
  unfold unrecSets Dict.keys
  rw [List.map_map]
  have : (List.range l.length) = ((List.range l.length).zip l).map Prod.fst := by
    rw [List.map_fst_zip]; simp
  conv => rhs; rw [this, List.map_map]
  rfl

theorem unrec_nodup (l : List Str) : (Dict.keys (unrecSets l)).Nodup := by
  rw [unrec_keys]
  refine List.Nodup.map ?_ List.nodup_range
  intro a b h
  exact natStr_injective (List.append_cancel_left h)

theorem unrec_shown {s : H5} {E : Str} {i : Nat} {l : List Str}
    (h : Shown s E (unrecName i) (some (.grp (Sets.puts [] (unrecSets l)) (Dict.update [(p!"NX_class", AVal.str p!"NXnote")] (attr1 p!"description"
          p!"SPEC data file control lines not otherwise recognized"))))) : UnrecAt s E i l := by
  rw [puts_fresh _ _ (by simpa using unrec_nodup l), List.nil_append] at h
  obtain ⟨h1, h2, h3⟩ := h
  refine ⟨h1, h2.trans (unrec_keys l), fun j t hj => ?_⟩
  exact (h3 _).trans (get?_of_mem_nodup (unrec_nodup l) (List.mem_map.2 ⟨_, zip_range_get? hj, rfl⟩))

/-- C44: the lines that nothing recognized are kept: those of the header in the first group, then
those of the scan in the next; there is no further group. -/
theorem C44_unrecognized {env : Env} {reg : List HKey} (hr : reg.Perm HKey.all) (hx : SchemaNames env) {v : Versions}
    {ks : List Ref} {s : Sdf} {r : SState} (hs : Savable s) (hk : ∀ k ∈ ks, PlainText k.text)
    (h : save env reg v ks s = (r, none)) {k : Ref} (hm : k ∈ ks) {z : Obj} (hz : r.sdf.getScan k = .ok (some z)) :
    (∀ i l, ((r.sdf.headerOf z).unrecognized.toList ++ z.unrecognized.toList)[i]? = some l →
      UnrecAt r.h5 (entryName k) (i + 1) l) ∧
    (∀ i, i = 0 ∨ ((r.sdf.headerOf z).unrecognized.toList ++ z.unrecognized.toList).length < i →
      objAt r.h5 [entryName k, p!"unrecognized_" ++ natStr i] = none) := by
  obtain ⟨m, x, y, e, chE, en, hw, hh, hi⟩ := entry_of' hr hx hs hk h hm hz
  have hne : ∀ {N : Str}, startsWith N p!"unrecognized_" = false → ¬ (∃ i, N = unrecName i) := by
    rintro N h1 ⟨i, rfl⟩
    have : startsWith (unrecName i) p!"unrecognized_" = true := by simp [unrecName, startsWith]
    rw [this] at h1; cases h1
  obtain ⟨hdr, W1, W2, hl, hwh, o1, o2, hsh⟩ := en.slots slotted_unrec (by rintro _ _ rfl rfl; rfl) hw hh
    (by intro n hn; exact hne (by revert n; decide)) (by intro n hn; exact hne (by revert n; decide))
    (hne (by decide)) (hne (by decide)) (fun _ _ => trivial) trivial
  have hQ : (r.sdf.headerOf z).unrecognized = hdr.unrecognized := by obtain ⟨O, d, ep, e⟩ := hl; rw [e]
  rw [hQ]
  have q1 := outcome_lines o1 hwh.unrec
  have q2 := outcome_lines o2 hw.unrec
  have hne1 : ∀ {i j : Nat}, i ≠ j → unrecName i ≠ unrecName j := fun h e => h (unrecName_inj e)
  rcases q1 with ⟨a1, i, l, qs, b1, b2, b3, b4, b5, b6⟩ | ⟨a1, rfl⟩
  · have hi1 : i = 1 := by
      by_cases e : i = 1
      · exact e
      · exact absurd rfl (b4 1 (Nat.le_refl _) (by omega))
    subst hi1
    rw [unrec_sets b5] at b6
    rcases q2 with ⟨a2, i2, l2, qs2, c1, c2, c3, c4, c5, c6⟩ | ⟨a2, rfl⟩
    · have hi2 : i2 = 2 := by
        by_cases e1 : i2 = 1
        · subst e1
          rw [b6, upd_self] at c3
          cases c3
        · by_cases e : i2 = 2
          · exact e
          · have := c4 2 (by omega) (by omega)
            rw [b6, upd_ne _ _ (hne1 (by decide))] at this
            exact absurd rfl this
      subst hi2
      rw [unrec_sets c5] at c6
      rw [b1, c1]
      refine ⟨fun j l' hj => ?_, fun j hj => ?_⟩
      · have hj2 : j < 2 := (List.getElem?_eq_some_iff.1 hj).1
        have : j = 0 ∨ j = 1 := by omega
        rcases this with rfl | rfl
        · have hs1 := hsh (unrecName 1) ⟨1, rfl⟩
          rw [c6, upd_ne _ _ (hne1 (by decide)), b6, upd_self] at hs1
          have : l = l' := by simpa using hj
          subst this
          exact unrec_shown hs1
        · have hs1 := hsh (unrecName 2) ⟨2, rfl⟩
          rw [c6, upd_self] at hs1
          have : l2 = l' := by simpa using hj
          subst this
          exact unrec_shown hs1
      · have hj2 : j = 0 ∨ 2 < j := hj
        have hs1 := hsh (unrecName j) ⟨j, rfl⟩
        rw [c6, upd_ne _ _ (hne1 (by omega)), b6, upd_ne _ _ (hne1 (by omega))] at hs1
        exact hs1
    · rw [b1, a2]
      refine ⟨fun j l' hj => ?_, fun j hj => ?_⟩
      · have hj2 : j < 1 := (List.getElem?_eq_some_iff.1 hj).1
        have : j = 0 := by omega
        subst this
        have hs1 := hsh (unrecName 1) ⟨1, rfl⟩
        rw [b6, upd_self] at hs1
        have : l = l' := by simpa using hj
        subst this
        exact unrec_shown hs1
      · have hj2 : j = 0 ∨ 1 < j := hj
        have hs1 := hsh (unrecName j) ⟨j, rfl⟩
        rw [b6, upd_ne _ _ (hne1 (by omega))] at hs1
        exact hs1
  · rcases q2 with ⟨a2, i2, l2, qs2, c1, c2, c3, c4, c5, c6⟩ | ⟨a2, rfl⟩
    · have hi2 : i2 = 1 := by
        by_cases e : i2 = 1
        · exact e
        · exact absurd rfl (c4 1 (Nat.le_refl _) (by omega))
      subst hi2
      rw [unrec_sets c5] at c6
      rw [a1, c1]
      refine ⟨fun j l' hj => ?_, fun j hj => ?_⟩
      · have hj2 : j < 1 := (List.getElem?_eq_some_iff.1 hj).1
        have : j = 0 := by omega
        subst this
        have hs1 := hsh (unrecName 1) ⟨1, rfl⟩
        rw [c6, upd_self] at hs1
        have : l2 = l' := by simpa using hj
        subst this
        exact unrec_shown hs1
      · have hj2 : j = 0 ∨ 1 < j := hj
        have hs1 := hsh (unrecName j) ⟨j, rfl⟩
        rw [c6, upd_ne _ _ (hne1 (by omega))] at hs1
        exact hs1
    · rw [a1, a2]
      refine ⟨fun j l' hj => ?_, fun j hj => ?_⟩
      · simp at hj
      · exact hsh (unrecName j) ⟨j, rfl⟩

end
end S2N.Props
