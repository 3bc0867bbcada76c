import Verif.Props.EntrySampleDemo
/-
Nothing else is in an entry.
-/
namespace S2N.Props
open S2N Py H5 Eznx Writer Spec
variable [UniDB]

/-- a name that no part of an entry has -/
def OtherName (N : Str) : Prop := N ∉ entryNames ∧ ∀ i, N ≠ p!"unrecognized_" ++ natStr i

/-- a name that no part of the group "instrument" has -/
def OtherPart (N : Str) : Prop := N ∉ instrumentNames

omit [UniDB] in
theorem used_entry (f : H5Fn) : ∀ n ∈ usedBy f, n ∈ entryNames := by cases f <;> decide

omit [UniDB] in
theorem used_hub (f : H5Fn) : ∀ n ∈ hubUsed f, n ∈ instrumentNames := by cases f <;> decide

theorem zoned_other : ZonedRun (σ := Unit) OtherName OtherPart (fun _ => False) Always
    (fun _ _ _ v u _ => (∀ N, OtherName N → v N = none) ∧ ∀ N, OtherPart N → u N = none) (fun _ _ _ _ _ => True) () where
  data := id
  avoids f _ := by
    exact ⟨fun n hn _ hX => hX.1 (used_entry f n hn), fun n hn hX => hX (used_hub f n hn), fun _ i hX => hX.2 i rfl⟩
  step _ h := h.elim
  keep h1 _ h := ⟨fun N hN => (h1 N (fun e => hN.1 (e ▸ by decide))).trans (h.1 N hN), h.2⟩
  init _ _ := ⟨fun _ _ => rfl, fun _ _ => rfl⟩
  pL _ _ h := h
  withL _ _ _ _ _ h _ := h

/-- the first dataset of an entry is kept -/
theorem entry_experiment {k : Ref} {S : SState} {m : Str} {x y z : Obj} {e : Nat} {chE : Dict Nat}
    (en : EntryOf k S m x y z e chE) : datasetAt S.h5 [p!"S" ++ k.text, p!"experiment_description"] =
      some (.text [p!"SPEC scan"], [(p!"description", .str p!"SPEC data file scan")]) := by
  obtain ⟨hdr, ⟨t1, t2, chT, aT, r1, r2, r3, r4, r5, r6, _, r8, r9, r10, r11⟩, hl⟩ := en.ran
  let c : Scope := { e := e, E := p!"S" ++ k.text, D := fun i => i < e ∨ i = e + 1, X := fun n => n = p!"experiment_description" }
  have hi : H5.Inv c t1 := by
    refine ⟨r2.wf, .inl r2.rootD, ?_, r2.plain, r2.entry, ?_, r2.elt, ?_⟩
    · rintro (q | q)
      · exact r2.notD q
      · exact absurd q (Nat.succ_ne_self e).symm
    · rintro i (q | q)
      · exact r2.lt i q
      · omega
    · intro i hD ch a hg n j hm
      have hi1 : i = e := by
        have := lt_of_get? hg
        have h1 : ¬ (i < e ∨ i = e + 1) := hD
        omega
      subst hi1
      rw [r3] at hg
      injection hg with hg
      injection hg with hg _
      subst hg
      simp only [List.mem_singleton, Prod.mk.injEq] at hm
      obtain ⟨rfl, rfl⟩ := hm
      exact ⟨Nat.succ_ne_self _, fun _ => ⟨rfl, rfl⟩⟩
  have hav : ∀ f, Avoids c f := by
    intro f
    refine ⟨fun n hn (q : n = _) => ?_, fun _ i (q : _ = _) => ?_⟩
    · subst q; cases f <;> exact absurd hn (by decide)
    · have q2 : some 'u' = some 'e' := congrArg List.head? q
      exact absurd q2 (by decide)
  have ho : Ok c ⟨e, [p!"S" ++ k.text]⟩ := ⟨hi.notD, .inl ⟨rfl, rfl⟩⟩
  obtain ⟨-, s2, -⟩ := conf_saveScanRest (c := c) (show ∀ n ∈ usedFirst, ¬ n = p!"experiment_description" by decide) r2.plain ho hdr x r4 r5 (fun f _ => hav f) (fun f _ => hav f)
    (show ∀ n ∈ usedByAdditions, ¬ n = p!"experiment_description" by decide) t1 hi
  rw [r1] at s2
  obtain ⟨ch', k1, k2⟩ := s2.keep _ _ r3
  have k1 : t2[e]? = some _ := k1
  rw [r6] at k1
  injection k1 with k1
  injection k1 with k1 _
  subst k1
  have hc : chE.get? p!"experiment_description" = some (e + 1) := (r8 _ (by decide)).trans ((k2 _ rfl).trans rfl)
  have hn : t2[e + 1]? = some experimentNode := (s2.eq (e + 1) (.inr rfl)).trans r11
  have hS : S.h5[e + 1]? = some experimentNode := (r9 _ (by omega) (lt_of_get? hn)).trans hn
  unfold datasetAt objAt
  rw [en.walk, walk_single _ en.entry]
  simp only [hc, hS]
  rfl

/-- C88: **Nothing else is in an entry**: each part of an entry has one of the fixed names, or is a group of
unrecognized lines, and each part of its group `instrument` has one of seven names. -/
theorem C88_nothing_else {env : Env} {reg : List HKey} (hr : reg.Perm HKey.all) (hx : SchemaNames env) {v : Versions}
    {ks : List Ref} {s : Sdf} {r : SState} (hs : Savable s) (hk : ∀ k ∈ ks, PlainText k.text)
    (h : save env reg v ks s = (r, none)) {k : Ref} (hm : k ∈ ks) {z : Obj} (hz : r.sdf.getScan k = .ok (some z)) :
    (∀ N ∈ childrenAt r.h5 [entryName k], N ∈ entryNames ∨ ∃ i, 1 ≤ i ∧
      i ≤ ((r.sdf.headerOf z).unrecognized.toList ++ z.unrecognized.toList).length ∧ N = p!"unrecognized_" ++ natStr i) ∧
    (∀ N ∈ childrenAt r.h5 [entryName k, p!"instrument"], N ∈ instrumentNames) ∧
    datasetAt r.h5 [entryName k, p!"experiment_description"] =
      some (.text [p!"SPEC scan"], [(p!"description", .str p!"SPEC data file scan")]) := by
  obtain ⟨m, x, y, e, chE, en, hw, hh, hi⟩ := entry_of' hr hx hs hk h hm hz
  obtain ⟨hdr, w1, w2, K, v, u, -, -, -, ⟨g1, g2⟩, g3, g4, g5, g6⟩ := en.zonesTo zoned_other
    (Ψ := fun _ _ _ v u _ => (∀ N, OtherName N → v N = none) ∧ ∀ N, OtherPart N → u N = none)
    (by
      intro c e K v u w s s' hid hp hz hΦ ha
      obtain ⟨s1, s2, hM, hT, a1, a2, a3⟩ := additions_parts ha
      obtain ⟨z1, -⟩ := zone_addGeometry hz hid (fun q => q (by decide)) (fun q => q (by decide)) a1
      obtain ⟨z2, -⟩ := zone_addPositioners z1 hid hp (fun q => q (by decide)) a2
      obtain ⟨z3, -⟩ := zone_addOthers z2 hid hp (fun n hn q => q.1 ((by decide : ∀ n ∈ [p!"M", p!"T", p!"monitor", p!"TEMP_SP", p!"DEGC_SP", p!"sample"], n ∈ entryNames) n hn)) a3
      exact ⟨K, v, u, z3, hΦ⟩)
    (fun _ h => h) (fun n hn q => q.1 ((by decide : ∀ n ∈ usedFirst, n ∈ entryNames) n hn)) (fun q => q.1 (by decide)) (fun q => q.1 (by decide))
    (fun _ _ => trivial) trivial
  obtain ⟨hnd, hlt⟩ := (save_ok hr hx (Savable.ok hs) (fun k hk' => plain_entry (hk k hk')) h).1.wf _ _ _ en.entry
  refine ⟨?_, ?_, entry_experiment en⟩
  · intro N hN
    apply Classical.byContradiction
    intro hc
    have : childrenAt r.h5 [entryName k] = Dict.keys chE := by
      unfold childrenAt objAt entryName
      rw [en.walk]
      simp only [H5.walk, en.entry]
    rw [this] at hN
    have hX : OtherName N := ⟨fun q => hc (.inl q), fun i q => by
      by_cases hi : i = 0 ∨ ((r.sdf.headerOf z).unrecognized.toList ++ z.unrecognized.toList).length < i
      · have hu := (C44_unrecognized hr hx hs hk h hm hz).2 i hi
        rw [← q] at hu
        unfold objAt entryName at hu
        rw [en.walk, walk_single _ en.entry] at hu
        cases hg : chE.get? N with
        | none => exact (Dict.get?_eq_none_iff _ _).1 hg hN
        | some j =>
          simp only [hg] at hu
          have := hlt N j (Dict.mem_of_get? hg)
          rw [List.getElem?_eq_none_iff] at hu
          omega
      · exact hc (.inr ⟨i, by omega, by omega, q⟩)⟩
    exact (Dict.get?_eq_none_iff _ _).1 ((g3 N hX).trans (g1 N hX)) hN
  · intro N hN
    apply Classical.byContradiction
    intro hc
    cases hI : v inst with
    | none =>
      have : objAt r.h5 [entryName k, p!"instrument"] = none := by
        unfold objAt entryName
        rw [en.walk]
        have hw : H5.walk r.h5 e [p!"instrument"] = none := walk_none en.entry (g4.trans hI) _
        rw [hw]
      unfold childrenAt at hN
      rw [this] at hN
      cases hN
    | some I =>
      obtain ⟨ch, a, f1, f2⟩ := g5 I hI
      have : childrenAt r.h5 [entryName k, p!"instrument"] = Dict.keys ch := by
        unfold childrenAt objAt entryName
        rw [en.walk, walk_one en.entry (g4.trans hI)]
        simp only [H5.walk, f1]
      rw [this] at hN
      exact (Dict.get?_eq_none_iff _ _).1 ((f2 N hc).trans (g2 N hc)) hN

omit [UniDB] in
/-- C88: the parts of an entry and of its group `instrument` in the file of the examples of C86 -/
theorem C88_example :
    (tempDemo [.int 1, .int 2]).map (fun r => decide (childrenAt r.2.2.1 [p!"S1"] = [p!"experiment_description", p!"title",
      p!"scan_number", p!"command", p!"date", p!"TEMP_SP", p!"DEGC_SP", p!"G", p!"instrument", p!"sample", p!"positioners",
      p!"data"])) = some true ∧
    (tempDemo [.int 1, .int 2]).map (fun r => decide (childrenAt r.2.2.1 [p!"S1", p!"instrument"] =
      [p!"name", p!"monochromator", p!"geometry_parameters", p!"positioners", p!"diffractometer"])) = some true := by
  decide +kernel

end S2N.Props
