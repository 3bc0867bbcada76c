import Verif.Props.EntryLines
/-
The tables of an entry: cross references and metadata.
-/
namespace S2N.Props
open S2N Py H5 Eznx Writer Spec

theorem texts_keys (d : Dict Str) : Dict.keys (texts d) = d.keys := by
  unfold texts Dict.keys
  rw [List.map_map]; rfl

theorem texts_get? (d : Dict Str) (n t : Str) (h : d.keys.Nodup) (hg : d.get? n = some t) :
    Dict.get? (texts (sortedItems d)) n = some (textDs t []) := by
  have hp := sortBy_perm (fun a b : Str × Str => strLe a.1 b.1) d
  have hn : (Dict.keys (texts (sortedItems d))).Nodup := by
    rw [texts_keys]; exact ((hp.map Prod.fst).nodup_iff).2 h
  exact get?_of_mem_nodup hn (List.mem_map.2 ⟨(n, t), hp.mem_iff.2 (Dict.mem_of_get? hg), rfl⟩)

/-- a cross reference that was written -/
theorem table_of_shown {s : H5} {E G : Str} {A : Dict AVal} {d : Dict Str} (hn : d.keys.Nodup)
    (h : Shown s E G (some (.grp (Sets.puts [] (texts (sortedItems d))) A))) : TableAt s E G A d := by
  have hp := sortBy_perm (fun a b : Str × Str => strLe a.1 b.1) d
  have hk : (sortedItems d).map Prod.fst = Dict.keys (texts (sortedItems d)) := (texts_keys _).symm
  have hn' : (Dict.keys (texts (sortedItems d))).Nodup := by
    rw [texts_keys]; exact ((hp.map Prod.fst).nodup_iff).2 hn
  rw [puts_fresh _ _ (by simpa using hn'), List.nil_append] at h
  obtain ⟨h1, h2, h3⟩ := h
  refine ⟨h1, fun n => ?_, by rw [h2]; exact hn', fun n t hg => ?_⟩
  · rw [h2, texts_keys]
    exact (hp.map Prod.fst).mem_iff
  · rw [h3, texts_get? d n t hn hg]; rfl

section
variable [UniDB]

/-- what a writer of a cross reference does -/
def XrefR (N : Str) (A : Dict AVal) (d : Dict Str) (W W' : Known) : Prop :=
  (d = [] ∧ W' = W) ∨ (W N = none ∧ W' = upd W N (some (.grp (Sets.puts [] (texts (sortedItems d))) A)))

theorem xref_run {s : H5} {E G : Str} {A : Dict AVal} {hd sd : Dict Str} {W1 W2 : Known}
    (n1 : hd.keys.Nodup) (n2 : sd.keys.Nodup) (h1 : XrefR G A hd Known.nil W1) (h2 : XrefR G A sd W1 W2)
    (hs : Shown s E G (W2 G)) :
    (hd = [] ∨ sd = []) ∧ (hd ++ sd ≠ [] → TableAt s E G A (hd ++ sd)) ∧
    (hd ++ sd = [] → childrenAt s [E, G] = []) := by
  rcases h1 with ⟨rfl, rfl⟩ | ⟨_, e1⟩
  · refine ⟨.inl rfl, ?_⟩
    rw [List.nil_append]
    rcases h2 with ⟨rfl, rfl⟩ | ⟨_, e2⟩
    · refine ⟨fun h => absurd rfl h, fun _ => ?_⟩
      have : objAt s [E, G] = none := hs
      unfold childrenAt; rw [this]
    · rw [e2, upd_self] at hs
      have ht := table_of_shown n2 hs
      refine ⟨fun _ => ht, fun e => ?_⟩
      subst e
      refine List.eq_nil_iff_forall_not_mem.2 fun n hn => ?_
      have := (ht.names n).1 hn
      simp [Dict.keys] at this
  · rcases h2 with ⟨rfl, rfl⟩ | ⟨e2, _⟩
    · refine ⟨.inr rfl, ?_⟩
      rw [List.append_nil]
      rw [e1, upd_self] at hs
      have ht := table_of_shown n1 hs
      refine ⟨fun _ => ht, fun e => ?_⟩
      subst e
      refine List.eq_nil_iff_forall_not_mem.2 fun n hn => ?_
      have := (ht.names n).1 hn
      simp [Dict.keys] at this
    · rw [e1, upd_self] at e2
      cases e2

omit [UniDB] in
theorem _root_.S2N.Spec.OneName.single {d : Dict Str} (h : OneName d) : ∀ k ∈ d.keys, Single k := fun k hk =>
  ⟨(h k hk).1, (h k hk).2.1, (h k hk).2.2⟩

theorem outcome_counters {x : Obj} {W W' : Known} {k : Kind} (hw : Writers k x)
    {R : H5Fn → Obj → Known → Known → Prop} {A : Dict AVal} {N : Str}
    (hR : ∀ f, f = .counterJ ∨ f = .counterj → R f x W W' → XrefR N A (x.counterXref.getD []) W W')
    (h : Outcome (fun f => f = .counterJ ∨ f = .counterj) R x.h5.values x W W') :
    XrefR N A (x.counterXref.getD []) W W' := by
  rcases h with ⟨f, _, f2, f3⟩ | ⟨h1, rfl⟩
  · exact hR f f2 f3
  · refine .inl ⟨?_, rfl⟩
    cases hx : x.counterXref with
    | none => rfl
    | some d =>
      have := hw.counters (by rw [hx]; simp)
      obtain ⟨p, hp, e⟩ := List.mem_map.1 this
      have hf := h1 p.2 (List.mem_map.2 ⟨p, hp, rfl⟩)
      rw [hw.label p hp] at e
      exfalso
      revert e hf
      cases p.2 <;> first | exact fun _ h => h (.inl rfl) | exact fun _ h => h (.inr rfl) | (intro e; revert e; decide) | skip
      all_goals
        intro e hf
        first
        | exact hf (.inl rfl)
        | exact hf (.inr rfl)
        | (revert e; decide)

/-- C75: the counters named by the #J and #j lines are the table `counter_cross_reference` of the
entry: for each mnemonic the name.  It comes from the header of the scan or from the scan: if both
have counters, the file cannot be saved. -/
theorem C75_counters {env : Env} {reg : List HKey} (hr : reg.Perm HKey.all) (hx : SchemaNames env) {v : Versions}
    {ks : List Ref} {s : Sdf} {r : SState} (hs : Savable s) (hk : ∀ k ∈ ks, PlainText k.text)
    (h : save env reg v ks s = (r, none)) {k : Ref} (hm : k ∈ ks) {z : Obj} (hz : r.sdf.getScan k = .ok (some z))
    {hd sd : Dict Str} (h1 : hd = (r.sdf.headerOf z).counterXref.getD []) (h2 : sd = z.counterXref.getD [])
    (o1 : OneName hd) (o2 : OneName sd) :
    (hd = [] ∨ sd = []) ∧
    (hd ++ sd ≠ [] → TableAt r.h5 (entryName k) p!"counter_cross_reference" [(p!"NX_class", .str p!"NXnote"),
      (p!"description", .str p!"cross-reference SPEC counter mnemonics and names"),
      (p!"comment", .str p!"keys are SPEC counter mnemonics, values are SPEC counter names")] (hd ++ sd)) ∧
    (hd ++ sd = [] → childrenAt r.h5 [entryName k, p!"counter_cross_reference"] = []) := by
  obtain ⟨m, x, y, e, chE, en, hw, hh, hi⟩ := entry_of' hr hx hs hk h hm hz
  obtain ⟨hdr, W1, W2, hl, hwh, q1, q2, hsh⟩ := en.slots slotted_counters
    (by rintro _ _ (rfl | rfl) (rfl | rfl) <;> rfl) hw hh (by decide) (by decide) (by decide) (by decide)
    (fun hdr hl => by
      obtain ⟨O, d, ep, e⟩ := hl
      have : hdr.counterXref = (r.sdf.headerOf z).counterXref := by rw [e]
      rw [this, ← h1]; exact o1.single) (by rw [← h2]; exact o2.single)
  have hQ : (r.sdf.headerOf z).counterXref = hdr.counterXref := by obtain ⟨O, d, ep, e⟩ := hl; rw [e]
  rw [hQ] at h1
  subst h1 h2
  refine xref_run hwh.dicts.1 hw.dicts.1 (outcome_counters hwh ?_ q1) (outcome_counters hw ?_ q2) (hsh _ rfl)
  all_goals
    rintro f _ (⟨_, h1, h2⟩ | h1)
    · exact .inl ⟨h1, h2⟩
    · exact .inr h1

/-- C75: likewise the positioners named by the #O and #o lines are the table
`positioner_cross_reference`. -/
theorem C75_positioners {env : Env} {reg : List HKey} (hr : reg.Perm HKey.all) (hx : SchemaNames env) {v : Versions}
    {ks : List Ref} {s : Sdf} {r : SState} (hs : Savable s) (hk : ∀ k ∈ ks, PlainText k.text)
    (h : save env reg v ks s = (r, none)) {k : Ref} (hm : k ∈ ks) {z : Obj} (hz : r.sdf.getScan k = .ok (some z))
    {hd sd : Dict Str} (h1 : hd = (r.sdf.headerOf z).positionerXref.getD []) (h2 : sd = z.positionerXref.getD [])
    (o1 : OneName hd) (o2 : OneName sd) :
    (hd = [] ∨ sd = []) ∧
    (hd ++ sd ≠ [] → TableAt r.h5 (entryName k) p!"positioner_cross_reference" [(p!"NX_class", .str p!"NXnote"),
      (p!"description", .str p!"cross-reference SPEC positioner mnemonics and names"),
      (p!"comment", .str p!"keys are SPEC positioner mnemonics, values are SPEC positioner names")] (hd ++ sd)) ∧
    (hd ++ sd = [] → childrenAt r.h5 [entryName k, p!"positioner_cross_reference"] = []) := by
  obtain ⟨m, x, y, e, chE, en, hw, hh, hi⟩ := entry_of' hr hx hs hk h hm hz
  obtain ⟨hdr, W1, W2, hl, hwh, q1, q2, hsh⟩ := en.slots slotted_positioners
    (by rintro _ _ rfl rfl; rfl) hw hh (by decide) (by decide) (by decide) (by decide)
    (fun hdr hl => by
      obtain ⟨O, d, ep, e⟩ := hl
      have : hdr.positionerXref = (r.sdf.headerOf z).positionerXref := by rw [e]
      rw [this, ← h1]; exact o1.single) (by rw [← h2]; exact o2.single)
  have hQ : (r.sdf.headerOf z).positionerXref = hdr.positionerXref := by obtain ⟨O, d, ep, e⟩ := hl; rw [e]
  rw [hQ] at h1
  subst h1 h2
  have key : ∀ {k : Kind} {x : Obj} {W W' : Known} {A : Dict AVal}, Writers k x →
      Outcome (fun f => f = .positionerXref) (fun _ x W W' => XrefR p!"positioner_cross_reference" A (x.positionerXref.getD []) W W')
        x.h5.values x W W' → XrefR p!"positioner_cross_reference" A (x.positionerXref.getD []) W W' := by
    intro k x W W' A hw h
    rcases h with ⟨f, _, f2, f3⟩ | ⟨h1, rfl⟩
    · exact f3
    · refine .inl ⟨?_, rfl⟩
      cases hx : x.positionerXref with
      | none => rfl
      | some d =>
        have := hw.positioners (by rw [hx]; simp)
        obtain ⟨p, hp, e⟩ := List.mem_map.1 this
        have hf := h1 p.2 (List.mem_map.2 ⟨p, hp, rfl⟩)
        rw [hw.label p hp] at e
        exfalso
        revert e hf
        cases p.2
        all_goals
          intro e hf
          first
          | exact hf rfl
          | (revert e; decide)
  exact xref_run hwh.dicts.2.1 hw.dicts.2.1 (key hwh q1) (key hw q2) (hsh _ rfl)

theorem md_shown {s : H5} {E : Str} {d : Dict Str} {qs : Sets} (hn : d.keys.Nodup)
    (hq : List.Forall₂ OpPut (d.map (fun kv => (kv.1, .str kv.2, []))) qs)
    (h : Shown s E p!"bluesky_metadata" (some (.grp (Sets.puts [] qs) mdAttrs))) : MetaAt s E d := by
  obtain ⟨h1, h2, h3⟩ := h
  refine ⟨h1, fun key t hkt hu => ?_, fun n hn => ?_⟩
  · obtain ⟨n, w, g1, g2, g3⟩ := put_of_op hq (o := (key, .str t, [])) (List.mem_map.2 ⟨_, hkt, rfl⟩) (fun o' ho' he => by
      obtain ⟨kv, hkv, rfl⟩ := List.mem_map.1 ho'
      have e := hu kv.1 (List.mem_map.2 ⟨kv, hkv, rfl⟩) he
      have e2 : kv.2 = t := by
        have a1 := get?_of_mem_nodup hn hkt
        have a2 := get?_of_mem_nodup hn (show (kv.1, kv.2) ∈ d from hkv)
        rw [e, a1] at a2
        injection a2 with a2
        exact a2.symm
      rw [e, e2]) (V := []) (by simp [Dict.keys])
    refine ⟨n, g1, ?_⟩
    rw [h3, g3]
    simp only [PData.toH, Except.ok.injEq] at g2
    subst g2
    rfl
  · rw [h2] at hn
    rcases keys_puts _ _ _ hn with h9 | ⟨q, h9, h10⟩
    · simp [Dict.keys] at h9
    · obtain ⟨o, ho, hp⟩ := op_of_put hq q h9
      obtain ⟨kv, hkv, rfl⟩ := List.mem_map.1 ho
      exact ⟨kv.1, List.mem_map.2 ⟨kv, hkv, rfl⟩, by rw [← h10]; exact hp.1⟩

/-- C75: the metadata of the #MD lines are the group `bluesky_metadata`: each key whose cleaned name no
other key has is a dataset with its value, and nothing else is in the group. -/
theorem C75_metadata {env : Env} {reg : List HKey} (hr : reg.Perm HKey.all) (hx : SchemaNames env) {v : Versions}
    {ks : List Ref} {s : Sdf} {r : SState} (hs : Savable s) (hk : ∀ k ∈ ks, PlainText k.text)
    (h : save env reg v ks s = (r, none)) {k : Ref} (hm : k ∈ ks) {z : Obj} (hz : r.sdf.getScan k = .ok (some z))
    {hd sd : Dict Str} (h1 : hd = (r.sdf.headerOf z).MD.getD []) (h2 : sd = z.MD.getD []) :
    (hd = [] ∨ sd = []) ∧ (hd ++ sd ≠ [] → MetaAt r.h5 (entryName k) (hd ++ sd)) ∧
    (hd ++ sd = [] → objAt r.h5 [entryName k, p!"bluesky_metadata"] = none) := by
  obtain ⟨m, x, y, e, chE, en, hw, hh, hi⟩ := entry_of' hr hx hs hk h hm hz
  obtain ⟨hdr, W1, W2, hl, hwh, q1, q2, hsh⟩ := en.slots slotted_md
    (by rintro _ _ rfl rfl; rfl) hw hh (by decide) (by decide) (by decide) (by decide)
    (fun _ _ => trivial) trivial
  have hQ : (r.sdf.headerOf z).MD = hdr.MD := by obtain ⟨O, d, ep, e⟩ := hl; rw [e]
  rw [hQ] at h1
  subst h1 h2
  have key : ∀ {k : Kind} {x : Obj} {W W' : Known} {R : Obj → Known → Known → Prop}, Writers k x →
      Outcome (fun f => f = .MD) (fun _ => R) x.h5.values x W W' → 
      (x.MD.getD [] ≠ [] ∧ R x W W') ∨ (x.MD.getD [] = [] ∧ W' = W) := by
    intro k x W W' R hw h
    by_cases e : x.MD.getD [] = []
    · exact .inr ⟨e, outcome_zero h (fun hm => (hw.md.1 hm) e)⟩
    · exact .inl ⟨e, outcome_one h (hw.md.2 e)⟩
  have hsh := hsh _ rfl
  rcases key hwh q1 with ⟨a1, ⟨b1, _⟩ | ⟨_, qs, b2, b3⟩⟩ | ⟨a1, rfl⟩
  · exact absurd b1 a1
  · rcases key hw q2 with ⟨a2, ⟨c1, _⟩ | ⟨c1, _⟩⟩ | ⟨a2, rfl⟩
    · exact absurd c1 a2
    · rw [b3, upd_self] at c1; cases c1
    · rw [a2, List.append_nil]
      refine ⟨.inr rfl, fun _ => ?_, fun e => absurd e a1⟩
      rw [b3, upd_self] at hsh
      exact md_shown hwh.dicts.2.2 b2 hsh
  · rcases key hw q2 with ⟨a2, ⟨c1, _⟩ | ⟨_, qs, c2, c3⟩⟩ | ⟨a2, rfl⟩
    · exact absurd c1 a2
    · rw [a1, List.nil_append]
      refine ⟨.inl rfl, fun _ => ?_, fun e => absurd e a2⟩
      rw [c3, upd_self] at hsh
      exact md_shown hw.dicts.2.2 c2 hsh
    · rw [a1, a2]
      exact ⟨.inl rfl, fun h => absurd rfl h, fun _ => hsh⟩

end
end S2N.Props
