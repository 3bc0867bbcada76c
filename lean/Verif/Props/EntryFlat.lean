import Verif.Props.EntryPos
/-
The metadata of #H and #V lines and the MCA in an entry.
-/
namespace S2N.Props
open S2N Py H5 Eznx Writer Spec
variable [UniDB]

/-- the name `N` of the entry -/
theorem flat_read {k : Ref} {S : SState} {m : Str} {x y z : Obj} {e : Nat} {chE : Dict Nat} (en : EntryOf k S m x y z e chE)
    {N : Str} {w : Flat} {K : Nat → Prop} {v u : Str → Option Nat} (hΦ : FlatΦ N (p!"S" ++ k.text) w K v u S.h5)
    (hv : chE.get? N = v N) (hvi : chE.get? inst = v inst)
    (hhub : ∀ I, v inst = some I → ∃ ch a, S.h5[I]? = some (HNode.group ch a) ∧ ch.get? N = u N) (hno : v inst = none → u N = none) :
    (w = none → objAt S.h5 [entryName k, N] = none) ∧
    ∀ V A l, w = some (V, A, l) → groupAt S.h5 [entryName k, N] = some A ∧ childrenAt S.h5 [entryName k, N] = Dict.keys V ∧
      (∀ n, datasetAt S.h5 [entryName k, N, n] = Dict.get? V n) ∧
      (l = true → SameObject S.h5 [entryName k, p!"instrument", N] [entryName k, N]) := by
  constructor
  · rintro rfl
    unfold objAt entryName
    rw [en.walk, walk_none en.entry (hv.trans hΦ.1)]
  · rintro V A l rfl
    obtain ⟨b, b1, b2, ⟨ch, k1, k2, k3⟩, b4⟩ := hΦ
    have hw : ∀ rest, H5.walk S.h5 0 (entryName k :: N :: rest) = H5.walk S.h5 b rest := by
      intro rest
      unfold entryName
      rw [en.walk, walk_one en.entry (hv.trans b1)]
    have hw0 : H5.walk S.h5 0 [entryName k, N] = some b := (hw []).trans rfl
    refine ⟨?_, ?_, fun n => ?_, ?_⟩
    · unfold groupAt objAt
      simp only [hw0, k1]
    · unfold childrenAt objAt
      simp only [hw0, k1]
      clear * - k3
      induction k3 with
      | nil => rfl
      | cons a _ ih => simp only [Dict.keys, List.map_cons] at ih ⊢; rw [a.1, ih]
    · unfold datasetAt objAt
      rw [hw, walk_single _ k1]
      rcases forall2_get2 k3 n with ⟨e1, e2⟩ | ⟨j, d, a, e1, e2, e3⟩
      · simp only [e1, e2]
      · simp only [e1, e2, e3]
    · rintro rfl
      cases hI : v inst with
      | none =>
        have := hno hI
        rw [b4] at this; cases this
      | some I =>
        obtain ⟨ch, a, g1, g2⟩ := hhub I hI
        refine ⟨b, ?_, hw0⟩
        unfold entryName
        rw [en.walk]
        show H5.walk S.h5 e [inst, N] = some b
        rw [walk_one en.entry (hvi.trans hI), walk_single _ g1]
        exact g2.trans b4

omit [UniDB] in
theorem mvals_nodup {x : Obj} (h : MoreWriters x) : (Dict.keys (x.metadata.getD [])).Nodup := by
  obtain ⟨-, -, -, -, -, -, -, -, -, -, h⟩ := h
  exact h.2.2.2.1

/-- C80: the values of the #H and #V lines are the group `metadata` of the entry.  They come from the header or from the
scan: if both have such values, the file cannot be saved. -/
theorem C80_values {env : Env} {reg : List HKey} (hr : reg.Perm HKey.all) (hx : SchemaNames env) {v : Versions}
    {ks : List Ref} {s : Sdf} {r : SState} (hs : Savable s) (hk : ∀ k ∈ ks, PlainText k.text)
    (h : save env reg v ks s = (r, none)) {k : Ref} (hm : k ∈ ks) {z : Obj} (hz : r.sdf.getScan k = .ok (some z))
    {hd sd : Dict MVal} (h1 : hd = (r.sdf.headerOf z).metadata.getD []) (h2 : sd = z.metadata.getD []) :
    (hd = [] ∨ sd = []) ∧
    (hd ++ sd ≠ [] → ValuesAt r.h5 (entryName k) (hd ++ sd)) ∧
    (hd ++ sd = [] → objAt r.h5 [entryName k, p!"metadata"] = none) := by
  obtain ⟨m, x, y, e, chE, en, hw, hh, -⟩ := entry_of' hr hx hs hk h hm hz
  obtain ⟨hdr, w1, w2, K, vv, u, hlk, q1, q2, hΦ, hv, hvi, hhub, hno⟩ := en.zones zoned_metadata (by decide) (by decide) (by decide)
    (fun _ _ => trivial) trivial
  have hwh : Writers .header hdr := hh.hdrLike hlk.symm
  have e1 : hdr.metadata = (r.sdf.headerOf z).metadata := by obtain ⟨O, d, ep, e⟩ := hlk; rw [e]
  rw [← e1] at h1
  subst h1 h2
  obtain ⟨f1, f2⟩ := flat_read en hΦ (hv _ rfl) hvi (fun I hI => by
    obtain ⟨ch, a, g1, g2⟩ := hhub I hI
    exact ⟨ch, a, g1, g2 _ rfl⟩) (fun hI => hno hI _ rfl)
  have fin : ∀ d qs, (Dict.keys d).Nodup → w2 = some (Sets.puts [] qs) → List.Forall₂ OpPut (d.map (fun kv => (kv.1, mData kv.2, []))) qs →
      ValuesAt r.h5 (entryName k) d := by
    rintro d qs hn rfl hq
    obtain ⟨g1, g2, g3, g4⟩ := f2 _ _ _ rfl
    refine ⟨g1, g4 rfl, fun key t hkt hu => ?_, fun n hn => ?_⟩
    · obtain ⟨n, w, a1, a2, a3⟩ := put_of_op hq (o := (key, mData t, [])) (List.mem_map.2 ⟨_, hkt, rfl⟩) (fun o' ho' he => by
        obtain ⟨kv, hkv, rfl⟩ := List.mem_map.1 ho'
        have e := hu kv.1 (List.mem_map.2 ⟨kv, hkv, rfl⟩) he
        have e2 : kv.2 = t := by
          have a1 := get?_of_mem_nodup hn hkt
          have a2 := get?_of_mem_nodup hn (show (kv.1, kv.2) ∈ d from hkv)
          rw [e, a1] at a2
          injection a2 with a2
          exact a2.symm
        rw [e, e2]) (V := []) (by simp [Dict.keys])
      refine ⟨n, a1, ?_⟩
      rw [g3, a3]
      cases t with
      | num f =>
        simp only [mData, one, PData.toH, Except.ok.injEq] at a2
        subst a2
        rfl
      | str t =>
        simp only [mData, PData.toH, Except.ok.injEq] at a2
        subst a2
        rfl
    · rw [g2] at hn
      rcases keys_puts _ _ _ hn with h9 | ⟨q, h9, h10⟩
      · simp [Dict.keys] at h9
      · obtain ⟨o, ho, hp⟩ := op_of_put hq q h9
        obtain ⟨kv, hkv, rfl⟩ := List.mem_map.1 ho
        exact ⟨kv.1, List.mem_map.2 ⟨kv, hkv, rfl⟩, by rw [← h10]; exact hp.1⟩
  have key : ∀ {k : Kind} {x : Obj} (_ : Writers k x) {w w' : Option Sets},
      Steps (fun f => f = .metadata) (fun _ x w w' => (x.metadata.getD [] = [] ∧ w' = w) ∨
      (w = none ∧ x.metadata.getD [] ≠ [] ∧ ∃ qs, List.Forall₂ OpPut ((x.metadata.getD []).map (fun kv => (kv.1, mData kv.2, []))) qs ∧
        w' = some (Sets.puts [] qs))) x x.h5.values w w' →
      (w = none ∧ x.metadata.getD [] ≠ [] ∧ ∃ qs, List.Forall₂ OpPut ((x.metadata.getD []).map (fun kv => (kv.1, mData kv.2, []))) qs ∧
        w' = some (Sets.puts [] qs)) ∨ (x.metadata.getD [] = [] ∧ w' = w) := by
    intro k x hw w w' hs
    rcases hs.once (once_of_writers hw (by rintro _ _ rfl rfl; rfl)) with ⟨f, _, _, f3⟩ | ⟨f1, f2⟩
    · exact f3.symm
    · refine .inr ⟨?_, f2⟩
      by_contra hne
      exact f1 _ (hw.more.2.1 hne) rfl
  rcases key hwh q1 with ⟨-, n1, qs, m1, rfl⟩ | ⟨z1, rfl⟩
  · rcases key hw q2 with ⟨c, -⟩ | ⟨z2, rfl⟩
    · cases c
    · rw [z2, List.append_nil]
      exact ⟨.inr rfl, fun _ => fin _ qs (mvals_nodup hwh.more) rfl m1, fun e => absurd e n1⟩
  · rw [z1, List.nil_append]
    refine ⟨.inl rfl, ?_⟩
    rcases key hw q2 with ⟨-, n1, qs, m1, rfl⟩ | ⟨z2, rfl⟩
    · exact ⟨fun _ => fin _ qs (mvals_nodup hw.more) rfl m1, fun e => absurd e n1⟩
    · exact ⟨fun q => absurd z2 q, fun _ => f1 rfl⟩

/-! ### MCA -/

omit [UniDB] in
/-- what a writer of the MCA has to write -/
def mcaTable (f : H5Fn) (x : Obj) : Sets :=
  if f = .calib then ((x.mca.bind (·.calib)).map calibSets).getD []
  else if f = .chann then ((x.mca.bind (·.chann)).map channSets).getD []
  else ((x.mca.bind (·.ctime)).map ctimeSets).getD []

/-- the datasets so far -/
def mcaSets (w : Option (Sets × McaTag)) : Sets := (w.map (fun q : Sets × McaTag => q.1)).getD []
/-- the link so far -/
def mcaTag (w : Option (Sets × McaTag)) : McaTag := (w.map (fun q : Sets × McaTag => q.2)).getD .no

def McaF (f : H5Fn) : Prop := f = .calib ∨ f = .chann ∨ f = .ctime

omit [UniDB] in
theorem mcaStep_sets {f : H5Fn} (hf : McaF f) (x : Obj) (w : Option (Sets × McaTag)) :
    mcaSets (mcaStep f x w) = Sets.puts (mcaSets w) (mcaTable f x) := by
  cases hm : x.mca with
  | none => rcases hf with rfl | rfl | rfl <;> simp [mcaStep, mcaTable, hm, Sets.puts]
  | some m =>
    rcases hf with rfl | rfl | rfl
    · cases hc : m.calib <;> simp [mcaStep, mcaTable, mcaSets, hm, hc, Sets.puts]
    · cases hc : m.chann <;> simp [mcaStep, mcaTable, mcaSets, hm, hc, Sets.puts]
    · cases hc : m.ctime <;> simp [mcaStep, mcaTable, mcaSets, hm, hc, Sets.puts]

/-- the names that a writer of the MCA uses -/
def mcaNames (f : H5Fn) : List Str :=
  if f = .calib then [p!"calib_a", p!"calib_b", p!"calib_c"]
  else if f = .chann then [p!"number_saved", p!"first_saved", p!"last_saved", p!"reduction_coef"]
  else [p!"preset_time", p!"elapsed_live_time", p!"elapsed_real_time"]

omit [UniDB] in
theorem mcaTable_keys {f : H5Fn} (hf : McaF f) (x : Obj) : mcaTable f x = [] ∨ Dict.keys (mcaTable f x) = mcaNames f := by
  rcases hf with rfl | rfl | rfl
  · cases h : x.mca.bind (·.calib) <;> simp [mcaTable, h, mcaNames, calibSets, Dict.keys]
  · cases h : x.mca.bind (·.chann) <;> simp [mcaTable, h, mcaNames, channSets, Dict.keys]
  · cases h : x.mca.bind (·.ctime) <;> simp [mcaTable, h, mcaNames, ctimeSets, Dict.keys]

omit [UniDB] in
theorem mcaTable_names {f : H5Fn} (hf : McaF f) (x : Obj) {n : Str} (hn : n ∈ Dict.keys (mcaTable f x)) : n ∈ mcaNames f := by
  rcases mcaTable_keys hf x with e | e
  · rw [e] at hn; cases hn
  · rwa [e] at hn

omit [UniDB] in
theorem mcaTable_nodup {f : H5Fn} (hf : McaF f) (x : Obj) : (Dict.keys (mcaTable f x)).Nodup := by
  rcases mcaTable_keys hf x with e | e
  · rw [e]; exact List.nodup_nil
  · rw [e]
    rcases hf with rfl | rfl | rfl <;> decide

omit [UniDB] in
theorem mcaNames_disjoint {f g : H5Fn} (hf : McaF f) (hg : McaF g) {n : Str} (h1 : n ∈ mcaNames f) (h2 : n ∈ mcaNames g) : f = g := by
  have : ∀ f ∈ [H5Fn.calib, .chann, .ctime], ∀ g ∈ [H5Fn.calib, .chann, .ctime], ∀ n ∈ mcaNames f, n ∈ mcaNames g → f = g := by decide
  exact this f (by rcases hf with rfl | rfl | rfl <;> decide) g (by rcases hg with rfl | rfl | rfl <;> decide) n h1 h2

omit [UniDB] in
theorem puts_nodup (qs : Sets) : ∀ {V : Sets}, (Dict.keys V).Nodup → (Dict.keys (V.puts qs)).Nodup := by
  induction qs with
  | nil => intro V h; exact h
  | cons q qs ih => intro V h; exact ih (put_nodup h _ _ _)

omit [UniDB] in
theorem puts_get? {V T : Sets} (hV : (Dict.keys V).Nodup) (hT : (Dict.keys T).Nodup) (n : Str) :
    Dict.get? (V.puts T) n = match Dict.get? T n with | some d => some d | none => Dict.get? V n := by
  cases h : Dict.get? T n with
  | none =>
    have := (Dict.get?_eq_none_iff T n).1 h
    exact puts_other T V hV n fun q hq e => this (List.mem_map.2 ⟨q, hq, e⟩)
  | some d =>
    refine puts_unique T V hV (n, d) (Dict.mem_of_get? h) fun q hq e => ?_
    obtain ⟨m, d'⟩ := q
    simp only at e
    subst e
    have := get?_of_mem_nodup hT hq
    rw [h] at this
    injection this with this
    rw [this]

/-- what several writers of the MCA leave -/
structure McaRun (x : Obj) (fs : List H5Fn) (w w' : Option (Sets × McaTag)) : Prop where
  nodup : (Dict.keys (mcaSets w)).Nodup → (Dict.keys (mcaSets w')).Nodup
  old : (Dict.keys (mcaSets w)).Nodup → ∀ n, (∀ f ∈ fs, McaF f → Dict.get? (mcaTable f x) n = none) →
    Dict.get? (mcaSets w') n = Dict.get? (mcaSets w) n
  new : (Dict.keys (mcaSets w)).Nodup → ∀ f ∈ fs, McaF f → ∀ n d, Dict.get? (mcaTable f x) n = some d → Dict.get? (mcaSets w') n = some d
  names : ∀ n ∈ Dict.keys (mcaSets w'), n ∈ Dict.keys (mcaSets w) ∨ ∃ f ∈ fs, McaF f ∧ n ∈ Dict.keys (mcaTable f x)
  keepLink : (mcaTag w).linked = true → (mcaTag w').linked = true
  link : (H5Fn.chann ∈ fs ∨ H5Fn.ctime ∈ fs) → x.mca ≠ none → (mcaTag w').linked = true
  keepHub : mcaTag w = .hub → mcaTag w' = .hub
  hub : H5Fn.chann ∈ fs → x.mca ≠ none → mcaTag w' = .hub
  keepSome : w ≠ none → w' ≠ none
  isSome : ∀ f ∈ fs, McaF f → mcaTable f x ≠ [] → w' ≠ none
  isNone : x.mca = none → w' = w

omit [UniDB] in
theorem mcaStep_tag {f : H5Fn} (hF : McaF f) (x : Obj) (w : Option (Sets × McaTag)) :
    ((mcaTag w).linked = true → (mcaTag (mcaStep f x w)).linked = true) ∧
    (mcaTag w = .hub → mcaTag (mcaStep f x w) = .hub) ∧
    ((f = .chann ∨ f = .ctime) → x.mca ≠ none → (mcaTag (mcaStep f x w)).linked = true) ∧
    (f = .chann → x.mca ≠ none → mcaTag (mcaStep f x w) = .hub) ∧
    (w ≠ none → mcaStep f x w ≠ none) ∧ (mcaTable f x ≠ [] → mcaStep f x w ≠ none) := by
  cases hm : x.mca with
  | none =>
    have e : mcaStep f x w = w := by simp only [mcaStep, hm]
    rw [e]
    refine ⟨id, id, fun _ h => absurd rfl h, fun _ h => absurd rfl h, id, fun h => absurd ?_ h⟩
    rcases hF with rfl | rfl | rfl <;> simp [mcaTable, hm]
  | some m =>
    rcases hF with rfl | rfl | rfl
    · cases hc : m.calib with
      | none =>
        have e : mcaStep .calib x w = w := by simp [mcaStep, hm, hc]
        rw [e]
        exact ⟨id, id, (by rintro (h | h) <;> cases h), by rintro ⟨⟩, id, by simp [mcaTable, hm, hc]⟩
      | some q =>
        have e : mcaStep .calib x w = some (Sets.puts (mcaSets w) (calibSets q), mcaTag w) := by simp [mcaStep, hm, hc, mcaSets, mcaTag]
        rw [e]
        exact ⟨id, id, (by rintro (h | h) <;> cases h), by rintro ⟨⟩, by simp, by simp⟩
    · have e : mcaStep .chann x w = some (Sets.puts (mcaSets w) ((m.chann.map channSets).getD []), .hub) := by
        simp [mcaStep, hm, mcaSets]
      rw [e]
      exact ⟨fun _ => rfl, fun _ => rfl, fun _ _ => rfl, fun _ _ => rfl, by simp, by simp⟩
    · have e : mcaStep .ctime x w = some (Sets.puts (mcaSets w) ((m.ctime.map ctimeSets).getD []),
          if mcaTag w = .no then .own else mcaTag w) := by
        simp [mcaStep, hm, mcaSets, mcaTag]
        rfl
      rw [e]
      have e2 : mcaTag (some (Sets.puts (mcaSets w) ((m.ctime.map ctimeSets).getD []), if mcaTag w = .no then .own else mcaTag w)) =
        if mcaTag w = .no then .own else mcaTag w := rfl
      rw [e2]
      refine ⟨fun h => ?_, fun h => ?_, fun _ _ => ?_, by rintro ⟨⟩, by simp, by simp⟩
      · cases hw : mcaTag w <;> rfl
      · rw [h]; rfl
      · cases hw : mcaTag w <;> rfl

omit [UniDB] in
theorem mca_steps {x : Obj} {fs : List H5Fn} {w w' : Option (Sets × McaTag)}
    (h : Steps McaF (fun f x w w' => w' = mcaStep f x w) x fs w w') : McaRun x fs w w' := by
  induction h with
  | nil w => exact ⟨id, fun _ _ _ => rfl, by simp, fun n h => .inl h, id, by simp, id, by simp, id, by simp, fun _ => rfl⟩
  | @skip f fs w w' hF _ ih =>
    refine ⟨ih.nodup, fun hd n hn => ih.old hd n fun g hg => hn g (List.mem_cons_of_mem _ hg), fun hd g hg hGF => ?_, fun n hn => ?_,
      ih.keepLink, fun hc => ih.link ?_, ih.keepHub, fun hc => ih.hub ?_, ih.keepSome, fun g hg hGF => ?_, ih.isNone⟩
    · rcases List.mem_cons.1 hg with rfl | hg
      · exact absurd hGF hF
      · exact ih.new hd g hg hGF
    · rcases ih.names n hn with q | ⟨g, q1, q2⟩
      · exact .inl q
      · exact .inr ⟨g, List.mem_cons_of_mem _ q1, q2⟩
    · rcases hc with hc | hc <;> rcases List.mem_cons.1 hc with rfl | hc
      · exact absurd (.inr (.inl rfl)) hF
      · exact .inl hc
      · exact absurd (.inr (.inr rfl)) hF
      · exact .inr hc
    · rcases List.mem_cons.1 hc with rfl | hc
      · exact absurd (.inr (.inl rfl)) hF
      · exact hc
    · rcases List.mem_cons.1 hg with rfl | hg
      · exact absurd hGF hF
      · exact ih.isSome g hg hGF
  | @step f fs w w1 w' hF hR _ ih =>
    subst hR
    have hT := mcaTable_nodup hF x
    have e1 := mcaStep_sets hF x w
    have hn1 : (Dict.keys (mcaSets w)).Nodup → (Dict.keys (mcaSets (mcaStep f x w))).Nodup := fun hd => by rw [e1]; exact puts_nodup _ hd
    obtain ⟨t1, t2, t3, t4, t5, t6⟩ := mcaStep_tag hF x w
    have t7 : x.mca = none → mcaStep f x w = w := by
      intro h; simp only [mcaStep, h]
    refine ⟨fun hd => ih.nodup (hn1 hd), fun hd n hn => ?_, fun hd g hg hGF n d hgn => ?_, fun n hn => ?_,
      fun q => ih.keepLink (t1 q), fun hc hm => ?_, fun q => ih.keepHub (t2 q), fun hc hm => ?_, fun q => ih.keepSome (t5 q),
      fun g hg hGF hne => ?_, fun q => (ih.isNone q).trans (t7 q)⟩
    · rw [ih.old (hn1 hd) n fun g hg => hn g (List.mem_cons_of_mem _ hg), e1, puts_get? hd hT, hn f (List.mem_cons_self ..) hF]
    · by_cases hin : g ∈ fs
      · exact ih.new (hn1 hd) g hin hGF n d hgn
      · have : g = f := (List.mem_cons.1 hg).resolve_right hin
        subst this
        rw [ih.old (hn1 hd) n ?_, e1, puts_get? hd hT, hgn]
        intro g' hg' hG'
        cases hq : Dict.get? (mcaTable g' x) n with
        | none => rfl
        | some d' =>
          have := mcaNames_disjoint hG' hGF (mcaTable_names hG' x (List.mem_map.2 ⟨_, Dict.mem_of_get? hq, rfl⟩))
            (mcaTable_names hGF x (List.mem_map.2 ⟨_, Dict.mem_of_get? hgn, rfl⟩))
          exact absurd (this ▸ hg') hin
    · rcases ih.names n hn with q | ⟨g, q1, q2⟩
      · rw [e1] at q
        rcases keys_puts _ _ _ q with q | ⟨p, p1, p2⟩
        · exact .inl q
        · exact .inr ⟨f, List.mem_cons_self .., hF, List.mem_map.2 ⟨p, p1, p2⟩⟩
      · exact .inr ⟨g, List.mem_cons_of_mem _ q1, q2⟩
    · rcases hc with hc | hc <;> rcases List.mem_cons.1 hc with rfl | hc
      · exact ih.keepLink (t3 (.inl rfl) hm)
      · exact ih.link (.inl hc) hm
      · exact ih.keepLink (t3 (.inr rfl) hm)
      · exact ih.link (.inr hc) hm
    · rcases List.mem_cons.1 hc with rfl | hc
      · exact ih.keepHub (t4 rfl hm)
      · exact ih.hub hc hm
    · rcases List.mem_cons.1 hg with rfl | hg
      · exact ih.keepSome (t6 hne)
      · exact ih.isSome g hg hGF hne

/-- C81: the MCA lines of a scan and of its header are the group `MCA` of the entry; where the scan has its own line, that
of the header is replaced. -/
theorem C81_mca {env : Env} {reg : List HKey} (hr : reg.Perm HKey.all) (hx : SchemaNames env) {v : Versions}
    {ks : List Ref} {s : Sdf} {r : SState} (hs : Savable s) (hk : ∀ k ∈ ks, PlainText k.text)
    (h : save env reg v ks s = (r, none)) {k : Ref} (hm : k ∈ ks) {z : Obj} (hz : r.sdf.getScan k = .ok (some z))
    {calib : Option (PyFloat × PyFloat × PyFloat)} {chann : Option (Int × Int × Int × PyFloat)} {ctime : Option (PyFloat × PyFloat × PyFloat)}
    (h1 : calib = (z.mca.bind (·.calib)).or ((r.sdf.headerOf z).mca.bind (·.calib)))
    (h2 : chann = (z.mca.bind (·.chann)).or ((r.sdf.headerOf z).mca.bind (·.chann)))
    (h3 : ctime = (z.mca.bind (·.ctime)).or ((r.sdf.headerOf z).mca.bind (·.ctime))) :
    (calib ≠ none ∨ chann ≠ none ∨ ctime ≠ none → McaAt r.h5 (entryName k) calib chann ctime) ∧
    (z.mca = none → (r.sdf.headerOf z).mca = none → objAt r.h5 [entryName k, p!"MCA"] = none) := by
  obtain ⟨m, x, y, e, chE, en, hw, hh, -⟩ := entry_of' hr hx hs hk h hm hz
  obtain ⟨hdr, w1, w2, K, vv, u, hlk, q1, q2, hΦ, hv, hvi, hhub, hno⟩ := en.zones zoned_mca (by decide) (by decide) (by decide)
    (fun _ _ => trivial) trivial
  have hwh : Writers .header hdr := hh.hdrLike hlk.symm
  have e1 : hdr.mca = (r.sdf.headerOf z).mca := by obtain ⟨O, d, ep, e⟩ := hlk; rw [e]
  rw [← e1] at h1 h2 h3 ⊢
  obtain ⟨f1, f2⟩ := flat_read en hΦ (hv _ rfl) hvi (fun I hI => by
    obtain ⟨ch, a, g1, g2⟩ := hhub I hI
    exact ⟨ch, a, g1, g2 _ rfl⟩) (fun hI => hno hI _ rfl)
  have r1 : McaRun hdr hdr.h5.values none w1 := mca_steps q1
  have r2 : McaRun z z.h5.values w1 w2 := mca_steps q2
  constructor
  · intro hany
    have d1 := r1.nodup List.nodup_nil
    -- the writers that have something to write are there
    have reg1 : ∀ {k : Kind} {x : Obj} (_ : Writers k x) f, McaF f → mcaTable f x ≠ [] → f ∈ x.h5.values := by
      rintro k x hw f (rfl | rfl | rfl) hne
      · exact hw.more.2.2.2.1 fun q => hne (by simp [mcaTable, q])
      · exact hw.more.2.2.2.2.1 fun q => hne (by simp [mcaTable, q])
      · exact hw.more.2.2.2.2.2.1 fun q => hne (by simp [mcaTable, q])
    have nonempty : ∀ {T : Sets} {n d}, Dict.get? T n = some d → T ≠ [] := by
      rintro T n d h rfl
      cases h
    have get : ∀ f, McaF f → ∀ n ∈ mcaNames f, ∀ d, (Dict.get? (mcaTable f z) n).or (Dict.get? (mcaTable f hdr) n) = some d →
        Dict.get? (mcaSets w2) n = some d := by
      intro f hf n hn d hd
      have only : ∀ (y : Obj) g, McaF g → g ≠ f → Dict.get? (mcaTable g y) n = none := by
        intro y g hg hne
        refine (Dict.get?_eq_none_iff _ _).2 fun q => hne ?_
        exact mcaNames_disjoint hg hf (mcaTable_names hg y q) hn
      cases hz' : Dict.get? (mcaTable f z) n with
      | some d' =>
        rw [hz'] at hd
        simp only [Option.some_or] at hd
        exact r2.new d1 f (reg1 hw f hf (nonempty hz')) hf n d (hz'.trans hd)
      | none =>
        rw [hz'] at hd
        simp only [Option.none_or] at hd
        rw [r2.old d1 n]
        · exact r1.new List.nodup_nil f (reg1 hwh f hf (nonempty hd)) hf n d hd
        · intro g _ hg
          by_cases q : g = f
          · rw [q]; exact hz'
          · exact only z g hg q
    have some1 : ∀ f, McaF f → (mcaTable f z ≠ [] ∨ mcaTable f hdr ≠ []) → w2 ≠ none := by
      rintro f hf (q | q)
      · exact r2.isSome f (reg1 hw f hf q) hf q
      · exact r2.keepSome (r1.isSome f (reg1 hwh f hf q) hf q)
    have tabs : (calib ≠ none → mcaTable .calib z ≠ [] ∨ mcaTable .calib hdr ≠ []) ∧
        (chann ≠ none → mcaTable .chann z ≠ [] ∨ mcaTable .chann hdr ≠ []) ∧
        (ctime ≠ none → mcaTable .ctime z ≠ [] ∨ mcaTable .ctime hdr ≠ []) := by
      subst h1 h2 h3
      refine ⟨fun hne => ?_, fun hne => ?_, fun hne => ?_⟩
      · cases a1 : z.mca.bind (·.calib) <;> cases a2 : hdr.mca.bind (·.calib) <;> simp [a1, a2, mcaTable, calibSets] at hne ⊢
      · cases a1 : z.mca.bind (·.chann) <;> cases a2 : hdr.mca.bind (·.chann) <;> simp [a1, a2, mcaTable, channSets] at hne ⊢
      · cases a1 : z.mca.bind (·.ctime) <;> cases a2 : hdr.mca.bind (·.ctime) <;> simp [a1, a2, mcaTable, ctimeSets] at hne ⊢
    have hmca : ∀ f (y : Obj), mcaTable f y ≠ [] → y.mca ≠ none := by
      intro f y hne q
      apply hne
      unfold mcaTable
      split
      · simp [q]
      · split <;> simp [q]
    have hsome : w2 ≠ none := by
      rcases hany with q | q | q
      · exact some1 _ (.inl rfl) (tabs.1 q)
      · exact some1 _ (.inr (.inl rfl)) (tabs.2.1 q)
      · exact some1 _ (.inr (.inr rfl)) (tabs.2.2 q)
    obtain ⟨⟨V, t⟩, rfl⟩ : ∃ q, w2 = some q := Option.ne_none_iff_exists'.1 hsome
    obtain ⟨g1, g2, g3, g4⟩ := f2 _ _ _ rfl
    have hV : mcaSets (some (V, t)) = V := rfl
    rw [hV] at get
    refine ⟨⟨_, g1, rfl, rfl, ?_⟩, ?_, ?_, ?_, ?_, ?_⟩
    · intro hc
      have : t = .hub := by
        rcases tabs.2.1 hc with q | q
        · exact r2.hub (reg1 hw _ (.inr (.inl rfl)) q) (hmca _ _ q)
        · exact r2.keepHub (r1.hub (reg1 hwh _ (.inr (.inl rfl)) q) (hmca _ _ q))
      rw [this]
      rfl
    · intro hc
      refine g4 ?_
      show (mcaTag (some (V, t))).linked = true
      rcases hc with hc | hc
      · rcases tabs.2.1 hc with q | q
        · exact r2.link (.inl (reg1 hw _ (.inr (.inl rfl)) q)) (hmca _ _ q)
        · exact r2.keepLink (r1.link (.inl (reg1 hwh _ (.inr (.inl rfl)) q)) (hmca _ _ q))
      · rcases tabs.2.2 hc with q | q
        · exact r2.link (.inr (reg1 hw _ (.inr (.inr rfl)) q)) (hmca _ _ q)
        · exact r2.keepLink (r1.link (.inr (reg1 hwh _ (.inr (.inr rfl)) q)) (hmca _ _ q))
    · intro a b c hc
      rw [h1] at hc
      have hg : ∀ n ∈ mcaNames .calib, ∀ d, Dict.get? (calibSets (a, b, c)) n = some d → datasetAt r.h5 [entryName k, p!"MCA", n] = some d := by
        intro n hn d hd
        rw [g3]
        refine get .calib (.inl rfl) n hn d ?_
        cases a1 : z.mca.bind (·.calib) with
        | some q =>
          rw [a1, Option.some_or] at hc
          injection hc with hc
          subst hc
          simp [mcaTable, a1, hd]
        | none =>
          rw [a1, Option.none_or] at hc
          simp [mcaTable, a1, hc, hd, Dict.get?]
          exact hd
      exact ⟨hg _ (by decide) _ rfl, hg _ (by decide) _ rfl, hg _ (by decide) _ rfl⟩
    · intro a b c q hc
      rw [h2] at hc
      have hg : ∀ n ∈ mcaNames .chann, ∀ d, Dict.get? (channSets (a, b, c, q)) n = some d → datasetAt r.h5 [entryName k, p!"MCA", n] = some d := by
        intro n hn d hd
        rw [g3]
        refine get .chann (.inr (.inl rfl)) n hn d ?_
        cases a1 : z.mca.bind (·.chann) with
        | some q' =>
          rw [a1, Option.some_or] at hc
          injection hc with hc
          subst hc
          simp [mcaTable, a1, hd]
        | none =>
          rw [a1, Option.none_or] at hc
          simp [mcaTable, a1, hc, hd, Dict.get?]
          exact hd
      exact ⟨hg _ (by decide) _ rfl, hg _ (by decide) _ rfl, hg _ (by decide) _ rfl, hg _ (by decide) _ rfl⟩
    · intro a b c hc
      rw [h3] at hc
      have hg : ∀ n ∈ mcaNames .ctime, ∀ d, Dict.get? (ctimeSets (a, b, c)) n = some d → datasetAt r.h5 [entryName k, p!"MCA", n] = some d := by
        intro n hn d hd
        rw [g3]
        refine get .ctime (.inr (.inr rfl)) n hn d ?_
        cases a1 : z.mca.bind (·.ctime) with
        | some q =>
          rw [a1, Option.some_or] at hc
          injection hc with hc
          subst hc
          simp [mcaTable, a1, hd]
        | none =>
          rw [a1, Option.none_or] at hc
          simp [mcaTable, a1, hc, hd, Dict.get?]
          exact hd
      exact ⟨hg _ (by decide) _ rfl, hg _ (by decide) _ rfl, hg _ (by decide) _ rfl⟩
    · intro n hn
      rw [g2] at hn
      have hne : ∀ {y : Obj} {f}, n ∈ Dict.keys (mcaTable f y) → mcaTable f y ≠ [] := by
        rintro y f q e
        rw [e] at q; cases q
      have fin : ∀ f, McaF f → ∀ y, y = z ∨ y = hdr → n ∈ Dict.keys (mcaTable f y) →
          (calib ≠ none ∧ n ∈ [p!"calib_a", p!"calib_b", p!"calib_c"]) ∨
          (chann ≠ none ∧ n ∈ [p!"number_saved", p!"first_saved", p!"last_saved", p!"reduction_coef"]) ∨
          (ctime ≠ none ∧ n ∈ [p!"preset_time", p!"elapsed_live_time", p!"elapsed_real_time"]) := by
        intro f hf y hy hq
        have hnm := mcaTable_names hf y hq
        have hq := hne hq
        rcases hf with rfl | rfl | rfl
        · refine .inl ⟨?_, hnm⟩
          rw [h1]
          intro e
          rw [Option.or_eq_none_iff] at e
          rcases hy with rfl | rfl
          · exact hq (by simp [mcaTable, e.1])
          · exact hq (by simp [mcaTable, e.2])
        · refine .inr (.inl ⟨?_, hnm⟩)
          rw [h2]
          intro e
          rw [Option.or_eq_none_iff] at e
          rcases hy with rfl | rfl
          · exact hq (by simp [mcaTable, e.1])
          · exact hq (by simp [mcaTable, e.2])
        · refine .inr (.inr ⟨?_, hnm⟩)
          rw [h3]
          intro e
          rw [Option.or_eq_none_iff] at e
          rcases hy with rfl | rfl
          · exact hq (by simp [mcaTable, e.1])
          · exact hq (by simp [mcaTable, e.2])
      rcases r2.names n hn with q | ⟨f, _, q2, q3⟩
      · rcases r1.names n q with q | ⟨f, _, q2, q3⟩
        · cases q
        · exact fin f q2 hdr (.inr rfl) q3
      · exact fin f q2 z (.inl rfl) q3
  · intro z1 z2
    have := r2.isNone z1
    rw [r1.isNone z2] at this
    subst this
    exact f1 rfl

/-- what is not among the parts of a group is not there -/
theorem objAt_child {s : H5} {path : List Str} {n : Str} (h : n ∉ childrenAt s path) : objAt s (path ++ [n]) = none := by
  have key : ∀ (p : List Str) i, H5.walk s i (p ++ [n]) = (H5.walk s i p).bind fun j => H5.walk s j [n] := by
    intro p
    induction p with
    | nil => intro i; rfl
    | cons c p ih =>
      intro i
      simp only [List.cons_append, H5.walk]
      split
      · split
        · exact ih _
        · rfl
      · rfl
  unfold childrenAt objAt at h
  unfold objAt
  rw [key]
  cases hw : H5.walk s 0 path with
  | none => rfl
  | some j =>
    rw [hw] at h
    simp only at h
    simp only [Option.bind_some, H5.walk]
    cases hj : s[j]? with
    | none => rfl
    | some nd =>
      rw [hj] at h
      cases nd with
      | dset d a => rfl
      | group ch a =>
        simp only at h ⊢
        rw [(Dict.get?_eq_none_iff ch n).2 h]

/-- C81: the regions of interest of #@ROI lines are not stored (the documentation of the line names a group `MCA/ROI`):
whatever the lines of the scan and its header are, the only parts of the group `MCA` are the ten of the other lines. -/
theorem C81_no_regions {env : Env} {reg : List HKey} (hr : reg.Perm HKey.all) (hx : SchemaNames env) {v : Versions}
    {ks : List Ref} {s : Sdf} {r : SState} (hs : Savable s) (hk : ∀ k ∈ ks, PlainText k.text)
    (h : save env reg v ks s = (r, none)) {k : Ref} (hm : k ∈ ks) {z : Obj} (hz : r.sdf.getScan k = .ok (some z)) :
    p!"ROI" ∉ childrenAt r.h5 [entryName k, p!"MCA"] ∧ objAt r.h5 [entryName k, p!"MCA", p!"ROI"] = none := by
  obtain ⟨m, x, y, e, chE, en, hw, hh, -⟩ := entry_of' hr hx hs hk h hm hz
  obtain ⟨hdr, w1, w2, K, vv, u, hlk, q1, q2, hΦ, hv, hvi, hhub, hno⟩ := en.zones zoned_mca (by decide) (by decide) (by decide)
    (fun _ _ => trivial) trivial
  obtain ⟨f1, f2⟩ := flat_read en hΦ (hv _ rfl) hvi (fun I hI => by
    obtain ⟨ch, a, g1, g2⟩ := hhub I hI
    exact ⟨ch, a, g1, g2 _ rfl⟩) (fun hI => hno hI _ rfl)
  have r1 : McaRun hdr hdr.h5.values none w1 := mca_steps q1
  have r2 : McaRun z z.h5.values w1 w2 := mca_steps q2
  have hn : p!"ROI" ∉ Dict.keys (mcaSets w2) := by
    have key : ∀ f, McaF f → ∀ y, p!"ROI" ∉ Dict.keys (mcaTable f y) := by
      intro f hf y hq
      have := mcaTable_names hf y hq
      rcases hf with rfl | rfl | rfl <;> revert this <;> decide
    intro hq
    rcases r2.names _ hq with q | ⟨f, _, q2, q3⟩
    · rcases r1.names _ q with q | ⟨f, _, q2, q3⟩
      · cases q
      · exact key f q2 _ q3
    · exact key f q2 _ q3
  have hc : p!"ROI" ∉ childrenAt r.h5 [entryName k, p!"MCA"] := by
    cases w2 with
    | none =>
      unfold childrenAt
      rw [f1 rfl]
      simp
    | some q =>
      obtain ⟨V, t⟩ := q
      obtain ⟨-, g2, -⟩ := f2 _ _ _ rfl
      rw [g2]
      exact hn
  exact ⟨hc, objAt_child hc⟩

end S2N.Props
