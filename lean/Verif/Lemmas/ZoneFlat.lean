import Verif.Lemmas.ZonePos
/-
A group of datasets that is also linked in the group "instrument".
-/
namespace S2N
open Py H5 Eznx Writer Spec

/-- a dataset written in a protected group -/
theorem Zone.inside {c : Scope} {X XI : Str → Prop} {K : Nat → Prop} {v u : Str → Option Nat} {s s' : H5}
    (h : Zone c X XI K v u s) {g : HRef} (hK : K g.id) {V : Sets} {A : Dict AVal} (hW : Holds K s g.id (.grp V A)) {n : Str}
    (hs : Single n) {d : PData} {a : Dict AVal} {r : HRef} (hw : writeDataset g n d a s = (s', .ok r)) :
    ∃ x, d.toH = .ok x ∧ Zone c X XI (fun i => K i ∨ i = s.length) v u s' ∧
      Holds (fun i => K i ∨ i = s.length) s' g.id (.grp (V.put n x (Dict.update [] (noteAttrs d a))) A) := by
  obtain ⟨ch, he, hd, hf⟩ := hW
  have hh := h.held
  have hKg : (fun i => K i ∨ v inst = some i) g.id := .inl hK
  have hgl := lt_of_get? he
  cases hx : d.toH with
  | error err =>
    exfalso
    unfold writeDataset at hw
    obtain ⟨t, u, _, h2⟩ := HM.bind_inv hw
    unfold makeDataset at h2
    obtain ⟨z, h3, _⟩ := HM.bind_lift_inv h2
    rw [hx] at h3
    cases h3
  | ok x =>
    rw [writeDataset_eq he hd hs hx] at hw
    injection hw with hw hr
    have hget := get?_set_snoc hgl (.group ((ch.del n).set n s.length) A) (.dset x (Dict.update [] (noteAttrs d a)))
    rw [hw] at hget
    have hinv := hh.grow (.inr hKg) he (N := n) (fun e => absurd e (hh.ne_entry hKg)) (del_set_nodup hd)
      (del_set_members hd) (.dset x (Dict.update [] (noteAttrs d a))) (by intro _ _ e; cases e)
    rw [hw] at hinv
    have hlt : ∀ i, K i ∨ v inst = some i → i < s.length := fun i hi => hh.inv.lt i (.inr hi)
    have hsame : ∀ j, K j ∨ v inst = some j → j ≠ g.id → s'[j]? = s[j]? := by
      intro j hj hne
      have := hlt j hj
      rw [hget, if_neg hne, if_neg (by omega)]
    have hheld : Held c (fun n => X n ∨ n = inst) (fun i => (K i ∨ v inst = some i) ∨ i = s.length) v s' := by
      obtain ⟨chE, aE, e1, e2⟩ := hh.entry
      refine ⟨hinv, hh.root, ⟨chE, aE, ?_, e2⟩, hh.inj, fun n i hn h1 => .inl (hh.mem n i hn h1), ?_⟩
      · have hel : c.e < s.length := hh.inv.elt
        rw [hget, if_neg (Ne.symm (hh.ne_entry hKg)), if_neg (by omega), e1]
      · rintro i (hi | hi) hD
        · exact hh.apart i hi hD
        · have := hh.inv.lt i (.inl hD)
          omega
    refine ⟨x, rfl, ⟨?_, ?_, h.noHub⟩, ?_⟩
    · have hKe : (fun i => (K i ∨ v inst = some i) ∨ i = s.length) = fun i => (K i ∨ i = s.length) ∨ v inst = some i := by
        funext i
        exact propext ⟨fun q => by tauto, fun q => by tauto⟩
      rw [hKe] at hheld; exact hheld
    · intro I hI
      obtain ⟨hKI, ch0, a0, e0, e1, e2⟩ := h.hub I hI
      have hIl := lt_of_get? e0
      refine ⟨?_, ch0, a0, (hsame I (.inr hI) (fun q => hKI (q ▸ hK))).trans e0, e1, fun m j hm => ?_⟩
      · rintro (q | q)
        · exact hKI q
        · omega
      · obtain ⟨q1, q2, q3, q4⟩ := e2 m j hm
        refine ⟨q1, q2, q3, ?_⟩
        rintro (q | q)
        · exact q4 q
        · have := (hh.inv.wf _ _ _ e0).2 m j hm
          omega
    · refine ⟨(ch.del n).set n s.length, ?_, del_set_nodup hd, ?_⟩
      · rw [hget, if_pos rfl]
      · have hnm : n ∉ Dict.keys (ch.del n) := (Dict.not_has_iff _ _).1 (Dict.has_del_self _ _ hd)
        rw [Dict.set_of_not_mem _ _ _ hnm]
        unfold Sets.put
        refine List.rel_append ?_ (.cons ⟨rfl, .inr rfl, ?_⟩ .nil)
        · refine Dict.forall2_del (fun _ _ h => h.1) (hf.imp fun p q ⟨k1, k2, k3⟩ => ⟨k1, .inl k2, ?_⟩) n
          have hne : p.2 ≠ g.id := by
            intro e
            rw [e, he] at k3
            cases k3
          rw [hsame _ (.inl k2) hne, k3]
        · show s'[s.length]? = _
          rw [hget, if_neg (by omega), if_pos rfl]

/-- what is in the group `N` of datasets: its members, its attributes and whether it is linked in the group "instrument" -/
abbrev Flat := Option (Sets × Dict AVal × Bool)

/-- the name `N` shows this -/
def FlatΦ (N : Str) (_ : Str) (w : Flat) (K : Nat → Prop) (v u : Str → Option Nat) (s : H5) : Prop :=
  match w with
  | none => v N = none ∧ u N = none
  | some (V, A, l) => ∃ b, v N = some b ∧ K b ∧ Holds K s b (.grp V A) ∧ u N = if l then some b else none

theorem FlatΦ.keep {N : Str} (hN : N ≠ inst) {E : Str} {w : Flat} {K : Nat → Prop} {v v' u : Str → Option Nat} {s s' : H5}
    (hv : ∀ n, n ≠ inst → v' n = v n) (hk : ∀ j, K j → s'[j]? = s[j]?) (h : FlatΦ N E w K v u s) : FlatΦ N E w K v' u s' := by
  rcases w with _ | ⟨V, A, l⟩
  · exact ⟨(hv N hN).trans h.1, h.2⟩
  · obtain ⟨b, h1, h2, h3, h4⟩ := h
    exact ⟨b, (hv N hN).trans h1, h2, h3.keep h2 hk (fun _ => id), h4⟩

/-- the two together -/
structure FlatZone (c : Scope) (N : Str) (w : Flat) (K : Nat → Prop) (v u : Str → Option Nat) (s : H5) : Prop where
  zone : Zone c (fun n => n = N) (fun n => n = N) K v u s
  flat : FlatΦ N c.E w K v u s

section
variable {c : Scope} {N : Str} {w : Flat} {K : Nat → Prop} {v u : Str → Option Nat} {s s' : H5}

theorem FlatZone.new (h : FlatZone c N w K v u s) (hN : N ≠ inst) (hs : Single N) {e : HRef} (hid : e.id = c.e) {cls : Str}
    {a : Dict AVal} {r : HRef} (hw : makeGroup e N cls a s = (s', .ok r)) : w = none ∧ ∃ K' v',
      FlatZone c N (some ([], Dict.update [(p!"NX_class", AVal.str cls)] a, false)) K' v' u s' ∧ v' N = some r.id ∧
      r.path = e.path ++ [N] := by
  obtain ⟨g1, g2, -, -, g5, g6, -⟩ := h.zone.newGroup hid rfl hN hs hw
  have hw0 : w = none := by
    rcases w with _ | ⟨V, A, l⟩
    · rfl
    · obtain ⟨b, h1, -⟩ := h.flat
      rw [g1] at h1; cases h1
  subst hw0
  refine ⟨rfl, _, _, ⟨g6, s.length, upd_self .., .inr rfl, ⟨[], g5, List.nodup_nil, .nil⟩, ?_⟩, by rw [upd_self, g2], by rw [g2]⟩
  rw [h.flat.2]; rfl

theorem FlatZone.open' (h : FlatZone c N w K v u s) (hN : N ≠ inst) (hs : Single N) {e : HRef} (hid : e.id = c.e) {cls : Str}
    {a : Dict AVal} {r : HRef} (hw : openGroup e N cls a s = (s', .ok r)) : ∃ K' v' V A l,
      FlatZone c N (some (V, A, l)) K' v' u s' ∧ v' N = some r.id ∧ r.path = e.path ++ [N] ∧
      ((w = none ∧ V = [] ∧ A = Dict.update [(p!"NX_class", AVal.str cls)] a ∧ l = false) ∨
        ∃ A0, w = some (V, A0, l) ∧ A = A0.update a) := by
  obtain ⟨ch, a0, he, hv⟩ := h.zone.held.entry
  have he' : s[e.id]? = some (.group ch a0) := by rw [hid]; exact he
  rcases w with _ | ⟨V, A, l⟩
  · have hg : ch.get? N = none := (hv N (.inl rfl)).trans h.flat.1
    rw [openGroup_new he' hs (by simp [Dict.has, hg])] at hw
    obtain ⟨-, K', v', h1, h2, h3⟩ := h.new hN hs hid hw
    exact ⟨K', v', _, _, _, h1, h2, h3, .inl ⟨rfl, rfl, rfl, rfl⟩⟩
  · obtain ⟨b, h1, h2, h3, h4⟩ := h.flat
    obtain ⟨chb, k1, k2, k3⟩ := h3
    rw [openGroup_old he' hs ((hv N (.inl rfl)).trans h1) k1] at hw
    injection hw with q1 q2
    injection q2 with q2
    have hz := h.zone.retag h2 k1 (A.update a)
    have hbl := lt_of_get? k1
    rw [show s.set b ((HNode.group chb A).withAttrs (A.update a)) = s' from q1] at hz
    refine ⟨K, v, V, A.update a, l, ⟨hz, b, h1, h2, ⟨chb, ?_, k2, k3.imp fun p q ⟨e1, e2, e3⟩ => ⟨e1, e2, ?_⟩⟩, h4⟩,
      by rw [← q2]; exact h1, by rw [← q2], .inr ⟨A, rfl, rfl⟩⟩
    · rw [← q1, set_get? _ _ _ _ hbl, if_pos rfl]; rfl
    · rw [← q1, set_get? _ _ _ _ hbl, if_neg, e3]
      intro e
      rw [e, k1] at e3
      cases e3

theorem FlatZone.write {V : Sets} {A : Dict AVal} {l : Bool} (h : FlatZone c N (some (V, A, l)) K v u s) {g : HRef}
    (hg : v N = some g.id) {n : Str} (hs : Single n) {d : PData} {a : Dict AVal} {r : HRef}
    (hw : writeDataset g n d a s = (s', .ok r)) :
    ∃ x K', d.toH = .ok x ∧ FlatZone c N (some (V.put n x (Dict.update [] (noteAttrs d a)), A, l)) K' v u s' := by
  obtain ⟨b, h1, h2, h3, h4⟩ := h.flat
  rw [hg] at h1
  injection h1 with h1
  subst h1
  obtain ⟨x, k1, k2, k3⟩ := h.zone.inside h2 h3 hs hw
  exact ⟨x, _, k1, k2, g.id, hg, .inl h2, k3, h4⟩

/-- a link of the group in the group "instrument" -/
theorem FlatZone.link {V : Sets} {A : Dict AVal} {l : Bool} (h : FlatZone c N (some (V, A, l)) K v u s) (hP : Plain N)
    {e g ins : HRef} (hg : v N = some g.id) (hp : g.path = [c.E, N]) (hI : v inst = some ins.id) (hip : ins.path = [c.E, inst])
    (hw : makeLink e g (nameOf ins ++ '/' :: N) s = (s', .ok ())) :
    l = false ∧ FlatZone c N (some (V, withTarget A (p!"/" ++ c.E ++ p!"/" ++ N), true)) K v (upd u N (some g.id)) s' := by
  obtain ⟨b, h1, h2, ⟨ch, k1, k2, k3⟩, h4⟩ := h.flat
  rw [hg] at h1
  injection h1 with h1
  subst h1
  obtain ⟨l1, l2, l3, -, l5⟩ := h.zone.linkOwn hI hip rfl rfl hP hp hg h2 k1 hw
  have hl : l = false := by
    cases l with
    | false => rfl
    | true => rw [h4] at l1; cases l1
  subst hl
  refine ⟨rfl, l2, g.id, hg, h2, ⟨ch, ?_, k2, k3.imp fun p q ⟨e1, e2, e3⟩ => ⟨e1, e2, ?_⟩⟩, by rw [upd_self]; rfl⟩
  · rw [l3]
    have : nameOf g = p!"/" ++ c.E ++ p!"/" ++ N := by unfold nameOf; rw [hp]; simp [join]
    rw [this]; rfl
  · rw [l5 _ e2, e3]
    intro e
    rw [e, k1] at e3
    cases e3

/-- the group "instrument" opened -/
theorem FlatZone.openHub (h : FlatZone c N w K v u s) (hN : N ≠ inst) {e : HRef} (hid : e.id = c.e) {cls : Str} {r : HRef}
    (hw : openGroup e inst cls [] s = (s', .ok r)) :
    ∃ v', FlatZone c N w K v' u s' ∧ v' inst = some r.id ∧ r.path = e.path ++ [inst] ∧ v' N = v N := by
  obtain ⟨v', z1, z2, z3, z4, z5, z6, z7⟩ := h.zone.openHub hid hw
  refine ⟨v', ⟨z1, h.flat.keep hN z4 fun i hi => z6 i ?_ (h.zone.held.inv.lt i (.inr (.inl hi)))⟩, z2, z3, z4 N hN⟩
  exact h.zone.held.ne_entry (K := fun i => K i ∨ v inst = some i) (.inl hi)

end

section
variable [UniDB] {c : Scope} {N : Str}

theorem FlatZone.dict {g : HRef} {A : Dict AVal} {l : Bool} {v u : Str → Option Nat} :
    ∀ (d : Dict PData) {V : Sets} {K : Nat → Prop} {s s' : H5} {r : Unit},
    FlatZone c N (some (V, A, l)) K v u s → v N = some g.id → saveDict g d s = (s', .ok r) →
    ∃ K' qs, List.Forall₂ OpPut (d.map (fun kv => (kv.1, kv.2, []))) qs ∧
      FlatZone c N (some (V.puts qs, A, l)) K' v u s'
  | [], V, K, s, s', r, h, hv, hw => by
    obtain ⟨_, rfl⟩ := HM.ret_inv hw
    exact ⟨K, [], .nil, h⟩
  | a :: d, V, K, s, s', r, h, hv, hw => by
    obtain ⟨t, h1, h2⟩ := HM.each_inv_cons hw
    unfold writeDs at h1
    obtain ⟨n, hn, h1⟩ := HM.bind_lift_inv h1
    obtain ⟨t', u, h3, h4⟩ := HM.bind_inv h1
    obtain ⟨_, rfl⟩ := HM.ret_inv h4
    obtain ⟨x, K1, x1, x2⟩ := h.write hv (clean_single hn) h3
    obtain ⟨K', qs, q1, q2⟩ := FlatZone.dict d x2 hv h2
    exact ⟨K', (n, (x, Dict.update [] (noteAttrs a.2 ((p!"spec_name", AVal.str a.1) :: [])))) :: qs, .cons ⟨hn, x1, rfl⟩ q1, q2⟩

/-- the additions do not concern the group -/
theorem FlatZone.additions {w : Flat} {K : Nat → Prop} {v u : Str → Option Nat} {s s' : H5} (h : FlatZone c N w K v u s)
    (h1 : N ∉ [inst, p!"geometry_parameters", p!"diffractometer", p!"positioners", p!"M", p!"T", p!"monitor", p!"TEMP_SP",
      p!"DEGC_SP", p!"sample"]) {e : HRef} (hid : e.id = c.e) (hp : e.path = [c.E]) (hw : Writer.additions e s = (s', .ok ())) :
    FlatZone c N w K v u s' := by
  obtain ⟨s1, s2, hasM, hasT, a1, a2, a3⟩ := additions_parts hw
  have hn : ∀ m ∈ [inst, p!"geometry_parameters", p!"diffractometer", p!"positioners", p!"M", p!"T", p!"monitor", p!"TEMP_SP",
      p!"DEGC_SP", p!"sample"], ¬ m = N := fun m hm e => h1 (e ▸ hm)
  obtain ⟨k1, l1⟩ := zone_addGeometry h.zone hid (hn _ (by decide)) (hn _ (by decide)) a1
  obtain ⟨k2, l2⟩ := zone_addPositioners k1 hid hp (hn _ (by decide)) a2
  obtain ⟨k3, l3⟩ := zone_addOthers k2 hid hp (by
    intro m hm
    refine hn m ?_
    revert m
    decide) a3
  exact ⟨k3, h.flat.keep (fun e => hn _ (by decide) e.symm) (fun _ _ => rfl) fun i hi => (l3 i hi).trans ((l2 i hi).trans (l1 i hi))⟩

/-! ### metadata -/

omit [UniDB] in
/-- a name that only the writers `F` use, in the entry and in its group "instrument" -/
theorem zone_avoids {N : Str} {F : H5Fn → Prop} (h1 : ∀ f, ¬ F f → N ∉ usedBy f ∧ N ∉ hubUsed f)
    (h2 : ¬ F .unrec → startsWith N p!"unrecognized_" = false) : ∀ f, ¬ F f →
    (∀ n ∈ usedBy f, n ≠ inst → ¬ (fun n => n = N) n) ∧ (∀ n ∈ hubUsed f, ¬ (fun n => n = N) n) ∧
    (f = .unrec → ∀ i, ¬ (fun n => n = N) (p!"unrecognized_" ++ natStr i)) := by
  intro f hf
  refine ⟨fun n hn _ e => (h1 f hf).1 (e ▸ hn), fun n hn e => (h1 f hf).2 (e ▸ hn), ?_⟩
  rintro rfl i e
  have := h2 hf
  rw [← e] at this
  simp [startsWith] at this

/-- the attributes of the group of the metadata -/
def metaAttrs (E : Str) : Dict AVal :=
  [(p!"NX_class", .str p!"NXnote"), (p!"description", .str p!"SPEC metadata (UNICAT-style #H & #V lines)"),
    (p!"target", .str (p!"/" ++ E ++ p!"/metadata"))]

/-- #H and #V -/
theorem zoned_metadata : Zoned (fun n => n = p!"metadata") (fun n => n = p!"metadata") (fun f => f = .metadata) Always
    (fun E (w : Option Sets) => FlatΦ p!"metadata" E (w.map fun V => (V, metaAttrs E, true)))
    (fun _ _ x w w' => (x.metadata.getD [] = [] ∧ w' = w) ∨
      (w = none ∧ x.metadata.getD [] ≠ [] ∧ ∃ qs, List.Forall₂ OpPut ((x.metadata.getD []).map (fun kv => (kv.1, mData kv.2, []))) qs ∧
        w' = some (Sets.puts [] qs))) none (fun _ w => w) where
  data := by simp
  avoids := zone_avoids (by intro f hf; cases f <;> first | exact absurd rfl hf | exact ⟨by decide, by decide⟩) (by intro _; decide)
  step := by
    rintro f rfl c e hdr x y K v u w s s' _ _ hid hp hz hΦ hw
    obtain ⟨t, _, hb, h2⟩ := HM.andThen_inv hw
    obtain ⟨_, rfl⟩ := HM.ret_inv h2
    have h : FlatZone c p!"metadata" _ K v u s := ⟨hz, hΦ⟩
    unfold wMetadata at hb
    rcases hm : x.metadata with _ | (_ | ⟨kv, d⟩)
    · rw [hm] at hb
      obtain ⟨_, rfl⟩ := HM.ret_inv hb
      exact ⟨K, v, u, w, hz, hΦ, .inl ⟨rfl, rfl⟩⟩
    · rw [hm] at hb
      obtain ⟨_, rfl⟩ := HM.ret_inv hb
      exact ⟨K, v, u, w, hz, hΦ, .inl ⟨rfl, rfl⟩⟩
    · rw [hm] at hb
      obtain ⟨s1, g, w1, w2⟩ := HM.bind_inv hb
      obtain ⟨s2, _, w3, w4⟩ := HM.bind_inv w2
      obtain ⟨s3, ins, w5, w6⟩ := HM.bind_inv w4
      obtain ⟨hn, K1, v1, k1, k2, k3⟩ := h.new (by decide) (by decide : Plain p!"metadata").single hid w1
      obtain ⟨K2, qs, q1, k4⟩ := k1.dict _ k2 w3
      obtain ⟨v2, k5, k6, k7, k8⟩ := k4.openHub (by decide) hid w5
      obtain ⟨-, k9⟩ := k5.link (by decide) (k8.trans k2) (by rw [k3, hp]; rfl) k6 (by rw [k7, hp]; rfl) w6
      refine ⟨_, _, _, some (Sets.puts [] qs), k9.zone, ?_, .inr ⟨?_, List.cons_ne_nil _ _, qs, ?_, rfl⟩⟩
      · have e1 : withTarget (Dict.update [(p!"NX_class", AVal.str containerClass)]
          (attr1 p!"description" p!"SPEC metadata (UNICAT-style #H & #V lines)")) (p!"/" ++ c.E ++ p!"/" ++ p!"metadata") =
            metaAttrs c.E := by
          unfold metaAttrs
          rw [List.append_assoc _ p!"/" p!"metadata"]
          rfl
        have := k9.flat
        rw [e1] at this
        exact this
      · cases w with
        | none => rfl
        | some V => cases hn
      · rw [List.map_map] at q1
        exact q1
  keep := fun hv hk h => h.keep (by decide) hv hk
  last := by
    intro c e K v u w s s' hid hp hz hΦ hw
    have := FlatZone.additions ⟨hz, hΦ⟩ (by decide) hid hp hw
    exact ⟨_, _, _, this.zone, this.flat⟩
  init := fun _ _ => ⟨rfl, rfl⟩
  pL := fun _ _ _ => trivial
  withL := fun _ _ _ _ _ h _ => h

/-! ### MCA -/

/-- how the group of the MCA is linked in the group "instrument" -/
inductive McaTag
  | no
  | own
  | hub
  deriving DecidableEq

def McaTag.linked : McaTag → Bool
  | .no => false
  | _ => true

/-- the attributes of the group of the MCA -/
def mcaAttrs (E : Str) (t : McaTag) : Dict AVal :=
  [(p!"NX_class", .str p!"NXnote"), (p!"description", .str p!"MCA metadata")] ++
    match t with
    | .no => []
    | .own => [(p!"target", .str (p!"/" ++ E ++ p!"/MCA"))]
    | .hub => [(p!"target", .str (p!"/" ++ E ++ p!"/instrument/MCA"))]

/-- datasets of numbers -/
def oneF (f : PyFloat) : HData := .nums ⟨[.flt f], [1]⟩
def oneI (i : Int) : HData := .nums ⟨[.int i], [1]⟩

def secs : Dict AVal := [(p!"units", .str p!"s")]

def calibSets (q : PyFloat × PyFloat × PyFloat) : Sets :=
  [(p!"calib_a", oneF q.1, []), (p!"calib_b", oneF q.2.1, []), (p!"calib_c", oneF q.2.2, [])]
def channSets (q : Int × Int × Int × PyFloat) : Sets :=
  [(p!"number_saved", oneI q.1, []), (p!"first_saved", oneI q.2.1, []), (p!"last_saved", oneI q.2.2.1, []),
    (p!"reduction_coef", oneF q.2.2.2, [])]
def ctimeSets (q : PyFloat × PyFloat × PyFloat) : Sets :=
  [(p!"preset_time", oneF q.1, secs), (p!"elapsed_live_time", oneF q.2.1, secs), (p!"elapsed_real_time", oneF q.2.2, secs)]

/-- what a writer of the MCA does -/
def mcaStep (f : H5Fn) (x : Obj) (w : Option (Sets × McaTag)) : Option (Sets × McaTag) :=
  let V : Sets := (w.map (·.1)).getD []
  let t := (w.map (·.2)).getD .no
  match x.mca with
  | none => w
  | some m =>
    if f = .calib then
      match m.calib with
      | none => w
      | some q => some (V.puts (calibSets q), t)
    else if f = .chann then some (V.puts ((m.chann.map channSets).getD []), .hub)
    else some (V.puts ((m.ctime.map ctimeSets).getD []), if t = .no then .own else t)

section
variable {K : Nat → Prop} {v u : Str → Option Nat} {s s' : H5}

omit [UniDB] in
theorem FlatZone.linked {V : Sets} {A : Dict AVal} {l : Bool} (h : FlatZone c N (some (V, A, l)) K v u s) (hs : Single N)
    {ins : HRef} (hI : v inst = some ins.id) : contains ins N s = (s, .ok l) := by
  obtain ⟨-, ch, a, e0, e1, -⟩ := h.zone.hub _ hI
  obtain ⟨b, -, -, -, h4⟩ := h.flat
  rw [contains_eq e0 hs, show ch.has N = l by rw [Dict.has, e1 N rfl, h4]; cases l <;> rfl]

omit [UniDB] in
/-- an attribute of the group set through the group "instrument" -/
theorem FlatZone.tag {V : Sets} {A : Dict AVal} {l : Bool} (h : FlatZone c N (some (V, A, l)) K v u s) (hs : Single N)
    {ins g : HRef} (hI : v inst = some ins.id) {s1 : H5} (hg : H5.get ins N s = (s1, .ok g)) {k : Str} {x : AVal}
    (hw : setAttr g k x s1 = (s', .ok ())) : FlatZone c N (some (V, A.set k x, l)) K v u s' ∧ g.path = ins.path ++ [N] := by
  obtain ⟨-, ch, a, e0, e1, -⟩ := h.zone.hub _ hI
  obtain ⟨b, h1, h2, ⟨chb, k1, k2, k3⟩, h4⟩ := h.flat
  have hl : l = true := by
    cases l with
    | true => rfl
    | false => rw [get_missing e0 hs (by rw [Dict.has, e1 N rfl, h4]; rfl)] at hg; cases hg
  subst hl
  rw [get_eq e0 hs ((e1 N rfl).trans h4)] at hg
  injection hg with q1 q2
  injection q2 with q2
  subst q1 q2
  rw [setAttr_eq (h := ⟨b, _⟩) k1] at hw
  injection hw with q1 _
  have hz := h.zone.retag h2 k1 (A.set k x)
  have hbl := lt_of_get? k1
  rw [show s.set b ((HNode.group chb A).withAttrs (A.set k x)) = s' from q1] at hz
  refine ⟨⟨hz, b, h1, h2, ⟨chb, ?_, k2, k3.imp fun p q ⟨e1, e2, e3⟩ => ⟨e1, e2, ?_⟩⟩, h4⟩, rfl⟩
  · rw [← q1, set_get? _ _ _ _ hbl, if_pos rfl]; rfl
  · rw [← q1, set_get? _ _ _ _ hbl, if_neg, e3]
    intro e
    rw [e, k1] at e3
    cases e3

omit [UniDB] in
theorem FlatZone.linkMca {V : Sets} {t : McaTag} (h : FlatZone c p!"MCA" (some (V, mcaAttrs c.E t, t.linked)) K v u s) {e g ins : HRef}
    (hid : e.id = c.e) (hp : e.path = [c.E]) (hg : v p!"MCA" = some g.id) (hgp : g.path = [c.E, p!"MCA"])
    (hw : Writer.linkMca e g s = (s', .ok ins)) : ∃ v' u', FlatZone c p!"MCA"
      (some (V, mcaAttrs c.E (if t = .no then .own else t), true)) K v' u' s' ∧ v' inst = some ins.id ∧ ins.path = [c.E, inst] := by
  unfold Writer.linkMca at hw
  obtain ⟨s1, i1, w1, w2⟩ := HM.bind_inv hw
  obtain ⟨v', z1, z2, z3, z4⟩ := h.openHub (by decide) hid w1
  obtain ⟨s2, _, w3, w4⟩ := HM.bind_inv w2
  obtain ⟨q1, q2⟩ := HM.pure_inv w4
  subst q1 q2
  have hip : ins.path = [c.E, inst] := by rw [z3, hp]; rfl
  obtain ⟨s3, b, w5, w6⟩ := HM.andThen_inv w3
  rw [z1.linked (by decide : Plain p!"MCA").single z2] at w5
  injection w5 with q1 q2
  injection q2 with q2
  subst q1 q2
  cases t with
  | no =>
    obtain ⟨-, k1⟩ := z1.link (by decide) (z4.trans hg) hgp z2 hip w6
    refine ⟨_, _, ⟨k1.zone, ?_⟩, z2, hip⟩
    have e1 : withTarget (mcaAttrs c.E .no) (p!"/" ++ c.E ++ p!"/" ++ p!"MCA") = mcaAttrs c.E .own := by
      unfold mcaAttrs
      rw [List.append_assoc _ p!"/" p!"MCA"]
      rfl
    have := k1.flat
    rw [e1] at this
    exact this
  | own =>
    obtain ⟨-, rfl⟩ := HM.ret_inv w6
    exact ⟨v', u, z1, z2, hip⟩
  | hub =>
    obtain ⟨-, rfl⟩ := HM.ret_inv w6
    exact ⟨v', u, z1, z2, hip⟩

omit [UniDB] in
/-- the group of the MCA opened -/
theorem FlatZone.openMca {w : Option (Sets × McaTag)}
    (h : FlatZone c p!"MCA" (w.map fun q => (q.1, mcaAttrs c.E q.2, q.2.linked)) K v u s) {e g : HRef}
    (hid : e.id = c.e) (hp : e.path = [c.E]) (hw : mcaGroup e s = (s', .ok g)) : ∃ K' v',
      FlatZone c p!"MCA" (some ((w.map (fun q : Sets × McaTag => q.1)).getD [], mcaAttrs c.E ((w.map (fun q : Sets × McaTag => q.2)).getD McaTag.no),
        ((w.map (fun q : Sets × McaTag => q.2)).getD McaTag.no).linked)) K' v' u s' ∧
      v' p!"MCA" = some g.id ∧ g.path = [c.E, p!"MCA"] := by
  obtain ⟨K', v', V, A, l, h1, h2, h3, h4⟩ := h.open' (by decide) (by decide : Plain p!"MCA").single hid hw
  refine ⟨K', v', ?_, h2, by rw [h3, hp]; rfl⟩
  rcases h4 with ⟨e1, rfl, rfl, rfl⟩ | ⟨A0, e1, rfl⟩
  · cases w with
    | none => exact h1
    | some q => cases e1
  · cases w with
    | none => cases e1
    | some q =>
      simp only [Option.map_some, Option.some.injEq, Prod.mk.injEq] at e1
      obtain ⟨rfl, rfl, rfl⟩ := e1
      have e2 : Dict.update (mcaAttrs c.E q.2) (attr1 p!"description" p!"MCA metadata") = mcaAttrs c.E q.2 := by
        rcases q with ⟨_, _ | _ | _⟩ <;> rfl
      rw [e2] at h1
      exact h1
end

omit [UniDB] in
/-- a number written in the group -/
theorem FlatZone.num {V : Sets} {A : Dict AVal} {l : Bool} {K : Nat → Prop} {v u : Str → Option Nat} {s s' : H5}
    (h : FlatZone c N (some (V, A, l)) K v u s) {g : HRef}
    (hg : v N = some g.id) {n : Str} (hs : Single n) {q : Num} {a : Dict AVal} (ha : Dict.update [] a = a) {r : HRef}
    (hw : writeDataset g n (.num q) a s = (s', .ok r)) :
    ∃ K', FlatZone c N (some (V.put n (.nums ⟨[q], [1]⟩) a, A, l)) K' v u s' := by
  obtain ⟨x, K', k1, k2⟩ := h.write hg hs hw
  injection k1 with k1
  subst k1
  refine ⟨K', ?_⟩
  have e1 : Dict.update [] (noteAttrs (.num q) a) = a := ha
  rw [e1] at k2
  exact k2

theorem zoned_mca : Zoned (fun n => n = p!"MCA") (fun n => n = p!"MCA") (fun f => f = .calib ∨ f = .chann ∨ f = .ctime) Always
    (fun E (w : Option (Sets × McaTag)) => FlatΦ p!"MCA" E (w.map fun q => (q.1, mcaAttrs E q.2, q.2.linked)))
    (fun _ f x w w' => w' = mcaStep f x w) none (fun _ w => w) where
  data := by simp
  avoids := zone_avoids (by intro f hf; cases f <;> first | exact ⟨by decide, by decide⟩ | exact absurd (by simp) hf) (by intro _; decide)
  step := by
    rintro f hf c e hdr x y K v u w s s' _ _ hid hp hz hΦ hw
    have h : FlatZone c p!"MCA" _ K v u s := ⟨hz, hΦ⟩
    rcases hf with rfl | rfl | rfl
    · obtain ⟨t, _, hb, h2⟩ := HM.andThen_inv hw
      obtain ⟨_, rfl⟩ := HM.ret_inv h2
      unfold wCalib at hb
      rcases hm : x.mca with _ | ⟨_ | ⟨a, b, d⟩, ch, ct, ro⟩
      · rw [hm] at hb
        obtain ⟨_, rfl⟩ := HM.ret_inv hb
        exact ⟨K, v, u, w, hz, hΦ, by simp only [mcaStep, hm]⟩
      · rw [hm] at hb
        obtain ⟨_, rfl⟩ := HM.ret_inv hb
        exact ⟨K, v, u, w, hz, hΦ, by simp [mcaStep, hm]⟩
      · rw [hm] at hb
        obtain ⟨s1, g, w1, w2⟩ := HM.bind_inv hb
        obtain ⟨s2, _, w3, w4⟩ := HM.bind_inv w2
        obtain ⟨s3, _, w5, w6⟩ := HM.bind_inv w4
        obtain ⟨s4, _, w7, w8⟩ := HM.bind_inv w6
        obtain ⟨_, rfl⟩ := HM.pure_inv w8
        obtain ⟨K1, v1, k1, k2, k3⟩ := h.openMca hid hp w1
        obtain ⟨K2, k4⟩ := k1.num k2 (by decide : Plain p!"calib_a").single rfl w3
        obtain ⟨K3, k5⟩ := k4.num k2 (by decide : Plain p!"calib_b").single rfl w5
        obtain ⟨K4, k6⟩ := k5.num k2 (by decide : Plain p!"calib_c").single rfl w7
        refine ⟨_, _, _, mcaStep .calib x w, k6.zone, ?_, rfl⟩
        have e1 : mcaStep .calib x w = some (Sets.puts ((w.map (fun q : Sets × McaTag => q.1)).getD []) (calibSets (a, b, d)),
          (w.map (fun q : Sets × McaTag => q.2)).getD .no) := by
          unfold mcaStep
          rw [hm]
          exact if_pos rfl
        rw [e1]
        exact k6.flat
    · obtain ⟨t, _, hb, h2⟩ := HM.andThen_inv hw
      obtain ⟨_, rfl⟩ := HM.ret_inv h2
      unfold wChann at hb
      rcases hm : x.mca with _ | m
      · rw [hm] at hb
        obtain ⟨_, rfl⟩ := HM.ret_inv hb
        exact ⟨K, v, u, w, hz, hΦ, by simp only [mcaStep, hm]⟩
      · rw [hm] at hb
        obtain ⟨s1, g, w1, w2⟩ := HM.bind_inv hb
        obtain ⟨s2, _, w3, w4⟩ := HM.bind_inv w2
        obtain ⟨s3, ins, w5, w6⟩ := HM.bind_inv w4
        obtain ⟨s4, tg, w7, w8⟩ := HM.bind_inv w6
        obtain ⟨K1, v1, k1, k2, k3⟩ := h.openMca hid hp w1
        have hn : ∃ K2, FlatZone c p!"MCA" (some (Sets.puts ((w.map (fun q : Sets × McaTag => q.1)).getD []) ((m.chann.map channSets).getD []),
            mcaAttrs c.E ((w.map (fun q : Sets × McaTag => q.2)).getD McaTag.no),
            ((w.map (fun q : Sets × McaTag => q.2)).getD McaTag.no).linked)) K2 v1 u s2 := by
          rcases hc : m.chann with _ | ⟨a, b, d, q⟩
          · rw [hc] at w3
            obtain ⟨_, rfl⟩ := HM.ret_inv w3
            exact ⟨K1, k1⟩
          · rw [hc] at w3
            obtain ⟨s5, _, x1, x2⟩ := HM.bind_inv w3
            obtain ⟨s6, _, x3, x4⟩ := HM.bind_inv x2
            obtain ⟨s7, _, x5, x6⟩ := HM.bind_inv x4
            obtain ⟨s8, _, x7, x8⟩ := HM.bind_inv x6
            obtain ⟨_, rfl⟩ := HM.pure_inv x8
            obtain ⟨K2, k4⟩ := k1.num k2 (by decide : Plain p!"number_saved").single rfl x1
            obtain ⟨K3, k5⟩ := k4.num k2 (by decide : Plain p!"first_saved").single rfl x3
            obtain ⟨K4, k6⟩ := k5.num k2 (by decide : Plain p!"last_saved").single rfl x5
            obtain ⟨K5, k7⟩ := k6.num k2 (by decide : Plain p!"reduction_coef").single rfl x7
            exact ⟨K5, k7⟩
        obtain ⟨K2, k4⟩ := hn
        obtain ⟨v2, u2, k5, k6, k7⟩ := k4.linkMca hid hp k2 k3 w5
        obtain ⟨k8, k9⟩ := k5.tag (by decide : Plain p!"MCA").single k6 w7 w8
        refine ⟨_, _, _, mcaStep .chann x w, k8.zone, ?_, rfl⟩
        have e1 : mcaStep .chann x w = some (Sets.puts ((w.map (fun q : Sets × McaTag => q.1)).getD []) ((m.chann.map channSets).getD []),
          .hub) := by
          unfold mcaStep
          rw [hm]
          exact (if_neg (by decide)).trans (if_pos rfl)
        have e2 : nameOf tg = p!"/" ++ c.E ++ p!"/instrument/MCA" := by
          unfold nameOf; rw [k9, k7]; simp [join, inst]
        have e3 : ∀ t : McaTag, (mcaAttrs c.E (if t = .no then .own else t)).set p!"target" (.str (nameOf tg)) = mcaAttrs c.E .hub := by
          intro t
          rw [e2]
          cases t <;> rfl
        rw [e1]
        have := k8.flat
        rw [e3] at this
        exact this
    · obtain ⟨t, _, hb, h2⟩ := HM.andThen_inv hw
      obtain ⟨_, rfl⟩ := HM.ret_inv h2
      unfold wCtime at hb
      rcases hm : x.mca with _ | m
      · rw [hm] at hb
        obtain ⟨_, rfl⟩ := HM.ret_inv hb
        exact ⟨K, v, u, w, hz, hΦ, by simp only [mcaStep, hm]⟩
      · rw [hm] at hb
        obtain ⟨s1, g, w1, w2⟩ := HM.bind_inv hb
        obtain ⟨s2, _, w3, w4⟩ := HM.bind_inv w2
        obtain ⟨s3, ins, w5, w6⟩ := HM.bind_inv w4
        obtain ⟨_, rfl⟩ := HM.pure_inv w6
        obtain ⟨K1, v1, k1, k2, k3⟩ := h.openMca hid hp w1
        have hn : ∃ K2, FlatZone c p!"MCA" (some (Sets.puts ((w.map (fun q : Sets × McaTag => q.1)).getD []) ((m.ctime.map ctimeSets).getD []),
            mcaAttrs c.E ((w.map (fun q : Sets × McaTag => q.2)).getD McaTag.no),
            ((w.map (fun q : Sets × McaTag => q.2)).getD McaTag.no).linked)) K2 v1 u s2 := by
          rcases hc : m.ctime with _ | ⟨a, b, d⟩
          · rw [hc] at w3
            obtain ⟨_, rfl⟩ := HM.ret_inv w3
            exact ⟨K1, k1⟩
          · rw [hc] at w3
            obtain ⟨s5, _, x1, x2⟩ := HM.bind_inv w3
            obtain ⟨s6, _, x3, x4⟩ := HM.bind_inv x2
            obtain ⟨s7, _, x5, x6⟩ := HM.bind_inv x4
            obtain ⟨_, rfl⟩ := HM.pure_inv x6
            obtain ⟨K2, k4⟩ := k1.num k2 (by decide : Plain p!"preset_time").single rfl x1
            obtain ⟨K3, k5⟩ := k4.num k2 (by decide : Plain p!"elapsed_live_time").single rfl x3
            obtain ⟨K4, k6⟩ := k5.num k2 (by decide : Plain p!"elapsed_real_time").single rfl x5
            exact ⟨K4, k6⟩
        obtain ⟨K2, k4⟩ := hn
        obtain ⟨v2, u2, k5, k6, k7⟩ := k4.linkMca hid hp k2 k3 w5
        refine ⟨_, _, _, mcaStep .ctime x w, k5.zone, ?_, rfl⟩
        obtain ⟨t0, ht0⟩ : ∃ t0, (w.map (fun q : Sets × McaTag => q.2)).getD McaTag.no = t0 := ⟨_, rfl⟩
        have e1 : mcaStep .ctime x w = some (Sets.puts ((w.map (fun q : Sets × McaTag => q.1)).getD []) ((m.ctime.map ctimeSets).getD []),
          if t0 = .no then .own else t0) := by
          unfold mcaStep
          rw [hm, ← ht0]
          exact (if_neg (by decide)).trans (if_neg (by decide))
        have e3 : McaTag.linked (if t0 = .no then .own else t0) = true := by cases t0 <;> rfl
        rw [e1, Option.map_some, e3]
        have := k5.flat
        rw [ht0] at this
        exact this
  keep := fun hv hk h => h.keep (by decide) hv hk
  last := by
    intro c e K v u w s s' hid hp hz hΦ hw
    have := FlatZone.additions ⟨hz, hΦ⟩ (by decide) hid hp hw
    exact ⟨_, _, _, this.zone, this.flat⟩
  init := fun _ _ => ⟨rfl, rfl⟩
  pL := fun _ _ _ => trivial
  withL := fun _ _ _ _ _ h _ => h

end
end S2N
