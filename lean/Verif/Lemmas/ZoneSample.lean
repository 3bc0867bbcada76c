import Verif.Lemmas.ZoneGeo
/-
The groups "sample" and "instrument" of an entry: what the writers of the geometry and of the temperature leave there.
-/
namespace S2N
open Py H5 Eznx Writer Spec
variable [UniDB]

section
variable {c : Scope} {X XI : Str → Prop} {K1 : Nat → Prop} {v u : Str → Option Nat} {s1 : H5} {A : Dict AVal}

/-- a dictionary written in a group -/
theorem GrpAt.dict {g : HRef} : ∀ (d : Dict PData) {K : Nat → Prop} {V : Sets} {s s' : H5} {r : Unit},
    GrpAt c X XI v u s1 K1 g.id A K V s → saveDict g d s = (s', .ok r) → ∃ K' V', GrpAt c X XI v u s1 K1 g.id A K' V' s'
  | [], K, V, s, s', r, h, hw => by
    obtain ⟨_, rfl⟩ := HM.ret_inv hw
    exact ⟨K, V, h⟩
  | a :: d, K, V, s, s', r, h, hw => by
    obtain ⟨t, h1, h2⟩ := HM.each_inv_cons hw
    unfold writeDs at h1
    obtain ⟨n, hn, h1⟩ := HM.bind_lift_inv h1
    obtain ⟨t', u, h3, h4⟩ := HM.bind_inv h1
    obtain ⟨_, rfl⟩ := HM.ret_inv h4
    obtain ⟨x, -, x2⟩ := h.write (clean_single hn) h3
    exact GrpAt.dict d x2 h2

end

/-- the parameters as datasets -/
def gparSets (d : Diff) : Sets := d.gpar.map fun kv => (kv.1, paramData kv.2, descAttr d kv.1)

/-- the attributes of the group of the parameters -/
def gpAttrs : Dict AVal := [(p!"NX_class", .str p!"NXnote"), (p!"description", .str p!"SPEC geometry arrays, interpreted")]

/-- the members of the group "sample" -/
def samMembers (E : Str) (d : Diff) : Option (List (Str × Content)) :=
  addTo (samFirst d) (d.wavelength.map fun wl => [beamMember E wl])

abbrev gpN : Str := p!"geometry_parameters"
abbrev diffN : Str := p!"diffractometer"

/-- what shows the geometry `d`: the group of the parameters is the node `g` -/
def GeoIn (E : Str) (d : Diff) (A : Dict AVal) (Mem : Option (List (Str × Content))) (KG : Nat → Prop) (v u : Str → Option Nat) (s : H5)
    (g : Nat) : Prop :=
  (∃ j, u p!"name" = some j ∧ KG j ∧ s[j]? = some (.dset (.text [ascii d.full]) [])) ∧
  u gpN = some g ∧ Holds KG s g (.grp (Sets.puts [] (gparSets d)) A) ∧
  (Mem = none → v sam = none) ∧ (∀ M, Mem = some M → ∃ b, v sam = some b ∧ SamIn KG s b M) ∧
  (d.wavelength = none → u mono = none) ∧
  ∀ wl, d.wavelength = some wl → ∃ m b, u mono = some m ∧ v sam = some b ∧ WaveAt KG s E wl m b

/-- the names of the entry -/
def SamX (n : Str) : Prop := n = sam ∨ n = p!"TEMP_SP" ∨ n = p!"DEGC_SP" ∨ n = p!"G"

/-- the names of the group "instrument" -/
def SamXI (n : Str) : Prop := n = p!"name" ∨ n = gpN ∨ n = diffN ∨ n = mono

theorem WaveAt.keep {K K' : Nat → Prop} {s s' : H5} {E : Str} {wl : PyFloat} {m b : Nat} (h : WaveAt K s E wl m b)
    (hs : ∀ j, K j → s'[j]? = s[j]?) (hK : ∀ j, K j → K' j) : WaveAt K' s' E wl m b := by
  obtain ⟨L, chb, bm, h1, h2, h3, h4, h5, h6, h7, h8, h9⟩ := h
  exact ⟨L, chb, bm, hK _ h1, (hs _ h1).trans h2, hK _ h3, (hs _ h3).trans h4, hK _ h5, (hs _ h5).trans h6, h7, hK _ h8, (hs _ h8).trans h9⟩

theorem descAttr_update (d : Diff) (k : Str) : Dict.update [] (descAttr d k) = descAttr d k := by
  unfold descAttr
  split <;> rfl

theorem z1le {c : Scope} {X XI : Str → Prop} {K : Nat → Prop} {v u : Str → Option Nat} {s s' : H5} (h : Zone c X XI K v u s) {e : HRef}
    (hid : e.id = c.e) {cls : Str} {r : HRef} (hw : openGroup e inst cls [] s = (s', .ok r)) : s.length ≤ s'.length := by
  obtain ⟨_, h1, _, _, _, _, h6, _⟩ := h.openHub hid hw
  have h2 : c.e < s.length := h.held.inv.elt
  have h3 : c.e < s'.length := h1.held.inv.elt
  by_cases hq : s.length - 1 = c.e
  · omega
  · have := h6 (s.length - 1) hq (by omega)
    rw [List.getElem?_eq_getElem (show s.length - 1 < s.length by omega)] at this
    have := lt_of_get? this
    omega

theorem first_names (d : Diff) : ∀ n ∈ ((samFirst d).getD []).map (·.1), n ∈ samNames ∨ ∃ i, n = orName i := by
  intro n hn
  unfold samFirst at hn
  rcases mem_addTo hn with hn | hn
  · rcases mem_addTo hn with hn | hn
    · rcases mem_addTo hn with hn | hn
      · rcases mem_addTo hn with hn | hn
        · left
          exact (show ∀ n ∈ _, n ∈ samNames by decide) n (lattice_names d.lattice n hn)
        · left
          cases hg : d.gpar.get? p!"ub_matrix" with
          | none => rw [hg] at hn; cases hn
          | some g =>
            rw [hg] at hn
            simp only [Option.map_some, Option.getD_some, List.map_cons, List.map_nil, List.mem_singleton] at hn
            rw [hn]; decide
      · left
        cases hg : d.mode with
        | none => rw [hg] at hn; cases hn
        | some g =>
          rw [hg] at hn
          simp only [Option.map_some, Option.getD_some, List.map_cons, List.map_nil, List.mem_singleton] at hn
          rw [hn]; decide
    · left
      cases hg : d.sector with
      | none => rw [hg] at hn; cases hn
      | some g =>
        rw [hg] at hn
        simp only [Option.map_some, Option.getD_some, List.map_cons, List.map_nil, List.mem_singleton] at hn
        rw [hn]; decide
  · right
    split at hn
    · cases hn
    · simp only [Option.getD_some, List.map_map, List.mem_map] at hn
      obtain ⟨ir, -, rfl⟩ := hn
      exact ⟨ir.1, rfl⟩

theorem beam_not_first (d : Diff) : p!"beam" ∉ ((samFirst d).getD []).map (·.1) := by
  intro h
  rcases first_names d _ h with q | ⟨i, q⟩
  · exact absurd q (by decide)
  · have : some 'b' = some 'o' := congrArg List.head? q
    cases this

/-- after the geometry -/
theorem geo_writer {c : Scope} {K : Nat → Prop} {v u : Str → Option Nat} {s s' : H5} (h : Zone c SamX SamXI K v u s) {e : HRef}
    (hid : e.id = c.e) (hp : e.path = [c.E]) (x : Obj) (hr : RelNames x) (hvs : v p!"G" = none → v sam = none ∧ ∀ n, SamXI n → u n = none)
    (hw : wGeometry e x s = (s', .ok ())) :
    ∃ K' v' u' d, x.diff = some d ∧ v p!"G" = none ∧ v' p!"G" ≠ none ∧ Zone c SamX SamXI K' v' u' s' ∧ (∀ i, K i → K' i ∧ s'[i]? = s[i]?) ∧
      v' p!"TEMP_SP" = v p!"TEMP_SP" ∧ v' p!"DEGC_SP" = v p!"DEGC_SP" ∧
      (d.gpar = [] → v' sam = none ∧ ∀ n, SamXI n → u' n = none) ∧
      (d.gpar ≠ [] → u' diffN = none ∧ ∃ g, K' g ∧ s.length ≤ g ∧
        GeoIn c.E d gpAttrs (samMembers c.E d) (fun i => K' i ∧ s.length ≤ i ∧ i ≠ g) v' u' s' g) := by
  unfold wGeometry at hw
  obtain ⟨s1, g, w1, w2⟩ := HM.bind_inv hw
  obtain ⟨s2, G, w3, w4⟩ := HM.bind_inv w2
  obtain ⟨dd, w5, w6⟩ := HM.bind_lift_inv w4
  obtain ⟨s3, _, w7, w8⟩ := HM.bind_inv w6
  obtain ⟨s4, diff, w9, w10⟩ := HM.bind_inv w8
  obtain ⟨-, rfl⟩ := need_inv w3
  obtain ⟨hdiff, rfl⟩ := need_inv w9
  have hgn := hr.fields diff hdiff
  obtain ⟨k1, k2, k3, -, k5, k6, k7⟩ := h.newGroup hid (.inr (.inr (.inr rfl))) (by decide) (by decide : Plain p!"G").single w1
  obtain ⟨hv0, hu0⟩ := hvs k1
  have hg : g.id = s.length := by rw [k2]
  obtain ⟨K2, V2, G2⟩ := GrpAt.dict dd (GrpAt.start k6 (g := g.id) (by rw [hg]; exact k5) (.inr hg)) w7
  have hl4 : s.length < s4.length := by have := G2.le; omega
  have hK2 : ∀ i, K i → K2 i ∧ s4[i]? = s[i]? := fun i hi => by
    have hil : i < s.length := h.held.inv.lt i (.inr (.inl hi))
    exact ⟨G2.sub i (.inl hi), (G2.old i (by omega) (by omega)).trans (k7 i hi)⟩
  have hz4 := G2.zone
  by_cases hgp : diff.gpar = []
  · rw [if_pos hgp] at w10
    obtain ⟨-, rfl⟩ := HM.pure_inv w10
    refine ⟨K2, _, u, diff, hdiff, k1, by rw [upd_self]; simp, hz4, hK2, upd_ne _ _ (by decide), upd_ne _ _ (by decide),
      fun _ => ⟨?_, hu0⟩, fun q => absurd hgp q⟩
    rw [upd_ne _ _ (by decide)]; exact hv0
  · rw [if_neg hgp] at w10
    obtain ⟨t1, ins, a1, b1⟩ := HM.bind_inv w10
    obtain ⟨t2, nm, a2, b2⟩ := HM.bind_inv b1
    obtain ⟨t3, _, a3, b3⟩ := HM.bind_inv b2
    obtain ⟨t4, _, a4, b4⟩ := HM.bind_inv b3
    obtain ⟨t5, _, a5, b5⟩ := HM.bind_inv b4
    obtain ⟨t6, _, a6, b6⟩ := HM.bind_inv b5
    obtain ⟨t7, _, a7, b7⟩ := HM.bind_inv b6
    obtain ⟨t8, _, a8, b8⟩ := HM.bind_inv b7
    obtain ⟨t9, note, a9, b9⟩ := HM.bind_inv b8
    obtain ⟨v1, z1, z2, z3, z4, -, z6, -⟩ := hz4.openHub hid a1
    have z3' : ins.path = [c.E, inst] := by rw [z3, hp]; rfl
    have hvG : v1 p!"G" ≠ none := by rw [z4 _ (by decide), upd_self]; simp
    have hvT : v1 p!"TEMP_SP" = v p!"TEMP_SP" := by rw [z4 _ (by decide), upd_ne _ _ (by decide)]
    have hvD : v1 p!"DEGC_SP" = v p!"DEGC_SP" := by rw [z4 _ (by decide), upd_ne _ _ (by decide)]
    have hvS : v1 sam = none := by rw [z4 _ (by decide), upd_ne _ _ (by decide)]; exact hv0
    obtain ⟨hKI, chI, aI, e0, e1, -⟩ := z1.hub _ z2
    have hIl := lt_of_get? e0
    obtain ⟨x0, n1, n2, n3, n4, n5, n6, n7⟩ := z1.write (.inr z2) e0 (fun _ => .inl rfl) (by decide : Plain p!"name").single a2
    cases n1
    rw [if_pos z2] at n6
    have hl1 : s4.length ≤ t1.length := z1le hz4 hid a1
    have hK3 : ∀ i, K i → K2 i ∧ t2[i]? = s[i]? := fun i hi => by
      obtain ⟨q1, q2⟩ := hK2 i hi
      have hil : i < s.length := h.held.inv.lt i (.inr (.inl hi))
      refine ⟨q1, ?_⟩
      rw [n7 i (fun q => hKI (q ▸ q1)) (by omega), z6 i (hz4.held.ne_entry (K := fun i => K2 i ∨ _) (.inl q1)) (by omega), q2]
    have hXs : SamX sam := .inl rfl
    obtain ⟨K7, v7, S7⟩ := SamAt.first (SamAt.start n6 hvS) hXs hid hgn a3 a4 a5 a6 a7
    have hv7 : v7 inst = some ins.id := (S7.names inst (by decide)).trans z2
    have hum : upd u p!"name" (some t1.length) mono = none := by
      rw [upd_ne _ _ (by decide)]; exact hu0 _ (.inr (.inr (.inr rfl)))
    obtain ⟨K8, v8, u8, y1, y2, y3, y4, y5, y6, y7, y8, y9, y10⟩ : ∃ K8 v8 u8, Zone c SamX SamXI K8 v8 u8 t8 ∧ (∀ n, n ≠ sam → v8 n = v1 n) ∧
        (∀ i, (K2 i ∨ i = t1.length) → K8 i) ∧ t2.length ≤ t8.length ∧
        (∀ i, i ≠ c.e → i ≠ ins.id → i < t2.length → t8[i]? = t2[i]?) ∧
        (∀ n, n ≠ mono → u8 n = upd u p!"name" (some t1.length) n) ∧
        (samMembers c.E diff = none → v8 sam = none) ∧
        (∀ M, samMembers c.E diff = some M → ∃ b, v8 sam = some b ∧ SamIn (fun i => K8 i ∧ t2.length ≤ i) t8 b M) ∧
        (diff.wavelength = none → u8 mono = none) ∧
        ∀ wl, diff.wavelength = some wl → ∃ m b, u8 mono = some m ∧ v8 sam = some b ∧
          WaveAt (fun i => K8 i ∧ t2.length ≤ i) t8 c.E wl m b := by
      unfold samMembers
      cases hwl : diff.wavelength with
      | none =>
        rw [hwl] at a8
        obtain ⟨-, rfl⟩ := HM.ret_inv a8
        refine ⟨K7, v7, _, S7.zone, S7.names, S7.sub, S7.le, fun i h1 _ h3 => S7.old i h1 h3, fun _ _ => rfl, S7.none', ?_, fun _ => hum,
          (fun _ e => by cases e)⟩
        intro M hM
        obtain ⟨b, q1, q2⟩ := S7.some' M hM
        exact ⟨b, q1, q2.keep (fun _ _ => rfl) fun j hj => ⟨hj.1, hj.2.1⟩⟩
      | some wl =>
        rw [hwl] at a8
        obtain ⟨K8, v8, m, b, q1, q2, q3, q4, q5, q6, q7, q8⟩ := S7.wave hXs (.inr (.inr (.inr rfl))) hid hp hv7 z3' hum
          (beam_not_first diff) a8
        refine ⟨K8, v8, _, q1, fun n hn => (q2 n hn).trans (S7.names n hn), fun i hi => q3 i (S7.sub i hi), q4, fun i h1 h2 h3 =>
          q5 i h1 (fun q => h2 (by rw [hv7] at q; injection q with q; exact q.symm)) h3, fun n hn => upd_ne _ _ hn, (fun e => by cases e), ?_,
          (fun e => by cases e), ?_⟩
        · intro M hM
          cases hM
          exact ⟨b, q6, q7⟩
        · intro wl' e
          cases e
          exact ⟨m, b, upd_self .., q6, q8⟩
    have hv8 : v8 inst = some ins.id := (y2 inst (by decide)).trans z2
    obtain ⟨hKI8, chJ, aJ, f0, f1, -⟩ := y1.hub _ hv8
    have hIl8 := lt_of_get? f0
    have hug : u8 gpN = none := by
      rw [y6 _ (by decide), upd_ne _ _ (by decide)]; exact hu0 _ (.inr (.inl rfl))
    obtain ⟨c1, c2, c3, c4, c5, c6⟩ := y1.openNew (.inr hv8) f0 (fun _ => .inr (.inl rfl)) (by decide : Plain gpN).single
      (by simp [Dict.has, f1 _ (.inr (.inl rfl) : SamXI gpN), hug]) a9
    rw [if_pos hv8] at c5
    have hnote : note.id = t8.length := by rw [c1]
    obtain ⟨K', qs, g1, g2⟩ := GrpAt.each (fun kv : Str × GVal => (kv.1, gData kv.2, descAttr diff kv.1)) diff.gpar
      (GrpAt.start c5 (g := note.id) (by rw [hnote]; exact c3) (.inr hnote))
      (fun kv hkv => NoSlash.single (hgn.params _ (List.mem_map_of_mem hkv))) b9
    have hqs : qs = gparSets diff := by
      unfold gparSets
      clear g2 b9
      generalize diff.gpar = l at g1
      clear hgp
      induction g1 with
      | nil => rfl
      | cons h _ ih =>
        obtain ⟨q1, q2, q3⟩ := h
        rw [ih, List.map_cons]
        congr 1
        refine Prod.ext q1 (Prod.ext (gData_toH q2) ?_)
        rw [q3, gData_note]
        exact descAttr_update _ _
    rw [hqs] at g2
    have hfr : ∀ i, i ≠ ins.id → i < t8.length → s'[i]? = t8[i]? := fun i h1 h2 => by
      rw [g2.old i (by omega) (by omega), c6 i h1 h2]
    have hsub : ∀ i, K8 i → K' i := fun i hi => g2.sub i (.inl hi)
    have hlt8 : ∀ i, K8 i → i < t8.length := fun i hi => y1.held.inv.lt i (.inr (.inl hi))
    refine ⟨K', v8, _, diff, hdiff, k1, ?_, g2.zone, fun i hi => ?_, ?_, ?_, fun q => absurd q hgp, fun _ => ⟨?_, t8.length, ?_, by omega, ?_⟩⟩
    · rw [y2 _ (by decide)]; exact hvG
    · obtain ⟨q1, q2⟩ := hK3 i hi
      have hil : i < s.length := h.held.inv.lt i (.inr (.inl hi))
      have hi8 := y3 i (.inl q1)
      have hne : i ≠ ins.id := fun q => hKI (q ▸ q1)
      exact ⟨hsub i hi8, by rw [hfr i hne (hlt8 i hi8), y5 i (h.held.ne_entry (K := fun i => K i ∨ _) (.inl hi)) hne (by omega), q2]⟩
    · rw [y2 _ (by decide)]; exact hvT
    · rw [y2 _ (by decide)]; exact hvD
    · rw [upd_ne _ _ (by decide), y6 _ (by decide), upd_ne _ _ (by decide)]; exact hu0 _ (.inr (.inr (.inl rfl)))
    · rw [← hnote]; exact g2.kg
    · have hKG : ∀ i, K8 i ∧ t2.length ≤ i → K' i ∧ s.length ≤ i ∧ i ≠ t8.length := fun i hi => by
        have := hlt8 i hi.1
        exact ⟨hsub i hi.1, by have := hi.2; omega, by omega⟩
      have hkeep : ∀ i, K8 i ∧ t2.length ≤ i → s'[i]? = t8[i]? := fun i hi => hfr i (fun q => hKI8 (q ▸ hi.1)) (hlt8 i hi.1)
      refine ⟨⟨t1.length, ?_, ?_, ?_⟩, upd_self .., ?_, y7, ?_, ?_, ?_⟩
      · rw [upd_ne _ _ (by decide), y6 _ (by decide), upd_self]
      · have := y3 t1.length (.inr rfl)
        exact ⟨hsub _ this, by omega, by have := hlt8 _ this; omega⟩
      · have hne : t1.length ≠ c.e := by have : c.e < t1.length := z1.held.inv.elt; omega
        rw [hfr _ (by omega) (by omega), y5 _ hne (by omega) (by omega), n4]
        rfl
      · rw [← hnote]
        refine g2.holds.mono fun j hj => ⟨hj.1, ?_, ?_⟩
        · have := hj.2; omega
        · have := hj.2; omega
      · intro M hM
        obtain ⟨b, q1, q2⟩ := y8 M hM
        exact ⟨b, q1, q2.keep hkeep hKG⟩
      · intro q
        rw [upd_ne _ _ (by decide)]; exact y9 q
      · intro wl hwl
        obtain ⟨m, b, q1, q2, q3⟩ := y10 wl hwl
        refine ⟨m, b, ?_, q2, q3.keep hkeep hKG⟩
        rw [upd_ne _ _ (by decide)]; exact q1

/-! ### the temperature -/

/-- a set point as a dataset -/
def spData : SVal → HData
  | .str t => .text [ascii t]
  | .int i => oneI i
  | .flt f => oneF f

theorem sData_toH {g : SVal} {y : HData} (h : (sData g).toH = .ok y) : y = spData g := by
  cases g <;> (cases h; rfl)

theorem sData_note (g : SVal) (a : Dict AVal) : noteAttrs (sData g) a = a := by cases g <;> rfl

def tempAttrs : Dict AVal := [(p!"description", .str p!"temperature set point")]

def degcAttrs : Dict AVal := [(p!"units", .str p!"C"), (p!"description", .str p!"temperature set point (C)")]

/-- a set point shown as the dataset `N` with the attributes `A` -/
def SpAt (N : Str) (A : Dict AVal) (o : Option SVal) (Q : Nat → Prop) (v : Str → Option Nat) (s : H5) : Prop :=
  (o = none → v N = none) ∧ ∀ x, o = some x → ∃ i, v N = some i ∧ Q i ∧ s[i]? = some (.dset (spData x) A)

theorem SpAt.keep {N : Str} {A : Dict AVal} {o : Option SVal} {Q Q' : Nat → Prop} {v v' : Str → Option Nat} {s s' : H5} (h : SpAt N A o Q v s)
    (hv : v' N = v N) (hs : ∀ j, Q j → s'[j]? = s[j]?) (hQ : ∀ j, Q j → Q' j) : SpAt N A o Q' v' s' := by
  refine ⟨fun e => hv.trans (h.1 e), fun x e => ?_⟩
  obtain ⟨i, h1, h2, h3⟩ := h.2 x e
  exact ⟨i, hv.trans h1, hQ i h2, (hs i h2).trans h3⟩

/-- the values that an entry shows -/
structure GeoW where
  temp : Option SVal
  degc : Option SVal
  diff : Option Diff

/-- the attributes of the group of the parameters at the end -/
def gpAttrsF (E : Str) : Dict AVal := gpAttrs ++ [(p!"target", .str ('/' :: (E ++ p!"/instrument/diffractometer")))]

/-- the values `w` are shown; `l`: the group of the parameters is linked -/
def GeoΦ (l : Bool) (E : Str) (w : GeoW) (K : Nat → Prop) (v u : Str → Option Nat) (s : H5) : Prop :=
  ∃ KG : Nat → Prop, (∀ i, KG i → K i) ∧ SpAt p!"TEMP_SP" tempAttrs w.temp (fun i => K i ∧ ¬ KG i) v s ∧
    SpAt p!"DEGC_SP" degcAttrs w.degc (fun i => K i ∧ ¬ KG i) v s ∧ (v p!"G" = none → w.diff = none) ∧
    (∀ i, v p!"TEMP_SP" = some i → v p!"DEGC_SP" = some i → False) ∧
    (w.diff = none → v sam = none ∧ ∀ n, SamXI n → u n = none) ∧
    ∀ d, w.diff = some d → ∃ g, K g ∧ ¬ KG g ∧ u diffN = (if l then some g else none) ∧
      GeoIn E d (if l then gpAttrsF E else gpAttrs) (samMembers E d) KG v u s g

theorem GeoIn.keep {E : Str} {d : Diff} {A : Dict AVal} {Mem : Option (List (Str × Content))} {KG KG' : Nat → Prop}
    {v v' u : Str → Option Nat} {s s' : H5} {g : Nat} (h : GeoIn E d A Mem KG v u s g) (hv : v' sam = v sam)
    (hs : ∀ j, KG j ∨ j = g → s'[j]? = s[j]?) (hK : ∀ j, KG j → KG' j) : GeoIn E d A Mem KG' v' u s' g := by
  obtain ⟨⟨j, a1, a2, a3⟩, a4, a5, a6, a7, a8, a9⟩ := h
  have hs' : ∀ j, KG j → s'[j]? = s[j]? := fun j hj => hs j (.inl hj)
  refine ⟨⟨j, a1, hK j a2, (hs' j a2).trans a3⟩, a4, ?_, fun e => hv.trans (a6 e), fun M e => ?_, a8, fun wl e => ?_⟩
  · obtain ⟨ch, h1, h2, h3⟩ := a5
    exact ⟨ch, (hs g (.inr rfl)).trans h1, h2, h3.imp fun p q ⟨e1, e2, e3⟩ => ⟨e1, hK _ e2, (hs' _ e2).trans e3⟩⟩
  · obtain ⟨b, b1, b2⟩ := a7 M e
    exact ⟨b, hv.trans b1, b2.keep hs' hK⟩
  · obtain ⟨m, b, b1, b2, b3⟩ := a9 wl e
    exact ⟨m, b, b1, hv.trans b2, b3.keep hs' hK⟩

theorem GeoΦ.keep {l : Bool} {E : Str} {w : GeoW} {K : Nat → Prop} {v v' u : Str → Option Nat} {s s' : H5}
    (hv : ∀ n, n ≠ inst → v' n = v n) (hs : ∀ j, K j → s'[j]? = s[j]?) (h : GeoΦ l E w K v u s) : GeoΦ l E w K v' u s' := by
  obtain ⟨KG, h1, h2, h3, h4, h7, h5, h6⟩ := h
  refine ⟨KG, h1, h2.keep (hv _ (by decide)) (fun j hj => hs j hj.1) fun _ => id, h3.keep (hv _ (by decide)) (fun j hj => hs j hj.1) fun _ => id,
    fun e => h4 ((hv _ (by decide)).symm.trans e), fun i e1 e2 => h7 i ((hv _ (by decide)).symm.trans e1) ((hv _ (by decide)).symm.trans e2),
    fun e => ⟨(hv _ (by decide)).trans (h5 e).1, (h5 e).2⟩, fun d e => ?_⟩
  obtain ⟨g, g1, g2, g3, g4⟩ := h6 d e
  refine ⟨g, g1, g2, g3, g4.keep (hv _ (by decide)) ?_ fun _ => id⟩
  rintro j (q | rfl)
  · exact hs j (h1 j q)
  · exact hs j g1

/-- a set point is written -/
theorem GeoΦ.temp {c : Scope} {w : GeoW} {K : Nat → Prop} {v u : Str → Option Nat} {s s' : H5} (hz : Zone c SamX SamXI K v u s)
    (h : GeoΦ false c.E w K v u s) {e : HRef} (hid : e.id = c.e) (x : SVal) {r : HRef}
    (hw : writeDataset e p!"TEMP_SP" (sData x) (attr1 p!"description" p!"temperature set point") s = (s', .ok r)) :
    ∃ K' v', Zone c SamX SamXI K' v' u s' ∧ GeoΦ false c.E { w with temp := some x } K' v' u s' := by
  obtain ⟨KG, h1, h2, h3, h4, h7, h5, h6⟩ := h
  obtain ⟨y, e1, -, e3, e4, e5, e6⟩ := hz.ownWrite hid (.inr (.inl rfl)) (by decide) (by decide : Plain p!"TEMP_SP").single hw
  rw [sData_note] at e4
  obtain rfl := sData_toH e1
  have hlt : ∀ i, K i → i < s.length := fun i hi => hz.held.inv.lt i (.inr (.inl hi))
  have hfr : ∀ i, K i → s'[i]? = s[i]? := fun i hi => e6 i (hz.held.ne_entry (K := fun i => K i ∨ v inst = some i) (.inl hi)) (hlt i hi)
  have hv : ∀ n, n ≠ p!"TEMP_SP" → upd v p!"TEMP_SP" (some s.length) n = v n := fun n hn => upd_ne _ _ hn
  refine ⟨_, _, e5, KG, fun i hi => .inl (h1 i hi), ⟨(fun e => by cases e), fun x' e => ?_⟩,
    h3.keep (hv _ (by decide)) (fun j hj => hfr j hj.1) fun j hj => ⟨.inl hj.1, hj.2⟩, fun e => h4 ((hv _ (by decide)).symm.trans e), fun i q1 q2 => ?_,
    fun e => ⟨(hv _ (by decide)).trans (h5 e).1, (h5 e).2⟩, fun d e => ?_⟩
  · cases e
    exact ⟨s.length, upd_self .., ⟨.inr rfl, fun q => absurd (hlt _ (h1 _ q)) (by omega)⟩, e4⟩
  · rw [upd_self] at q1
    rw [hv _ (by decide)] at q2
    injection q1 with q1
    subst q1
    rcases hz.held.mem _ _ (.inl (.inr (.inr (.inl rfl)))) q2 with q | q
    · exact absurd (hlt _ q) (by omega)
    · have := lt_of_get? (hz.hub _ q).2.choose_spec.choose_spec.1
      omega
  · obtain ⟨g, g1, g2, g3, g4⟩ := h6 d e
    refine ⟨g, .inl g1, g2, g3, g4.keep (hv _ (by decide)) ?_ fun _ => id⟩
    rintro j (q | rfl)
    · exact hfr j (h1 j q)
    · exact hfr j g1

/-- the other set point is written -/
theorem GeoΦ.degc {c : Scope} {w : GeoW} {K : Nat → Prop} {v u : Str → Option Nat} {s s' : H5} (hz : Zone c SamX SamXI K v u s)
    (h : GeoΦ false c.E w K v u s) {e : HRef} (hid : e.id = c.e) (x : SVal) {r : HRef}
    (hw : writeDataset e p!"DEGC_SP" (sData x) [(p!"units", .str p!"C"), (p!"description", .str p!"temperature set point (C)")] s = (s', .ok r)) :
    ∃ K' v', Zone c SamX SamXI K' v' u s' ∧ GeoΦ false c.E { w with degc := some x } K' v' u s' := by
  obtain ⟨KG, h1, h2, h3, h4, h7, h5, h6⟩ := h
  obtain ⟨y, e1, -, e3, e4, e5, e6⟩ := hz.ownWrite hid (.inr (.inr (.inl rfl))) (by decide) (by decide : Plain p!"DEGC_SP").single hw
  rw [sData_note] at e4
  obtain rfl := sData_toH e1
  have hlt : ∀ i, K i → i < s.length := fun i hi => hz.held.inv.lt i (.inr (.inl hi))
  have hfr : ∀ i, K i → s'[i]? = s[i]? := fun i hi => e6 i (hz.held.ne_entry (K := fun i => K i ∨ v inst = some i) (.inl hi)) (hlt i hi)
  have hv : ∀ n, n ≠ p!"DEGC_SP" → upd v p!"DEGC_SP" (some s.length) n = v n := fun n hn => upd_ne _ _ hn
  refine ⟨_, _, e5, KG, fun i hi => .inl (h1 i hi), h2.keep (hv _ (by decide)) (fun j hj => hfr j hj.1) fun j hj => ⟨.inl hj.1, hj.2⟩,
    ⟨(fun e => by cases e), fun x' e => ?_⟩, fun e => h4 ((hv _ (by decide)).symm.trans e), fun i q2 q1 => ?_,
    fun e => ⟨(hv _ (by decide)).trans (h5 e).1, (h5 e).2⟩, fun d e => ?_⟩
  · cases e
    exact ⟨s.length, upd_self .., ⟨.inr rfl, fun q => absurd (hlt _ (h1 _ q)) (by omega)⟩, e4⟩
  · rw [upd_self] at q1
    rw [hv _ (by decide)] at q2
    injection q1 with q1
    subst q1
    rcases hz.held.mem _ _ (.inl (.inr (.inl rfl))) q2 with q | q
    · exact absurd (hlt _ q) (by omega)
    · have := lt_of_get? (hz.hub _ q).2.choose_spec.choose_spec.1
      omega
  · obtain ⟨g, g1, g2, g3, g4⟩ := h6 d e
    refine ⟨g, .inl g1, g2, g3, g4.keep (hv _ (by decide)) ?_ fun _ => id⟩
    rintro j (q | rfl)
    · exact hfr j (h1 j q)
    · exact hfr j g1

/-- what a writer shows -/
def GeoStep (_ : Obj) (f : H5Fn) (x : Obj) (w w' : GeoW) : Prop :=
  (f = .temperature ∧ w' = { w with temp := x.tempSP <|> w.temp, degc := x.degcSP <|> w.degc }) ∨
  (f = .geometry ∧ w.diff = none ∧ ∃ d, x.diff = some d ∧ w' = { w with diff := if d.gpar = [] then none else some d })

theorem zoned_geometry : ZonedRun SamX SamXI (fun f => f = .geometry ∨ f = .temperature) Always (GeoΦ false) GeoStep ⟨none, none, none⟩ where
  data := by decide
  avoids := by
    intro f hf
    have hu : ∀ f, ¬ (f = H5Fn.geometry ∨ f = H5Fn.temperature) → (∀ n ∈ usedBy f, ¬ SamX n) ∧ (∀ n ∈ hubUsed f, ¬ SamXI n) := by
      intro f hf
      cases f <;> first | exact absurd (.inl rfl) hf | exact absurd (.inr rfl) hf | exact ⟨by unfold SamX; decide, by unfold SamXI; decide⟩
    refine ⟨fun n hn _ => (hu f hf).1 n hn, (hu f hf).2, ?_⟩
    rintro - i (q | q | q | q)
    · have q2 : some 'u' = some 's' := congrArg List.head? q
      cases q2
    · have q2 : some 'u' = some 'T' := congrArg List.head? q
      cases q2
    · have q2 : some 'u' = some 'D' := congrArg List.head? q
      cases q2
    · have q2 : some 'u' = some 'G' := congrArg List.head? q
      cases q2
  step := by
    rintro f hf c e hdr x y K v u w s s' _ hr hid hp hz hΦ hw
    rcases hf with rfl | rfl
    · obtain ⟨t, _, hb, h2⟩ := HM.andThen_inv hw
      obtain ⟨_, rfl⟩ := HM.ret_inv h2
      obtain ⟨KG, h1, h2, h3, h4, h7, h5, h6⟩ := hΦ
      obtain ⟨K', v', u', d, k1, k2, k3, k4, k5, k6, k7, k8, k9⟩ := geo_writer hz hid hp x hr (fun e => h5 (h4 e)) hb
      refine ⟨K', v', u', { w with diff := if d.gpar = [] then none else some d }, k4, ?_, .inr ⟨rfl, h4 k2, d, k1, rfl⟩⟩
      have hlt : ∀ i, K i → i < s.length := fun i hi => hz.held.inv.lt i (.inr (.inl hi))
      by_cases hg : d.gpar = []
      · rw [if_pos hg]
        refine ⟨fun _ => False, fun _ q => q.elim, h2.keep k6 (fun j hj => (k5 j hj.1).2) fun j hj => ⟨(k5 j hj.1).1, id⟩,
          h3.keep k7 (fun j hj => (k5 j hj.1).2) fun j hj => ⟨(k5 j hj.1).1, id⟩, fun q => absurd q k3,
          fun i q1 q2 => h7 i (k6.symm.trans q1) (k7.symm.trans q2), fun _ => k8 hg, (fun d' q => by cases q)⟩
      · rw [if_neg hg]
        obtain ⟨q1, g, q2, q3, q4⟩ := k9 hg
        have hout : ∀ j, K j → ¬ (K' j ∧ s.length ≤ j ∧ j ≠ g) := fun j hj q => by have := hlt j hj; have := q.2.1; omega
        refine ⟨fun i => K' i ∧ s.length ≤ i ∧ i ≠ g, fun _ q => q.1, h2.keep k6 (fun j hj => (k5 j hj.1).2) fun j hj => ⟨(k5 j hj.1).1, hout j hj.1⟩,
          h3.keep k7 (fun j hj => (k5 j hj.1).2) fun j hj => ⟨(k5 j hj.1).1, hout j hj.1⟩, fun q => absurd q k3,
          fun i q1 q2 => h7 i (k6.symm.trans q1) (k7.symm.trans q2), (fun q => by cases q), fun d' q => ?_⟩
        cases q
        exact ⟨g, q2, fun q => q.2.2 rfl, q1, q4⟩
    · obtain ⟨t, _, hb, h2⟩ := HM.andThen_inv hw
      obtain ⟨_, rfl⟩ := HM.ret_inv h2
      unfold wTemperature at hb
      obtain ⟨t1, _, a1, a2⟩ := HM.bind_inv hb
      obtain ⟨K1, v1, z1, f1⟩ : ∃ K1 v1, Zone c SamX SamXI K1 v1 u t1 ∧ GeoΦ false c.E { w with temp := x.tempSP <|> w.temp } K1 v1 u t1 := by
        cases hx : x.tempSP with
        | none =>
          rw [hx] at a1
          obtain ⟨-, rfl⟩ := HM.ret_inv a1
          exact ⟨K, v, hz, hΦ⟩
        | some q =>
          rw [hx] at a1
          replace a1 : (do
            let _ ← writeDataset e p!"TEMP_SP" (sData q) (attr1 p!"description" p!"temperature set point")
            pure () : HM Unit) s = (t1, .ok _) := a1
          obtain ⟨t2, _, b1, b2⟩ := HM.bind_inv a1
          obtain ⟨-, rfl⟩ := HM.pure_inv b2
          exact hΦ.temp hz hid q b1
      obtain ⟨K2, v2, z2, f2⟩ : ∃ K2 v2, Zone c SamX SamXI K2 v2 u s' ∧
          GeoΦ false c.E { w with temp := x.tempSP <|> w.temp, degc := x.degcSP <|> w.degc } K2 v2 u s' := by
        cases hx : x.degcSP with
        | none =>
          rw [hx] at a2
          obtain ⟨-, rfl⟩ := HM.ret_inv a2
          exact ⟨K1, v1, z1, f1⟩
        | some q =>
          rw [hx] at a2
          replace a2 : (do
            let _ ← writeDataset e p!"DEGC_SP" (sData q) [(p!"units", .str p!"C"), (p!"description", .str p!"temperature set point (C)")]
            pure () : HM Unit) t1 = (s', .ok _) := a2
          obtain ⟨t2, _, b1, b2⟩ := HM.bind_inv a2
          obtain ⟨-, rfl⟩ := HM.pure_inv b2
          exact f1.degc z1 hid q b1
      exact ⟨K2, v2, u, _, z2, f2, .inl ⟨rfl, rfl⟩⟩
  keep := GeoΦ.keep
  init := fun E s => ⟨fun _ => False, fun _ q => q.elim, ⟨fun _ => rfl, (fun _ q => by cases q)⟩, ⟨fun _ => rfl, (fun _ q => by cases q)⟩,
    fun _ => rfl, (fun _ q => by cases q), fun _ => ⟨rfl, fun _ _ => rfl⟩, (fun _ q => by cases q)⟩
  pL := fun _ _ _ => trivial
  withL := by
    rintro hdr f x w w' (⟨h1, h2⟩ | ⟨h1, h2, d, h3, h4⟩) L
    · exact .inl ⟨h1, h2⟩
    · exact .inr ⟨h1, h2, d, h3, h4⟩

/-! ### what is added last -/

/-- whether a name of the entry is used -/
theorem Zone.containsX {c : Scope} {X XI : Str → Prop} {K : Nat → Prop} {v u : Str → Option Nat} {s s' : H5}
    (h : Zone c X XI K v u s) {e : HRef} (hid : e.id = c.e) {n : Str} (hn : X n) (hs : Single n) {b : Bool}
    (hw : H5.contains e n s = (s', .ok b)) : s' = s ∧ b = (v n).isSome := by
  obtain ⟨ch, a, e1, e2⟩ := h.held.entry
  have e1' : s[e.id]? = some (.group ch a) := by rw [hid]; exact e1
  rw [contains_eq e1' hs] at hw
  injection hw with q1 q2
  injection q2 with q2
  refine ⟨q1.symm, ?_⟩
  rw [← q2, Dict.has, e2 n (.inl hn)]

/-- the object of a name of the entry -/
theorem Zone.getX {c : Scope} {X XI : Str → Prop} {K : Nat → Prop} {v u : Str → Option Nat} {s s' : H5}
    (h : Zone c X XI K v u s) {e r : HRef} (hid : e.id = c.e) {n : Str} (hn : X n) (hs : Single n)
    (hw : H5.get e n s = (s', .ok r)) : s' = s ∧ v n = some r.id ∧ r.path = e.path ++ [n] := by
  obtain ⟨ch, a, e1, e2⟩ := h.held.entry
  have e1' : s[e.id]? = some (.group ch a) := by rw [hid]; exact e1
  cases hg : ch.get? n with
  | none => rw [get_missing e1' hs (by simp [Dict.has, hg])] at hw; cases hw
  | some j =>
    rw [get_eq e1' hs hg] at hw
    injection hw with q1 q2
    injection q2 with q2
    subst q2
    exact ⟨q1.symm, (e2 n (.inl hn)).symm.trans hg, rfl⟩

/-- the link of the parameters -/
theorem GeoΦ.link {c : Scope} {w : GeoW} {K : Nat → Prop} {v u : Str → Option Nat} {s s' : H5} (hz : Zone c SamX SamXI K v u s)
    (h : GeoΦ false c.E w K v u s) {e : HRef} (hid : e.id = c.e) (hp : e.path = [c.E]) (hw : addGeometry e s = (s', .ok ())) :
    ∃ u', Zone c SamX SamXI K v u' s' ∧ GeoΦ true c.E w K v u' s' := by
  obtain ⟨KG, h1, h2, h3, h4, h7, h5, h6⟩ := h
  unfold addGeometry at hw
  obtain ⟨t, b, w1, w2⟩ := HM.andThen_inv hw
  have hc : t = s ∧ b = (v inst).any (fun _ => (u gpN).isSome) := by
    unfold H5.contains HM.look at w1
    have hb : H5.base e p!"instrument/geometry_parameters" = e := by
      unfold H5.base; exact if_neg (by decide)
    have hcs : comps p!"instrument/geometry_parameters" = [inst, gpN] := by decide
    rw [hb, hcs] at w1
    injection w1 with q1 q2
    injection q2 with q2
    refine ⟨q1.symm, ?_⟩
    rw [← q2]
    beta_reduce
    obtain ⟨ch, a, e1, e2⟩ := hz.held.entry
    have e1' : s[e.id]? = some (.group ch a) := by rw [hid]; exact e1
    cases hI : v inst with
    | none =>
      have : H5.walk s e.id [inst, gpN] = none := by
        rw [H5.walk, e1']; simp only [(e2 inst (.inr rfl)).trans hI]
      rw [this]; rfl
    | some I =>
      obtain ⟨-, ch1, a1, g0, g1, -⟩ := hz.hub _ hI
      rw [walk_one e1' ((e2 inst (.inr rfl)).trans hI), walk_single _ g0, g1 _ (.inr (.inl rfl))]
      rfl
  obtain ⟨rfl, rfl⟩ := hc
  cases hd : w.diff with
  | none =>
    have hn : (v inst).any (fun _ => (u gpN).isSome) = false := by
      rw [(h5 hd).2 gpN (.inr (.inl rfl))]; cases v inst <;> rfl
    rw [hn] at w2
    obtain ⟨-, rfl⟩ := HM.ret_inv w2
    exact ⟨u, hz, KG, h1, h2, h3, h4, h7, h5, (fun d q => by rw [hd] at q; cases q)⟩
  | some d =>
    obtain ⟨g, g1, g2, g3, g4⟩ := h6 d hd
    have hug : u gpN = some g := g4.2.1
    cases hI : v inst with
    | none => have := hz.noHub hI gpN (.inr (.inl rfl)); rw [hug] at this; cases this
    | some I =>
      rw [hI, hug] at w2
      replace w2 : (do
        let instrument ← H5.get e p!"instrument"
        let gp ← H5.get instrument p!"geometry_parameters"
        setLink instrument p!"diffractometer" gp
        let target ← H5.get instrument p!"diffractometer"
        setTarget target target : HM Unit) t = (s', .ok ()) := w2
      obtain ⟨t1, ins, a1, b1⟩ := HM.bind_inv w2
      obtain ⟨t2, gp, a2, b2⟩ := HM.bind_inv b1
      obtain ⟨t3, _, a3, b3⟩ := HM.bind_inv b2
      obtain ⟨t4, tg, a4, b4⟩ := HM.bind_inv b3
      obtain ⟨rfl, hI', hpi⟩ := hz.getInst hid a1
      obtain ⟨hK, ch, a0, e0, e1, -⟩ := hz.hub _ hI'
      rw [get_eq e0 (by decide : Plain gpN).single ((e1 _ (.inr (.inl rfl))).trans hug)] at a2
      injection a2 with q1 q2
      injection q2 with q2
      subst q1 q2
      have hgl : g < t1.length := hz.held.inv.lt g (.inr (.inl g1))
      have hnd : ch.has diffN = false := by
        have : ch.get? diffN = none := (e1 _ (.inr (.inr (.inl rfl)))).trans g3
        simp [Dict.has, this]
      rw [link_eq (obj := ⟨g, ins.path ++ [gpN]⟩) e0 (by decide : Plain diffN).single hnd hgl] at a3
      injection a3 with a3 _
      have hz3 : Zone c SamX SamXI K v (upd u diffN (some g)) t3 := by
        rw [← a3]
        refine hz.hubSet hI' e0 (Dict.nodup_keys_set _ _ _ (hz.held.inv.wf _ _ _ e0).1) ?_ ?_
        · intro m j hm
          rcases Dict.mem_set hm with q | q
          · injection q with q1 q2
            subst q1 q2
            exact .inr ⟨hgl, hz.held.ne_entry (K := fun i => K i ∨ v inst = some i) (.inl g1), fun q => hK (q ▸ g1),
              hz.held.apart _ (.inl g1), fun _ => .inr (.inr (.inl rfl))⟩
          · exact .inl q
        · intro m hm
          by_cases q : m = diffN
          · subst q
            rw [Dict.get?_set_self, upd_self]
          · rw [Dict.get?_set_ne _ _ (Ne.symm q), upd_ne _ _ q]
            exact e1 m hm
      have hIl := lt_of_get? e0
      have h3I : t3[ins.id]? = some (.group (ch.set diffN g) a0) := by rw [← a3, set_get? _ _ _ _ hIl, if_pos rfl]
      have hfr3 : ∀ i, K i → t3[i]? = t1[i]? := fun i hi => by
        rw [← a3, set_get? _ _ _ _ hIl, if_neg (show ¬ i = ins.id from fun q => hK (q ▸ hi))]
      rw [get_eq h3I (by decide : Plain diffN).single (Dict.get?_set_self _ _ _)] at a4
      injection a4 with q1 q2
      injection q2 with q2
      subst q1 q2
      obtain ⟨g5, g6, ⟨chg, k1, k2, k3⟩, g8⟩ := g4
      have k1' : t3[g]? = some (.group chg gpAttrs) := (hfr3 g g1).trans k1
      have hnm : nameOf ⟨g, ins.path ++ [diffN]⟩ = '/' :: (c.E ++ p!"/instrument/diffractometer") := by
        rw [hpi, hp]; simp [nameOf, join]
      unfold setTarget at b4
      rw [setAttr_eq (h := ⟨g, ins.path ++ [diffN]⟩) k1', hnm] at b4
      injection b4 with b4 _
      have hz4 : Zone c SamX SamXI K v (upd u diffN (some g)) s' := by rw [← b4]; exact hz3.retag g1 k1' _
      have hfr : ∀ i, K i → i ≠ g → s'[i]? = t1[i]? := fun i hi hig => by
        rw [← b4, set_get? _ _ _ _ (lt_of_get? k1'), if_neg (show ¬ i = g from hig), hfr3 i hi]
      have hs'g : s'[g]? = some (.group chg (gpAttrsF c.E)) := by
        rw [← b4, set_get? _ _ _ _ (lt_of_get? k1'), if_pos rfl]; rfl
      have hsp : ∀ {N A o}, SpAt N A o (fun i => K i ∧ ¬ KG i) v t1 → SpAt N A o (fun i => K i ∧ ¬ KG i) v s' := by
        intro N A o q
        refine ⟨q.1, fun x e => ?_⟩
        obtain ⟨i, i1, i2, i3⟩ := q.2 x e
        refine ⟨i, i1, i2, (hfr i i2.1 ?_).trans i3⟩
        rintro rfl
        rw [k1] at i3; cases i3
      have hkg : ∀ i, KG i → s'[i]? = t1[i]? := fun i hi => hfr i (h1 i hi) (fun q => g2 (q ▸ hi))
      refine ⟨_, hz4, KG, h1, hsp h2, hsp h3, h4, h7, (fun q => by rw [hd] at q; cases q), fun d' q => ?_⟩
      rw [hd] at q
      cases q
      refine ⟨g, g1, g2, upd_self .., ?_⟩
      obtain ⟨⟨j, j1, j2, j3⟩, -⟩ := (⟨g5, g6⟩ : _ ∧ _)
      obtain ⟨g9, g10, g11, g12⟩ := g8
      refine ⟨⟨j, (upd_ne _ _ (by decide)).trans j1, j2, (hkg j j2).trans j3⟩, (upd_ne _ _ (by decide)).trans g6,
        ⟨chg, hs'g, k2, k3.imp fun p q ⟨e1, e2, e3⟩ => ⟨e1, e2, (hkg _ e2).trans e3⟩⟩, g9, fun M e => ?_, fun e => (upd_ne _ _ (by decide)).trans (g11 e),
        fun wl e => ?_⟩
      · obtain ⟨b, b1, b2⟩ := g10 M e
        exact ⟨b, b1, b2.keep hkg fun _ => id⟩
      · obtain ⟨m, b, b1, b2, b3⟩ := g12 wl e
        exact ⟨m, b, (upd_ne _ _ (by decide)).trans b1, b2, b3.keep hkg fun _ => id⟩

/-- the link of a set point in a group -/
def addSp (e temperature : HRef) (N n : Str) : HM Unit := do
  let target ← H5.get e N
  setLink temperature n target
  let v ← H5.get temperature n
  setTarget target v

theorem Zone.addSp {c : Scope} {K : Nat → Prop} {v u : Str → Option Nat} {s s' : H5} (hz : Zone c SamX SamXI K v u s) {e tg : HRef}
    (hid : e.id = c.e) {N n : Str} (hN : SamX N) (hs : Single N) (hn : Single n) {ch : Dict Nat} {a : Dict AVal}
    (hg : s[tg.id]? = some (.group ch a)) (hK : K tg.id) (hf : ch.has n = false) {i : Nat} (hi : v N = some i) (hKi : K i) {x : HData} {A : Dict AVal}
    (hx : s[i]? = some (.dset x A)) (hw : S2N.addSp e tg N n s = (s', .ok ())) :
    Zone c SamX SamXI K v u s' ∧ s'[tg.id]? = some (.group (ch.set n i) a) ∧
      s'[i]? = some (.dset x (A.set p!"target" (.str (nameOf ⟨i, tg.path ++ [n]⟩)))) ∧ (∀ j, j ≠ tg.id → j ≠ i → s'[j]? = s[j]?) ∧
      s'.length = s.length := by
  unfold S2N.addSp at hw
  obtain ⟨t1, t, a1, b1⟩ := HM.bind_inv hw
  obtain ⟨t2, _, a2, b2⟩ := HM.bind_inv b1
  obtain ⟨t3, q, a3, b3⟩ := HM.bind_inv b2
  obtain ⟨rfl, h1, -⟩ := hz.getX hid hN hs a1
  rw [hi] at h1
  injection h1 with h1
  have hil := lt_of_get? hx
  have htl := lt_of_get? hg
  have hit : i ≠ tg.id := by rintro rfl; rw [hg] at hx; cases hx
  rw [link_eq hg hn hf (by rw [← h1]; exact hil), ← h1] at a2
  injection a2 with a2 _
  have hz2 : Zone c SamX SamXI K v u t2 := by
    rw [← a2]
    refine hz.put hK hg (Dict.nodup_keys_set _ _ _ (hz.held.inv.wf _ _ _ hg).1) fun m j hm => ?_
    rcases Dict.mem_set hm with q | q
    · injection q with _ q2
      subst q2
      exact .inr hKi
    · exact .inl q
  have h2g : t2[tg.id]? = some (.group (ch.set n i) a) := by rw [← a2, set_get? _ _ _ _ htl, if_pos rfl]
  have h2i : t2[i]? = some (.dset x A) := by rw [← a2, set_get? _ _ _ _ htl, if_neg hit, hx]
  rw [get_eq h2g hn (Dict.get?_set_self _ _ _)] at a3
  injection a3 with q1 q2
  injection q2 with q2
  subst q1 q2
  unfold setTarget at b3
  rw [setAttr_eq (h := t) (node := .dset x A) (by rw [← h1]; exact h2i), ← h1] at b3
  injection b3 with b3 _
  have hil2 := lt_of_get? h2i
  refine ⟨by rw [← b3]; exact hz2.retag hKi h2i _, ?_, ?_, fun j hj1 hj2 => ?_, by rw [← b3, List.length_set, ← a2, List.length_set]⟩
  · rw [← b3, set_get? _ _ _ _ hil2, if_neg hit.symm, h2g]
  · rw [← b3, set_get? _ _ _ _ hil2, if_pos rfl]; rfl
  · rw [← b3, set_get? _ _ _ _ hil2, if_neg (show ¬ j = i from hj2), ← a2, set_get? _ _ _ _ htl, if_neg (show ¬ j = tg.id from hj1)]

def targetAttr (E n : Str) : Dict AVal := [(p!"target", .str ('/' :: (E ++ p!"/sample/temperature/" ++ n)))]

def tempAttrsF (E : Str) : Dict AVal := tempAttrs ++ targetAttr E p!"target_value"

def degcAttrsF (E : Str) : Dict AVal := degcAttrs ++ targetAttr E p!"value"

/-- the members of the group "sample/temperature" -/
def logSets (E : Str) (w : GeoW) : Sets :=
  (match w.temp with | none => [] | some x => [(p!"target_value", spData x, tempAttrsF E)]) ++
  (match w.degc with | none => [] | some x => [(p!"value", spData x, degcAttrsF E)])

def logAttrs : Dict AVal := [(p!"NX_class", .str p!"NXlog")]

def GeoW.logged (w : GeoW) : Bool := w.temp.isSome || w.degc.isSome

/-- the members of the group "sample" at the end -/
def finMembers (E : Str) (w : GeoW) (d : Diff) : Option (List (Str × Content)) :=
  if w.logged then some ((samMembers E d).getD [] ++ [(p!"temperature", .grp (logSets E w) logAttrs)]) else samMembers E d

/-- the links of the set points -/
def LogAt (K : Nat → Prop) (w : GeoW) (v : Str → Option Nat) (s : H5) : Prop :=
  ∃ b chb tg cht, v sam = some b ∧ K b ∧ s[b]? = some (.group chb samAttrs) ∧ chb.get? p!"temperature" = some tg ∧ K tg ∧
    s[tg]? = some (.group cht logAttrs) ∧ (∀ x, w.temp = some x → cht.get? p!"target_value" = v p!"TEMP_SP") ∧
    (∀ x, w.degc = some x → cht.get? p!"value" = v p!"DEGC_SP")

/-- the values `w` are shown at the end -/
def GeoΨ (E : Str) (w : GeoW) (K : Nat → Prop) (v u : Str → Option Nat) (s : H5) : Prop :=
  SpAt p!"TEMP_SP" (tempAttrsF E) w.temp K v s ∧ SpAt p!"DEGC_SP" (degcAttrsF E) w.degc K v s ∧
    (w.diff = none → v sam = none ∧ (∀ n, SamXI n → u n = none) ∧ w.logged = false) ∧
    ∀ d, w.diff = some d → ∃ g, K g ∧ u diffN = some g ∧ GeoIn E d (gpAttrsF E) (finMembers E w d) K v u s g ∧
      (w.logged = true → samMembers E d ≠ none ∧ LogAt K w v s)

/-- the wavelength is still there if the group "sample" gets another member -/
theorem WaveAt.more {K K' : Nat → Prop} {s s' : H5} {E : Str} {wl : PyFloat} {m b : Nat} (h : WaveAt K s E wl m b) {ch : Dict Nat}
    (hc : s[b]? = some (.group ch samAttrs)) {n : Str} {j : Nat} (hb : s'[b]? = some (.group (ch.set n j) samAttrs)) (hn : n ≠ p!"beam")
    (hs : ∀ i, K i → i ≠ b → s'[i]? = s[i]?) (hK : ∀ i, K i → K' i) : WaveAt K' s' E wl m b := by
  obtain ⟨L, chb, bm, h1, h2, h3, h4, h5, h6, h7, h8, h9⟩ := h
  rw [hc] at h6
  injection h6 with h6
  injection h6 with h6 _
  subst h6
  have n1 : m ≠ b := by
    rintro rfl
    rw [hc] at h2
    injection h2 with h2
    injection h2 with _ h2
    exact absurd h2 (by decide)
  have n2 : L ≠ b := by rintro rfl; rw [hc] at h4; cases h4
  have n3 : bm ≠ b := by
    rintro rfl
    rw [hc] at h9
    injection h9 with h9
    injection h9 with _ h9
    exact absurd h9 (by decide)
  exact ⟨L, _, bm, hK _ h1, (hs _ h1 n1).trans h2, hK _ h3, (hs _ h3 n2).trans h4, hK _ h5, hb, (Dict.get?_set_ne _ _ hn).trans h7, hK _ h8,
    (hs _ h8 n3).trans h9⟩

/-- the links of the set points are added -/
theorem GeoΦ.logs {c : Scope} {w : GeoW} {K : Nat → Prop} {v u : Str → Option Nat} {s s' : H5} (hz : Zone c SamX SamXI K v u s)
    (h : GeoΦ true c.E w K v u s) {e : HRef} (hid : e.id = c.e) (hp : e.path = [c.E]) (hw : addLast e s = (s', .ok ())) :
    ∃ K', Zone c SamX SamXI K' v u s' ∧ GeoΨ c.E w K' v u s' := by
  obtain ⟨KG, h1, h2, h3, h4, h7, h5, h6⟩ := h
  have hTX : SamX p!"TEMP_SP" := .inr (.inl rfl)
  have hDX : SamX p!"DEGC_SP" := .inr (.inr (.inl rfl))
  have hTs : Single p!"TEMP_SP" := (by decide : Plain p!"TEMP_SP").single
  have hDs : Single p!"DEGC_SP" := (by decide : Plain p!"DEGC_SP").single
  have sp : ∀ {N A o}, SpAt N A o (fun i => K i ∧ ¬ KG i) v s → (v N).isSome = o.isSome := by
    intro N A o q
    cases o with
    | none => rw [q.1 rfl]; rfl
    | some x => obtain ⟨i, i1, -⟩ := q.2 x rfl; rw [i1]; rfl
  unfold addLast at hw
  obtain ⟨t, b, a1, b1⟩ := HM.bind_inv hw
  obtain ⟨rfl, rfl⟩ := hz.containsX hid hTX hTs a1
  obtain ⟨t0, b, a2, b2⟩ := HM.bind_inv b1
  obtain ⟨rfl, rfl⟩ := hz.containsX hid hDX hDs a2
  rw [sp h2, sp h3] at b2
  cases hlog : w.logged with
  | false =>
    have hlog' : (w.temp.isSome || w.degc.isSome) = false := hlog
    rw [hlog'] at b2
    obtain ⟨-, rfl⟩ := HM.ret_inv b2
    have hT : w.temp = none := by cases hq : w.temp with | none => rfl | some _ => rw [hq] at hlog'; cases hlog'
    have hD : w.degc = none := by cases hq : w.degc with | none => rfl | some _ => rw [hq] at hlog'; simp at hlog'
    refine ⟨K, hz, ⟨h2.1, (fun x q => by rw [hT] at q; cases q)⟩, ⟨h3.1, (fun x q => by rw [hD] at q; cases q)⟩, fun q => ⟨(h5 q).1, (h5 q).2, hlog⟩, fun d hd => ?_⟩
    obtain ⟨g, g1, g2, g3, g4⟩ := h6 d hd
    refine ⟨g, g1, g3, ?_, (fun q => by rw [hlog] at q; cases q)⟩
    unfold finMembers
    rw [hlog]
    exact g4.keep rfl (fun _ _ => rfl) h1
  | true =>
    have hlog' : (w.temp.isSome || w.degc.isSome) = true := hlog
    rw [hlog'] at b2
    replace b2 : (do
      let sample ← H5.get e p!"sample"
      let temperature ← makeGroup sample p!"temperature" p!"NXlog" []
      HM.onlyIf w.temp.isSome (S2N.addSp e temperature p!"TEMP_SP" p!"target_value")
      HM.onlyIf w.degc.isSome (S2N.addSp e temperature p!"DEGC_SP" p!"value") : HM Unit) t0 = (s', .ok ()) := b2
    obtain ⟨t1, sa, c1, d1⟩ := HM.bind_inv b2
    obtain ⟨t2, tg, c2, d2⟩ := HM.bind_inv d1
    obtain ⟨t3, _, c3, d3⟩ := HM.bind_inv d2
    obtain ⟨rfl, hsa, hsp⟩ := hz.getX hid (.inl rfl) (by decide : Plain p!"sample").single c1
    obtain ⟨d, hd⟩ : ∃ d, w.diff = some d := by
      cases hq : w.diff with
      | none => rw [(h5 hq).1] at hsa; cases hsa
      | some d => exact ⟨d, rfl⟩
    obtain ⟨g, g1, g2, g3, g4⟩ := h6 d hd
    obtain ⟨g5, g6, g7, g8, g9, g10, g11⟩ := g4
    obtain ⟨M, hM⟩ : ∃ M, samMembers c.E d = some M := by
      cases hq : samMembers c.E d with
      | none => rw [g8 hq] at hsa; cases hsa
      | some M => exact ⟨M, rfl⟩
    obtain ⟨b, k1, hS⟩ := g9 M hM
    rw [hsa] at k1
    injection k1 with k1
    subst k1
    have hS0 := hS
    obtain ⟨kb, ch, l1, l2, l3⟩ := hS
    have hnI : ¬ v inst = some sa.id := fun q => (hz.hub _ q).1 (h1 _ kb)
    obtain ⟨m1, m2, m3, m4, m5, m6, m7⟩ := hz.make (.inl (h1 _ kb)) l1 (fun q => absurd q hnI) (by decide : Plain p!"temperature").single c2
    rw [if_neg hnI] at m6
    have m4 : t2[t1.length]? = some (.group [] logAttrs) := m4
    have htg : tg = ⟨t1.length, [c.E, sam, p!"temperature"]⟩ := by rw [m2, hsp, hp]; rfl
    have hlt : ∀ i, K i → i < t1.length := fun i hi => hz.held.inv.lt i (.inr (.inl hi))
    have hba : ∀ {N A o x i}, SpAt N A o (fun i => K i ∧ ¬ KG i) v t1 → o = some x → v N = some i →
        K i ∧ ¬ KG i ∧ i ≠ sa.id ∧ i < t1.length ∧ t1[i]? = some (.dset (spData x) A) := by
      intro N A o x i q ho hv
      obtain ⟨j, j1, j2, j3⟩ := q.2 x ho
      rw [hv] at j1
      injection j1 with j1
      subst j1
      exact ⟨j2.1, j2.2, fun q => j2.2 (q ▸ kb), hlt _ j2.1, j3⟩
    -- the first link
    obtain ⟨ch1, x1, x2, x3, x4, x5, x6, x7⟩ : ∃ ch1, Zone c SamX SamXI (fun i => K i ∨ i = t1.length) v u t3 ∧
        t3[t1.length]? = some (.group ch1 logAttrs) ∧
        List.Forall₂ (fun (p : Str × Nat) (q : Str × HData × Dict AVal) => p.1 = q.1 ∧ K p.2 ∧ t3[p.2]? = some (.dset q.2.1 q.2.2)) ch1
          (match w.temp with | none => [] | some x => [(p!"target_value", spData x, tempAttrsF c.E)]) ∧
        (∀ j, j ≠ t1.length → v p!"TEMP_SP" ≠ some j → t3[j]? = t2[j]?) ∧ SpAt p!"TEMP_SP" (tempAttrsF c.E) w.temp K v t3 ∧
        (ch1.get? p!"target_value" = v p!"TEMP_SP" ∧ ch1.has p!"value" = false) ∧ (Dict.keys ch1).Nodup := by
      cases hq : w.temp with
      | none =>
        rw [hq] at c3
        obtain ⟨-, rfl⟩ := HM.ret_inv c3
        exact ⟨[], m6, m4, .nil, fun _ _ _ => rfl, ⟨fun _ => h2.1 hq, (fun _ q => by cases q)⟩, ⟨(h2.1 hq).symm, rfl⟩, List.nodup_nil⟩
      | some x =>
        rw [hq] at c3
        replace c3 : S2N.addSp e tg p!"TEMP_SP" p!"target_value" t2 = (t3, .ok _) := c3
        obtain ⟨i, i1, -, -⟩ := h2.2 x hq
        obtain ⟨j1, j2, j3, j4, j5⟩ := hba h2 hq i1
        have hx2 : t2[i]? = some (.dset (spData x) tempAttrs) := (m7 i j3 j4).trans j5
        obtain ⟨y1, y2, y3, y4, y5⟩ := m6.addSp hid hTX hTs (by decide : Plain p!"target_value").single (tg := tg) (by rw [htg]; exact m4)
          (.inr (by rw [htg])) rfl i1 (.inl j1) hx2 c3
        have hA : tempAttrs.set p!"target" (.str (nameOf ⟨i, tg.path ++ [p!"target_value"]⟩)) = tempAttrsF c.E := by
          have : nameOf ⟨i, tg.path ++ [p!"target_value"]⟩ = '/' :: (c.E ++ p!"/sample/temperature/" ++ p!"target_value") := by
            rw [htg]; simp [nameOf, join]
          rw [this]; rfl
        rw [hA] at y3
        rw [htg] at y2 y4
        refine ⟨[(p!"target_value", i)], y1, y2, .cons ⟨rfl, j1, y3⟩ .nil, fun j q1 q2 => y4 j q1 fun q => q2 (by rw [q]; exact i1),
          ⟨(fun q => by cases q), fun x' q => by cases q; exact ⟨i, i1, j1, y3⟩⟩, ⟨by rw [i1]; rfl, rfl⟩, by simp [Dict.keys]⟩
    obtain ⟨ch2, z1, z2, z3, z4, z5, z6, z7⟩ : ∃ ch2, Zone c SamX SamXI (fun i => K i ∨ i = t1.length) v u s' ∧
        s'[t1.length]? = some (.group (ch1 ++ ch2) logAttrs) ∧
        List.Forall₂ (fun (p : Str × Nat) (q : Str × HData × Dict AVal) => p.1 = q.1 ∧ K p.2 ∧ s'[p.2]? = some (.dset q.2.1 q.2.2)) ch2
          (match w.degc with | none => [] | some x => [(p!"value", spData x, degcAttrsF c.E)]) ∧
        (∀ j, j ≠ t1.length → v p!"DEGC_SP" ≠ some j → s'[j]? = t3[j]?) ∧ SpAt p!"DEGC_SP" (degcAttrsF c.E) w.degc K v s' ∧
        (∀ x, w.degc = some x → (ch1 ++ ch2).get? p!"value" = v p!"DEGC_SP") ∧ (Dict.keys (ch1 ++ ch2)).Nodup ∧
        (ch1 ++ ch2).get? p!"target_value" = v p!"TEMP_SP" := by
      cases hq : w.degc with
      | none =>
        rw [hq] at d3
        obtain ⟨-, rfl⟩ := HM.ret_inv d3
        exact ⟨[], x1, by rw [List.append_nil]; exact x2, .nil, fun _ _ _ => rfl, ⟨fun _ => h3.1 hq, (fun _ q => by cases q)⟩,
          (fun _ q => by cases q), by rw [List.append_nil]; exact x7, by rw [List.append_nil]; exact x6.1⟩
      | some x =>
        rw [hq] at d3
        replace d3 : S2N.addSp e tg p!"DEGC_SP" p!"value" t3 = (s', .ok _) := d3
        obtain ⟨i, i1, -, -⟩ := h3.2 x hq
        obtain ⟨j1, j2, j3, j4, j5⟩ := hba h3 hq i1
        have hx2 : t3[i]? = some (.dset (spData x) degcAttrs) := by
          rw [x4 i (by omega) (fun q => h7 i q i1), m7 i j3 j4, j5]
        obtain ⟨y1, y2, y3, y4, y5⟩ := x1.addSp hid hDX hDs (by decide : Plain p!"value").single (tg := tg) (by rw [htg]; exact x2)
          (.inr (by rw [htg])) x6.2 i1 (.inl j1) hx2 d3
        have hA : degcAttrs.set p!"target" (.str (nameOf ⟨i, tg.path ++ [p!"value"]⟩)) = degcAttrsF c.E := by
          have : nameOf ⟨i, tg.path ++ [p!"value"]⟩ = '/' :: (c.E ++ p!"/sample/temperature/" ++ p!"value") := by
            rw [htg]; simp [nameOf, join]
          rw [this]; rfl
        rw [hA] at y3
        rw [htg] at y2 y4
        have hset : ch1.set p!"value" i = ch1 ++ [(p!"value", i)] := Dict.set_of_not_mem _ _ _ ((Dict.not_has_iff _ _).1 x6.2)
        have hnd := Dict.nodup_keys_set ch1 p!"value" i x7
        have hgv := Dict.get?_set_self ch1 p!"value" i
        have hgt := Dict.get?_set_ne ch1 i (show p!"value" ≠ p!"target_value" by decide)
        rw [hset] at y2 hnd hgv hgt
        refine ⟨[(p!"value", i)], y1, y2, .cons ⟨rfl, j1, y3⟩ .nil, fun j q1 q2 => y4 j q1 fun q => q2 (by rw [q]; exact i1),
          ⟨(fun q => by cases q), fun x' q => by cases q; exact ⟨i, i1, j1, y3⟩⟩, fun _ _ => hgv.trans i1.symm, hnd, hgt.trans x6.1⟩
    have hTi : ∀ j, v p!"TEMP_SP" = some j → K j ∧ ¬ KG j ∧ v p!"DEGC_SP" ≠ some j ∧ j ≠ t1.length := by
      intro j hj
      cases hq : w.temp with
      | none => rw [h2.1 hq] at hj; cases hj
      | some x =>
        obtain ⟨y1, y2, y3, y4, y5⟩ := hba h2 hq hj
        exact ⟨y1, y2, fun q => h7 j hj q, by omega⟩
    have hDi : ∀ j, v p!"DEGC_SP" = some j → K j ∧ ¬ KG j := by
      intro j hj
      cases hq : w.degc with
      | none => rw [h3.1 hq] at hj; cases hj
      | some x =>
        obtain ⟨y1, y2, y3, y4, y5⟩ := hba h3 hq hj
        exact ⟨y1, y2⟩
    have hfr : ∀ i, KG i ∨ i = g → i ≠ sa.id → s'[i]? = t1[i]? := by
      intro i hi hib
      have hKi : K i := by rcases hi with q | q; exacts [h1 i q, q ▸ g1]
      have hil := hlt i hKi
      have hno : v p!"DEGC_SP" ≠ some i ∧ v p!"TEMP_SP" ≠ some i := by
        rcases hi with q | q
        · exact ⟨fun e => (hDi i e).2 q, fun e => (hTi i e).2.1 q⟩
        · subst q
          obtain ⟨chg, y1, -⟩ := g7
          constructor
          · intro e
            cases hq : w.degc with
            | none => rw [h3.1 hq] at e; cases e
            | some x => have := (hba h3 hq e).2.2.2.2; rw [y1] at this; cases this
          · intro e
            cases hq : w.temp with
            | none => rw [h2.1 hq] at e; cases e
            | some x => have := (hba h2 hq e).2.2.2.2; rw [y1] at this; cases this
      rw [z4 i (by omega) hno.1, x4 i (by omega) hno.2, m7 i hib hil]
    have hb' : s'[sa.id]? = some (.group (ch.set p!"temperature" t1.length) samAttrs) := by
      have hil := lt_of_get? l1
      have hno : v p!"DEGC_SP" ≠ some sa.id ∧ v p!"TEMP_SP" ≠ some sa.id := ⟨fun e => (hDi _ e).2 kb, fun e => (hTi _ e).2.1 kb⟩
      rw [z4 _ (by omega) hno.1, x4 _ (by omega) hno.2, m5]
    have hH : Holds (fun i => K i ∨ i = t1.length) s' t1.length (.grp (logSets c.E w) logAttrs) := by
      refine ⟨ch1 ++ ch2, z2, z7.1, ?_⟩
      refine List.rel_append ?_ (z3.imp fun p q ⟨e1, e2, e3⟩ => ⟨e1, .inl e2, e3⟩)
      cases hq : w.temp with
      | none => rw [hq] at x3; cases x3; exact .nil
      | some x =>
        rw [hq] at x3
        obtain ⟨p, rest, ⟨e1, e2, e3⟩, hr, rfl⟩ := List.forall₂_cons_right_iff.1 x3
        cases hr
        refine .cons ⟨e1, .inl e2, ?_⟩ .nil
        have hv : v p!"TEMP_SP" = some p.2 := by
          rw [← x6.1]
          show Dict.get? [(p.1, p.2)] p!"target_value" = some p.2
          rw [e1]; rfl
        rw [z4 _ (hTi _ hv).2.2.2 (hTi _ hv).2.2.1]
        exact e3
    have hgs : g ≠ sa.id := fun q => g2 (q ▸ kb)
    refine ⟨_, z1, ?_, z5.keep rfl (fun _ _ => rfl) fun _ => .inl, (fun q => by rw [hd] at q; cases q), fun d' q => ?_⟩
    · refine ⟨x5.1, fun x q => ?_⟩
      obtain ⟨i, i1, i2, i3⟩ := x5.2 x q
      exact ⟨i, i1, .inl i2, (z4 i (hTi i i1).2.2.2 (hTi i i1).2.2.1).trans i3⟩
    · rw [hd] at q
      cases q
      refine ⟨g, .inl g1, g3, ?_, fun _ => ⟨by rw [hM]; simp, sa.id, _, t1.length, ch1 ++ ch2, hsa, .inl (h1 _ kb), hb', Dict.get?_set_self _ _ _, .inr rfl, z2, fun _ _ => z7.2,
        z6⟩⟩
      obtain ⟨j, j1, j2, j3⟩ := g5
      have hjs : j ≠ sa.id := by rintro rfl; rw [l1] at j3; cases j3
      refine ⟨⟨j, j1, .inl (h1 _ j2), (hfr j (.inl j2) hjs).trans j3⟩, g6, ?_, ?_, fun M' hM' => ⟨sa.id, hsa, ?_⟩, g10, fun wl hwl => ?_⟩
      · obtain ⟨chg, y1, y2, y3⟩ := g7
        refine ⟨chg, (hfr g (.inr rfl) hgs).trans y1, y2, y3.imp fun p q ⟨e1, e2, e3⟩ => ⟨e1, .inl (h1 _ e2), (hfr _ (.inl e2) ?_).trans e3⟩⟩
        rintro e
        rw [e, l1] at e3; cases e3
      · intro q; unfold finMembers at q; rw [hlog] at q; cases q
      · unfold finMembers at hM'
        rw [hlog, hM] at hM'
        injection hM' with hM'
        subst hM'
        refine hS0.more l1 hb' ?_ (fun i hi hib => hfr i (.inl hi) hib) (fun i hi => .inl (h1 i hi)) (.inr rfl) ?_ hH
        · rw [← hS0.keys l1]; exact (Dict.not_has_iff _ _).1 m1
        · have := lt_of_get? l1; omega
      · obtain ⟨m, b, b1, b2, b3⟩ := g11 wl hwl
        rw [hsa] at b2
        injection b2 with b2
        subst b2
        exact ⟨m, sa.id, b1, hsa, b3.more l1 hb' (by decide) (fun i hi hib => hfr i (.inl hi) hib) fun i hi => .inl (h1 i hi)⟩

/-- **what is added last** -/
theorem geo_last {c : Scope} {w : GeoW} {K : Nat → Prop} {v u : Str → Option Nat} {s s' : H5} {e : HRef} (hid : e.id = c.e) (hp : e.path = [c.E])
    (hz : Zone c SamX SamXI K v u s) (h : GeoΦ false c.E w K v u s) (hw : additions e s = (s', .ok ())) :
    ∃ K' v' u', Zone c SamX SamXI K' v' u' s' ∧ GeoΨ c.E w K' v' u' s' := by
  obtain ⟨s1, s2, hasM, hasT, a1, a2, a3⟩ := additions_parts hw
  obtain ⟨u1, z1, f1⟩ := GeoΦ.link hz h hid hp a1
  obtain ⟨z2, k2⟩ := zone_addPositioners z1 hid hp (by unfold SamXI; decide) a2
  have f2 := GeoΦ.keep (fun _ _ => rfl) k2 f1
  unfold addOthers at a3
  obtain ⟨s3, _, b1, b2⟩ := HM.bind_inv a3
  obtain ⟨z3, k3, -⟩ := z2.step (Conf.onlyIf fun _ => conf_addPreset (z2.ok hid hp) hasM (by
    rintro n hm (q | q)
    · revert q; revert n; unfold SamX; decide
    · revert q; revert n; decide)) b1
  have f3 := GeoΦ.keep (fun _ _ => rfl) k3 f2
  obtain ⟨K', z4, f4⟩ := GeoΦ.logs z3 f3 hid hp b2
  exact ⟨K', v, u1, z4, f4⟩

theorem GeoΨ.keep {E : Str} {w : GeoW} {K : Nat → Prop} {v u : Str → Option Nat} {s s' : H5}
    (hs : ∀ j, K j → s'[j]? = s[j]?) (h : GeoΨ E w K v u s) : GeoΨ E w K v u s' := by
  obtain ⟨h1, h2, h3, h4⟩ := h
  refine ⟨h1.keep rfl hs fun _ => id, h2.keep rfl hs fun _ => id, h3, fun d hd => ?_⟩
  obtain ⟨g, g1, g2, g3, g4⟩ := h4 d hd
  refine ⟨g, g1, g2, g3.keep rfl (by rintro j (q | rfl); exacts [hs j q, hs j g1]) fun _ => id, fun q => ⟨(g4 q).1, ?_⟩⟩
  obtain ⟨b, chb, tg, cht, k1, k2, k3, k4, k5, k6, k7⟩ := (g4 q).2
  exact ⟨b, chb, tg, cht, k1, k2, (hs b k2).trans k3, k4, k5, (hs tg k5).trans k6, k7⟩

end S2N
