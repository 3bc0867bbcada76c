import Verif.Lemmas.SlotWriters
/-
#M and #T in an entry, and the link that `save_scan` adds.
-/
namespace S2N
open Py H5 Eznx Writer Spec

/-- the names -/
def presetName (n : Str) : Prop := n = p!"M" ∨ n = p!"T" ∨ n = p!"monitor" ∨ n = p!"counting_basis"

def monitorText : Str := p!"SPEC scan with constant monitor count"
def timeText : Str := p!"SPEC scan with constant counting time"

/-- a preset -/
def presetDs (units desc : Str) (v : PyFloat) : HData × Dict AVal :=
  (.nums ⟨[.flt v], [1]⟩, [(p!"units", .str units), (p!"description", .str desc)])

/-- a text -/
def basisDs (desc : Str) : Content := .ds (.text [ascii desc]) []

/-- what the writer of a preset does -/
def PresetR (N units desc : Str) (t : Option Str) (W W' : Known) : Prop :=
  ∃ txt v, t = some txt ∧ Py.float txt = .ok v ∧
    W' = upd (upd W p!"counting_basis" (some (basisDs desc))) N (some (.ds (presetDs units desc v).1 (presetDs units desc v).2))

section
variable [UniDB]

theorem Slots.preset {c : Scope} {K v W} {s s' : H5} (h : Slots c presetName K v W s) {e : HRef} (hid : e.id = c.e)
    {N units desc : Str} (hN : presetName N) (hs : Single N) {t : Option Str} {r : Unit}
    (hw : wPreset e N units desc t s = (s', .ok r)) :
    ∃ K' v' W', Slots c presetName K' v' W' s' ∧ PresetR N units desc t W W' := by
  unfold wPreset at hw
  obtain ⟨t1, u1, a1, hw1⟩ := HM.bind_inv hw
  obtain ⟨d, d1, _, d3⟩ := h.write hid (N := p!"counting_basis") (.inr (.inr (.inr rfl))) (by decide : Plain p!"counting_basis").single a1
  obtain ⟨t2, txt, a2, hw2⟩ := HM.bind_inv hw1
  obtain ⟨a3, rfl⟩ := need_inv a2
  obtain ⟨val, a4, hw3⟩ := HM.bind_lift_inv hw2
  obtain ⟨t3, u3, a5, hw4⟩ := HM.bind_inv hw3
  obtain ⟨_, rfl⟩ := HM.ret_inv hw4
  obtain ⟨d', e1, _, e3⟩ := d3.write hid hN hs a5
  refine ⟨_, _, _, e3, txt, val, a3, a4, ?_⟩
  simp only [PData.toH, Except.ok.injEq, one] at d1 e1
  subst d1 e1
  rfl

theorem slotted_preset : Slotted presetName (fun f => f = .monitor ∨ f = .countTime) Always Always
    (fun f x W W' => (f = .monitor ∧ PresetR p!"M" p!"counts" monitorText x.M W W') ∨
      (f = .countTime ∧ PresetR p!"T" p!"s" timeText x.T W W')) where
  data := by simp
  avoids := by
    intro f hf
    refine ⟨?_, ?_⟩
    · intro n hn hX
      revert hn hf
      rcases hX with rfl | rfl | rfl | rfl <;> (cases f <;> decide)
    · rintro rfl i (h | h | h | h) <;> simp at h
  step := by
    rintro f hf c e hdr x y K v W s s' _ _ hid h hw
    rcases hf with rfl | rfl
    all_goals
      obtain ⟨t, u, h1, h2⟩ := HM.andThen_inv hw
      obtain ⟨_, rfl⟩ := HM.ret_inv h2
    · obtain ⟨K', v', W', k1, k2⟩ := h.preset hid (.inl rfl) (by decide : Plain p!"M").single h1
      exact ⟨K', v', W', k1, trivial, .inl ⟨rfl, k2⟩⟩
    · obtain ⟨K', v', W', k1, k2⟩ := h.preset hid (.inr (.inl rfl)) (by decide : Plain p!"T").single h1
      exact ⟨K', v', W', k1, trivial, .inr ⟨rfl, k2⟩⟩
  init := trivial
  pL := fun _ _ _ => trivial
  withL := fun _ _ _ _ h _ => h

end

/-! ### the link -/

/-- a protected group gets a link to a protected node -/
theorem Held.link {c : Scope} {X : Str → Prop} {K : Nat → Prop} {v : Str → Option Nat} {s : H5} (h : Held c X K v s)
    {g i : Nat} (hg : K g) (hi : K i) {ch : Dict Nat} {a : Dict AVal} (he : s[g]? = some (.group ch a)) (n : Str) :
    Held c X K v (s.set g (.group (ch.set n i) a)) := by
  have hgl := lt_of_get? he
  have hv := h.inv
  have hget := fun j => set_get? s g j (.group (ch.set n i) a) hgl
  refine ⟨⟨?_, hv.rootD, hv.notD, hv.plain, ?_, ?_, ?_, ?_⟩, h.root, ?_, h.inj, h.mem, h.apart⟩
  · intro j ch1 a1 hj
    rw [hget] at hj
    rw [List.length_set]
    split at hj
    · injection hj with hj
      injection hj with hj _
      subst hj
      refine ⟨Dict.nodup_keys_set _ _ _ (hv.wf _ _ _ he).1, fun m j hm => ?_⟩
      rcases Dict.mem_set hm with e | e
      · injection e with _ e
        subst e
        exact hv.lt _ (.inr hi)
      · exact (hv.wf _ _ _ he).2 m j e
    · exact hv.wf _ _ _ hj
  · obtain ⟨ch0, a0, e1, e2⟩ := hv.entry
    refine ⟨ch0, a0, ?_, e2⟩
    rw [hget, if_neg (Ne.symm (h.ne_root hg)), e1]
  · intro j hj; rw [List.length_set]; exact hv.lt j hj
  · rw [List.length_set]; exact hv.elt
  · intro j hj ch1 a1 hs
    rw [hget] at hs
    split at hs
    · next e => exact absurd (.inr (e ▸ hg)) hj
    · exact hv.closed j hj ch1 a1 hs
  · obtain ⟨ch0, a0, e1, e2⟩ := h.entry
    refine ⟨ch0, a0, ?_, e2⟩
    rw [hget, if_neg (Ne.symm (h.ne_entry hg)), e1]

theorem link_eq {s : H5} {g : HRef} {ch : Dict Nat} {a : Dict AVal} {n : Str} {obj : HRef}
    (hg : s[g.id]? = some (.group ch a)) (hn : Single n) (hf : ch.has n = false) (ho : obj.id < s.length) :
    setLink g n obj s = (s.set g.id (.group (ch.set n obj.id) a), .ok ()) := by
  unfold setLink HM.change
  beta_reduce
  rw [base_single hn, comps_single hn, List.getElem?_eq_getElem ho]
  simp only [H5.link, hg, hf]
  rfl

/-- a group of one link -/
theorem Slots.monitor {c : Scope} {X : Str → Prop} {K v W} {s s' : H5} (h : Slots c X K v W s) {e : HRef} (hid : e.id = c.e)
    {N G n cls : Str} (hN : X N) (sN : Single N) (hG : X G) (sG : Single G) (sn : Single n) {d : HData} {b : Dict AVal}
    (hW : W N = some (.ds d b)) (hne : N ≠ G)
    (hds : ∀ m V A, X m → W m ≠ some (.grp V A))
    (hw : (do
      let target ← H5.get e N
      let monitor ← makeGroup e G cls []
      setLink monitor n target
      let preset ← H5.get monitor n
      setTarget target preset) s = (s', .ok ())) :
    ∃ K', Slots c X K' (upd v G (some s.length)) (upd (upd W G (some (.grp [(n, (d, b.set p!"target" (.str (nameOf ⟨0, e.path ++ [G, n]⟩))))]
      [(p!"NX_class", .str cls)]))) N (some (.ds d (b.set p!"target" (.str (nameOf ⟨0, e.path ++ [G, n]⟩)))))) s' := by
  obtain ⟨i, hi, hiD⟩ := h.some' N _ hN hW
  have hiD : s[i]? = some (.dset d b) := hiD
  obtain ⟨chE, aE, he, hv⟩ := h.held.entry
  have he' : s[e.id]? = some (.group chE aE) := by rw [hid]; exact he
  rw [HM.bind_ok (get_eq he' sN (by rw [hv N hN, hi]))] at hw
  obtain ⟨s1, g, h1, hw⟩ := HM.bind_inv hw
  obtain ⟨k1, k2, k3⟩ := h.newGroup hid hG sG h1
  have hpath : g.path = e.path ++ [G] := by
    have hf : chE.has G = false := by
      have := h.none' G hG k1
      rw [← hv G hG] at this
      exact (Dict.not_has_iff _ _).2 ((Dict.get?_eq_none_iff _ _).1 this)
    rw [makeGroup_eq he' sG hf] at h1
    injection h1 with _ h1
    injection h1 with h1
    rw [← h1]
  have hKi : K i := h.held.mem N i hN hi
  obtain ⟨j, hj, ch, hg, hnd, hch⟩ := k3.some' G _ hG (upd_self ..)
  rw [upd_self] at hj
  injection hj with hj
  subst hj
  cases hch
  have hi1 : s1[i]? = some (.dset d b) := by
    obtain ⟨i', e1, e2⟩ := k3.some' N _ hN (by rw [upd_ne _ _ hne]; exact hW)
    rw [upd_ne _ _ hne, hi] at e1
    injection e1 with e1
    subst e1
    exact e2
  have hg' : s1[g.id]? = some (.group [] (Dict.update [(p!"NX_class", AVal.str cls)] [])) := by rw [k2]; exact hg
  rw [HM.bind_ok (link_eq hg' sn rfl (lt_of_get? hi1))] at hw
  have hgl := lt_of_get? hg
  have hne' : i ≠ s.length := by
    intro e1
    rw [e1, hg] at hi1
    cases hi1
  have hgN := set_get? s1 s.length s.length (.group (Dict.set [] n i) (Dict.update [(p!"NX_class", AVal.str cls)] [])) hgl
  rw [if_pos rfl] at hgN
  rw [HM.bind_ok (get_eq (h := g) (by rw [k2]; exact hgN) sn (j := i) (by simp [Dict.set, Dict.get?]))] at hw
  unfold setTarget at hw
  have hiN : (s1.set s.length (.group (Dict.set [] n i) (Dict.update [(p!"NX_class", AVal.str cls)] [])))[i]? = some (.dset d b) := by
    rw [set_get? _ _ _ _ hgl, if_neg hne', hi1]
  rw [k2, setAttr_eq (h := ⟨i, e.path ++ [N]⟩) hiN] at hw
  injection hw with hw _
  have hheld := (k3.held.link (g := s.length) (i := i) (.inr rfl) (.inl hKi) hg n).retag (.inl hKi) hiN
    ((HNode.dset d b).attrs.set p!"target" (.str (nameOf ⟨i, g.path ++ [n]⟩)))
  have hname : nameOf ⟨i, g.path ++ [n]⟩ = nameOf ⟨0, e.path ++ [G, n]⟩ := by
    rw [hpath]; unfold nameOf; simp
  rw [hname] at hw hheld
  have hw' : s' = (s1.set s.length (.group (Dict.set [] n i) (Dict.update [(p!"NX_class", AVal.str cls)] []))).set i
      (.dset d (b.set p!"target" (.str (nameOf ⟨0, e.path ++ [G, n]⟩)))) := hw.symm
  have hheld' : Held c X (fun i => K i ∨ i = s.length) (upd v G (some s.length)) s' := by rw [hw']; exact hheld
  have hget : ∀ j, s'[j]? = if j = i then some (.dset d (b.set p!"target" (.str (nameOf ⟨0, e.path ++ [G, n]⟩)))) else
      if j = s.length then some (.group (Dict.set [] n i) (Dict.update [(p!"NX_class", AVal.str cls)] [])) else s1[j]? := by
    intro j
    rw [hw', set_get? _ _ _ _ (lt_of_get? hiN), set_get? _ _ _ _ hgl]
  refine ⟨_, hheld', ?_, ?_⟩
  · intro m hm h0
    by_cases e1 : m = N
    · rw [e1, upd_self] at h0; cases h0
    rw [upd_ne _ _ e1] at h0
    by_cases e2 : m = G
    · rw [e2, upd_self] at h0; cases h0
    rw [upd_ne _ _ e2] at h0 ⊢
    exact h.none' m hm h0
  · intro m w hm h0
    by_cases e1 : m = N
    · subst e1
      rw [upd_self] at h0
      injection h0 with h0
      subst h0
      refine ⟨i, by rw [upd_ne _ _ hne]; exact hi, ?_⟩
      show s'[i]? = _
      rw [hget, if_pos rfl]
    rw [upd_ne _ _ e1] at h0
    by_cases e2 : m = G
    · subst e2
      rw [upd_self] at h0
      injection h0 with h0
      subst h0
      refine ⟨s.length, upd_self .., [(n, i)], ?_, by simp [Dict.keys], .cons ⟨rfl, .inl hKi, ?_⟩ .nil⟩
      · rw [hget, if_neg (Ne.symm hne'), if_pos rfl]
        rfl
      · show s'[i]? = _
        rw [hget, if_pos rfl]
    rw [upd_ne _ _ e2] at h0
    cases w with
    | grp V A => exact absurd h0 (hds m V A hm)
    | ds d1 b1 =>
      obtain ⟨i1, j1, j2⟩ := k3.some' m (.ds d1 b1) hm (by rw [upd_ne _ _ e2]; exact h0)
      refine ⟨i1, j1, ?_⟩
      have j2 : s1[i1]? = some (.dset d1 b1) := j2
      show s'[i1]? = _
      rw [hget, if_neg, if_neg]
      · exact j2
      · intro e3; rw [e3, hg] at j2; cases j2
      · intro e3
        rw [upd_ne _ _ e2] at j1
        exact e1 (h.held.inj m N i1 hm hN j1 (by rw [e3]; exact hi))

/-! ### the whole of the additions -/

/-- the links to geometry and positioners -/
def addFirst (e : HRef) : HM Unit := do
  HM.andThen (contains e p!"instrument/geometry_parameters") fun b => HM.onlyIf b do
    let instrument ← H5.get e p!"instrument"
    let gp ← H5.get instrument p!"geometry_parameters"
    setLink instrument p!"diffractometer" gp
    let target ← H5.get instrument p!"diffractometer"
    setTarget target target
  HM.andThen (contains e p!"positioners") fun b => HM.onlyIf b do
    HM.andThen (contains e p!"instrument/positioners") fun b => HM.onlyIf b do
      let target ← H5.get e p!"instrument/positioners"
      setTarget target target

/-- the links to the temperature -/
def addLast (e : HRef) : HM Unit := do
  let hasTemp ← contains e p!"TEMP_SP"
  let hasDegc ← contains e p!"DEGC_SP"
  HM.onlyIf (hasTemp || hasDegc) do
    let sample ← H5.get e p!"sample"
    let temperature ← makeGroup sample p!"temperature" p!"NXlog" []
    HM.onlyIf hasTemp do
      let target ← H5.get e p!"TEMP_SP"
      setLink temperature p!"target_value" target
      let v ← H5.get temperature p!"target_value"
      setTarget target v
    HM.onlyIf hasDegc do
      let target ← H5.get e p!"DEGC_SP"
      setLink temperature p!"value" target
      let v ← H5.get temperature p!"value"
      setTarget target v

/-- the link to the preset -/
def addPreset (e : HRef) (name : Str) : HM Unit := do
  let target ← H5.get e name
  let monitor ← makeGroup e p!"monitor" p!"NXmonitor" []
  setLink monitor p!"preset" target
  let preset ← H5.get monitor p!"preset"
  setTarget target preset

theorem additions_inv {e : HRef} {s s' : H5} (h : additions e s = (s', .ok ())) :
    ∃ s1 s2 hasM hasT, addFirst e s = (s1, .ok ()) ∧ contains e p!"M" s1 = (s1, .ok hasM) ∧ contains e p!"T" s1 = (s1, .ok hasT) ∧
      HM.onlyIf (hasM || hasT) (addPreset e (if hasM then p!"M" else p!"T")) s1 = (s2, .ok ()) ∧ addLast e s2 = (s', .ok ()) := by
  unfold additions at h
  obtain ⟨t1, u1, a1, b1⟩ := HM.bind_inv h
  obtain ⟨t2, u2, a2, b2⟩ := HM.bind_inv b1
  obtain ⟨t3, hasM, a3, b3⟩ := HM.bind_inv b2
  obtain ⟨t4, hasT, a4, b4⟩ := HM.bind_inv b3
  obtain ⟨t5, u5, a5, b5⟩ := HM.bind_inv b4
  have e3 := contains_state a3
  have e4 := contains_state a4
  subst e3
  subst e4
  refine ⟨t4, t5, hasM, hasT, ?_, a3, a4, a5, b5⟩
  unfold addFirst
  rw [HM.bind_ok a1]
  exact a2

section
variable [UniDB]

theorem conf_addFirst {c : Scope} {e : HRef} (ho : Ok c e)
    (hn : ∀ n ∈ [p!"instrument", p!"positioners"], ¬ c.X n) : Conf c (addFirst e) (fun _ => True) := by
  unfold addFirst
  refine Conf.bind' (Q := fun _ => True) ?_ fun _ _ => ?_
  · refine Conf.andThen (conf_contains c _ _) fun _ _ => Conf.onlyIf fun _ => ?_
    refine Conf.bind' (conf_gt ho (by decide) (hn _ (by decide))) fun i hi => ?_
    refine Conf.bind' (conf_gtl hi.1 hi.2 (by decide)) fun g hg => ?_
    refine Conf.bind' (conf_sl hi.1 hi.2 (by decide) hg) fun _ _ => ?_
    refine Conf.bind' (conf_gtl hi.1 hi.2 (by decide)) fun t ht => ?_
    exact conf_setAttr ht.1.1 ht.2 _ _
  · refine Conf.andThen (conf_contains c _ _) fun _ _ => Conf.onlyIf fun _ => ?_
    refine Conf.andThen (conf_contains c _ _) fun _ _ => Conf.onlyIf fun _ => ?_
    have hr : Rel c e p!"instrument/positioners" := by
      refine ⟨by decide, fun _ n hm => ?_⟩
      have hc : comps p!"instrument/positioners" = [p!"instrument", p!"positioners"] := by decide
      rw [hc] at hm
      simp only [List.head?_cons, Option.some.injEq] at hm
      subst hm
      exact ⟨hn _ (by decide), by decide⟩
    refine Conf.bind' (conf_get_ne ho hr (by decide)) fun t ht => ?_
    exact conf_setAttr ht.1.1 ht.2 _ _

theorem conf_addLast {c : Scope} {e : HRef} (ho : Ok c e)
    (hn : ∀ n ∈ [p!"TEMP_SP", p!"DEGC_SP", p!"sample"], ¬ c.X n) : Conf c (addLast e) (fun _ => True) := by
  unfold addLast
  refine Conf.bind' (conf_contains c _ _) fun hasTemp _ => ?_
  refine Conf.bind' (conf_contains c _ _) fun hasDegc _ => ?_
  refine Conf.onlyIf fun _ => ?_
  refine Conf.bind' (conf_gt ho (by decide) (hn _ (by decide))) fun sa hsa => ?_
  refine Conf.bind' (conf_makeGroup hsa.1 (Rel.of_ne hsa.2 (by decide)) _ _) fun t ht => ?_
  refine Conf.bind' (Q := fun _ => True) ?_ fun _ _ => ?_
  · refine Conf.onlyIf fun _ => ?_
    refine Conf.bind' (conf_gt ho (by decide) (hn _ (by decide))) fun g hg => ?_
    refine Conf.bind' (conf_sl ht.1 ht.2 (by decide) hg) fun _ _ => ?_
    refine Conf.bind' (conf_gtl ht.1 ht.2 (by decide)) fun v _ => ?_
    exact conf_setAttr hg.1.1 hg.2 _ _
  · refine Conf.onlyIf fun _ => ?_
    refine Conf.bind' (conf_gt ho (by decide) (hn _ (by decide))) fun g hg => ?_
    refine Conf.bind' (conf_sl ht.1 ht.2 (by decide) hg) fun _ _ => ?_
    refine Conf.bind' (conf_gtl ht.1 ht.2 (by decide)) fun v _ => ?_
    exact conf_setAttr hg.1.1 hg.2 _ _

/-- the attribute `target` of the preset of an entry -/
def targetOf (E : Str) : AVal := .str (p!"/" ++ E ++ p!"/monitor/preset")

/-- the content of `W` after the additions -/
def withPreset (E : Str) (W : Known) : Known :=
  match W p!"M", W p!"T" with
  | some (.ds d b), _ => upd (upd W p!"monitor" (some (.grp [(p!"preset", (d, b.set p!"target" (targetOf E)))]
      [(p!"NX_class", .str p!"NXmonitor")]))) p!"M" (some (.ds d (b.set p!"target" (targetOf E))))
  | none, some (.ds d b) => upd (upd W p!"monitor" (some (.grp [(p!"preset", (d, b.set p!"target" (targetOf E)))]
      [(p!"NX_class", .str p!"NXmonitor")]))) p!"T" (some (.ds d (b.set p!"target" (targetOf E))))
  | _, _ => W

theorem Slots.additions {E : Str} {i : Nat} {K v W} {s s' : H5} (h : Slots (entryScope E i) presetName K v W s)
    (hds : ∀ m V A, presetName m → W m ≠ some (.grp V A)) (hw : Writer.additions ⟨i, [E]⟩ s = (s', .ok ())) :
    ∃ K' v', Slots (entryScope E i) presetName K' v' (withPreset E W) s' := by
  obtain ⟨s1, s2, hasM, hasT, a1, a2, a3, a4, a5⟩ := additions_inv hw
  have g1 := (h.step (conf_addFirst ⟨h.held.inv.notD, .inl ⟨rfl, rfl⟩⟩ (by
    intro n hn hX
    simp only [List.mem_cons, List.not_mem_nil, or_false] at hn
    rcases hn with rfl | rfl <;> (revert hX; show ¬ presetName _; unfold presetName; decide))) a1).1
  have key : ∀ {K v} {s2 : H5}, Slots (entryScope E i) presetName K v (withPreset E W) s2 → addLast ⟨i, [E]⟩ s2 = (s', .ok ()) →
      ∃ K' v', Slots (entryScope E i) presetName K' v' (withPreset E W) s' := fun {K v s2} g a =>
    ⟨K, v, (g.step (conf_addLast ⟨g.held.inv.notD, .inl ⟨rfl, rfl⟩⟩ (by
      intro n hn hX
      simp only [List.mem_cons, List.not_mem_nil, or_false] at hn
      rcases hn with rfl | rfl | rfl <;> (revert hX; show ¬ presetName _; unfold presetName; decide))) a).1⟩
  obtain ⟨chE, aE, he, hv⟩ := g1.held.entry
  have hid : (⟨i, [E]⟩ : HRef).id = (entryScope E i).e := rfl
  have he' : s1[(⟨i, [E]⟩ : HRef).id]? = some (.group chE aE) := he
  have hhas : ∀ {n}, presetName n → chE.has n = (W n).isSome := by
    intro n hn
    cases hWn : W n with
    | none =>
      have := g1.none' n hn hWn
      rw [← hv n hn] at this
      exact (Dict.not_has_iff _ _).2 ((Dict.get?_eq_none_iff _ _).1 this)
    | some w =>
      obtain ⟨j, j1, _⟩ := g1.some' n w hn hWn
      rw [← hv n hn] at j1
      refine (Dict.has_iff_mem _ _).2 ?_
      by_contra hc
      rw [(Dict.get?_eq_none_iff _ _).2 hc] at j1
      cases j1
  have pM : presetName p!"M" := .inl rfl
  have pT : presetName p!"T" := .inr (.inl rfl)
  have pG : presetName p!"monitor" := .inr (.inr (.inl rfl))
  have sM := (by decide : Plain p!"M").single
  have sT := (by decide : Plain p!"T").single
  have sG := (by decide : Plain p!"monitor").single
  have sP := (by decide : Plain p!"preset").single
  rw [contains_eq he' sM, hhas pM] at a2
  rw [contains_eq he' sT, hhas pT] at a3
  injection a2 with _ a2; injection a2 with a2
  injection a3 with _ a3; injection a3 with a3
  have htgt : (AVal.str (nameOf ⟨0, [E] ++ [p!"monitor", p!"preset"]⟩)) = targetOf E := by
    unfold targetOf nameOf
    simp [join]
  cases hM : W p!"M" with
  | some w =>
    cases w with
    | grp V A => exact absurd hM (hds _ V A pM)
    | ds d b =>
      rw [hM] at a2
      subst a2
      have a4' : addPreset ⟨i, [E]⟩ p!"M" s1 = (s2, .ok ()) := a4
      obtain ⟨K', g2⟩ := g1.monitor hid pM sM pG sG sP hM (by decide) hds a4'
      rw [htgt] at g2
      refine key (s2 := s2) (K := K') (v := upd v p!"monitor" (some s1.length)) ?_ a5
      unfold withPreset
      rw [hM]
      exact g2
  | none =>
    rw [hM] at a2
    subst a2
    cases hT : W p!"T" with
    | some w =>
      cases w with
      | grp V A => exact absurd hT (hds _ V A pT)
      | ds d b =>
        rw [hT] at a3
        subst a3
        have a4' : addPreset ⟨i, [E]⟩ p!"T" s1 = (s2, .ok ()) := a4
        obtain ⟨K', g2⟩ := g1.monitor hid pT sT pG sG sP hT (by decide) hds a4'
        rw [htgt] at g2
        refine key (s2 := s2) (K := K') (v := upd v p!"monitor" (some s1.length)) ?_ a5
        unfold withPreset
        rw [hM, hT]
        exact g2
    | none =>
      rw [hT] at a3
      subst a3
      obtain ⟨_, e2⟩ := HM.ret_inv (show HM.ret () s1 = (s2, .ok ()) from a4)
      have e3 : withPreset E W = W := by unfold withPreset; rw [hM, hT]
      refine key (s2 := s2) (K := K) (v := v) ?_ a5
      rw [e3, e2]
      exact g1

end
end S2N
