import Verif.Lemmas.Zone
import Verif.Lemmas.SlotPreset
import Verif.Lemmas.Tree
/-
Runs of the writers when some groups are also linked in the group "instrument".
-/
namespace S2N
open Py H5 Eznx Writer Spec
variable [UniDB]

/-- the names that a writer uses in the group "instrument" -/
def hubUsed : H5Fn → List Str
  | .metadata => [p!"metadata"]
  | .positioners => [p!"positioners"]
  | .geometry => [p!"name", p!"monochromator", p!"geometry_parameters"]
  | .chann => [p!"MCA"]
  | .ctime => [p!"MCA"]
  | _ => []

/-- a writer that uses none of the protected names -/
theorem zone_runWriter {c : Scope} {X XI : Str → Prop} {K : Nat → Prop} {v u : Str → Option Nat} {s s' : H5}
    (h : Zone c X XI K v u s) {e : HRef} (hid : e.id = c.e) (hp : e.path = [c.E]) (hdr x : Obj) {y : Obj} (hr : RelNames x)
    (f : H5Fn) (h1 : ∀ n ∈ usedBy f, n ≠ inst → ¬ X n) (h2 : ∀ n ∈ hubUsed f, ¬ XI n)
    (h3 : f = .unrec → ∀ i, ¬ X (p!"unrecognized_" ++ natStr i)) (hw : runWriter f e hdr x s = (s', .ok y)) :
    Kept c X XI K v u s s' ∧ ∃ L, y = { x with L := L } := by
  have hE : Plain c.E := h.held.inv.plain
  have plain : (∀ n ∈ usedBy f, n ≠ inst) → Kept c X XI K v u s s' ∧ ∃ L, y = { x with L := L } := by
    intro hn
    have hc := conf_runWriter (c := zoneScope c X K v) hE (h.ok hid hp) hdr x hr f ⟨by
        rintro n hm (q | q)
        · exact h1 n hm (hn n hm) q
        · exact hn n hm q, by
        rintro hf i (q | q)
        · exact h3 hf i q
        · have q2 : some 'u' = some 'i' := congrArg List.head? q
          exact absurd q2 (by decide)⟩
    obtain ⟨k1, k2, k3⟩ := h.step hc hw
    exact ⟨k1.kept k2, k3 y rfl⟩
  have hub : ∀ {m : HM Unit}, HM.andThen m (fun _ => HM.ret x) s = (s', .ok y) →
      (m s = (s', .ok ()) → Kept c X XI K v u s s') → Kept c X XI K v u s s' ∧ ∃ L, y = { x with L := L } := by
    intro m hm hk
    obtain ⟨t, _, w1, w2⟩ := HM.andThen_inv hm
    obtain ⟨e1, e2⟩ := HM.ret_inv w2
    subst e2
    exact ⟨hk w1, x.L, e1⟩
  cases f with
  | metadata => exact hub hw fun q => zone_metadata h hid hp x (h1 _ (by decide) (by decide)) (h2 _ (by decide)) q
  | positioners => exact hub hw fun q => zone_positioners h hid hp hdr x (h1 _ (by decide) (by decide)) (h2 _ (by decide)) q
  | geometry =>
    exact hub hw fun q => zone_geometry h hid hp x hr (h1 _ (by decide) (by decide)) (h1 _ (by decide) (by decide))
      (h2 _ (by decide)) (h2 _ (by decide)) (h2 _ (by decide)) q
  | chann => exact hub hw fun q => zone_chann h hid hp x (h1 _ (by decide) (by decide)) (h2 _ (by decide)) q
  | ctime => exact hub hw fun q => zone_ctime h hid hp x (h1 _ (by decide) (by decide)) (h2 _ (by decide)) q
  | _ => exact plain (by decide)

/-! ### the additions -/

/-- the link of the geometry -/
def addGeometry (e : HRef) : HM Unit :=
  HM.andThen (contains e p!"instrument/geometry_parameters") fun b => HM.onlyIf b do
    let instrument ← H5.get e p!"instrument"
    let gp ← H5.get instrument p!"geometry_parameters"
    setLink instrument p!"diffractometer" gp
    let target ← H5.get instrument p!"diffractometer"
    setTarget target target

/-- the attribute of the positioners -/
def addPositioners (e : HRef) : HM Unit :=
  HM.andThen (contains e p!"positioners") fun b => HM.onlyIf b do
    HM.andThen (contains e p!"instrument/positioners") fun b => HM.onlyIf b do
      let target ← H5.get e p!"instrument/positioners"
      setTarget target target

/-- the rest -/
def addOthers (e : HRef) (hasM hasT : Bool) : HM Unit := do
  HM.onlyIf (hasM || hasT) (addPreset e (if hasM then p!"M" else p!"T"))
  addLast e

omit [UniDB] in
theorem additions_parts {e : HRef} {s s' : H5} (h : additions e s = (s', .ok ())) :
    ∃ s1 s2 hasM hasT, addGeometry e s = (s1, .ok ()) ∧ addPositioners e s1 = (s2, .ok ()) ∧
      addOthers e hasM hasT s2 = (s', .ok ()) := by
  obtain ⟨s1, s2, hasM, hasT, a1, a2, a3, a4, a5⟩ := additions_inv h
  unfold addFirst at a1
  obtain ⟨t1, _, b1, b2⟩ := HM.bind_inv a1
  refine ⟨t1, s1, hasM, hasT, b1, b2, ?_⟩
  unfold addOthers
  rw [HM.bind_ok a4]
  exact a5

theorem conf_addPreset {c : Scope} {e : HRef} (ho : Ok c e) (hasM : Bool)
    (hn : ∀ n ∈ [p!"M", p!"T", p!"monitor"], ¬ c.X n) :
    Conf c (addPreset e (if hasM then p!"M" else p!"T")) (fun _ => True) := by
  unfold addPreset
  refine Conf.bind' (Q := fun r => Ok c r ∧ r.id ≠ c.e) ?_ fun t ht => ?_
  · cases hasM with
    | true => exact conf_gt ho (by decide) (hn _ (by decide))
    | false => exact conf_gt ho (by decide) (hn _ (by decide))
  refine Conf.bind' (conf_mg ho (by decide) (hn _ (by decide)) _ _) fun m hm => ?_
  refine Conf.bind' (conf_sl hm.1 hm.2 (by decide) ht) fun _ _ => ?_
  refine Conf.bind' (conf_gtl hm.1 hm.2 (by decide)) fun p _ => ?_
  exact conf_setAttr ht.1.1 ht.2 _ _

theorem conf_addOthers {c : Scope} {e : HRef} (ho : Ok c e) (hasM hasT : Bool)
    (hn : ∀ n ∈ [p!"M", p!"T", p!"monitor", p!"TEMP_SP", p!"DEGC_SP", p!"sample"], ¬ c.X n) :
    Conf c (addOthers e hasM hasT) (fun _ => True) := by
  unfold addOthers
  refine Conf.bind' (Q := fun _ => True) ?_ fun _ _ => ?_
  · exact Conf.onlyIf fun _ => conf_addPreset ho hasM fun n hm => hn n (by
      simp only [List.mem_cons, List.not_mem_nil, or_false] at hm ⊢
      rcases hm with rfl | rfl | rfl <;> simp)
  · exact conf_addLast ho fun n hm => hn n (by
      simp only [List.mem_cons, List.not_mem_nil, or_false] at hm ⊢
      rcases hm with rfl | rfl | rfl <;> simp)

theorem zone_addOthers {c : Scope} {X XI : Str → Prop} {K : Nat → Prop} {v u : Str → Option Nat} {s s' : H5}
    (h : Zone c X XI K v u s) {e : HRef} (hid : e.id = c.e) (hp : e.path = [c.E]) {hasM hasT : Bool}
    (hn : ∀ n ∈ [p!"M", p!"T", p!"monitor", p!"TEMP_SP", p!"DEGC_SP", p!"sample"], ¬ X n)
    (hw : addOthers e hasM hasT s = (s', .ok ())) : Zone c X XI K v u s' ∧ ∀ i, K i → s'[i]? = s[i]? := by
  obtain ⟨k1, k2, -⟩ := h.step (conf_addOthers (h.ok hid hp) hasM hasT (by
    rintro n hm (q | q)
    · exact hn n hm q
    · revert q
      simp only [List.mem_cons, List.not_mem_nil, or_false] at hm
      rcases hm with rfl | rfl | rfl | rfl | rfl | rfl <;> decide)) hw
  exact ⟨k1, k2⟩

omit [UniDB] in
/-- the group "instrument" found -/
theorem Zone.getInst {c : Scope} {X XI : Str → Prop} {K : Nat → Prop} {v u : Str → Option Nat} {s s' : H5}
    (h : Zone c X XI K v u s) {e ins : HRef} (hid : e.id = c.e) (hw : H5.get e inst s = (s', .ok ins)) :
    s' = s ∧ v inst = some ins.id ∧ ins.path = e.path ++ [inst] := by
  obtain ⟨ch, a, e1, e2⟩ := h.held.entry
  have e1' : s[e.id]? = some (.group ch a) := by rw [hid]; exact e1
  have hs : Single inst := (by decide : Plain inst).single
  cases hg : ch.get? inst with
  | none => rw [get_missing e1' hs (by simp [Dict.has, hg])] at hw; cases hw
  | some j =>
    rw [get_eq e1' hs hg] at hw
    injection hw with q1 q2
    injection q2 with q2
    subst q2
    exact ⟨q1.symm, (e2 inst (.inr rfl)).symm.trans hg, rfl⟩

theorem zone_addGeometry {c : Scope} {X XI : Str → Prop} {K : Nat → Prop} {v u : Str → Option Nat} {s s' : H5}
    (h : Zone c X XI K v u s) {e : HRef} (hid : e.id = c.e) (h1 : ¬ XI p!"geometry_parameters")
    (h2 : ¬ XI p!"diffractometer") (hw : addGeometry e s = (s', .ok ())) :
    Zone c X XI K v u s' ∧ ∀ i, K i → s'[i]? = s[i]? := by
  unfold addGeometry at hw
  obtain ⟨t, b, w1, w2⟩ := HM.andThen_inv hw
  obtain rfl := contains_state w1
  cases b with
  | false =>
    obtain ⟨-, rfl⟩ := HM.ret_inv w2
    exact ⟨h, fun _ _ => rfl⟩
  | true =>
    replace w2 : (do
      let instrument ← H5.get e p!"instrument"
      let gp ← H5.get instrument p!"geometry_parameters"
      setLink instrument p!"diffractometer" gp
      let target ← H5.get instrument p!"diffractometer"
      setTarget target target : HM Unit) t = (s', .ok ()) := w2
    obtain ⟨t1, ins, a1, b1⟩ := HM.bind_inv w2
    obtain ⟨t2, gp, a2, b2⟩ := HM.bind_inv b1
    obtain ⟨t3, _, a3, b3⟩ := HM.bind_inv b2
    obtain ⟨t4, tg, a4, b4⟩ := HM.bind_inv b3
    obtain ⟨rfl, hI, -⟩ := h.getInst hid a1
    obtain ⟨rfl, hf⟩ := h.getHub hI (by decide : Plain p!"geometry_parameters").single h1 a2
    obtain ⟨hK, ch, a0, e0, e1, -⟩ := h.hub _ hI
    obtain ⟨z3, y3⟩ : Zone c X XI K v u t3 ∧ ∀ i, K i → t3[i]? = t2[i]? := by
      unfold H5.setLink HM.change at a3
      beta_reduce at a3
      have hs : Single p!"diffractometer" := (by decide : Plain p!"diffractometer").single
      rw [base_single hs, comps_single hs] at a3
      obtain ⟨node, hnode⟩ : ∃ node, t2[gp.id]? = some node := ⟨_, List.getElem?_eq_getElem hf.2.2⟩
      rw [hnode] at a3
      simp only [H5.link, e0] at a3
      cases hg : ch.has p!"diffractometer" with
      | true => rw [hg] at a3; cases a3
      | false =>
        rw [hg] at a3
        have a3 : (t2.set ins.id (.group (ch.set p!"diffractometer" gp.id) a0), (Except.ok () : Except PyErr Unit)) = (t3, .ok ()) := a3
        injection a3 with a3 _
        rw [← a3]
        refine ⟨h.hubSet hI e0 (Dict.nodup_keys_set _ _ _ (h.held.inv.wf _ _ _ e0).1) ?_ ?_, fun i hi => ?_⟩
        · intro m j hm
          rcases Dict.mem_set hm with q | q
          · injection q with q1 q2
            subst q1 q2
            right
            refine ⟨hf.2.2, hf.2.1, fun q => hf.1 (.inr (.inr (q ▸ hI))), fun q => hf.1 (.inl q), fun q => absurd (.inr (.inl q)) hf.1⟩
          · exact .inl q
        · intro m hm
          have hmn : p!"diffractometer" ≠ m := fun q => h2 (by rw [q]; exact hm)
          rw [Dict.get?_set_ne _ _ hmn]
          exact e1 m hm
        · rw [set_get? _ _ _ _ (lt_of_get? e0), if_neg (show ¬ i = ins.id from fun q => hK (q ▸ hi))]
    obtain ⟨rfl, hf4⟩ := z3.getHub hI (by decide : Plain p!"diffractometer").single h2 a4
    obtain ⟨k6, k7, -⟩ := z3.step (conf_setAttr hf4.1 hf4.2.1 _ _) b4
    exact ⟨k6, fun i hi => (k7 i hi).trans (y3 i hi)⟩

theorem zone_addPositioners {c : Scope} {X XI : Str → Prop} {K : Nat → Prop} {v u : Str → Option Nat} {s s' : H5}
    (h : Zone c X XI K v u s) {e : HRef} (hid : e.id = c.e) (hp : e.path = [c.E]) (h1 : ¬ XI p!"positioners")
    (hw : addPositioners e s = (s', .ok ())) :
    Zone c X XI K v u s' ∧ ∀ i, K i → s'[i]? = s[i]? := by
  unfold addPositioners at hw
  obtain ⟨t, b, w1, w2⟩ := HM.andThen_inv hw
  obtain rfl := contains_state w1
  cases b with
  | false =>
    obtain ⟨-, rfl⟩ := HM.ret_inv w2
    exact ⟨h, fun _ _ => rfl⟩
  | true =>
    replace w2 : HM.andThen (contains e p!"instrument/positioners") (fun b => HM.onlyIf b do
      let target ← H5.get e p!"instrument/positioners"
      setTarget target target) t = (s', .ok ()) := w2
    obtain ⟨t1, b, w3, w4⟩ := HM.andThen_inv w2
    obtain rfl := contains_state w3
    cases b with
    | false =>
      obtain ⟨-, rfl⟩ := HM.ret_inv w4
      exact ⟨h, fun _ _ => rfl⟩
    | true =>
      replace w4 : (do
        let target ← H5.get e p!"instrument/positioners"
        setTarget target target : HM Unit) t1 = (s', .ok ()) := w4
      obtain ⟨t2, tg, a1, b1⟩ := HM.bind_inv w4
      obtain ⟨rfl, hf⟩ : t2 = t1 ∧ Far c X K v t1 tg.id := by
        unfold H5.get HM.lookE at a1
        beta_reduce at a1
        have hb : H5.base e p!"instrument/positioners" = e := by
          unfold H5.base; exact if_neg (by decide)
        have hc : comps p!"instrument/positioners" = [inst, p!"positioners"] := by decide
        rw [hb, hc] at a1
        obtain ⟨ch, a, e1, e2⟩ := h.held.entry
        have e1' : t1[e.id]? = some (.group ch a) := by rw [hid]; exact e1
        cases hI : v inst with
        | none =>
          have : H5.walk t1 e.id [inst, p!"positioners"] = none := by
            rw [H5.walk, e1']; simp only [(e2 inst (.inr rfl)).trans hI]
          rw [this] at a1; injection a1 with _ a1; cases a1
        | some I =>
          rw [walk_one e1' ((e2 inst (.inr rfl)).trans hI)] at a1
          obtain ⟨-, ch1, a1', g0, -, -⟩ := h.hub _ hI
          rw [walk_single _ g0] at a1
          cases hm : ch1.get? p!"positioners" with
          | none => rw [hm] at a1; injection a1 with _ a1; cases a1
          | some j =>
            rw [hm] at a1
            injection a1 with q1 q2
            injection q2 with q2
            rw [← q2]
            exact ⟨q1.symm, h.member hI g0 h1 hm⟩
      obtain ⟨k6, k7, -⟩ := h.step (conf_setAttr hf.1 hf.2.1 _ _) b1
      exact ⟨k6, k7⟩

/-! ### runs -/

/-- What the writers `F` do to the names `X` of the entry and `XI` of its group "instrument", which the other writers
do not use; `Φ w K v u s` says that the names show `w`, and depends on the protected nodes only. -/
structure ZonedRun {σ : Type} (X XI : Str → Prop) (F : H5Fn → Prop) (P : Obj → Prop)
    (Φ : Str → σ → (Nat → Prop) → (Str → Option Nat) → (Str → Option Nat) → H5 → Prop) (R : Obj → H5Fn → Obj → σ → σ → Prop)
    (w0 : σ) : Prop where
  data : ¬ F .scanData
  avoids : ∀ f, ¬ F f → (∀ n ∈ usedBy f, n ≠ inst → ¬ X n) ∧ (∀ n ∈ hubUsed f, ¬ XI n) ∧
    (f = .unrec → ∀ i, ¬ X (p!"unrecognized_" ++ natStr i))
  step : ∀ f, F f → ∀ {c : Scope} {e : HRef} {hdr x y : Obj} {K v u w s s'}, P x → RelNames x → e.id = c.e → e.path = [c.E] →
    Zone c X XI K v u s → Φ c.E w K v u s → runWriter f e hdr x s = (s', .ok y) →
    ∃ K' v' u' w', Zone c X XI K' v' u' s' ∧ Φ c.E w' K' v' u' s' ∧ R hdr f x w w'
  keep : ∀ {E w K v v' u s s'}, (∀ n, n ≠ inst → v' n = v n) → (∀ j, K j → s'[j]? = s[j]?) → Φ E w K v u s → Φ E w K v' u s'
  init : ∀ E s, Φ E w0 (fun _ => False) (fun _ => none) (fun _ => none) s
  pL : ∀ x L, P x → P { x with L := L }
  withL : ∀ hdr f x w w', R hdr f x w w' → ∀ L, R hdr f { x with L := L } w w'

/-- the same, with what is added last -/
structure Zoned {σ : Type} (X XI : Str → Prop) (F : H5Fn → Prop) (P : Obj → Prop)
    (Φ : Str → σ → (Nat → Prop) → (Str → Option Nat) → (Str → Option Nat) → H5 → Prop) (R : Obj → H5Fn → Obj → σ → σ → Prop)
    (w0 : σ) (fin : Str → σ → σ) : Prop extends ZonedRun X XI F P Φ R w0 where
  last : ∀ {c : Scope} {e : HRef} {K v u w s s'}, e.id = c.e → e.path = [c.E] → Zone c X XI K v u s → Φ c.E w K v u s →
    additions e s = (s', .ok ()) → ∃ K' v' u', Zone c X XI K' v' u' s' ∧ Φ c.E (fin c.E w) K' v' u' s'

theorem zone_run {σ : Type} {X XI : Str → Prop} {F : H5Fn → Prop} {P : Obj → Prop}
    {Φ : Str → σ → (Nat → Prop) → (Str → Option Nat) → (Str → Option Nat) → H5 → Prop} {R : Obj → H5Fn → Obj → σ → σ → Prop}
    {w0 : σ} (hs : ZonedRun X XI F P Φ R w0)
    {c : Scope} {e : HRef} (hid : e.id = c.e) (hp : e.path = [c.E]) {hdr : Obj} :
    ∀ (fs : List H5Fn) (x : Obj) {y : Obj} {K v u w s s'}, RelNames x → P x →
    Zone c X XI K v u s → Φ c.E w K v u s → runWriters e hdr fs x s = (s', .ok y) →
    ∃ K' v' u' w', Zone c X XI K' v' u' s' ∧ Φ c.E w' K' v' u' s' ∧ Steps F (R hdr) x fs w w'
  | [], x, y, K, v, u, W, s, s', _, _, h, hΦ, hw => by
    obtain ⟨_, rfl⟩ := HM.ret_inv hw
    exact ⟨K, v, u, W, h, hΦ, .nil _⟩
  | f :: fs, x, y, K, v, u, W, s, s', hr, hP, h, hΦ, hw => by
    rw [runWriters] at hw
    obtain ⟨t, x1, w1, w2⟩ := HM.andThen_inv hw
    by_cases hF : F f
    · obtain rfl := runWriter_same (fun e => hs.data (e ▸ hF)) w1
      obtain ⟨K', v', u', W', k1, k0, k2⟩ := hs.step f hF hP hr hid hp h hΦ w1
      obtain ⟨K2, v2, u2, W2, k3, k4, k5⟩ := zone_run hs hid hp fs _ hr hP k1 k0 w2
      exact ⟨K2, v2, u2, W2, k3, k4, .step hF k2 k5⟩
    · obtain ⟨a1, a2, a3⟩ := hs.avoids f hF
      obtain ⟨⟨v', k1, k6, _, k7⟩, L, hL⟩ := zone_runWriter h hid hp hdr x hr f a1 a2 a3 w1
      subst hL
      obtain ⟨K', v2, u', W', k3, k0, k4⟩ := zone_run hs hid hp fs _ (hr.withL L) (hs.pL _ L hP) k1 (hs.keep k6 k7 hΦ) w2
      exact ⟨K', v2, u', W', k3, k0, .skip hF (k4.map fun f w w' q => hs.withL _ _ _ _ _ q x.L)⟩

/-- **What an entry shows under the names `X`, and its group "instrument" under the names `XI`**, that only the
writers `F` use. -/
theorem EntryOf.zonesTo {σ : Type} {k : Ref} {S : SState} {m : Str} {x y z : Obj} {e : Nat} {chE : Dict Nat}
    (h : EntryOf k S m x y z e chE) {X XI : Str → Prop} {F : H5Fn → Prop} {P : Obj → Prop}
    {Φ Ψ : Str → σ → (Nat → Prop) → (Str → Option Nat) → (Str → Option Nat) → H5 → Prop} {R : Obj → H5Fn → Obj → σ → σ → Prop}
    {w0 : σ} (hs : ZonedRun X XI F P Φ R w0)
    (hlast : ∀ {c : Scope} {e : HRef} {K v u w s s'}, e.id = c.e → e.path = [c.E] → Zone c X XI K v u s → Φ c.E w K v u s →
      additions e s = (s', .ok ()) → ∃ K' v' u', Zone c X XI K' v' u' s' ∧ Ψ c.E w K' v' u' s')
    (hkeep : ∀ {E w K v u s s'}, (∀ j, K j → s'[j]? = s[j]?) → Ψ E w K v u s → Ψ E w K v u s')
    (h1 : ∀ n ∈ usedFirst, ¬ X n) (h3 : ¬ X p!"experiment_description")
    (h4 : ¬ X p!"data") (hP : ∀ hdr, HdrLike hdr (S.sdf.headerOf z) → P hdr) (hPz : P z) :
    ∃ hdr w1 w2 K v u, HdrLike hdr (S.sdf.headerOf z) ∧ Steps F (R hdr) hdr hdr.h5.values w0 w1 ∧
      Steps F (R hdr) z z.h5.values w1 w2 ∧ Ψ (p!"S" ++ k.text) w2 K v u S.h5 ∧
      (∀ N, X N → chE.get? N = v N) ∧ chE.get? inst = v inst ∧
      (∀ I, v inst = some I → ∃ ch a, S.h5[I]? = some (HNode.group ch a) ∧ ∀ N, XI N → ch.get? N = u N) ∧
      (v inst = none → ∀ N, XI N → u N = none) := by
  obtain ⟨hdr, ⟨t1, t2, chT, aT, r1, r2, r3, r4, r5, r6, _, r8, r9, _⟩, hl⟩ := h.ran
  obtain ⟨s1, s2, s3, h', q1, q2, q3, q4⟩ := saveScanRest_inv r1
  have hst : Zone (entryScope (p!"S" ++ k.text) e) X XI (fun _ => False) (fun _ => none) (fun _ => none) t1 :=
    Zone.start (fun _ h => h) r2 r3 (fun n hn => by
      have hb : (n == p!"experiment_description") = false := beq_false_of_ne fun e => by
        rcases hn with q | q
        · exact h3 (e ▸ q)
        · rw [q] at e; exact absurd e (by decide)
      simp only [Dict.get?, List.lookup, hb])
  obtain ⟨L, hL⟩ := h.z_eq
  have hx5 : x.h5 = z.h5 := by rw [hL]
  have hu : ∀ n ∈ usedFirst, ¬ (zoneScope (entryScope (p!"S" ++ k.text) e) X (fun _ => False) (fun _ => none)).X n := by
    rintro n hn (q | q)
    · exact h1 n hn q
    · rw [q] at hn; exact absurd hn (by decide)
  obtain ⟨g1, -, -⟩ := hst.step (conf_firstPart (hst.ok rfl rfl) hu x) q1
  have hPx : P x := by
    have := hs.pL z x.L hPz
    rw [hL] at this
    exact this
  obtain ⟨K1, v1, u1, W1, g2, i1, o1⟩ := zone_run hs rfl rfl _ _ r4 (hP _ hl) g1 (hs.init _ s1) q2
  obtain ⟨K2, v2, u2, W2, g3, i2, o2⟩ := zone_run hs rfl rfl _ _ r5 hPx g2 i1 q3
  obtain ⟨K3, v3, u3, g4, i3⟩ := hlast rfl rfl g3 i2 q4
  have hK : ∀ i, (K3 i ∨ v3 inst = some i) → S.h5[i]? = t2[i]? := by
    intro i hi
    refine r9 i ?_ (g4.held.inv.lt i (.inr hi))
    have h1 : ¬ i < e := g4.held.apart i hi
    have h2 : i ≠ e := fun q => g4.held.inv.notD (.inr (q ▸ hi))
    omega
  rw [hx5] at o2
  have o3 : Steps F (R hdr) z z.h5.values W1 W2 := o2.map fun f w w' q => by
    have := hs.withL hdr f x w w' q L
    rwa [← hL] at this
  obtain ⟨ch, a, e1, e2⟩ := g4.held.entry
  have e1 : t2[e]? = some (.group ch a) := e1
  rw [r6] at e1
  injection e1 with e1
  injection e1 with e1 _
  subst e1
  refine ⟨hdr, W1, W2, K3, v3, u3, hl, o1, o3, hkeep (fun i hi => hK i (.inl hi)) i3, ?_, ?_, ?_, g4.noHub⟩
  · intro N hN
    exact (r8 N fun q => h4 (q ▸ hN)).trans (e2 N (.inl hN))
  · exact (r8 inst (by decide)).trans (e2 inst (.inr rfl))
  · intro I hI
    obtain ⟨-, ch, a, f1, f2, -⟩ := g4.hub I hI
    exact ⟨ch, a, (hK I (.inr hI)).trans f1, f2⟩

theorem EntryOf.zones {σ : Type} {k : Ref} {S : SState} {m : Str} {x y z : Obj} {e : Nat} {chE : Dict Nat}
    (h : EntryOf k S m x y z e chE) {X XI : Str → Prop} {F : H5Fn → Prop} {P : Obj → Prop}
    {Φ : Str → σ → (Nat → Prop) → (Str → Option Nat) → (Str → Option Nat) → H5 → Prop} {R : Obj → H5Fn → Obj → σ → σ → Prop}
    {w0 : σ} {fin : Str → σ → σ} (hs : Zoned X XI F P Φ R w0 fin)
    (h1 : ∀ n ∈ usedFirst, ¬ X n) (h3 : ¬ X p!"experiment_description")
    (h4 : ¬ X p!"data") (hP : ∀ hdr, HdrLike hdr (S.sdf.headerOf z) → P hdr) (hPz : P z) :
    ∃ hdr w1 w2 K v u, HdrLike hdr (S.sdf.headerOf z) ∧ Steps F (R hdr) hdr hdr.h5.values w0 w1 ∧
      Steps F (R hdr) z z.h5.values w1 w2 ∧ Φ (p!"S" ++ k.text) (fin (p!"S" ++ k.text) w2) K v u S.h5 ∧
      (∀ N, X N → chE.get? N = v N) ∧ chE.get? inst = v inst ∧
      (∀ I, v inst = some I → ∃ ch a, S.h5[I]? = some (HNode.group ch a) ∧ ∀ N, XI N → ch.get? N = u N) ∧
      (v inst = none → ∀ N, XI N → u N = none) :=
  h.zonesTo (Ψ := fun E w => Φ E (fin E w)) hs.toZonedRun hs.last (hs.keep fun _ _ => rfl) h1 h3 h4 hP hPz

end S2N
