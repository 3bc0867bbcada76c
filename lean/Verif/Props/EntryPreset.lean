import Verif.Props.EntryLines
import Verif.Lemmas.SlotPreset
/-
#M and #T in an entry.
-/
namespace S2N.Props
open S2N Py H5 Eznx Writer Spec

theorem float_empty : Py.float [] = .error .ValueError := by decide

section
variable [UniDB]

abbrev PresetF : H5Fn → Prop := fun f => f = .monitor ∨ f = .countTime

abbrev PresetRel : H5Fn → Obj → Known → Known → Prop := fun f x W W' =>
  (f = .monitor ∧ PresetR p!"M" p!"counts" monitorText x.M W W') ∨
      (f = .countTime ∧ PresetR p!"T" p!"s" timeText x.T W W')

/-- what is known of one preset -/
def Preset1 (N units desc : Str) (f : H5Fn) (fs : List H5Fn) (t : Option Str) (W W' : Known) : Prop :=
  (f ∉ fs → W' N = W N) ∧ (f ∈ fs → ∃ txt v, t = some txt ∧ Py.float txt = .ok v ∧
    W' N = some (.ds (presetDs units desc v).1 (presetDs units desc v).2))

/-- what is known after the writers of one object -/
structure PresetRun (fs : List H5Fn) (x : Obj) (W W' : Known) : Prop where
  mon : W' p!"monitor" = W p!"monitor"
  M : Preset1 p!"M" p!"counts" monitorText .monitor fs x.M W W'
  T : Preset1 p!"T" p!"s" timeText .countTime fs x.T W W'
  basis : (.monitor ∉ fs → .countTime ∉ fs → W' p!"counting_basis" = W p!"counting_basis") ∧
    ((.monitor ∈ fs ∧ W' p!"counting_basis" = some (basisDs monitorText)) ∨
      (.countTime ∈ fs ∧ W' p!"counting_basis" = some (basisDs timeText)) ∨ (.monitor ∉ fs ∧ .countTime ∉ fs))

theorem preset_run {x : Obj} {fs : List H5Fn} {W W' : Known} (h : Steps PresetF PresetRel x fs W W') : PresetRun fs x W W' := by
  induction h with
  | nil W => exact ⟨rfl, ⟨fun _ => rfl, fun h => by cases h⟩, ⟨fun _ => rfl, fun h => by cases h⟩, fun _ _ => rfl, .inr (.inr (by simp))⟩
  | @skip f fs W W' hF _ ih =>
    have n1 : f ≠ .monitor := fun e => hF (.inl e)
    have n2 : f ≠ .countTime := fun e => hF (.inr e)
    have m1 : H5Fn.monitor ∈ f :: fs ↔ .monitor ∈ fs := by simp [n1.symm]
    have m2 : H5Fn.countTime ∈ f :: fs ↔ .countTime ∈ fs := by simp [n2.symm]
    refine ⟨ih.mon, ?_, ?_, ?_⟩
    · unfold Preset1; rw [m1]; exact ih.M
    · unfold Preset1; rw [m2]; exact ih.T
    · rw [m1, m2]; exact ih.basis
  | @step f fs W W1 W' hF hR _ ih =>
    rcases hR with ⟨rfl, txt, v, r1, r2, r3⟩ | ⟨rfl, txt, v, r1, r2, r3⟩
    · have m2 : H5Fn.countTime ∈ H5Fn.monitor :: fs ↔ .countTime ∈ fs := by simp
      refine ⟨?_, ⟨fun h => absurd (by simp) h, fun _ => ?_⟩, ?_, ⟨fun h => absurd (by simp) h, ?_⟩⟩
      · rw [ih.mon, r3, upd_ne _ _ (by decide), upd_ne _ _ (by decide)]
      · by_cases hm : .monitor ∈ fs
        · exact ih.M.2 hm
        · exact ⟨txt, v, r1, r2, by rw [ih.M.1 hm, r3, upd_self]⟩
      · unfold Preset1
        rw [m2]
        refine ⟨fun h => ?_, ih.T.2⟩
        rw [ih.T.1 h, r3, upd_ne _ _ (by decide), upd_ne _ _ (by decide)]
      · rw [m2]
        rcases ih.basis.2 with ⟨_, e⟩ | ⟨e', e⟩ | ⟨e1, e2⟩
        · exact .inl ⟨by simp, e⟩
        · exact .inr (.inl ⟨e', e⟩)
        · exact .inl ⟨by simp, by rw [ih.basis.1 e1 e2, r3, upd_ne _ _ (by decide), upd_self]⟩
    · have m1 : H5Fn.monitor ∈ H5Fn.countTime :: fs ↔ .monitor ∈ fs := by simp
      refine ⟨?_, ?_, ⟨fun h => absurd (by simp) h, fun _ => ?_⟩, ⟨fun _ h => absurd (by simp) h, ?_⟩⟩
      · rw [ih.mon, r3, upd_ne _ _ (by decide), upd_ne _ _ (by decide)]
      · unfold Preset1
        rw [m1]
        refine ⟨fun h => ?_, ih.M.2⟩
        rw [ih.M.1 h, r3, upd_ne _ _ (by decide), upd_ne _ _ (by decide)]
      · by_cases hm : .countTime ∈ fs
        · exact ih.T.2 hm
        · exact ⟨txt, v, r1, r2, by rw [ih.T.1 hm, r3, upd_self]⟩
      · rw [m1]
        rcases ih.basis.2 with ⟨e', e⟩ | ⟨_, e⟩ | ⟨e1, e2⟩
        · exact .inl ⟨e', e⟩
        · exact .inr (.inl ⟨by simp, e⟩)
        · exact .inr (.inl ⟨by simp, by rw [ih.basis.1 e1 e2, r3, upd_ne _ _ (by decide), upd_self]⟩)

/-- the preset after the header and the scan -/
theorem preset_two {N units desc : Str} {f : H5Fn} {hdr z : Obj} {th tz : Option Str} {W0 W1 W2 : Known}
    (h0 : W0 N = none) (h1 : Preset1 N units desc f hdr.h5.values th W0 W1) (h2 : Preset1 N units desc f z.h5.values tz W1 W2)
    (w1 : th.getD [] ≠ [] → f ∈ hdr.h5.values) (w2 : tz.getD [] ≠ [] → f ∈ z.h5.values) :
    (f ∈ hdr.h5.values ↔ th.getD [] ≠ []) ∧ (f ∈ z.h5.values ↔ tz.getD [] ≠ []) ∧
    (ownOr tz th = [] → W2 N = none) ∧ (ownOr tz th ≠ [] → ∃ v, Py.float (ownOr tz th) = .ok v ∧
      W2 N = some (.ds (presetDs units desc v).1 (presetDs units desc v).2)) := by
  have ne : ∀ {t : Option Str} {txt v}, t = some txt → Py.float txt = .ok v → t.getD [] ≠ [] := by
    rintro t txt v rfl h e
    have : txt = [] := e
    rw [this, float_empty] at h
    cases h
  have i1 : f ∈ hdr.h5.values ↔ th.getD [] ≠ [] := ⟨fun h => by
    obtain ⟨txt, v, a1, a2, _⟩ := h1.2 h
    exact ne a1 a2, w1⟩
  have i2 : f ∈ z.h5.values ↔ tz.getD [] ≠ [] := ⟨fun h => by
    obtain ⟨txt, v, a1, a2, _⟩ := h2.2 h
    exact ne a1 a2, w2⟩
  refine ⟨i1, i2, ?_⟩
  unfold ownOr
  by_cases e2 : tz.getD [] = []
  · rw [if_pos e2]
    have n2 : f ∉ z.h5.values := fun h => i2.1 h e2
    rw [h2.1 n2]
    refine ⟨fun e1 => ?_, fun e1 => ?_⟩
    · rw [h1.1 fun h => i1.1 h e1]; exact h0
    · obtain ⟨txt, v, a1, a2, a3⟩ := h1.2 (i1.2 e1)
      rw [a1]
      exact ⟨v, a2, a3⟩
  · rw [if_neg e2]
    refine ⟨fun e => absurd e e2, fun _ => ?_⟩
    obtain ⟨txt, v, a1, a2, a3⟩ := h2.2 (i2.2 e2)
    rw [a1]
    exact ⟨v, a2, a3⟩

/-- C76: an entry says how the scan counted.  `M` is the monitor count of the #M line of the scan, or
of its header if the scan has none, `T` likewise the time of #T; without such a line there is no such
dataset.  `monitor/preset` shows the same as `M`, or as `T` if there is no `M`, and is named by its
attribute `target`; without both there is no `monitor`.  `counting_basis` says which it is; if there
are both #M and #T, it is one of the two. -/
theorem C76_preset {env : Env} {reg : List HKey} (hr : reg.Perm HKey.all) (hx : SchemaNames env) {v : Versions}
    {ks : List Ref} {s : Sdf} {r : SState} (hs : Savable s) (hk : ∀ k ∈ ks, PlainText k.text)
    (h : save env reg v ks s = (r, none)) {k : Ref} (hm : k ∈ ks) {z : Obj} (hz : r.sdf.getScan k = .ok (some z))
    {M T : Str} (hM : M = ownOr z.M (r.sdf.headerOf z).M) (hT : T = ownOr z.T (r.sdf.headerOf z).T) :
    (M = [] → objAt r.h5 [entryName k, p!"M"] = none) ∧
    (M ≠ [] → PresetAt r.h5 (entryName k) p!"M" p!"counts" p!"SPEC scan with constant monitor count" M true) ∧
    (T = [] → objAt r.h5 [entryName k, p!"T"] = none) ∧
    (T ≠ [] → PresetAt r.h5 (entryName k) p!"T" p!"s" p!"SPEC scan with constant counting time" T (decide (M = []))) ∧
    (M = [] → T = [] → objAt r.h5 [entryName k, p!"monitor"] = none ∧ objAt r.h5 [entryName k, p!"counting_basis"] = none) ∧
    (M ≠ [] → MonitorAt r.h5 (entryName k) p!"M") ∧ (M = [] → T ≠ [] → MonitorAt r.h5 (entryName k) p!"T") ∧
    (M ≠ [] ∨ T ≠ [] →
      (M ≠ [] ∧ datasetAt r.h5 [entryName k, p!"counting_basis"] = some (.text [p!"SPEC scan with constant monitor count"], [])) ∨
      (T ≠ [] ∧ datasetAt r.h5 [entryName k, p!"counting_basis"] = some (.text [p!"SPEC scan with constant counting time"], []))) := by
  obtain ⟨m, x, y, e, chE, en, hw, hh, hi⟩ := entry_of' hr hx hs hk h hm hz
  have nX : ∀ {n : Str}, n ≠ p!"M" → n ≠ p!"T" → n ≠ p!"monitor" → n ≠ p!"counting_basis" → ¬ presetName n := by
    rintro n a b c d (h | h | h | h) <;> contradiction
  obtain ⟨hdr, W1, W2, K, v', s3, t2, hl, o1, o2, g3, q4, g5⟩ := en.slots' slotted_preset
    (by unfold presetName; decide) (nX (by decide) (by decide) (by decide) (by decide))
    (nX (by decide) (by decide) (by decide) (by decide)) (fun _ _ => trivial) trivial
  have hwh := hh.hdrLike hl.symm
  have hQ : (r.sdf.headerOf z).M = hdr.M ∧ (r.sdf.headerOf z).T = hdr.T := by
    obtain ⟨O, d, ep, e⟩ := hl; rw [e]; exact ⟨rfl, rfl⟩
  rw [hQ.1] at hM
  rw [hQ.2] at hT
  have r1 := preset_run o1
  have r2 := preset_run o2
  obtain ⟨iM1, iM2, M0, M1⟩ := preset_two rfl r1.M r2.M hwh.monitor hw.monitor
  obtain ⟨iT1, iT2, T0, T1⟩ := preset_two rfl r1.T r2.T hwh.countTime hw.countTime
  rw [← hM] at M0 M1
  rw [← hT] at T0 T1
  have hmon : W2 p!"monitor" = none := by rw [r2.mon, r1.mon]; rfl
  have ow : ∀ {a b : Option Str}, ownOr a b = [] ↔ a.getD [] = [] ∧ b.getD [] = [] := by
    intro a b
    unfold ownOr
    by_cases e : a.getD [] = []
    · rw [if_pos e]; exact ⟨fun h => ⟨e, h⟩, fun h => h.2⟩
    · rw [if_neg e]; exact ⟨fun h => absurd h e, fun h => absurd h.1 e⟩
  have hbas : (M = [] → T = [] → W2 p!"counting_basis" = none) ∧ (M ≠ [] ∨ T ≠ [] →
      (M ≠ [] ∧ W2 p!"counting_basis" = some (basisDs monitorText)) ∨ (T ≠ [] ∧ W2 p!"counting_basis" = some (basisDs timeText))) := by
    subst hM hT
    refine ⟨fun eM eT => ?_, fun hne => ?_⟩
    · obtain ⟨a1, a2⟩ := ow.1 eM
      obtain ⟨b1, b2⟩ := ow.1 eT
      rw [r2.basis.1 (fun h => iM2.1 h a1) (fun h => iT2.1 h b1), r1.basis.1 (fun h => iM1.1 h a2) (fun h => iT1.1 h b2)]
      rfl
    · rcases r2.basis.2 with ⟨e', e⟩ | ⟨e', e⟩ | ⟨e1, e2⟩
      · exact .inl ⟨fun h => iM2.1 e' (ow.1 h).1, e⟩
      · exact .inr ⟨fun h => iT2.1 e' (ow.1 h).1, e⟩
      · rw [r2.basis.1 e1 e2]
        rcases r1.basis.2 with ⟨e', e⟩ | ⟨e', e⟩ | ⟨e3, e4⟩
        · exact .inl ⟨fun h => iM1.1 e' (ow.1 h).2, e⟩
        · exact .inr ⟨fun h => iT1.1 e' (ow.1 h).2, e⟩
        · exfalso
          have z1 : ∀ {f : H5Fn} {fs : List H5Fn} {t : Option Str}, (f ∈ fs ↔ t.getD [] ≠ []) → f ∉ fs → t.getD [] = [] := by
            intro f fs t i n
            by_contra hc
            exact n (i.2 hc)
          rcases hne with hne | hne
          · exact hne (ow.2 ⟨z1 iM2 e1, z1 iM1 e3⟩)
          · exact hne (ow.2 ⟨z1 iT2 e2, z1 iT1 e4⟩)
  have hds : ∀ m V A, presetName m → W2 m ≠ some (.grp V A) := by
    rintro m V A (rfl | rfl | rfl | rfl) hW
    · by_cases e : M = []
      · rw [M0 e] at hW; cases hW
      · obtain ⟨u, _, u2⟩ := M1 e
        rw [u2] at hW; cases hW
    · by_cases e : T = []
      · rw [T0 e] at hW; cases hW
      · obtain ⟨u, _, u2⟩ := T1 e
        rw [u2] at hW; cases hW
    · rw [hmon] at hW; cases hW
    · by_cases e : M = [] ∧ T = []
      · rw [hbas.1 e.1 e.2] at hW; cases hW
      · rcases hbas.2 (by by_cases a : M = []; exact .inr fun b => e ⟨a, b⟩; exact .inl a) with ⟨_, u⟩ | ⟨_, u⟩
        · rw [u] at hW; cases hW
        · rw [u] at hW; cases hW
  obtain ⟨K', v'', g6⟩ := g3.additions hds q4
  have g7 := g5 _ _ _ g6
  have sM := g7 p!"M" (.inl rfl)
  have sT := g7 p!"T" (.inr (.inl rfl))
  have sG := g7 p!"monitor" (.inr (.inr (.inl rfl)))
  have sB := g7 p!"counting_basis" (.inr (.inr (.inr rfl)))
  clear g7
  unfold withPreset at sM sT sG sB
  by_cases eM : M = []
  · rw [M0 eM] at sM sT sG sB
    by_cases eT : T = []
    · rw [T0 eT] at sM sT sG sB
      simp only [M0 eM, T0 eT, hmon, hbas.1 eM eT] at sM sT sG sB
      exact ⟨fun _ => sM, fun h => absurd eM h, fun _ => sT, fun h => absurd eT h, fun _ _ => ⟨sG, sB⟩, fun h => absurd eM h,
        fun _ h => absurd eT h, fun h => by rcases h with h | h <;> contradiction⟩
    · obtain ⟨u, u1, u2⟩ := T1 eT
      rw [u2] at sM sT sG sB
      simp only at sM sT sG sB
      rw [upd_ne _ _ (by decide), upd_ne _ _ (by decide), M0 eM] at sM
      rw [upd_self] at sT
      rw [upd_ne _ _ (by decide), upd_self] at sG
      rw [upd_ne _ _ (by decide), upd_ne _ _ (by decide)] at sB
      refine ⟨fun _ => sM, fun h => absurd eM h, fun h => absurd h eT, fun _ => ⟨u, u1, ?_⟩, fun _ h => absurd h eT, fun h => absurd eM h,
        fun _ _ => ⟨sG.1, sG.2.1, ?_⟩, fun _ => .inr ⟨eT, ?_⟩⟩
      · rw [decide_eq_true eM]
        exact sT
      · exact (sG.2.2 _).trans sT.symm
      · rcases hbas.2 (.inr eT) with ⟨a, _⟩ | ⟨_, a⟩
        · exact absurd eM a
        · rw [a] at sB; exact sB
  · obtain ⟨u, u1, u2⟩ := M1 eM
    rw [u2] at sM sT sG sB
    simp only at sM sT sG sB
    rw [upd_self] at sM
    rw [upd_ne _ _ (by decide), upd_ne _ _ (by decide)] at sT
    rw [upd_ne _ _ (by decide), upd_self] at sG
    rw [upd_ne _ _ (by decide), upd_ne _ _ (by decide)] at sB
    refine ⟨fun h => absurd h eM, fun _ => ⟨u, u1, sM⟩, fun h => ?_, fun h => ?_, fun h => absurd h eM,
      fun _ => ⟨sG.1, sG.2.1, (sG.2.2 _).trans sM.symm⟩, fun h => absurd h eM, fun hne => ?_⟩
    · rw [T0 h] at sT; exact sT
    · obtain ⟨w, w1, w2⟩ := T1 h
      rw [w2] at sT
      refine ⟨w, w1, ?_⟩
      rw [decide_eq_false eM]
      exact sT
    · rcases hbas.2 hne with ⟨a, b⟩ | ⟨a, b⟩
      · rw [b] at sB; exact .inl ⟨a, sB⟩
      · rw [b] at sB; exact .inr ⟨a, sB⟩

end
end S2N.Props
