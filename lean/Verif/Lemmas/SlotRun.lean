import Verif.Lemmas.Slot
/-
The names of an entry while all writers of a header and of a scan run.
-/
namespace S2N
open Py H5 Eznx Writer Spec

/-- what is known of the names of an entry -/
abbrev Known := Str → Option Content

/-- nothing has a name -/
def Known.nil : Known := fun _ => none

variable [UniDB]

/-- What the writers `F` do to the names `X`, which the other writers do not use. -/
structure SlottedAt (X : Str → Prop) (F : H5Fn → Prop) (P : Obj → Prop) (I : Known → Prop)
    (R : H5Fn → Obj → Known → Known → Prop) : Prop where
  data : ¬ F .scanData
  avoids : ∀ f, ¬ F f → (∀ n ∈ usedBy f, ¬ X n) ∧ (f = .unrec → ∀ i, ¬ X (p!"unrecognized_" ++ natStr i))
  step : ∀ f, F f → ∀ {c : Scope} {e : HRef} {hdr x y : Obj} {K v W s s'}, P x → RelNames x → I W → e.id = c.e →
    e.path = [c.E] → Slots c X K v W s →
    runWriter f e hdr x s = (s', .ok y) → ∃ K' v' W', Slots c X K' v' W' s' ∧ I W' ∧ R f x W W'
  init : I Known.nil
  pL : ∀ x L, P x → P { x with L := L }
  withL : ∀ f x W W', R f x W W' → ∀ L, R f { x with L := L } W W'

/-- The same, when the path of the entry does not matter. -/
structure Slotted (X : Str → Prop) (F : H5Fn → Prop) (P : Obj → Prop) (I : Known → Prop)
    (R : H5Fn → Obj → Known → Known → Prop) : Prop where
  data : ¬ F .scanData
  avoids : ∀ f, ¬ F f → (∀ n ∈ usedBy f, ¬ X n) ∧ (f = .unrec → ∀ i, ¬ X (p!"unrecognized_" ++ natStr i))
  step : ∀ f, F f → ∀ {c : Scope} {e : HRef} {hdr x y : Obj} {K v W s s'}, P x → I W → e.id = c.e → Slots c X K v W s →
    runWriter f e hdr x s = (s', .ok y) → ∃ K' v' W', Slots c X K' v' W' s' ∧ I W' ∧ R f x W W'
  init : I Known.nil
  pL : ∀ x L, P x → P { x with L := L }
  withL : ∀ f x W W', R f x W W' → ∀ L, R f { x with L := L } W W'

theorem Slotted.at {X : Str → Prop} {F : H5Fn → Prop} {P : Obj → Prop} {I : Known → Prop}
    {R : H5Fn → Obj → Known → Known → Prop} (h : Slotted X F P I R) : SlottedAt X F P I R :=
  ⟨h.data, h.avoids, fun f hF _ _ _ _ _ _ _ _ _ _ hP _ hI hid _ hs hw => h.step f hF hP hI hid hs hw, h.init, h.pL, h.withL⟩

/-- what the writers of an object do, one after the other -/
inductive Steps {σ : Type} (F : H5Fn → Prop) (R : H5Fn → Obj → σ → σ → Prop) (x : Obj) : List H5Fn → σ → σ → Prop
  | nil (W) : Steps F R x [] W W
  | skip {f fs W W'} : ¬ F f → Steps F R x fs W W' → Steps F R x (f :: fs) W W'
  | step {f fs W W1 W'} : F f → R f x W W1 → Steps F R x fs W1 W' → Steps F R x (f :: fs) W W'

/-- what the only writer of an object does -/
def Outcome {σ : Type} (F : H5Fn → Prop) (R : H5Fn → Obj → σ → σ → Prop) (fs : List H5Fn) (x : Obj) (W W' : σ) : Prop :=
  (∃ f ∈ fs, F f ∧ R f x W W') ∨ ((∀ f ∈ fs, ¬ F f) ∧ W' = W)

omit [UniDB] in
theorem Steps.none {σ : Type} {F : H5Fn → Prop} {R : H5Fn → Obj → σ → σ → Prop} {x : Obj} {fs : List H5Fn} {W W' : σ}
    (h : Steps F R x fs W W') (ha : ∀ f ∈ fs, ¬ F f) : W' = W := by
  induction h with
  | nil => rfl
  | skip _ _ ih => exact ih fun f hf => ha f (by simp [hf])
  | step hF => exact absurd hF (ha _ (by simp))

omit [UniDB] in
theorem Steps.once {σ : Type} {F : H5Fn → Prop} {R : H5Fn → Obj → σ → σ → Prop} {x : Obj} {fs : List H5Fn} {W W' : σ}
    (h : Steps F R x fs W W') (hp : fs.Pairwise (fun f g => ¬ (F f ∧ F g))) : Outcome F R fs x W W' := by
  induction h with
  | nil => exact .inr ⟨by simp, rfl⟩
  | skip hF _ ih =>
    rw [List.pairwise_cons] at hp
    rcases ih hp.2 with ⟨f, f1, f2, f3⟩ | ⟨f1, f2⟩
    · exact .inl ⟨f, by simp [f1], f2, f3⟩
    · refine .inr ⟨?_, f2⟩
      intro g hg
      rcases List.mem_cons.1 hg with rfl | hg
      · exact hF
      · exact f1 g hg
  | step hF hR hs _ =>
    rw [List.pairwise_cons] at hp
    refine .inl ⟨_, by simp, hF, ?_⟩
    rw [hs.none fun g hg hG => hp.1 g hg ⟨hF, hG⟩]
    exact hR

theorem Steps.withL {X : Str → Prop} {F : H5Fn → Prop} {P : Obj → Prop} {I : Known → Prop}
    {R : H5Fn → Obj → Known → Known → Prop} (hs : SlottedAt X F P I R) {x : Obj} {fs : List H5Fn} {W W' : Known}
    (h : Steps F R x fs W W') (L : Option (List Str)) : Steps F R { x with L := L } fs W W' := by
  induction h with
  | nil => exact .nil _
  | skip hF _ ih => exact .skip hF ih
  | step hF hR _ ih => exact .step hF (hs.withL _ _ _ _ hR L) ih

theorem slots_run {X : Str → Prop} {F : H5Fn → Prop} {P : Obj → Prop} {I : Known → Prop}
    {R : H5Fn → Obj → Known → Known → Prop} (hs : SlottedAt X F P I R)
    {c : Scope} (hE : Plain c.E) {e : HRef} (hid : e.id = c.e) (hp : e.path = [c.E]) {hdr : Obj} :
    ∀ (fs : List H5Fn) (x : Obj) {y : Obj} {K v W s s'}, RelNames x → P x → I W →
    Slots c X K v W s → runWriters e hdr fs x s = (s', .ok y) →
    ∃ K' v' W', Slots c X K' v' W' s' ∧ I W' ∧ Steps F R x fs W W'
  | [], x, y, K, v, W, s, s', _, _, hI, h, hw => by
    obtain ⟨_, rfl⟩ := HM.ret_inv hw
    exact ⟨K, v, W, h, hI, .nil _⟩
  | f :: fs, x, y, K, v, W, s, s', hr, hP, hI, h, hw => by
    rw [runWriters] at hw
    obtain ⟨t, x1, w1, w2⟩ := HM.andThen_inv hw
    by_cases hF : F f
    · obtain rfl := runWriter_same (fun e => hs.data (e ▸ hF)) w1
      obtain ⟨K', v', W', k1, k0, k2⟩ := hs.step f hF hP hr hI hid hp h w1
      obtain ⟨K2, v2, W2, k3, k4, k5⟩ := slots_run hs hE hid hp fs _ hr hP k0 k1 w2
      exact ⟨K2, v2, W2, k3, k4, .step hF k2 k5⟩
    · obtain ⟨k1, k2⟩ := h.step (conf_runWriter (c := c.slots X K) hE
        ⟨by rw [hid]; exact h.held.inv.notD, .inl ⟨hid, hp⟩⟩ hdr x hr f (hs.avoids f hF)) w1
      obtain ⟨L, hL⟩ := k2 x1 rfl
      subst hL
      obtain ⟨K', v', W', k3, k0, k4⟩ := slots_run hs hE hid hp fs _ (hr.withL L) (hs.pL _ L hP) hI k1 w2
      exact ⟨K', v', W', k3, k0, .skip hF (k4.withL hs x.L)⟩

/-- the datasets of every entry -/
def firstPart (e : HRef) (x : Obj) : HM Unit := do
  let _ ← writeDataset e p!"title" (.str x.S) []
  let nums ← HM.lift (splitScanNumberString x.scanNum)
  let ds ← writeDataset e p!"scan_number" (.num (.int (nums.getD 0 0))) []
  addAttributes ds (attr1 p!"spec_name" p!"SCAN_N")
  HM.onlyIf (decide (0 < nums.getD 1 0)) (addAttributes ds [(p!"repeat", .num (.int (nums.getD 1 0)))])
  let _ ← writeDataset e p!"command" (.str x.scanCmd) []
  pure ()

theorem saveScanRest_inv {e : HRef} {hdr x y : Obj} {s s' : H5} (h : saveScanRest e hdr x s = (s', .ok y)) :
    ∃ s1 s2 s3 h', firstPart e x s = (s1, .ok ()) ∧ runWriters e hdr hdr.h5.values hdr s1 = (s2, .ok h') ∧
      runWriters e hdr x.h5.values x s2 = (s3, .ok y) ∧ additions e s3 = (s', .ok ()) := by
  unfold saveScanRest at h
  obtain ⟨t1, u1, a1, h⟩ := HM.bind_inv h
  obtain ⟨t2, u2, a2, h⟩ := HM.bind_inv h
  obtain ⟨t3, u3, a3, h⟩ := HM.bind_inv h
  obtain ⟨t4, u4, a4, h⟩ := HM.bind_inv h
  obtain ⟨t5, u5, a5, h⟩ := HM.bind_inv h
  obtain ⟨t6, u6, a6, h⟩ := HM.bind_inv h
  obtain ⟨t7, u7, a7, h⟩ := HM.bind_inv h
  obtain ⟨t8, u8, a8, h⟩ := HM.bind_inv h
  obtain ⟨t9, u9, a9, h⟩ := HM.bind_inv h
  obtain ⟨e1, e2⟩ := HM.ret_inv h
  subst e1 e2
  refine ⟨t6, t7, t8, u7, ?_, a7, a8, a9⟩
  unfold firstPart
  rw [HM.bind_ok a1, HM.bind_ok a2, HM.bind_ok a3, HM.bind_ok a4, HM.bind_ok a5, HM.bind_ok a6]
  rfl

theorem conf_firstPart {c : Scope} {e : HRef} (ho : Ok c e) (h1 : ∀ n ∈ usedFirst, ¬ c.X n) (x : Obj) :
    Conf c (firstPart e x) (fun _ => True) := by
  unfold firstPart
  refine Conf.bind' (conf_wd ho (by decide) (h1 _ (by decide)) _ _) fun _ _ => ?_
  refine Conf.bind' (conf_lift _) fun nums _ => ?_
  refine Conf.bind' (conf_wd ho (by decide) (h1 _ (by decide)) _ _) fun ds hds => ?_
  refine Conf.bind' (conf_addAttributes hds.1.1 hds.2 _) fun _ _ => ?_
  refine Conf.bind' (Conf.onlyIf fun _ => conf_addAttributes hds.1.1 hds.2 _) fun _ _ => ?_
  refine Conf.bind' (conf_wd ho (by decide) (h1 _ (by decide)) _ _) fun _ _ => ?_
  exact Conf.pure' trivial

/-- one writer at most -/
theorem once_of_writers {k : Kind} {x : Obj} (h : Writers k x) {F : H5Fn → Prop}
    (hF : ∀ f g, F f → F g → labelOf f = labelOf g) : x.h5.values.Pairwise (fun f g => ¬ (F f ∧ F g)) := by
  have e : x.h5.values.map labelOf = x.h5.keys := by
    unfold Dict.values Dict.keys
    rw [List.map_map]
    exact List.map_congr_left fun p hp => (h.label p hp).symm
  have hn := h.keys
  rw [← e] at hn
  have := List.pairwise_map.1 hn
  exact this.imp fun {f g} hne ⟨h1, h2⟩ => hne (hF f g h1 h2)

/-- what is seen at a path of the file -/
def Shown (s : H5) (E m : Str) : Option Content → Prop
  | none => objAt s [E, m] = none
  | some (.ds d a) => datasetAt s [E, m] = some (d, a)
  | some (.grp V A) => groupAt s [E, m] = some A ∧ childrenAt s [E, m] = Dict.keys V ∧
      ∀ n, datasetAt s [E, m, n] = Dict.get? V n

theorem forall2_get2 {P : Nat → Prop} {s : H5} {ch : Dict Nat} {V : Sets}
    (h : List.Forall₂ (fun (p : Str × Nat) (q : Str × (HData × Dict AVal)) => p.1 = q.1 ∧ P p.2 ∧
      s[p.2]? = some (.dset q.2.1 q.2.2)) ch V) (n : Str) :
    (ch.get? n = none ∧ Dict.get? V n = none) ∨
    ∃ j d a, ch.get? n = some j ∧ Dict.get? V n = some (d, a) ∧ s[j]? = some (.dset d a) := by
  induction h with
  | nil => left; exact ⟨rfl, rfl⟩
  | @cons p q ch V h1 h2 ih =>
    obtain ⟨p1, p2⟩ := p
    obtain ⟨q1, q2⟩ := q
    obtain ⟨e1, _, e3⟩ := h1
    simp only at e1 e3
    subst e1
    by_cases hn : p1 = n
    · subst hn
      right
      exact ⟨p2, q2.1, q2.2, by simp [Dict.get?], by simp [Dict.get?], e3⟩
    · have hb : (n == p1) = false := beq_false_of_ne (Ne.symm hn)
      have k1 : Dict.get? ((p1, p2) :: ch) n = Dict.get? ch n := by simp only [Dict.get?, List.lookup, hb]
      have k2 : Dict.get? ((p1, q2) :: V) n = Dict.get? V n := by simp only [Dict.get?, List.lookup, hb]
      rw [k1, k2]; exact ih

theorem forall2_keys2 {P : Nat → Prop} {s : H5} {ch : Dict Nat} {V : Sets}
    (h : List.Forall₂ (fun (p : Str × Nat) (q : Str × (HData × Dict AVal)) => p.1 = q.1 ∧ P p.2 ∧
      s[p.2]? = some (.dset q.2.1 q.2.2)) ch V) : Dict.keys ch = Dict.keys V := by
  induction h with
  | nil => rfl
  | @cons p q ch V h1 h2 ih => simp only [Dict.keys, List.map_cons, h1.1] at ih ⊢; rw [ih]

/-- the end of the run, in the file of the end -/
theorem EntryOf.shown {k : Ref} {S : SState} {m : Str} {x y z : Obj} {e : Nat} {chE : Dict Nat}
    (h : EntryOf k S m x y z e chE) {X : Str → Prop} {K v W} {t2 : H5} {chT : Dict Nat} {aT : Dict AVal}
    (hS : Slots (entryScope (p!"S" ++ k.text) e) X K v W t2) (hT : t2[e]? = some (.group chT aT))
    (hE : ∀ m, m ≠ p!"data" → chE.get? m = chT.get? m) (hs : ∀ i, e < i → i < t2.length → S.h5[i]? = t2[i]?)
    {N : Str} (hN : X N) (hd : N ≠ p!"data") : Shown S.h5 (p!"S" ++ k.text) N (W N) := by
  obtain ⟨ch, a, e1, e2⟩ := hS.held.entry
  have e1 : t2[e]? = some (.group ch a) := e1
  rw [hT] at e1
  injection e1 with e1
  injection e1 with e1 _
  subst e1
  have hch : chE.get? N = v N := (hE N hd).trans (e2 N hN)
  have hK : ∀ i, K i → S.h5[i]? = t2[i]? := by
    intro i hi
    refine hs i ?_ (hS.held.inv.lt i (.inr hi))
    have h1 : ¬ i < e := hS.held.apart i hi
    have h2 : i ≠ e := fun q => hS.held.inv.notD (.inr (q ▸ hi))
    omega
  cases hW : W N with
  | none =>
    have hv := hS.none' N hN hW
    rw [hv] at hch
    unfold Shown objAt
    rw [h.walk, walk_none h.entry hch]
  | some w =>
    obtain ⟨i, i1, i2⟩ := hS.some' N w hN hW
    have hKi := hS.held.mem N i hN i1
    rw [i1] at hch
    have i3 := i2.keep (K' := K) hKi hK (fun _ h => h)
    have hw : ∀ rest, H5.walk S.h5 0 ((p!"S" ++ k.text) :: N :: rest) = H5.walk S.h5 i rest := by
      intro rest
      rw [h.walk]
      exact walk_one h.entry hch rest
    have ho : objAt S.h5 [p!"S" ++ k.text, N] = S.h5[i]? := by
      unfold objAt; rw [hw]; rfl
    cases w with
    | ds d a =>
      have i3 : S.h5[i]? = some (.dset d a) := i3
      unfold Shown datasetAt
      rw [ho, i3]
    | grp V A =>
      obtain ⟨ch, j1, j2, j3⟩ := i3
      refine ⟨?_, ?_, fun n => ?_⟩
      · unfold groupAt; rw [ho, j1]
      · unfold childrenAt; rw [ho, j1]; exact forall2_keys2 j3
      · unfold datasetAt objAt
        rw [hw]
        rcases forall2_get2 j3 n with ⟨g1, g2⟩ | ⟨j, d, a, g1, g2, g3⟩
        · rw [walk_none j1 g1, g2]
        · rw [walk_one j1 g1, g2, H5.walk]
          simp only [g3]

/-- **The names `X` of an entry** before the last part of `save_scan`. -/
theorem EntryOf.slotsAt' {k : Ref} {S : SState} {m : Str} {x y z : Obj} {e : Nat} {chE : Dict Nat}
    (h : EntryOf k S m x y z e chE) {X : Str → Prop} {F : H5Fn → Prop} {P : Obj → Prop} {I : Known → Prop}
    {R : H5Fn → Obj → Known → Known → Prop} (hs : SlottedAt X F P I R)
    (h1 : ∀ n ∈ usedFirst, ¬ X n) (h3 : ¬ X p!"experiment_description") (h4 : ¬ X p!"data")
    (hP : ∀ hdr, HdrLike hdr (S.sdf.headerOf z) → P hdr) (hPz : P z) :
    ∃ hdr W1 W2 K v s3 t2, HdrLike hdr (S.sdf.headerOf z) ∧ Steps F R hdr hdr.h5.values Known.nil W1 ∧
      Steps F R z z.h5.values W1 W2 ∧ Slots (entryScope (p!"S" ++ k.text) e) X K v W2 s3 ∧
      additions ⟨e, [p!"S" ++ k.text]⟩ s3 = (t2, .ok ()) ∧
      ∀ K v W, Slots (entryScope (p!"S" ++ k.text) e) X K v W t2 →
        ∀ N, X N → Shown S.h5 (p!"S" ++ k.text) N (W N) := by
  obtain ⟨hdr, ⟨t1, t2, chT, aT, r1, r2, r3, r4, r5, r6, _, r8, r9, _⟩, hl⟩ := h.ran
  obtain ⟨s1, s2, s3, h', q1, q2, q3, q4⟩ := saveScanRest_inv r1
  have hst : Slots (entryScope (p!"S" ++ k.text) e) X (fun _ => False) (fun _ => none) Known.nil t1 :=
    Slots.start (fun _ h => h) r2 r3 (fun n hn => by
      have hb : (n == p!"experiment_description") = false := beq_false_of_ne fun e => h3 (e ▸ hn)
      simp only [Dict.get?, List.lookup, hb])
  obtain ⟨L, hL⟩ := h.z_eq
  have hx5 : x.h5 = z.h5 := by rw [hL]
  have g1 := (hst.step (conf_firstPart ⟨hst.held.inv.notD, .inl ⟨rfl, rfl⟩⟩ h1 x) q1).1
  have hplain : Plain (entryScope (p!"S" ++ k.text) e).E := hst.held.inv.plain
  have hPx : P x := by
    have := hs.pL z x.L hPz
    rw [hL] at this
    exact this
  obtain ⟨K1, v1, W1, g2, i1, o1⟩ := slots_run hs hplain rfl rfl _ _ r4 (hP _ hl) hs.init g1 q2
  obtain ⟨K2, v2, W2, g3, _, o2⟩ := slots_run hs hplain rfl rfl _ _ r5 hPx i1 g2 q3
  refine ⟨hdr, W1, W2, K2, v2, s3, t2, hl, o1, ?_, g3, q4, fun K v W g4 N hN => h.shown g4 r6 r8 r9 hN fun e => h4 (e ▸ hN)⟩
  rw [hx5] at o2
  have := o2.withL hs L
  rwa [← hL] at this

/-- **What an entry shows under the names `X`** that only the writers `F` use. -/
theorem EntryOf.slotsAt {k : Ref} {S : SState} {m : Str} {x y z : Obj} {e : Nat} {chE : Dict Nat}
    (h : EntryOf k S m x y z e chE) {X : Str → Prop} {F : H5Fn → Prop} {P : Obj → Prop} {I : Known → Prop}
    {R : H5Fn → Obj → Known → Known → Prop} (hs : SlottedAt X F P I R)
    (hF : ∀ f g, F f → F g → labelOf f = labelOf g) (hw : Writers .scan z)
    (hh : Writers .header (S.sdf.headerOf z))
    (h1 : ∀ n ∈ usedFirst, ¬ X n) (h2 : ∀ n ∈ usedByAdditions, ¬ X n) (h3 : ¬ X p!"experiment_description")
    (h4 : ¬ X p!"data") (hP : ∀ hdr, HdrLike hdr (S.sdf.headerOf z) → P hdr) (hPz : P z) :
    ∃ hdr W1 W2, HdrLike hdr (S.sdf.headerOf z) ∧ Writers .header hdr ∧ Outcome F R hdr.h5.values hdr Known.nil W1 ∧
      Outcome F R z.h5.values z W1 W2 ∧ ∀ N, X N → Shown S.h5 (p!"S" ++ k.text) N (W2 N) := by
  obtain ⟨hdr, W1, W2, K, v, s3, t2, hl, o1, o2, g3, q4, g5⟩ := h.slotsAt' hs h1 h3 h4 hP hPz
  have g4 := (g3.step (conf_additions ⟨g3.held.inv.notD, .inl ⟨rfl, rfl⟩⟩ h2) q4).1
  have hw' := hh.hdrLike hl.symm
  exact ⟨hdr, W1, W2, hl, hw', o1.once (once_of_writers hw' hF), o2.once (once_of_writers hw hF), g5 _ _ _ g4⟩

/-- `slotsAt'` when the path does not matter -/
theorem EntryOf.slots' {k : Ref} {S : SState} {m : Str} {x y z : Obj} {e : Nat} {chE : Dict Nat}
    (h : EntryOf k S m x y z e chE) {X : Str → Prop} {F : H5Fn → Prop} {P : Obj → Prop} {I : Known → Prop}
    {R : H5Fn → Obj → Known → Known → Prop} (hs : Slotted X F P I R)
    (h1 : ∀ n ∈ usedFirst, ¬ X n) (h3 : ¬ X p!"experiment_description") (h4 : ¬ X p!"data")
    (hP : ∀ hdr, HdrLike hdr (S.sdf.headerOf z) → P hdr) (hPz : P z) :
    ∃ hdr W1 W2 K v s3 t2, HdrLike hdr (S.sdf.headerOf z) ∧ Steps F R hdr hdr.h5.values Known.nil W1 ∧
      Steps F R z z.h5.values W1 W2 ∧ Slots (entryScope (p!"S" ++ k.text) e) X K v W2 s3 ∧
      additions ⟨e, [p!"S" ++ k.text]⟩ s3 = (t2, .ok ()) ∧
      ∀ K v W, Slots (entryScope (p!"S" ++ k.text) e) X K v W t2 →
        ∀ N, X N → Shown S.h5 (p!"S" ++ k.text) N (W N) :=
  h.slotsAt' hs.at h1 h3 h4 hP hPz

/-- `slotsAt` when the path does not matter -/
theorem EntryOf.slots {k : Ref} {S : SState} {m : Str} {x y z : Obj} {e : Nat} {chE : Dict Nat}
    (h : EntryOf k S m x y z e chE) {X : Str → Prop} {F : H5Fn → Prop} {P : Obj → Prop} {I : Known → Prop}
    {R : H5Fn → Obj → Known → Known → Prop} (hs : Slotted X F P I R)
    (hF : ∀ f g, F f → F g → labelOf f = labelOf g) (hw : Writers .scan z)
    (hh : Writers .header (S.sdf.headerOf z))
    (h1 : ∀ n ∈ usedFirst, ¬ X n) (h2 : ∀ n ∈ usedByAdditions, ¬ X n) (h3 : ¬ X p!"experiment_description")
    (h4 : ¬ X p!"data") (hP : ∀ hdr, HdrLike hdr (S.sdf.headerOf z) → P hdr) (hPz : P z) :
    ∃ hdr W1 W2, HdrLike hdr (S.sdf.headerOf z) ∧ Writers .header hdr ∧ Outcome F R hdr.h5.values hdr Known.nil W1 ∧
      Outcome F R z.h5.values z W1 W2 ∧ ∀ N, X N → Shown S.h5 (p!"S" ++ k.text) N (W2 N) :=
  h.slotsAt hs.at hF hw hh h1 h2 h3 h4 hP hPz

end S2N
