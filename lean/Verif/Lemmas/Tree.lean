import Verif.Lemmas.UxmlLinks
import Verif.Lemmas.SlotWriters
/-
Writers that make a whole subtree of an entry.
-/
namespace S2N
open Py H5 Eznx Writer Spec

/-- the tree below the new node `b` of the entry becomes protected -/
theorem Held.tree {c : Scope} {X : Str → Prop} {K : Nat → Prop} {v : Str → Option Nat} {s s' : H5} {b : Nat}
    (h : Held c X K v s) (hb : s.length = b + 1) (hK : K b) (he : c.e < b) (hg : Grown b s s') (hs : Sound b s') :
    Held c X (fun i => K i ∨ (b ≤ i ∧ i < s'.length)) v s' := by
  have hi := h.inv
  have hlen := hg.len
  refine ⟨⟨?_, .inl h.root, ?_, hi.plain, ?_, ?_, ?_, ?_⟩, h.root, ?_, h.inj, fun n i hn hv => .inl (h.mem n i hn hv), ?_⟩
  · intro i ch a e
    by_cases hib : i < b
    · rw [hg.old i hib] at e
      have := hi.wf i ch a e
      exact ⟨this.1, fun n j hm => Nat.lt_of_lt_of_le (this.2 n j hm) hlen⟩
    · have := hs i ch a (by omega) e
      exact ⟨this.1, fun n j hm => (this.2 n j hm).2⟩
  · rintro (e | e | e)
    · exact hi.notD (.inl e)
    · exact hi.notD (.inr e)
    · have e : b ≤ c.e ∧ _ := e
      omega
  · obtain ⟨ch, a, e1, e2⟩ := hi.entry
    exact ⟨ch, a, by rw [hg.old 0 (by omega)]; exact e1, e2⟩
  · rintro i (e | e | e)
    · exact Nat.lt_of_lt_of_le (hi.lt i (.inl e)) hlen
    · exact Nat.lt_of_lt_of_le (hi.lt i (.inr e)) hlen
    · exact e.2
  · exact Nat.lt_of_lt_of_le hi.elt hlen
  · intro i hni ch a e n j hm
    have hib : i < b := by
      by_cases q : i < b
      · exact q
      · exact absurd (.inr (.inr ⟨by omega, lt_of_get? e⟩)) hni
    rw [hg.old i hib] at e
    have hni' : ¬ (c.slots X K).D i := by
      rintro (q | q)
      · exact hni (.inl q)
      · exact hni (.inr (.inl q))
    obtain ⟨k1, k2⟩ := hi.closed i hni' ch a e n j hm
    refine ⟨k1, ?_⟩
    rintro (q | q | q)
    · exact k2 (.inl q)
    · exact k2 (.inr q)
    · have hj := (hi.wf i ch a e).2 n j hm
      have : j = b := by have := q.1; omega
      exact k2 (.inr (this ▸ hK))
  · obtain ⟨ch, a, e1, e2⟩ := h.entry
    exact ⟨ch, a, by rw [hg.old _ he]; exact e1, e2⟩
  · rintro i (e | e) hD
    · exact h.apart i e hD
    · have := hi.lt i (.inl hD)
      have : i = b := by have := e.1; omega
      exact h.apart i (this ▸ hK) hD

/-- a new group of the entry -/
theorem Held.newGroup {c : Scope} {N : Str} {K : Nat → Prop} {v : Str → Option Nat} {s s' : H5}
    (h : Held c (fun n => n = N) K v s) {e : HRef} (hid : e.id = c.e) (hs : Single N) {cls : Str} {a : Dict AVal} {r : HRef}
    (hw : makeGroup e N cls a s = (s', .ok r)) :
    v N = none ∧ r = ⟨s.length, e.path ++ [N]⟩ ∧ s'.length = s.length + 1 ∧
      s'[s.length]? = some (.group [] (Dict.update [(p!"NX_class", AVal.str cls)] a)) ∧
      Held c (fun n => n = N) (fun i => K i ∨ i = s.length) (upd v N (some s.length)) s' := by
  obtain ⟨ch, a0, he, hv⟩ := h.entry
  have he' : s[e.id]? = some (.group ch a0) := by rw [hid]; exact he
  have hf : ch.has N = false := by
    cases hf : ch.has N with
    | false => rfl
    | true => rw [makeGroup_exists he' hs hf] at hw; cases hw
  have hvn : v N = none := by
    rw [← hv N rfl]
    exact (Dict.get?_eq_none_iff _ _).2 ((Dict.not_has_iff _ _).1 hf)
  have hS : Slots c (fun n => n = N) K v (fun _ => none) s := by
    refine ⟨h, ?_, ?_⟩
    · rintro n rfl _; exact hvn
    · intro _ _ _ hw; cases hw
  have hq := hS.newGroup hid rfl hs hw
  rw [makeGroup_eq he' hs hf] at hw
  injection hw with h1 h2
  injection h2 with h2
  refine ⟨hvn, h2.symm, ?_, ?_, hq.2.2.held⟩
  · rw [← h1]; simp
  · rw [← h1, List.getElem?_append_right (by simp)]; simp

variable [UniDB]

/-- What the writers `F` do to the names `X`, which the other writers do not use; `Φ w K v s` says that the
names show `w`, and depends on the protected nodes only. -/
structure Grafted {σ : Type} (X : Str → Prop) (F : H5Fn → Prop) (P : Obj → Prop)
    (Φ : σ → (Nat → Prop) → (Str → Option Nat) → H5 → Prop) (R : H5Fn → Obj → σ → σ → Prop) (w0 : σ) : Prop where
  data : ¬ F .scanData
  avoids : ∀ f, ¬ F f → (∀ n ∈ usedBy f, ¬ X n) ∧ (f = .unrec → ∀ i, ¬ X (p!"unrecognized_" ++ natStr i))
  step : ∀ f, F f → ∀ {c : Scope} {e : HRef} {hdr x y : Obj} {K v w s s'}, P x → e.id = c.e → e.path = [c.E] →
    Held c X K v s → Φ w K v s → runWriter f e hdr x s = (s', .ok y) →
    ∃ K' v' w', Held c X K' v' s' ∧ Φ w' K' v' s' ∧ R f x w w'
  keep : ∀ {w K v s s'}, (∀ j, K j → s'[j]? = s[j]?) → Φ w K v s → Φ w K v s'
  init : ∀ s, Φ w0 (fun _ => False) (fun _ => none) s
  pL : ∀ x L, P x → P { x with L := L }
  withL : ∀ f x w w', R f x w w' → ∀ L, R f { x with L := L } w w'

omit [UniDB] in
theorem Steps.map {σ : Type} {F : H5Fn → Prop} {R : H5Fn → Obj → σ → σ → Prop} {x y : Obj}
    (hR : ∀ f w w', R f x w w' → R f y w w') {fs : List H5Fn} {W W' : σ}
    (h : Steps F R x fs W W') : Steps F R y fs W W' := by
  induction h with
  | nil => exact .nil _
  | skip hF _ ih => exact .skip hF ih
  | step hF h0 _ ih => exact .step hF (hR _ _ _ h0) ih

theorem graft_run {σ : Type} {X : Str → Prop} {F : H5Fn → Prop} {P : Obj → Prop}
    {Φ : σ → (Nat → Prop) → (Str → Option Nat) → H5 → Prop} {R : H5Fn → Obj → σ → σ → Prop} {w0 : σ}
    (hs : Grafted X F P Φ R w0)
    {c : Scope} (hE : Plain c.E) {e : HRef} (hid : e.id = c.e) (hp : e.path = [c.E]) {hdr : Obj} :
    ∀ (fs : List H5Fn) (x : Obj) {y : Obj} {K v w s s'}, RelNames x → P x →
    Held c X K v s → Φ w K v s → runWriters e hdr fs x s = (s', .ok y) →
    ∃ K' v' w', Held c X K' v' s' ∧ Φ w' K' v' s' ∧ Steps F R x fs w w'
  | [], x, y, K, v, W, s, s', _, _, h, hΦ, hw => by
    obtain ⟨_, rfl⟩ := HM.ret_inv hw
    exact ⟨K, v, W, h, hΦ, .nil _⟩
  | f :: fs, x, y, K, v, W, s, s', hr, hP, h, hΦ, hw => by
    rw [runWriters] at hw
    obtain ⟨t, x1, w1, w2⟩ := HM.andThen_inv hw
    by_cases hF : F f
    · obtain rfl := runWriter_same (fun e => hs.data (e ▸ hF)) w1
      obtain ⟨K', v', W', k1, k0, k2⟩ := hs.step f hF hP hid hp h hΦ w1
      obtain ⟨K2, v2, W2, k3, k4, k5⟩ := graft_run hs hE hid hp fs _ hr hP k1 k0 w2
      exact ⟨K2, v2, W2, k3, k4, .step hF k2 k5⟩
    · obtain ⟨k1, k6, k2⟩ := h.step (conf_runWriter (c := c.slots X K) hE
        ⟨by rw [hid]; exact h.inv.notD, .inl ⟨hid, hp⟩⟩ hdr x hr f (hs.avoids f hF)) w1
      obtain ⟨L, hL⟩ := k2 x1 rfl
      subst hL
      obtain ⟨K', v', W', k3, k0, k4⟩ := graft_run hs hE hid hp fs _ (hr.withL L) (hs.pL _ L hP) k1 (hs.keep k6 hΦ) w2
      exact ⟨K', v', W', k3, k0, .skip hF (k4.map fun f w w' q => hs.withL _ _ _ _ q x.L)⟩

/-- **What an entry shows under the names `X`** that only the writers `F` use. -/
theorem EntryOf.grafts {σ : Type} {k : Ref} {S : SState} {m : Str} {x y z : Obj} {e : Nat} {chE : Dict Nat}
    (h : EntryOf k S m x y z e chE) {X : Str → Prop} {F : H5Fn → Prop} {P : Obj → Prop}
    {Φ : σ → (Nat → Prop) → (Str → Option Nat) → H5 → Prop} {R : H5Fn → Obj → σ → σ → Prop} {w0 : σ}
    (hs : Grafted X F P Φ R w0)
    (hF : ∀ f g, F f → F g → labelOf f = labelOf g) (hw : Writers .scan z)
    (hh : Writers .header (S.sdf.headerOf z))
    (h1 : ∀ n ∈ usedFirst, ¬ X n) (h2 : ∀ n ∈ usedByAdditions, ¬ X n) (h3 : ¬ X p!"experiment_description")
    (h4 : ¬ X p!"data") (hP : ∀ hdr, HdrLike hdr (S.sdf.headerOf z) → P hdr) (hPz : P z) :
    ∃ hdr w1 w2 K v, HdrLike hdr (S.sdf.headerOf z) ∧ Writers .header hdr ∧ Outcome F R hdr.h5.values hdr w0 w1 ∧
      Outcome F R z.h5.values z w1 w2 ∧ Φ w2 K v S.h5 ∧ ∀ N, X N → chE.get? N = v N := by
  obtain ⟨hdr, ⟨t1, t2, chT, aT, r1, r2, r3, r4, r5, r6, _, r8, r9, _⟩, hl⟩ := h.ran
  obtain ⟨s1, s2, s3, h', q1, q2, q3, q4⟩ := saveScanRest_inv r1
  have hst : Held (entryScope (p!"S" ++ k.text) e) X (fun _ => False) (fun _ => none) t1 :=
    Held.start (fun _ h => h) r2 r3 (fun n hn => by
      have hb : (n == p!"experiment_description") = false := beq_false_of_ne fun e => h3 (e ▸ hn)
      simp only [Dict.get?, List.lookup, hb])
  obtain ⟨L, hL⟩ := h.z_eq
  have hx5 : x.h5 = z.h5 := by rw [hL]
  obtain ⟨g1, -, -⟩ := hst.step (conf_firstPart ⟨hst.inv.notD, .inl ⟨rfl, rfl⟩⟩ h1 x) q1
  have hplain : Plain (entryScope (p!"S" ++ k.text) e).E := hst.inv.plain
  have hPx : P x := by
    have := hs.pL z x.L hPz
    rw [hL] at this
    exact this
  obtain ⟨K1, v1, W1, g2, i1, o1⟩ := graft_run hs hplain rfl rfl _ _ r4 (hP _ hl) g1 (hs.init s1) q2
  obtain ⟨K2, v2, W2, g3, i2, o2⟩ := graft_run hs hplain rfl rfl _ _ r5 hPx g2 i1 q3
  obtain ⟨g4, j4, -⟩ := g3.step (conf_additions ⟨g3.inv.notD, .inl ⟨rfl, rfl⟩⟩ h2) q4
  have i3 := hs.keep j4 i2
  have hK : ∀ i, K2 i → S.h5[i]? = t2[i]? := by
    intro i hi
    refine r9 i ?_ (g4.inv.lt i (.inr hi))
    have h1 : ¬ i < e := g4.apart i hi
    have h2 : i ≠ e := fun q => g4.inv.notD (.inr (q ▸ hi))
    omega
  have hw' := hh.hdrLike hl.symm
  rw [hx5] at o2
  have o3 : Steps F R z z.h5.values W1 W2 := o2.map fun f w w' q => by
    have := hs.withL f x w w' q L
    rwa [← hL] at this
  refine ⟨hdr, W1, W2, K2, v2, hl, hw', o1.once (once_of_writers hw' hF), o3.once (once_of_writers hw hF), hs.keep hK i3, ?_⟩
  intro N hN
  obtain ⟨ch, a, e1, e2⟩ := g4.entry
  have e1 : t2[e]? = some (.group ch a) := e1
  rw [r6] at e1
  injection e1 with e1
  injection e1 with e1 _
  subst e1
  exact (r8 N fun q => h4 (q ▸ hN)).trans (e2 N hN)

/-! ### UXML -/

/-- all elements have a simple ASCII name -/
def NodesOk (x : Obj) : Prop := ∀ t a v ch, x.uxmlRoot = some (.mk t a v ch) → ∀ e ∈ placesAll [] ch, NodeOk e.2

/-- the attributes of the group -/
def uxmlAttrs : Dict AVal := [(p!"NX_class", .str p!"NXnote"), (p!"desc", .str p!"UXML metadata")]

/-- the tree of a document -/
def UxmlΦ : Option (List XmlNode) → (Nat → Prop) → (Str → Option Nat) → H5 → Prop
  | none, _, v, _ => v p!"UXML" = none
  | some ch, K, v, s => ∃ b, v p!"UXML" = some b ∧ ∀ s', (∀ j, K j → s'[j]? = s[j]?) →
      (∃ c a, s'[b]? = some (HNode.group c a) ∧ MoreAttrs uxmlAttrs a) ∧ UxmlDone b ch s'

/-- walking in a tree of unchanged nodes -/
theorem walk_kept {b : Nat} {s s' : H5} (hs : Sound b s) (hk : ∀ j, b ≤ j → j < s.length → s'[j]? = s[j]?) :
    ∀ (p : List Str) (i : Nat), b ≤ i → i < s.length → H5.walk s' i p = H5.walk s i p := by
  intro p
  induction p with
  | nil => intro i _ _; rfl
  | cons c cs ih =>
    intro i h1 h2
    rw [H5.walk, H5.walk, hk i h1 h2]
    cases hg : s[i]? with
    | none => rfl
    | some nd =>
      cases nd with
      | dset d a => rfl
      | group ch a =>
        simp only
        cases hn : ch.get? c with
        | none => rfl
        | some j =>
          have := (hs i ch a h1 hg).2 c j (Dict.mem_of_get? hn)
          exact ih j this.1 this.2

theorem UxmlDone.kept {b : Nat} {s s' : H5} {ch : List XmlNode} (h : UxmlDone b ch s) (hs : Sound b s) (hbl : b < s.length)
    (hk : ∀ j, b ≤ j → j < s.length → s'[j]? = s[j]?) : UxmlDone b ch s' := by
  have hw := fun p => walk_kept hs hk p b (Nat.le_refl _) hbl
  have hn : ∀ {p i}, H5.walk s b p = some i → s'[i]? = s[i]? := fun {p i} hp => by
    obtain ⟨k1, k2⟩ := hs.walk p (Nat.le_refl _) hbl hp
    exact hk i k1 k2
  refine ⟨fun e he => ?_, fun t p q hp hq => ?_⟩
  · obtain ⟨h1, h2⟩ := h.placed e he
    refine ⟨fun ht => ?_, fun ht => ?_⟩
    · obtain ⟨i, v, a, a1, a2, a3⟩ := h1 ht
      exact ⟨i, v, a, (hw _).trans a1, (hn a1).trans a2, a3⟩
    · obtain ⟨i, v, a, a1, a2, a3⟩ := h2 ht
      exact ⟨i, v, a, (hw _).trans a1, (hn a1).trans a2, a3⟩
  · obtain ⟨j, h1, h2⟩ := h.linked t p q hp hq
    exact ⟨j, (hw _).trans h1, (hw _).trans h2⟩

theorem grafted_uxml : Grafted (fun n => n = p!"UXML") (fun f => f = .uxml) NodesOk UxmlΦ
    (fun _ x w w' => w = none ∧ ∃ t a v ch, x.uxmlRoot = some (.mk t a v ch) ∧ w' = some ch) none where
  data := by simp
  avoids := one_avoids (by intro f hf; cases f <;> first | exact absurd rfl hf | decide) (by intro _; decide)
  step := by
    rintro f rfl c e hdr x y K v w s s' hP hid hp h hΦ hw
    obtain ⟨t, u, h1, h2⟩ := HM.andThen_inv hw
    obtain ⟨_, rfl⟩ := HM.ret_inv h2
    unfold wUxml at h1
    obtain ⟨s1, g, k1, k2⟩ := HM.bind_inv h1
    obtain ⟨n1, n2, n3, n4, n5⟩ := h.newGroup hid (by decide : Plain p!"UXML").single k1
    have hw0 : w = none := by
      cases w with
      | none => rfl
      | some ch =>
        obtain ⟨b, hb, -⟩ := hΦ
        rw [n1] at hb; cases hb
    cases hr : x.uxmlRoot with
    | none => rw [hr] at k2; cases k2
    | some root =>
      obtain ⟨t, a, v0, ch⟩ := root
      rw [hr] at k2
      have hE := h.inv.plain
      have hwalk : H5.walk s1 0 [c.E, p!"UXML"] = some s.length := by
        obtain ⟨ch0, a0, e1, e2'⟩ := n5.inv.entry
        have e2 : ch0.get? c.E = some c.e := e2'
        obtain ⟨ch1, a1, e3, e4⟩ := n5.entry
        rw [walk_one e1 e2, walk_one e3 ((e4 _ rfl).trans (upd_self ..)), H5.walk]
      have hsound : Sound s.length s1 := by
        intro i ch1 a1 hi hg
        have := lt_of_get? hg
        have : i = s.length := by omega
        subst this
        rw [n4] at hg
        cases hg
        exact ⟨List.nodup_nil, fun n j hm => by cases hm⟩
      obtain ⟨g1, g2, g3⟩ := uxml_run (b := s.length) (P := [c.E, p!"UXML"]) (by
          intro q hq
          rcases List.mem_cons.1 hq with rfl | hq
          · exact hE
          · rcases List.mem_singleton.1 hq with rfl
            decide) (hP t a v0 ch hr) (by rw [n2, hp]; rfl) hsound (by omega) hwalk k2
      have hel : c.e < s.length := h.inv.elt
      have n6 := n5.tree n3 (.inr rfl) hel g1 g2
      have hbl : s.length < s'.length := by have := g1.len; omega
      refine ⟨_, _, some ch, n6, ⟨s.length, upd_self .., fun s2 hs2 => ?_⟩, hw0, t, a, v0, ch, rfl, rfl⟩
      have hk : ∀ j, s.length ≤ j → j < s'.length → s2[j]? = s'[j]? := fun j j1 j2 => hs2 j (.inr ⟨j1, j2⟩)
      refine ⟨?_, g3.kept g2 hbl hk⟩
      obtain ⟨c1, a1, e1, -, e2⟩ := g1.group s.length [] _ n4
      exact ⟨c1, a1, (hk _ (Nat.le_refl _) hbl).trans e1, e2⟩
  keep := by
    intro w K v s s' hk hΦ
    cases w with
    | none => exact hΦ
    | some ch =>
      obtain ⟨b, hb, h1⟩ := hΦ
      exact ⟨b, hb, fun s2 hs2 => h1 s2 fun j hj => (hs2 j hj).trans (hk j hj)⟩
  init := fun _ => rfl
  pL := fun _ _ h => h
  withL := fun _ _ _ _ h _ => h

end S2N
