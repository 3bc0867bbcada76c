import Verif.Lemmas.View
/-
One section of an entry: a group made by one writer, which the other writers leave alone.
-/
namespace S2N
open Py H5 Eznx Writer Spec

/-- the scope after a section `N` was written to the nodes from `n` up to `m` -/
def H5.Scope.sec (c : Scope) (N : Str) (n m : Nat) : Scope :=
  { c with D := fun i => c.D i ∨ (n ≤ i ∧ i < m), X := fun x => x = N }

/-- the entry is a group -/
def Entry (c : Scope) (s : H5) : Prop := ∃ ch a, s[c.e]? = some (.group ch a)

theorem H5.Same.entry {c : Scope} {s s' : H5} (h : Same c s s') (he : Entry c s) : Entry c s' := by
  obtain ⟨ch, a, h1⟩ := he
  obtain ⟨ch', h2, _⟩ := h.keep ch a h1
  exact ⟨ch', a, h2⟩

theorem View.get_pre {pre : List HNode} {V : Sets} {A : Dict AVal} {s : H5} (h : View pre V A s) {i : Nat}
    (hi : i < pre.length) : s[i]? = pre[i]? := by
  obtain ⟨ch, tail, rfl, _⟩ := h
  exact List.getElem?_append_left hi

theorem View.length_lt {pre : List HNode} {V : Sets} {A : Dict AVal} {s : H5} (h : View pre V A s) :
    pre.length < s.length := by
  obtain ⟨ch, tail, rfl, _⟩ := h
  simp

/-- the groups of the section: the section itself only -/
theorem View.group_at {pre : List HNode} {V : Sets} {A : Dict AVal} {s : H5} (h : View pre V A s) {i : Nat}
    (hi : pre.length ≤ i) {ch : Dict Nat} {a : Dict AVal} (hg : s[i]? = some (.group ch a)) :
    i = pre.length ∧ (Dict.keys ch).Nodup ∧ ∀ p ∈ ch, pre.length < p.2 ∧ p.2 < s.length := by
  obtain ⟨ch0, tail, hs, h1, h2, h3⟩ := h
  by_cases e : i = pre.length
  · subst e
    have h4 : s[pre.length]? = some (HNode.group ch0 A) := by rw [hs]; simp
    rw [h4] at hg
    injection hg with hg
    injection hg with hg _
    subst hg
    refine ⟨rfl, h1, ?_⟩
    intro p hp
    obtain ⟨q, _, hq⟩ := List.forall₂_iff_get.1 h3 |>.2 |> fun _ => by
      have : ∀ {ch : Dict Nat} {V : Sets}, List.Forall₂ (fun (p : Str × Nat) (q : Str × (HData × Dict AVal)) => p.1 = q.1 ∧ pre.length < p.2 ∧
          s[p.2]? = some (.dset q.2.1 q.2.2)) ch V → ∀ p ∈ ch, ∃ q ∈ V, p.1 = q.1 ∧ pre.length < p.2 ∧
          s[p.2]? = some (.dset q.2.1 q.2.2) := by
        intro ch V h
        induction h with
        | nil => simp
        | cons hh _ ih =>
          intro p hp
          rcases List.mem_cons.1 hp with rfl | hp
          · exact ⟨_, by simp, hh⟩
          · obtain ⟨q, hq, hr⟩ := ih p hp
            exact ⟨q, by simp [hq], hr⟩
      exact this h3 p hp
    exact ⟨hq.2.1, lt_of_get? hq.2.2⟩
  · exfalso
    have : ∃ n ∈ tail, n = HNode.group ch a := by
      rw [hs] at hg
      rw [List.getElem?_append_right hi] at hg
      obtain ⟨j, hj⟩ : ∃ j, i - pre.length = j + 1 := ⟨i - pre.length - 1, by omega⟩
      rw [hj, List.getElem?_cons_succ] at hg
      exact ⟨_, List.mem_of_getElem? hg, rfl⟩
    obtain ⟨n, hn, rfl⟩ := this
    obtain ⟨d, a', e⟩ := h2 _ hn
    cases e

/-- after the section was written -/
theorem H5.Inv.section' {c : Scope} (hX : ∀ n, ¬ c.X n) {t : H5} (h : Inv c t) {ch : Dict Nat} {a : Dict AVal}
    (he : t[c.e]? = some (.group ch a)) {N : Str} (hN : ch.has N = false)
    {V : Sets} {A : Dict AVal} {t' : H5}
    (hv : View (t.set c.e (.group (ch.set N t.length) a)) V A t') :
    H5.Inv (c.sec N t.length t'.length) t' ∧ Entry c t' ∧ Same c t t' ∧
      ∃ ch' a', t'[c.e]? = some (.group ch' a') ∧ ch'.get? N = some t.length := by
  have hlen : (t.set c.e (.group (ch.set N t.length) a)).length = t.length := by simp
  have hlt : t.length < t'.length := by have := hv.length_lt; rw [hlen] at this; exact this
  have hpre : ∀ i, i < t.length → t'[i]? = if i = c.e then some (.group (ch.set N t.length) a) else t[i]? := by
    intro i hi
    rw [hv.get_pre (by rw [hlen]; exact hi), set_get? _ _ _ _ h.elt]
  have hent : t'[c.e]? = some (.group (ch.set N t.length) a) := by rw [hpre _ h.elt, if_pos rfl]
  have hne : ∀ i, c.D i → i ≠ c.e := by rintro i hi rfl; exact h.notD hi
  have hold : ∀ i, i < t.length → i ≠ c.e → t'[i]? = t[i]? := fun i hi e => by rw [hpre i hi, if_neg e]
  refine ⟨?_, ⟨_, _, hent⟩, ?_, _, _, hent, Dict.get?_set_self _ _ _⟩
  · constructor
    · intro i ch1 a1 hg
      by_cases hi : i < t.length
      · by_cases e : i = c.e
        · subst e
          rw [hent] at hg
          injection hg with hg
          injection hg with hg _
          subst hg
          refine ⟨Dict.nodup_keys_set _ _ _ (h.wf _ _ _ he).1, ?_⟩
          intro n j hm
          rcases (Dict.mem_set hm).symm with e | e
          · exact Nat.lt_trans ((h.wf _ _ _ he).2 n j e) hlt
          · injection e with _ e; rw [e]; exact hlt
        · rw [hold i hi e] at hg
          exact ⟨(h.wf _ _ _ hg).1, fun n j hm => Nat.lt_trans ((h.wf _ _ _ hg).2 n j hm) hlt⟩
      · obtain ⟨_, h1, h2⟩ := hv.group_at (by rw [hlen]; omega) hg
        exact ⟨h1, fun n j hm => (h2 _ hm).2⟩
    · exact .inl h.rootD
    · rintro (h1 | h1)
      · exact h.notD h1
      · have h1 : t.length ≤ c.e ∧ _ := h1
        have := h.elt
        omega
    · exact h.plain
    · obtain ⟨ch0, a0, h0, h1⟩ := h.entry
      exact ⟨ch0, a0, by rw [hold 0 (h.lt 0 h.rootD) (hne 0 h.rootD)]; exact h0, h1⟩
    · rintro i (h1 | h1)
      · exact Nat.lt_trans (h.lt i h1) hlt
      · exact h1.2
    · exact Nat.lt_trans h.elt hlt
    · intro i hi ch1 a1 hg n j hm
      have hi1 : ¬ c.D i := fun e => hi (.inl e)
      have hi2 : i < t.length := by
        by_contra e
        exact hi (.inr ⟨by omega, lt_of_get? hg⟩)
      have hej : t.length ≠ c.e := by have := h.elt; omega
      by_cases e : i = c.e
      · subst e
        rw [hent] at hg
        injection hg with hg
        injection hg with hg _
        subst hg
        rcases (Dict.mem_set hm).symm with e | e
        · have h1 := h.closed _ hi1 _ _ he n j e
          refine ⟨h1.1, ?_⟩
          rintro (h2 | h2)
          · exact absurd (h1.2 h2).2 (hX _)
          · have := (h.wf _ _ _ he).2 n j e
            have h2 : t.length ≤ j ∧ _ := h2
            omega
        · injection e with e1 e2
          subst e2
          exact ⟨hej, fun _ => ⟨rfl, e1⟩⟩
      · rw [hold i hi2 e] at hg
        have h1 := h.closed _ hi1 _ _ hg n j hm
        refine ⟨h1.1, ?_⟩
        rintro (h2 | h2)
        · exact absurd (h1.2 h2).2 (hX _)
        · have := (h.wf _ _ _ hg).2 n j hm
          have h2 : t.length ≤ j ∧ _ := h2
          omega
  · constructor
    · intro i hi
      exact hold i (h.lt i hi) (hne i hi)
    · omega
    · intro ch1 a1 h1
      rw [he] at h1
      injection h1 with h1
      injection h1 with h1 h2
      subst h1 h2
      exact ⟨_, hent, fun n hn => absurd hn (hX n)⟩

section
variable [UniDB]

/-- The writer `f` makes the group `N`, which has only datasets as members. -/
structure GroupW (f : H5Fn) (N cls : Str) (attr : Dict AVal) (body : HRef → Obj → HM Obj) : Prop where
  plain : Plain N
  run : ∀ e hdr x, runWriter f e hdr x = (makeGroup e N cls attr >>= fun g => body g x)
  view : ∀ pre g x s s' y V A, AtGroup pre g → View pre V A s → body g x s = (s', .ok y) →
    ∃ V' A', View pre V' A' s'

/-- only the writer of the data changes the scan -/
theorem runWriter_same {f : H5Fn} (hf : f ≠ .scanData) {e : HRef} {hdr x y : Obj} {s s' : H5}
    (h : runWriter f e hdr x s = (s', .ok y)) : y = x := by
  have k : ∀ {m : HM Unit}, HM.andThen m (fun _ => HM.ret x) s = (s', .ok y) → y = x := by
    intro m h
    obtain ⟨t, _, _, h2⟩ := HM.andThen_inv h
    exact (HM.ret_inv h2).1
  cases f <;> first
    | exact k h
    | exact (HM.ret_inv h).1
    | exact absurd rfl hf

/-- a group cannot be made twice -/
theorem GroupW.again {f : H5Fn} {N cls : Str} {attr : Dict AVal} {body : HRef → Obj → HM Obj}
    (hf : GroupW f N cls attr body) {e : HRef} {s s' : H5} {ch : Dict Nat} {a : Dict AVal} {n : Nat}
    (he : s[e.id]? = some (.group ch a)) (hn : ch.get? N = some n) {hdr x y : Obj}
    (h : runWriter f e hdr x s = (s', .ok y)) : False := by
  rw [hf.run, HM.bind_err (makeGroup_exists he hf.plain.single (by simp [Dict.has, hn]) cls attr)] at h
  cases h

/-- the writers that come after the one of the section -/
theorem after_section {f : H5Fn} {N cls : Str} {attr : Dict AVal} {body : HRef → Obj → HM Obj}
    (hf : GroupW f N cls attr body) {c : Scope} (hX : c.X N) {e : HRef} (ho : Ok c e) (hid : e.id = c.e) (hdr : Obj) :
    ∀ (fs : List H5Fn) (x : Obj) {s s' : H5} {y : Obj}, H5.Inv c s → RelNames x →
    (∀ f' ∈ fs, f' = f ∨ Avoids c f') →
    (∃ ch a n, s[c.e]? = some (.group ch a) ∧ ch.get? N = some n) →
    runWriters e hdr fs x s = (s', .ok y) →
    H5.Inv c s' ∧ Same c s s' ∧ (∃ L, y = { x with L := L }) ∧ f ∉ fs ∧ (f = .scanData → y = x)
  | [], x, s, s', y, hi, _, _, _, h => by
    obtain ⟨rfl, rfl⟩ := HM.ret_inv h
    exact ⟨hi, Same.refl c _, ⟨y.L, rfl⟩, by simp, fun _ => rfl⟩
  | f' :: fs, x, s, s', y, hi, hr, ha, ⟨ch, a, n, he, hn⟩, h => by
    rw [runWriters] at h
    obtain ⟨t, x1, h1, h2⟩ := HM.andThen_inv h
    by_cases hff : f' = f
    · subst hff
      exact (hf.again (by rw [hid]; exact he) hn h1).elim
    · have hav : Avoids c f' := (ha f' (by simp)).resolve_left hff
      obtain ⟨a1, a2, a3⟩ := conf_runWriter hi.plain ho hdr x hr f' hav s hi
      rw [h1] at a1 a2 a3
      obtain ⟨L, rfl⟩ := a3 x1 rfl
      obtain ⟨ch', k1, k2⟩ := a2.keep ch a he
      have hsame : f = .scanData → ({ x with L := L } : Obj) = x := fun e => runWriter_same (fun e2 => hff (e2.trans e.symm)) h1
      obtain ⟨b1, b2, ⟨L', b3⟩, b4, b5⟩ := after_section hf hX ho hid hdr fs { x with L := L } a1 (hr.withL L)
        (fun f' h' => ha f' (by simp [h'])) ⟨ch', a, n, k1, by rw [k2 N hX]; exact hn⟩ h2
      refine ⟨b1, a2.trans b2, ⟨L', b3⟩, ?_, fun e => (b5 e).trans (hsame e)⟩
      simp only [List.mem_cons, not_or]
      exact ⟨fun e => hff e.symm, b4⟩

/-- `ho` in the scope of the section -/
theorem H5.Scope.ok_sec {c : Scope} {N : Str} {n m : Nat} {e : HRef} (hid : e.id = c.e) (hp : e.path = [c.E])
    {s : H5} (hi : H5.Inv (c.sec N n m) s) : Ok (c.sec N n m) e :=
  ⟨by rw [hid]; exact hi.notD, .inl ⟨hid, hp⟩⟩

/-- **A section is written once, and stays.**  The writers `fs` run with success and one of them is the
writer `f` of the section `N`. -/
theorem section_written {f : H5Fn} {N cls : Str} {attr : Dict AVal} {body : HRef → Obj → HM Obj}
    (hf : GroupW f N cls attr body) {c : Scope} (hX : ∀ n, ¬ c.X n) {e : HRef} (hid : e.id = c.e) (hp : e.path = [c.E])
    (hdr : Obj) : ∀ (fs : List H5Fn) (x : Obj) {s s' : H5} {y : Obj}, H5.Inv c s → Entry c s → RelNames x →
    (∀ f' ∈ fs, f' = f ∨ (N ∉ usedBy f' ∧ (f' = .unrec → ∀ i, p!"unrecognized_" ++ natStr i ≠ N))) →
    f ∈ fs → runWriters e hdr fs x s = (s', .ok y) →
    ∃ t ch a x1 t' y1,
      t[c.e]? = some (.group ch a) ∧ (∃ L, x1 = { x with L := L }) ∧ (∃ L, y = { y1 with L := L }) ∧
      (f = .scanData → x1 = x ∧ y = y1) ∧
      body ⟨t.length, [c.E, N]⟩ x1 (t.set c.e (.group (ch.set N t.length) a) ++
        [.group [] (Dict.update [(p!"NX_class", AVal.str cls)] attr)]) = (t', .ok y1) ∧
      t.length < t'.length ∧ (∃ L, y1 = { x with L := L }) ∧ s.length ≤ t.length ∧
      H5.Inv c t ∧ Same c s t ∧ 
      H5.Inv (c.sec N t.length t'.length) s' ∧ Same (c.sec N t.length t'.length) t' s' ∧
      ∃ ch' a', s'[c.e]? = some (.group ch' a') ∧ ch'.get? N = some t.length := by
  intro fs
  induction fs with
  | nil => intro x s s' y hi hent hr ha hmem h; simp at hmem
  | cons f' fs ih =>
    intro x s s' y hi hent hr ha hmem h
    rw [runWriters] at h
    obtain ⟨t, x1, h1, h2⟩ := HM.andThen_inv h
    have ho : Ok c e := ⟨by rw [hid]; exact hi.notD, .inl ⟨hid, hp⟩⟩
    have hav : Avoids c f' := ⟨fun n _ => hX n, fun _ _ => hX _⟩
    obtain ⟨a1, a2, a3⟩ := conf_runWriter hi.plain ho hdr x hr f' hav s hi
    rw [h1] at a1 a2 a3
    obtain ⟨L, hL⟩ := a3 x1 rfl
    by_cases hff : f' = f
    · subst hff
      obtain ⟨ch, a, he⟩ := hent
      have hN : ch.has N = false := by
        cases hh : ch.has N with
        | false => rfl
        | true =>
          exfalso
          unfold Dict.has at hh
          obtain ⟨n, hn⟩ := Option.isSome_iff_exists.1 hh
          exact hf.again (by rw [hid]; exact he) hn h1
      rw [hf.run, HM.bind_ok (makeGroup_eq (by rw [hid]; exact he) hf.plain.single hN cls attr), hid, hp] at h1
      have hv0 := View.fresh (s.set c.e (.group (ch.set N s.length) a)) (Dict.update [(p!"NX_class", AVal.str cls)] attr)
      obtain ⟨V', A', hv⟩ := hf.view _ ⟨s.length, [c.E] ++ [N]⟩ x _ _ _ _ _ (by simp [AtGroup]) hv0 h1
      obtain ⟨b1, b2, b3, ch', a', b4, b5⟩ := hi.section' hX he hN hv
      have hlt := hv.length_lt
      rw [List.length_set] at hlt
      have ho' := H5.Scope.ok_sec hid hp b1
      obtain ⟨d1, d2, ⟨L2, d3⟩, _, d4⟩ := after_section hf (c := c.sec N s.length t.length) rfl ho' hid hdr fs x1 b1
        (by rw [hL]; exact hr.withL L)
        (fun f2 h2' => (ha f2 (by simp [h2'])).imp_right fun h3 => ⟨fun n hn e => h3.1 (e ▸ hn), fun e i h4 => h3.2 e i h4⟩)
        ⟨ch', a', _, b4, b5⟩ h2
      obtain ⟨ch2, k1, k2⟩ := d2.keep ch' a' b4
      exact ⟨s, ch, a, x, t, x1, he, ⟨x.L, rfl⟩, ⟨L2, d3⟩, fun e => ⟨rfl, d4 e⟩, h1, hlt, ⟨L, hL⟩, Nat.le_refl _, hi, Same.refl c s, d1, d2, ch2, a', k1,
        by rw [k2 N rfl]; exact b5⟩
    · have hmem : f ∈ fs := by
        rcases List.mem_cons.1 hmem with e | e
        · exact absurd e.symm hff
        · exact e
      have hsame : f = .scanData → x1 = x := fun e => runWriter_same (fun e2 => hff (e2.trans e.symm)) h1
      subst hL
      obtain ⟨t1, ch, a, x2, t', y1, r1, ⟨L1, r2⟩, ⟨L2, r3⟩, r3', r4, r5, ⟨L3, r6⟩, r7, r8, r9, r10⟩ :=
        ih { x with L := L } a1 (a2.entry hent) (hr.withL L)
        (fun f2 h2' => ha f2 (by simp [h2'])) hmem h2
      exact ⟨t1, ch, a, x2, t', y1, r1, ⟨L1, r2⟩, ⟨L2, r3⟩,
        fun e => ⟨(r3' e).1.trans (hsame e), (r3' e).2⟩, r4, r5, ⟨L3, r6⟩, Nat.le_trans a2.le r7, r8, a2.trans r9, r10⟩

end
end S2N
