import Verif.Lemmas.Uxml
/-
The hard links of the UXML writer.
-/
namespace S2N
open Py H5 Eznx Writer Spec

/-- the name of an object leads to it -/
theorem comps_join {Q : List Str} (h : ∀ c ∈ Q, Plain c) : comps (ascii (join ['/'] Q)) = Q := by
  induction Q with
  | nil => rfl
  | cons c cs ih =>
    have hc := h c (by simp)
    have hcs := fun x hx => h x (List.mem_cons_of_mem _ hx)
    cases cs with
    | nil =>
      rw [show join ['/'] [c] = c from rfl, ascii_plain hc]
      exact comps_single hc.single
    | cons d ds =>
      rw [join_cons _ _ _ (by simp), ascii_append, ascii_append, ascii_plain hc,
        show ascii ['/'] = ['/'] from rfl, List.append_assoc, List.singleton_append, comps_append_slash hc.single, ih hcs]

theorem comps_name {Q : List Str} (h : ∀ c ∈ Q, Plain c) (j : Nat) : comps (ascii (nameOf ⟨j, Q⟩)) = Q := by
  unfold nameOf
  rw [ascii_slash, comps_cons_slash]
  exact comps_join h

theorem base_name (h : HRef) (r : HRef) : base h (ascii (nameOf r)) = root := by
  unfold base
  rw [if_pos]
  have := absolute_nameOf r []
  rwa [List.append_nil] at this

/-- a "target" attribute is set -/
theorem grown_target {b : Nat} {s : H5} {j : Nat} {node : HNode} (hs : Sound b s) (hb : b ≤ j) (hg : s[j]? = some node)
    (hf : node.attrs.has p!"target" = false) (v : AVal) :
    Grown b s (s.set j (node.withAttrs (node.attrs.set p!"target" v))) ∧
      Sound b (s.set j (node.withAttrs (node.attrs.set p!"target" v))) := by
  have hl := lt_of_get? hg
  have hget := fun i => set_get? s j i (node.withAttrs (node.attrs.set p!"target" v)) hl
  have hmore : MoreAttrs node.attrs (node.attrs.set p!"target" v) := by
    refine ⟨fun k w hk => ?_, fun k hk hn => ?_⟩
    · by_cases e : p!"target" = k
      · subst e
        have := (Dict.get?_eq_none_iff node.attrs p!"target").2 ((Dict.not_has_iff _ _).1 (by rw [hf]))
        rw [this] at hk; cases hk
      · rw [Dict.get?_set_ne _ _ e]; exact hk
    · rw [Dict.get?_set_ne _ _ (Ne.symm hk)]; exact hn
  constructor
  · refine ⟨by simp, fun i hi => by rw [hget, if_neg (by omega)], ?_, ?_⟩
    · intro i ch a e
      by_cases ei : i = j
      · subst ei
        rw [hg] at e
        cases e
        exact ⟨ch, _, by rw [hget, if_pos rfl]; rfl, fun _ _ h => h, hmore⟩
      · exact ⟨ch, a, by rw [hget, if_neg ei]; exact e, fun _ _ h => h, .refl _⟩
    · intro i d a e
      by_cases ei : i = j
      · subst ei
        rw [hg] at e
        cases e
        exact ⟨_, by rw [hget, if_pos rfl]; rfl, hmore⟩
      · exact ⟨a, by rw [hget, if_neg ei]; exact e, .refl _⟩
  · intro i ch a hi e
    rw [hget] at e
    split at e
    · rename_i ei
      subst ei
      cases node with
      | dset d a0 => simp [HNode.withAttrs] at e
      | group ch0 a0 =>
        simp only [HNode.withAttrs, Option.some.injEq, HNode.group.injEq] at e
        obtain ⟨rfl, -⟩ := e
        have := hs i ch0 a0 hi hg
        refine ⟨this.1, fun n k hn => ?_⟩
        have := this.2 n k hn
        simpa using this
    · have := hs i ch a hi e
      refine ⟨this.1, fun n k hn => ?_⟩
      have := this.2 n k hn
      simpa using this

/-- a link is added -/
theorem grown_link {b : Nat} {s : H5} {i j : Nat} {ch : Dict Nat} {a : Dict AVal} {nm : Str}
    (hs : Sound b s) (hb : b ≤ i) (hg : s[i]? = some (.group ch a)) (hf : ch.has nm = false) (hj : b ≤ j) (hjl : j < s.length) :
    Grown b s (s.set i (.group (ch.set nm j) a)) ∧ Sound b (s.set i (.group (ch.set nm j) a)) := by
  have hl := lt_of_get? hg
  have hget := fun k => set_get? s i k (.group (ch.set nm j) a) hl
  constructor
  · refine ⟨by simp, fun k hk => by rw [hget, if_neg (by omega)], ?_, ?_⟩
    · intro k ch1 a1 e
      by_cases ei : k = i
      · subst ei
        rw [hg] at e
        cases e
        refine ⟨_, _, by rw [hget, if_pos rfl], fun n m hn => ?_, .refl _⟩
        by_cases en : nm = n
        · subst en
          have := (Dict.get?_eq_none_iff ch nm).2 ((Dict.not_has_iff _ _).1 (by rw [hf]))
          rw [this] at hn; cases hn
        · rw [Dict.get?_set_ne _ _ en]; exact hn
      · exact ⟨ch1, a1, by rw [hget, if_neg ei]; exact e, fun _ _ h => h, .refl _⟩
    · intro k d a1 e
      have ei : k ≠ i := by rintro rfl; rw [hg] at e; cases e
      exact ⟨a1, by rw [hget, if_neg ei]; exact e, .refl _⟩
  · intro k ch1 a1 hk e
    rw [hget] at e
    split at e
    · rename_i ei
      subst ei
      cases e
      have := hs k ch a hk hg
      refine ⟨Dict.nodup_keys_set _ _ _ this.1, fun n m hn => ?_⟩
      rw [List.length_set]
      rcases Dict.mem_set hn with h | h
      · first | exact this.2 n m h | (cases h; exact ⟨hj, hjl⟩)
      · first | exact this.2 n m h | (cases h; exact ⟨hj, hjl⟩)
    · have := hs k ch1 a1 hk e
      refine ⟨this.1, fun n m hn => ?_⟩
      rw [List.length_set]
      exact this.2 n m hn

/-- one hard link -/
theorem makeLink_run {b : Nat} {P p : List Str} {s s' : H5} {h : HRef} {j : Nat} {nm : Str} (hs : Sound b s) (hbl : b < s.length)
    (hP : walk s 0 P = some b) (hPp : ∀ c ∈ P ++ p, Plain c) (hp : walk s b p = some j) (hb : b ≤ h.id) (hn : Plain nm)
    (hrun : makeLink h ⟨j, P ++ p⟩ nm s = (s', .ok ())) :
    Grown b s s' ∧ Sound b s' ∧ walk s' h.id [nm] = some j := by
  unfold makeLink at hrun
  obtain ⟨s1, u1, hr1, hrunA⟩ := HM.bind_inv hrun
  obtain ⟨s2, obj, hr2, hr3⟩ := HM.bind_inv hrunA
  obtain ⟨hbj, hjl⟩ := hs.walk p (Nat.le_refl _) hbl hp
  have h1 : Grown b s s1 ∧ Sound b s1 := by
    obtain ⟨s0, t, hr0, hr0'⟩ := HM.andThen_inv hr1
    unfold hasAttr HM.look at hr0
    injection hr0 with e0 e1
    subst e0
    injection e1 with e1
    cases t with
    | true =>
      obtain ⟨-, rfl⟩ := HM.ret_inv (show HM.ret () s = _ from hr0')
      exact ⟨.refl _ _, hs⟩
    | false =>
      have hr0'' : setAttr ⟨j, P ++ p⟩ p!"target" (.str (nameOf ⟨j, P ++ p⟩)) s = (s1, .ok u1) := hr0'
      obtain ⟨node, hnode⟩ : ∃ node, s[j]? = some node := ⟨_, List.getElem?_eq_getElem hjl⟩
      rw [setAttr_eq (h := ⟨j, P ++ p⟩) hnode] at hr0''
      injection hr0'' with e2 _
      subst e2
      have hj' : s[(HRef.mk j (P ++ p)).id]? = some node := hnode
      beta_reduce at e1
      rw [hj'] at e1
      exact grown_target hs hbj hnode e1 _
  obtain ⟨g1, sd1⟩ := h1
  have hw1 : walk s1 0 (P ++ p) = some j := by
    rw [walk_append, g1.walk P hP]
    exact g1.walk p hp
  unfold H5.get HM.lookE at hr2
  beta_reduce at hr2
  rw [base_name, comps_name hPp, show root.id = 0 from rfl, hw1] at hr2
  injection hr2 with e3 e4
  subst e3
  injection e4 with e4
  subst e4
  rw [ascii_plain hn] at hr3
  have hjl1 : j < s1.length := Nat.lt_of_lt_of_le hjl g1.len
  cases hgr : s1[h.id]? with
  | none =>
    unfold setLink HM.change at hr3
    beta_reduce at hr3
    rw [base_single hn.single, comps_single hn.single] at hr3
    simp only [List.getElem?_eq_getElem hjl1, H5.link, hgr] at hr3
    cases hr3
  | some nd =>
    cases nd with
    | dset d a =>
      unfold setLink HM.change at hr3
      beta_reduce at hr3
      rw [base_single hn.single, comps_single hn.single] at hr3
      simp only [List.getElem?_eq_getElem hjl1, H5.link, hgr] at hr3
      cases hr3
    | group ch a =>
      cases hf : ch.has nm with
      | true =>
        unfold setLink HM.change at hr3
        beta_reduce at hr3
        rw [base_single hn.single, comps_single hn.single] at hr3
        simp only [List.getElem?_eq_getElem hjl1, H5.link, hgr, hf] at hr3
        cases hr3
      | false =>
        unfold setLink HM.change at hr3
        beta_reduce at hr3
        rw [base_single hn.single, comps_single hn.single] at hr3
        simp only [List.getElem?_eq_getElem hjl1, H5.link, hgr, hf] at hr3
        injection hr3 with e5 _
        subst e5
        obtain ⟨g2, sd2⟩ := grown_link sd1 hb hgr hf hbj hjl1
        refine ⟨g1.trans g2, sd2, ?_⟩
        rw [walk_single (ch := ch.set nm j) (a := a) nm (by rw [set_get? _ _ _ _ (lt_of_get? hgr), if_pos rfl]), Dict.get?_set_self]

/-- all of them -/
theorem links_run {b : Nat} {P : List Str} (hP0 : ∀ c ∈ P, Plain c) (un : Dict HRef) : ∀ (L : List (Str × HRef × Str)) (s s' : H5), Sound b s → b < s.length →
    walk s 0 P = some b →
    (∀ t r nm, (t, r, nm) ∈ L → b ≤ r.id ∧ Plain nm ∧ ∀ src, un.get? t = some src →
      ∃ p, (∀ c ∈ p, Plain c) ∧ walk s b p = some src.id ∧ src.path = P ++ p) →
    HM.each (fun t : Str × HRef × Str =>
      match un.get? t.1 with
      | some src => makeLink t.2.1 src t.2.2
      | none => HM.ret ()) L s = (s', .ok ()) →
    Grown b s s' ∧ Sound b s' ∧ ∀ t r nm, (t, r, nm) ∈ L → ∀ src, un.get? t = some src → walk s' r.id [nm] = some src.id := by
  intro L
  induction L with
  | nil =>
    intro s s' hs _ _ _ hrun
    obtain ⟨-, rfl⟩ := HM.ret_inv (show HM.ret () s = _ from hrun)
    exact ⟨.refl _ _, hs, fun _ _ _ h => by cases h⟩
  | cons t L ih =>
    intro s s' hs hbl hP hL hrun
    obtain ⟨s1, hr1, hr2⟩ := HM.each_inv_cons hrun
    obtain ⟨t, r, nm⟩ := t
    obtain ⟨hb, hn, hsrc⟩ := hL t r nm (by simp)
    have step : Grown b s s1 ∧ Sound b s1 ∧ ∀ src, un.get? t = some src → walk s1 r.id [nm] = some src.id := by
      beta_reduce at hr1
      cases hu : un.get? t with
      | none =>
        simp only [hu] at hr1
        obtain ⟨-, rfl⟩ := HM.ret_inv hr1
        exact ⟨.refl _ _, hs, fun _ h => by cases h⟩
      | some src =>
        simp only [hu] at hr1
        obtain ⟨p, hp1, hp2, hp3⟩ := hsrc src hu
        obtain ⟨j, q⟩ := src
        simp only at hp3
        subst hp3
        obtain ⟨a1, a2, a3⟩ := makeLink_run hs hbl hP (fun c hc => by
          rcases List.mem_append.1 hc with h | h
          · exact hP0 c h
          · exact hp1 c h) hp2 hb hn hr1
        refine ⟨a1, a2, fun _ h => ?_⟩
        cases h
        exact a3
    obtain ⟨g1, sd1, l1⟩ := step
    obtain ⟨g2, sd2, l2⟩ := ih s1 s' sd1 (Nat.lt_of_lt_of_le hbl g1.len) (g1.walk P hP) (fun t r nm hm => by
      obtain ⟨c1, c2, c3⟩ := hL t r nm (List.mem_cons_of_mem _ hm)
      refine ⟨c1, c2, fun src hsrc => ?_⟩
      obtain ⟨p, d1, d2, d3⟩ := c3 src hsrc
      exact ⟨p, d1, g1.walk p d2, d3⟩) hr2
    refine ⟨g1.trans g2, sd2, fun t' r' nm' hm src hsrc => ?_⟩
    rcases List.mem_cons.1 hm with e | e
    · cases e
      exact g2.walk _ (l1 src hsrc)
    · exact l2 t' r' nm' e src hsrc

/-- what the UXML writer leaves below the group `b`, at the path `P` -/
structure UxmlDone (b : Nat) (ch : List XmlNode) (s : H5) : Prop where
  placed : ∀ e ∈ placesAll [] ch, Placed s b e.1 e.2
  linked : ∀ t p q, lastPlace linkTo t (placesAll [] ch) = some p → lastPlace idOf t (placesAll [] ch) = some q →
    ∃ j, walk s b p = some j ∧ walk s b q = some j

theorem uxml_run {b : Nat} {P : List Str} (hP0 : ∀ c ∈ P, Plain c) {ch : List XmlNode} (hok : ∀ e ∈ placesAll [] ch, NodeOk e.2)
    {s s' : H5} {g : HRef} (hg : g = ⟨b, P⟩) (hs : Sound b s) (hbl : b < s.length) (hP : walk s 0 P = some b)
    (hrun : (do let u ← uxmlNodes g ch {}; uxmlLinks u) s = (s', .ok ())) :
    Grown b s s' ∧ Sound b s' ∧ UxmlDone b ch s' := by
  obtain ⟨s1, u, hr1, hr2⟩ := HM.bind_inv hrun
  subst hg
  obtain ⟨g1, w1⟩ := nodes_run (P := P) ch s s1 ⟨b, P⟩ [] {} u [] hok
    ⟨hs, hbl, ⟨(fun _ h => nomatch h), (fun t => rfl), (fun t => rfl), List.nodup_nil⟩⟩
    rfl (by simp) (by simp) hr1
  rw [List.nil_append] at w1
  obtain ⟨tr, sd, hbl1⟩ := (⟨w1.track, w1.sound, w1.lt⟩ : _ ∧ _ ∧ _)
  have srcs : ∀ t src, u.unique.get? t = some src → ∃ p, lastPlace idOf t (placesAll [] ch) = some p ∧ (∀ c ∈ p, Plain c) ∧
      walk s1 b p = some src.id ∧ src.path = P ++ p := by
    intro t src hsrc
    have := tr.ids t
    split at this
    · rw [this] at hsrc; cases hsrc
    · rename_i p e
      obtain ⟨h0, j, h1, h2⟩ := this
      rw [hsrc] at h2
      cases h2
      exact ⟨p, e, h0, h1, rfl⟩
  have tgts : ∀ t r nm, u.target.get? t = some (r, nm) → ∃ p0, lastPlace linkTo t (placesAll [] ch) = some (p0 ++ [nm]) ∧ Plain nm ∧
      walk s1 b p0 = some r.id ∧ b ≤ r.id := by
    intro t r nm ht
    have := tr.targets t
    split at this
    · rw [this] at ht; cases ht
    · rename_i p e
      obtain ⟨i, p0, nm', h1, h2, h3, h4, h5⟩ := this
      rw [ht] at h5
      cases h5
      exact ⟨p0, h1 ▸ e, h2, h3, h4⟩
  obtain ⟨g2, sd2, l2⟩ := links_run hP0 u.unique u.target s1 s' sd hbl1 (g1.walk P hP) (fun t r nm hm => by
    obtain ⟨p0, h1, h2, h3, h4⟩ := tgts t r nm ((Dict.mem_iff_get? _ tr.once _ _).1 hm)
    refine ⟨h4, h2, fun src hsrc => ?_⟩
    obtain ⟨p, k1, k2, k3, k4⟩ := srcs t src hsrc
    exact ⟨p, k2, k3, k4⟩) hr2
  refine ⟨g1.trans g2, sd2, fun e he => (tr.placed e he).grown g2, ?_⟩
  intro t p q hp hq
  have hi := tr.ids t
  rw [hq] at hi
  obtain ⟨-, j, hj, hu⟩ := hi
  have ht := tr.targets t
  rw [hp] at ht
  obtain ⟨i, p0, nm, rfl, -, h3, -, h5⟩ := ht
  refine ⟨j, ?_, g2.walk q hj⟩
  rw [walk_append, g2.walk p0 h3]
  exact l2 t ⟨i, P ++ p0⟩ nm (Dict.mem_of_get? h5) ⟨j, P ++ q⟩ hu

end S2N
