import Verif.Props.EntryTables
import Verif.Lemmas.ZonePosTree
/-
The positioners of an entry.
-/
namespace S2N.Props
open S2N Py H5 Eznx Writer Spec
variable [UniDB]

theorem mneAttr_ok {xref : Option (Dict Str)} {i : Nat} {mne : Dict AVal} (h : mneAttr xref i = .ok mne) :
    mne = mneOf xref i ∧ ∀ d, xref = some d → i < d.length := by
  unfold mneAttr at h
  cases xref with
  | none =>
    injection h with h
    exact ⟨h.symm, fun _ e => by cases e⟩
  | some d =>
    simp only at h
    cases hk : d.keys[i]? with
    | none => rw [hk] at h; cases h
    | some m =>
      rw [hk] at h
      injection h with h
      refine ⟨?_, ?_⟩
      · rw [← h]
        show _ = [(p!"spec_mne", AVal.str (d.keys.getD i []))]
        rw [List.getD_eq_getElem?_getD, hk]
        rfl
      · intro d' e
        injection e with e
        subst e
        have := (List.getElem?_eq_some_iff.1 hk).1
        simpa [Dict.keys] using this

/-- the table of the positioners: each name at most once, and the last positioner of each name -/
theorem posTable_spec {xref : Option (Dict Str)} : ∀ (l : List (Nat × Str × PyFloat)) {M M' : Dict (PyFloat × Dict AVal)},
    posTable xref l M M' →
    ((Dict.keys M).Nodup → (Dict.keys M').Nodup) ∧
    (∀ n, n ∈ Dict.keys M' ↔ n ∈ Dict.keys M ∨ ∃ p ∈ l, cleanName p.2.1 = .ok n) ∧
    (∀ n, (∀ p ∈ l, cleanName p.2.1 ≠ .ok n) → M'.get? n = M.get? n) ∧
    (∀ p ∈ l, ∀ d, xref = some d → p.1 < d.length) ∧
    (∀ (i : Nat) (p : Nat × Str × PyFloat), l[i]? = some p → (∀ (j : Nat) (q : Nat × Str × PyFloat), i < j → l[j]? = some q → cleanName q.2.1 ≠ cleanName p.2.1) →
      ∃ n, cleanName p.2.1 = .ok n ∧ M'.get? n = some (p.2.2, (p!"spec_name", .str p.2.1) :: mneOf xref p.1))
  | [], M, M', h => by
    obtain rfl : M' = M := h
    exact ⟨id, fun n => by simp, fun n _ => rfl, fun p hp => absurd hp List.not_mem_nil, fun i p h => by simp at h⟩
  | p :: l, M, M', h => by
    obtain ⟨name, mne, h1, h2, h3⟩ := h
    obtain ⟨k1, k2, k3, k4, k5⟩ := posTable_spec l h3
    obtain ⟨rfl, hlt⟩ := mneAttr_ok h2
    refine ⟨fun hn => k1 (Dict.nodup_keys_set _ _ _ hn), fun n => ?_, fun n hn => ?_, ?_, ?_⟩
    · rw [k2, Dict.keys_set]
      constructor
      · rintro (q | ⟨p', q1, q2⟩)
        · split at q
          · exact .inl q
          · rw [List.mem_append] at q
            rcases q with q | q
            · exact .inl q
            · simp only [List.mem_cons, List.not_mem_nil, or_false] at q
              exact .inr ⟨p, List.mem_cons_self .., q ▸ h1⟩
        · exact .inr ⟨p', List.mem_cons_of_mem _ q1, q2⟩
      · rintro (q | ⟨p', q1, q2⟩)
        · left; split
          · exact q
          · exact List.mem_append_left _ q
        · rcases List.mem_cons.1 q1 with rfl | q1
          · left
            rw [h1] at q2
            injection q2 with q2
            subst q2
            split
            · assumption
            · simp
          · exact .inr ⟨p', q1, q2⟩
    · rw [k3 n fun p' hp => hn p' (List.mem_cons_of_mem _ hp), Dict.get?_set_ne]
      intro e
      exact hn p (List.mem_cons_self ..) (e ▸ h1)
    · intro p' hp
      rcases List.mem_cons.1 hp with rfl | hp
      · exact hlt
      · exact k4 p' hp
    · rintro (_ | i) p' hp hlast
      · simp only [List.getElem?_cons_zero, Option.some.injEq] at hp
        subst hp
        refine ⟨name, h1, ?_⟩
        rw [k3, Dict.get?_set_self]
        intro q hq e
        obtain ⟨j, hj⟩ := List.getElem?_of_mem hq
        exact hlast (j + 1) q (by omega) (by simpa using hj) (e.trans h1.symm)
      · simp only [List.getElem?_cons_succ] at hp
        exact k5 i p' hp fun j q hj hq => hlast (j + 1) q (by omega) (by simpa using hq)

omit [UniDB] in
theorem zip_getP {α : Type} {l : List α} {i : Nat} {z : Nat × α} :
    ((List.range l.length).zip l)[i]? = some z ↔ z.1 = i ∧ l[i]? = some z.2 := by
  rw [List.getElem?_zip_eq_some]
  constructor
  · rintro ⟨h1, h2⟩
    have hi := (List.getElem?_eq_some_iff.1 h2).1
    rw [List.getElem?_range hi] at h1
    injection h1 with h1
    exact ⟨h1.symm, h2⟩
  · rintro ⟨h1, h2⟩
    have hi := (List.getElem?_eq_some_iff.1 h2).1
    rw [List.getElem?_range hi, h1]
    exact ⟨rfl, h2⟩

omit [UniDB] in
theorem forall2_getR {α β : Type} {R : Str × α → Str × β → Prop} (hk : ∀ q p, R q p → q.1 = p.1) {N : Str} {x : β} :
    ∀ {ch : Dict α} {M : Dict β}, List.Forall₂ R ch M → M.get? N = some x → ∃ j, ch.get? N = some j ∧ R (N, j) (N, x)
  | _, _, .nil, h => by cases h
  | (n, i) :: ch, (m, y) :: M, .cons h1 h2, h => by
    have e := hk _ _ h1
    simp only at e
    subst e
    rw [Dict.get?_cons] at h
    by_cases q : n = N
    · subst q
      rw [if_pos rfl] at h
      injection h with h
      subst h
      exact ⟨i, by rw [Dict.get?_cons, if_pos rfl], h1⟩
    · rw [if_neg q] at h
      obtain ⟨j, j1, j2⟩ := forall2_getR hk h2 h
      exact ⟨j, by rw [Dict.get?_cons, if_neg q]; exact j1, j2⟩

/-- the group of the positioners in the file -/
theorem positioners_at {s : H5} {E : Str} {xref : Option (Dict Str)} {l : Dict PyFloat} {M : Dict (PyFloat × Dict AVal)} {K : Nat → Prop}
    {b : Nat} (hP : PosAt K s b (posAttrs E true) M) (hM : posTable xref ((List.range l.length).zip l) [] M)
    (h1 : H5.walk s 0 [E, p!"positioners"] = some b) (h2 : H5.walk s 0 [E, p!"instrument", p!"positioners"] = some b) :
    PositionersAt s E xref l := by
  obtain ⟨-, ch, e1, e2, e3⟩ := hP
  obtain ⟨k1, k2, -, k4, k5⟩ := posTable_spec _ hM
  have hk : Dict.keys ch = Dict.keys M := by
    clear * - e3
    induction e3 with
    | nil => rfl
    | cons a _ ih => simp only [Dict.keys, List.map_cons] at ih ⊢; rw [a.1, ih]
  have hch : childrenAt s [E, p!"positioners"] = Dict.keys M := by
    unfold childrenAt objAt
    simp only [h1, e1]
    exact hk
  refine ⟨?_, ⟨b, h2, h1⟩, fun n => ?_, ?_, fun d hd => ?_, fun i key v hi hlast => ?_⟩
  · unfold groupAt objAt
    simp only [h1, e1]
    rfl
  · rw [hch, k2]
    constructor
    · rintro (q | ⟨p, q1, q2⟩)
      · cases q
      · obtain ⟨i, hi⟩ := List.getElem?_of_mem q1
        exact ⟨p.2.1, List.mem_map.2 ⟨p.2, List.mem_of_getElem? (zip_getP.1 hi).2, rfl⟩, q2⟩
    · rintro ⟨key, q1, q2⟩
      obtain ⟨p, q3, rfl⟩ := List.mem_map.1 q1
      obtain ⟨i, hi⟩ := List.getElem?_of_mem q3
      exact .inr ⟨(i, p), List.mem_of_getElem? (zip_getP.2 ⟨rfl, hi⟩), q2⟩
  · rw [hch, ← hk]; exact e2
  · rcases Nat.lt_or_ge d.length l.length with hl | hl
    · obtain ⟨p, hp⟩ : ∃ p, l[d.length]? = some p := ⟨_, List.getElem?_eq_getElem hl⟩
      have := k4 (d.length, p) (List.mem_of_getElem? (zip_getP.2 ⟨rfl, hp⟩)) d hd
      simp only at this
      omega
    · exact hl
  · obtain ⟨n, n1, n2⟩ := k5 i (i, key, v) (zip_getP.2 ⟨rfl, hi⟩) (by
      intro j q hj hq
      obtain ⟨-, hq⟩ := zip_getP.1 hq
      exact hlast j q.2.1 q.2.2 hj hq)
    obtain ⟨j, hj, -, -, -, k1, k2, -, -, g1, g2, g3⟩ := forall2_getR (fun _ _ h => h.1) e3 n2
    have hw : ∀ rest, H5.walk s 0 (E :: p!"positioners" :: n :: rest) = H5.walk s j rest := by
      intro rest
      have := walk_append [E, p!"positioners"] (n :: rest) (s := s) (i := 0)
      rw [h1] at this
      refine this.trans ?_
      show H5.walk s b (n :: rest) = _
      exact walk_one e1 hj rest
    have hw0 : H5.walk s 0 [E, p!"positioners", n] = some j := (hw []).trans rfl
    refine ⟨n, n1, ?_, ?_, ?_, ?_⟩
    · unfold groupAt objAt
      simp only [hw0, g1]
    · unfold childrenAt objAt
      simp only [hw0, g1]
      rfl
    · unfold datasetAt objAt
      rw [hw, walk_single _ g1]
      simp only [show Dict.get? [(p!"name", k1), (p!"value", k2)] p!"name" = some k1 from rfl, g2]
    · unfold datasetAt objAt
      rw [hw, walk_single _ g1]
      simp only [show Dict.get? [(p!"name", k1), (p!"value", k2)] p!"value" = some k2 from rfl, g3]
      rfl

/-- C79: the positioners of a scan (or of its header) are the group `positioners` of the entry.  They come from the
header or from the scan: if both have positioners, the file cannot be saved. -/
theorem C79_positioners {env : Env} {reg : List HKey} (hr : reg.Perm HKey.all) (hx : SchemaNames env) {v : Versions}
    {ks : List Ref} {s : Sdf} {r : SState} (hs : Savable s) (hk : ∀ k ∈ ks, PlainText k.text)
    (h : save env reg v ks s = (r, none)) {k : Ref} (hm : k ∈ ks) {z : Obj} (hz : r.sdf.getScan k = .ok (some z))
    {hl sl : Dict PyFloat} (h1 : hl = (r.sdf.headerOf z).positioner) (h2 : sl = z.positioner) :
    (hl = [] ∨ sl = []) ∧
    (hl ++ sl ≠ [] → PositionersAt r.h5 (entryName k) (r.sdf.headerOf z).positionerXref (hl ++ sl)) ∧
    (hl ++ sl = [] → childrenAt r.h5 [entryName k, p!"positioners"] = []) := by
  obtain ⟨m, x, y, e, chE, en, hw, hh, -⟩ := entry_of' hr hx hs hk h hm hz
  obtain ⟨hdr, w1, w2, K, vv, u, hlk, q1, q2, hΦ, hv, hvi, hhub, hno⟩ := en.zones zoned_positioners (by decide) (by decide) (by decide)
    (fun _ _ => trivial) trivial
  have hwh : Writers .header hdr := hh.hdrLike hlk.symm
  have e1 : hdr.positioner = (r.sdf.headerOf z).positioner := by obtain ⟨O, d, ep, e⟩ := hlk; rw [e]
  have e2 : hdr.positionerXref = (r.sdf.headerOf z).positionerXref := by obtain ⟨O, d, ep, e⟩ := hlk; rw [e]
  rw [← e1] at h1
  rw [← e2]
  subst h1 h2
  have key : ∀ {k : Kind} {x : Obj} (_ : Writers k x) {w w' : Option (Dict (PyFloat × Dict AVal) × Bool)},
      Steps (fun f => f = .positioners) (fun _ x w w' => w = none ∧ ∃ M, posTable hdr.positionerXref
        ((List.range x.positioner.length).zip x.positioner) [] M ∧ w' = some (M, false)) x x.h5.values w w' →
      (w = none ∧ ∃ M, posTable hdr.positionerXref ((List.range x.positioner.length).zip x.positioner) [] M ∧ w' = some (M, false)) ∨
      (x.positioner = [] ∧ w' = w) := by
    intro k x hw w w' hs
    rcases hs.once (once_of_writers hw (by rintro _ _ rfl rfl; rfl)) with ⟨f, _, _, f3⟩ | ⟨f1, f2⟩
    · exact .inl f3
    · refine .inr ⟨?_, f2⟩
      by_contra hne
      exact f1 _ (hw.more.2.2.1 hne) rfl
  have fin : ∀ M, w2 = some (M, false) → ∀ l, posTable hdr.positionerXref ((List.range l.length).zip l) [] M →
      PositionersAt r.h5 (entryName k) hdr.positionerXref l := by
    rintro M rfl l hM
    obtain ⟨b, b1, b2, b3⟩ := hΦ
    refine positioners_at b3 hM ?_ ?_
    · unfold entryName
      rw [en.walk, walk_one en.entry ((hv _ rfl).trans b1)]
      rfl
    · cases hI : vv inst with
      | none =>
        have := hno hI p!"positioners" rfl
        rw [b2] at this; cases this
      | some I =>
        obtain ⟨ch, a, g1, g2⟩ := hhub I hI
        unfold entryName
        rw [en.walk]
        show H5.walk r.h5 e [inst, p!"positioners"] = some b
        rw [walk_one en.entry (hvi.trans hI), walk_single _ g1]
        exact (g2 _ rfl).trans b2
  have none' : w2 = none → childrenAt r.h5 [entryName k, p!"positioners"] = [] := by
    rintro rfl
    unfold childrenAt objAt entryName
    rw [en.walk, walk_none en.entry ((hv _ rfl).trans hΦ.1)]
  have empty : ∀ l : Dict PyFloat, l = [] → PositionersAt r.h5 (entryName k) hdr.positionerXref l →
      childrenAt r.h5 [entryName k, p!"positioners"] = [] := by
    rintro l rfl hp
    refine List.eq_nil_iff_forall_not_mem.2 fun n hn => ?_
    obtain ⟨key, q, -⟩ := (hp.names n).1 hn
    cases q
  rcases key hwh q1 with ⟨-, M, m1, rfl⟩ | ⟨z1, rfl⟩
  · rcases key hw q2 with ⟨c, -⟩ | ⟨z2, rfl⟩
    · cases c
    · have := fin M rfl _ m1
      rw [z2, List.append_nil]
      exact ⟨.inr rfl, fun _ => this, fun e => empty _ e this⟩
  · rw [z1, List.nil_append]
    refine ⟨.inl rfl, ?_⟩
    rcases key hw q2 with ⟨-, M, m1, rfl⟩ | ⟨z2, rfl⟩
    · have := fin M rfl _ m1
      exact ⟨fun _ => this, fun e => empty _ e this⟩
    · exact ⟨fun q => absurd z2 q, fun _ => none' rfl⟩

end S2N.Props
