import Verif.Lemmas.Save
import Verif.Props.Read
/-
The writers that the handlers register.
-/
namespace S2N
open Py H5 Eznx Writer Spec Props

section
variable [UniDB]

omit [UniDB] in
theorem labelOf_inj {f g : H5Fn} (h : labelOf g = labelOf f) (h1 : f ≠ .counterJ) (h2 : f ≠ .counterj) : g = f := by
  cases f <;> first | exact absurd rfl h1 | exact absurd rfl h2 | (cases g <;> first | rfl | exact absurd h (by decide))

omit [UniDB] in
theorem mem_values_iff {d : Dict H5Fn} {f : H5Fn} : f ∈ d.values ↔ ∃ l, (l, f) ∈ d := by
  unfold Dict.values
  constructor
  · intro h
    obtain ⟨p, h1, rfl⟩ := List.mem_map.1 h
    exact ⟨p.1, h1⟩
  · rintro ⟨l, h⟩
    exact List.mem_map.2 ⟨_, h, rfl⟩

omit [UniDB] in
theorem Dict.mem_setDefault_iff {d : Dict H5Fn} {k : Str} {v : H5Fn} {p : Str × H5Fn} :
    p ∈ d.setDefault k v ↔ p ∈ d ∨ (p = (k, v) ∧ k ∉ d.keys) := by
  unfold Dict.setDefault
  by_cases h : d.has k = true
  · rw [if_pos h]
    have : k ∈ d.keys := by
      by_cases e : k ∈ d.keys
      · exact e
      · rw [← Dict.not_has_iff, h] at e; cases e
    simp [this]
  · rw [if_neg h]
    rw [Bool.not_eq_true] at h
    have hk := (Dict.not_has_iff _ _).1 h
    rw [Dict.set_of_not_mem _ _ _ hk]
    simp [hk]

omit [UniDB] in
/-- registering a writer that has a label of its own -/
theorem values_setDefault {d : Dict H5Fn} (hl : ∀ p ∈ d, p.1 = labelOf p.2) {f : H5Fn} (h1 : f ≠ .counterJ)
    (h2 : f ≠ .counterj) (g : H5Fn) : g ∈ (d.setDefault (labelOf f) f).values ↔ g = f ∨ g ∈ d.values := by
  rw [mem_values_iff, mem_values_iff]
  constructor
  · rintro ⟨l, h⟩
    rcases Dict.mem_setDefault_iff.1 h with h | ⟨h, _⟩
    · exact .inr ⟨l, h⟩
    · injection h with _ h
      exact .inl h
  · rintro (h | ⟨l, h⟩)
    · subst h
      by_cases hk : labelOf g ∈ d.keys
      · obtain ⟨p, hp, e⟩ := List.mem_map.1 hk
        have := hl p hp
        rw [e] at this
        have := labelOf_inj this.symm h1 h2
        refine ⟨p.1, Dict.mem_setDefault_iff.2 (.inl ?_)⟩
        rw [← this]
        exact hp
      · exact ⟨_, Dict.mem_setDefault_iff.2 (.inr ⟨rfl, hk⟩)⟩
    · exact ⟨l, Dict.mem_setDefault_iff.2 (.inl h)⟩

omit [UniDB] in
/-- registering a writer that has not a label of its own -/
theorem values_setDefault' {d : Dict H5Fn} {l : Str} {f g : H5Fn} (hg : g ≠ f) :
    g ∈ (d.setDefault l f).values ↔ g ∈ d.values := by
  rw [mem_values_iff, mem_values_iff]
  constructor
  · rintro ⟨l', h⟩
    rcases Dict.mem_setDefault_iff.1 h with h | ⟨h, _⟩
    · exact ⟨l', h⟩
    · injection h with _ h
      exact absurd h hg
  · rintro ⟨l', h⟩
    exact ⟨l', Dict.mem_setDefault_iff.2 (.inl h)⟩

omit [UniDB] in
theorem keys_setDefault_mem {d : Dict H5Fn} {l k : Str} {f : H5Fn} (h : k ∈ d.keys) : k ∈ (d.setDefault l f).keys := by
  obtain ⟨p, hp, e⟩ := List.mem_map.1 h
  exact List.mem_map.2 ⟨p, Dict.mem_setDefault_iff.2 (.inl hp), e⟩

omit [UniDB] in
theorem keys_setDefault_self {d : Dict H5Fn} {l : Str} {f : H5Fn} : l ∈ (d.setDefault l f).keys := by
  by_cases h : l ∈ d.keys
  · exact keys_setDefault_mem h
  · exact List.mem_map.2 ⟨(l, f), Dict.mem_setDefault_iff.2 (.inr ⟨rfl, h⟩), rfl⟩

omit [UniDB] in
theorem keys_setDefault_nodup {d : Dict H5Fn} {l : Str} {f : H5Fn} (h : d.keys.Nodup) : (d.setDefault l f).keys.Nodup := by
  unfold Dict.setDefault
  split
  · exact h
  · exact Dict.nodup_keys_set _ _ _ h

/-- nothing of it changed -/
theorem _root_.S2N.Spec.Writers.same {k : Kind} {x y : Obj} (h : Writers k x) (h0 : y.kind = x.kind) (h1 : y.h5 = x.h5)
    (h2 : y.comments = x.comments) (h3 : y.Q = x.Q) (h4 : y.M = x.M) (h5 : y.T = x.T) (h6 : y.R = x.R) (h7 : y.U = x.U)
    (h8 : y.unrecognized = x.unrecognized) (h9 : y.MD.getD [] = x.MD.getD []) (h10 : y.counterXref = x.counterXref)
    (h11 : y.positionerXref = x.positionerXref) (h12 : y.interpreted = x.interpreted) (h13 : y.raw = x.raw)
    (h14 : MoreWriters x → MoreWriters y) : Writers k y := by
  constructor
  · rw [h0]; exact h.kind
  · rw [h1]; exact h.keys
  · rw [h1]; exact h.label
  · rw [h1, h2]; exact h.comments
  · rw [h1]; exact h.date
  · rw [h1, h3]; exact h.hkl
  · rw [h1, h4]; exact h.monitor
  · rw [h1, h5]; exact h.countTime
  · rw [h1, h6]; exact h.userResults
  · rw [h1, h7]; exact h.userReserved
  · rw [h1, h8]; exact h.unrec
  · rw [h1, h9]; exact h.md
  · rw [h1, h10]; exact h.counters
  · rw [h1, h11]; exact h.positioners
  · rw [h1, h12, h13]; exact h.dated
  · rw [h9, h10, h11]; exact h.dicts
  · exact h14 h.more

/-- the dictionaries have no key twice -/
def DictsOk (x : Obj) : Prop :=
  (x.counterXref.getD []).keys.Nodup ∧ (x.positionerXref.getD []).keys.Nodup ∧ (x.MD.getD []).keys.Nodup

omit [UniDB] in
theorem xrefRow_nodup : ∀ (ms ns : List Str) (d : Dict Str), d.keys.Nodup → (xrefRow ms ns d).1.keys.Nodup
  | [], _, d, h => h
  | _ :: _, [], d, h => h
  | m :: ms, n :: ns, d, h => xrefRow_nodup ms ns _ (Dict.nodup_keys_set _ _ _ h)

omit [UniDB] in
theorem xrefRows_nodup : ∀ (ms ns : List (List Str)) (d : Dict Str), d.keys.Nodup → (xrefRows ms ns d).1.keys.Nodup
  | [], _, d, h => h
  | _ :: _, [], d, h => h
  | m :: ms, n :: ns, d, h => by
    have h1 := xrefRow_nodup m n d h
    unfold xrefRows Res.andThen
    split
    · exact xrefRows_nodup ms ns _ h1
    · exact h1

/-- a writer is registered -/
theorem _root_.S2N.Spec.Writers.put {k : Kind} {x y : Obj} (h : Writers k x) (f : H5Fn) (h0 : y.kind = x.kind)
    (h1 : y.h5 = x.h5.setDefault (labelOf f) f)
    (h2 : if f = .comments then k = .scan ∧ y.comments ≠ [] else y.comments = x.comments)
    (hd : f = .date ∨ f = .geometry → k = .scan)
    (h3 : if f = .hkl then y.Q ≠ none else y.Q = x.Q)
    (h4 : f = .monitor ∨ y.M = x.M)
    (h5 : f = .countTime ∨ y.T = x.T)
    (h6 : if f = .userResults then y.R ≠ none else y.R = x.R)
    (h7 : if f = .userReserved then y.U ≠ none else y.U = x.U)
    (h8 : if f = .unrec then y.unrecognized ≠ none else y.unrecognized = x.unrecognized)
    (h9 : if f = .MD then y.MD.getD [] ≠ [] else y.MD = x.MD)
    (h10 : f = .counterJ ∨ f = .counterj ∨ y.counterXref = x.counterXref)
    (h11 : f = .positionerXref ∨ y.positionerXref = x.positionerXref)
    (h12 : y.interpreted = x.interpreted) (h13 : y.raw = x.raw) (h14 : DictsOk x → DictsOk y)
    (m1 : if f = .uxml then y.uxmlRoot ≠ none else y.uxmlRoot = x.uxmlRoot)
    (m2 : f = .metadata ∨ y.metadata = x.metadata) (m3 : f = .positioners ∨ y.positioner = x.positioner)
    (m4 : f = .calib ∨ y.mca.bind (·.calib) = x.mca.bind (·.calib))
    (m5 : f = .chann ∨ y.mca.bind (·.chann) = x.mca.bind (·.chann))
    (m6 : f = .ctime ∨ y.mca.bind (·.ctime) = x.mca.bind (·.ctime))
    (m7 : if f = .VA then y.kind = .header ∧ y.VA ≠ none else y.VA = x.VA)
    (m8 : if f = .VD then y.kind = .header ∧ y.VD ≠ none else y.VD = x.VD)
    (m9 : if f = .VE then y.kind = .header ∧ y.VE ≠ none else y.VE = x.VE)
    (m10 : f = .temperature ∨ (y.tempSP, y.degcSP) = (x.tempSP, x.degcSP)) (m11 : MoreDicts x → MoreDicts y) : Writers k y := by
  have own : ∀ g, g ≠ .counterJ → g ≠ .counterj → (g ∈ y.h5.values ↔ g = f ∨ g ∈ x.h5.values) := by
    intro g hg1 hg2
    rw [h1]
    by_cases hf : f = .counterJ ∨ f = .counterj
    · have hne : g ≠ f := by rintro rfl; rcases hf with e | e <;> contradiction
      rw [values_setDefault' hne]
      simp [hne]
    · exact values_setDefault h.label (fun e => hf (.inl e)) (fun e => hf (.inr e)) g
  constructor
  · rw [h0]; exact h.kind
  · rw [h1]; exact keys_setDefault_nodup h.keys
  · rw [h1]
    intro p hp
    rcases Dict.mem_setDefault_iff.1 hp with e | ⟨e, _⟩
    · exact h.label p e
    · rw [e]
  · rw [own _ (by decide) (by decide), h.comments]
    split at h2
    · rename_i e; simp [e, h2]
    · rename_i e; simp [Ne.symm e, h2]
  · rw [own _ (by decide) (by decide), own _ (by decide) (by decide)]
    rintro ((e | e) | (e | e))
    · exact hd (.inl e.symm)
    · exact h.date (.inl e)
    · exact hd (.inr e.symm)
    · exact h.date (.inr e)
  · rw [own _ (by decide) (by decide), h.hkl]
    split at h3
    · rename_i e; simp [e, h3]
    · rename_i e; simp [Ne.symm e, h3]
  · intro hc
    rw [own _ (by decide) (by decide)]
    rcases h4 with e | e
    · exact .inl e.symm
    · rw [e] at hc; exact .inr (h.monitor hc)
  · intro hc
    rw [own _ (by decide) (by decide)]
    rcases h5 with e | e
    · exact .inl e.symm
    · rw [e] at hc; exact .inr (h.countTime hc)
  · rw [own _ (by decide) (by decide), h.userResults]
    split at h6
    · rename_i e; simp [e, h6]
    · rename_i e; simp [Ne.symm e, h6]
  · rw [own _ (by decide) (by decide), h.userReserved]
    split at h7
    · rename_i e; simp [e, h7]
    · rename_i e; simp [Ne.symm e, h7]
  · rw [own _ (by decide) (by decide), h.unrec]
    split at h8
    · rename_i e; simp [e, h8]
    · rename_i e; simp [Ne.symm e, h8]
  · rw [own _ (by decide) (by decide), h.md]
    split at h9
    · rename_i e
      constructor
      · intro _; exact h9
      · intro _; exact .inl e.symm
    · rename_i e; rw [h9]; simp [Ne.symm e]
  · intro hc
    rw [h1]
    rcases h10 with e | e | e
    · subst e; exact keys_setDefault_self
    · subst e; exact keys_setDefault_self
    · rw [e] at hc
      exact keys_setDefault_mem (h.counters hc)
  · intro hc
    rw [h1]
    rcases h11 with e | e
    · subst e; exact keys_setDefault_self
    · rw [e] at hc
      exact keys_setDefault_mem (h.positioners hc)
  · rw [h12, h13]
    intro h15 h16
    exact (own _ (by decide) (by decide)).2 (.inr (h.dated h15 h16))
  · exact h14 h.dicts
  · obtain ⟨k1, k2, k3, k4, k5, k6, k7, k8, k9, k10, k11⟩ := h.more
    have imp : ∀ {p q : Prop} {g : H5Fn}, g ≠ .counterJ → g ≠ .counterj → (p → g ∈ x.h5.values) → (f = g ∨ (q → p)) →
        (q → g ∈ y.h5.values) := by
      intro p q g g1 g2 hp hq hq'
      rw [own g g1 g2]
      rcases hq with e | e
      · exact .inl e.symm
      · exact .inr (hp (e hq'))
    refine ⟨?_, imp (by decide) (by decide) k2 (m2.imp_right fun e => by rw [e]; exact id),
      imp (by decide) (by decide) k3 (m3.imp_right fun e => by rw [e]; exact id),
      imp (by decide) (by decide) k4 (m4.imp_right fun e => by rw [e]; exact id),
      imp (by decide) (by decide) k5 (m5.imp_right fun e => by rw [e]; exact id),
      imp (by decide) (by decide) k6 (m6.imp_right fun e => by rw [e]; exact id), ?_, ?_, ?_,
      imp (by decide) (by decide) k10 (m10.imp_right fun e => by rw [(Prod.mk.inj e).1, (Prod.mk.inj e).2]; exact id), m11 k11⟩
    · rw [own _ (by decide) (by decide), k1]
      split at m1
      · rename_i e; simp [e, m1]
      · rename_i e; simp [Ne.symm e, m1]
    · rw [own _ (by decide) (by decide), k7]
      split at m7
      · rename_i e; simp [e, m7]
      · rename_i e; simp [Ne.symm e, m7, h0]
    · rw [own _ (by decide) (by decide), k8]
      split at m8
      · rename_i e; simp [e, m8]
      · rename_i e; simp [Ne.symm e, m8, h0]
    · rw [own _ (by decide) (by decide), k9]
      split at m9
      · rename_i e; simp [e, m9]
      · rename_i e; simp [Ne.symm e, m9, h0]

theorem set_ne_nil {α : Type} (d : Dict α) (k : Str) (v : α) : d.set k v ≠ [] := by
  cases d with
  | nil => simp [Dict.set]
  | cons a d =>
    unfold Dict.set
    split <;> simp

theorem mca_other1 (m : Option McaInfo) (c : Option (PyFloat × PyFloat × PyFloat)) :
    (some { m.getD {} with calib := c }).bind (·.chann) = m.bind (·.chann) := by cases m <;> rfl
theorem mca_other2 (m : Option McaInfo) (c : Option (PyFloat × PyFloat × PyFloat)) :
    (some { m.getD {} with calib := c }).bind (·.ctime) = m.bind (·.ctime) := by cases m <;> rfl
theorem mca_other3 (m : Option McaInfo) (c : Option (Int × Int × Int × PyFloat)) :
    (some { m.getD {} with chann := c }).bind (·.calib) = m.bind (·.calib) := by cases m <;> rfl
theorem mca_other4 (m : Option McaInfo) (c : Option (Int × Int × Int × PyFloat)) :
    (some { m.getD {} with chann := c }).bind (·.ctime) = m.bind (·.ctime) := by cases m <;> rfl
theorem mca_other5 (m : Option McaInfo) (c : Option (PyFloat × PyFloat × PyFloat)) :
    (some { m.getD {} with ctime := c }).bind (·.calib) = m.bind (·.calib) := by cases m <;> rfl
theorem mca_other6 (m : Option McaInfo) (c : Option (PyFloat × PyFloat × PyFloat)) :
    (some { m.getD {} with ctime := c }).bind (·.chann) = m.bind (·.chann) := by cases m <;> rfl

/-- a writer is registered, with the attribute it is for -/
macro "wput" h:term:max f:term:max : tactic => `(tactic|
  refine Writers.put $h $f rfl rfl ?_ ?_ ?_ ?_ ?_ ?_ ?_ ?_ ?_ ?_ ?_ rfl rfl ?_ ?_ ?_ ?_ ?_ ?_ ?_ ?_ ?_ ?_ ?_ ?_ <;>
    first | rfl | exact id | exact (fun _ => rfl) | exact (.inr rfl) | exact (.inr (mca_other1 _ _)) | exact (.inr (mca_other2 _ _)) | exact (.inr (mca_other3 _ _)) | exact (.inr (mca_other4 _ _)) | exact (.inr (mca_other5 _ _)) | exact (.inr (mca_other6 _ _)) | (refine fun hh => ⟨?_, ?_, ?_, ?_, ?_, ?_⟩ <;> first | exact hh.1 | exact hh.2.1 | exact hh.2.2.1 | exact hh.2.2.2.1 | exact hh.2.2.2.2.1 | exact hh.2.2.2.2.2 | exact Dict.nodup_keys_set _ _ _ hh.1 | exact Dict.nodup_keys_set _ _ _ hh.2.1 | exact Dict.nodup_keys_set _ _ _ hh.2.2.1) | (simp [Obj.addH5, set_ne_nil]; done) | exact (fun hh => ⟨hh.1, hh.2.1, Dict.nodup_keys_set _ _ _ hh.2.2⟩) | exact (fun hh => ⟨hh.1, xrefRows_nodup _ _ _ hh.2.1, hh.2.2⟩))

theorem _root_.S2N.Spec.Writers.procC {k : Kind} {x : Obj} (h : Writers k x) (text : Str) : Writers k (procC text x).1 := by
  have key : ∀ a, Writers k (if x.kind = .scan then
      ({ x with comments := x.comments ++ [stripFirstWord text], aborted := a } : Obj).addH5 p!"#C" .comments
      else { x with comments := x.comments ++ [stripFirstWord text], aborted := a }) := by
    intro a
    have hk := h.kind
    split
    · rename_i e
      refine h.put .comments rfl rfl ?_ (by simp) rfl (.inr rfl) (.inr rfl) rfl rfl rfl rfl (.inr (.inr rfl)) (.inr rfl) rfl rfl id rfl (.inr rfl) (.inr rfl) (.inr rfl) (.inr rfl) (.inr rfl) rfl rfl rfl (.inr rfl) id
      rw [if_pos rfl]
      exact ⟨hk.symm.trans e, by simp [Obj.addH5]⟩
    · rename_i e
      have hks : k ≠ .scan := fun e' => e (hk.trans e')
      refine ⟨h.kind, h.keys, h.label, ?_, h.date, h.hkl, h.monitor, h.countTime, h.userResults, h.userReserved, h.unrec, h.md,
        h.counters, h.positioners, h.dated, h.dicts, h.more⟩
      have := h.comments
      simp [hks] at this ⊢
      exact this
  unfold S2N.procC
  simp only [Res.ok]
  split
  · exact key _
  · exact key x.aborted

theorem _root_.S2N.Spec.Writers.procVA {k : Kind} {x : Obj} (h : Writers k x) (text : Str) : Writers k (procVA text x).1 := by
  unfold S2N.procVA Res.eval
  split
  · simp only [Res.ok]
    split
    · rename_i e
      have e' : x.kind = .header := e
      refine Writers.put h .VA rfl rfl rfl ?_ rfl (.inr rfl) (.inr rfl) rfl rfl rfl rfl (.inr (.inr rfl)) (.inr rfl) rfl rfl id
        rfl (.inr rfl) (.inr rfl) (.inr rfl) (.inr rfl) (.inr rfl) ?_ ?_ ?_ (.inr rfl) ?_
      · rintro (e | e) <;> cases e
      · first | rfl | exact (if_pos rfl).mpr ⟨e', by simp [Obj.addH5]⟩
      · first | rfl | exact (if_pos rfl).mpr ⟨e', by simp [Obj.addH5]⟩
      · first | rfl | exact (if_pos rfl).mpr ⟨e', by simp [Obj.addH5]⟩
      · rintro ⟨k1, k2, k3, k4⟩
        refine ⟨?_, ?_, ?_, k4⟩ <;> first | exact k1 | exact k2 | exact k3 | exact Dict.nodup_keys_set _ _ _ k1 | exact Dict.nodup_keys_set _ _ _ k2 | exact Dict.nodup_keys_set _ _ _ k3
    · rename_i e
      refine h.same rfl rfl rfl rfl rfl rfl rfl rfl rfl rfl rfl rfl rfl rfl ?_
      have e' : x.kind ≠ .header := e
      rintro ⟨k1, k2, k3, k4, k5, k6, k7, k8, k9, k10, k11, k12, k13, k14, k15, k16⟩
      refine ⟨k1, k2, k3, k4, k5, k6, ?_, ?_, ?_, k10, ?_, ?_, ?_, k14, k15, k16⟩ <;>
        first
        | exact k7 | exact k8 | exact k9 | exact k11 | exact k12 | exact k13
        | exact Dict.nodup_keys_set _ _ _ k11
        | exact ⟨fun hm => absurd (k7.1 hm).1 e', fun hm => absurd hm.1 e'⟩
  · exact h

theorem _root_.S2N.Spec.Writers.procVD {k : Kind} {x : Obj} (h : Writers k x) (text : Str) : Writers k (procVD text x).1 := by
  unfold S2N.procVD Res.eval
  split
  · simp only [Res.ok]
    split
    · rename_i e
      have e' : x.kind = .header := e
      refine Writers.put h .VD rfl rfl rfl ?_ rfl (.inr rfl) (.inr rfl) rfl rfl rfl rfl (.inr (.inr rfl)) (.inr rfl) rfl rfl id
        rfl (.inr rfl) (.inr rfl) (.inr rfl) (.inr rfl) (.inr rfl) ?_ ?_ ?_ (.inr rfl) ?_
      · rintro (e | e) <;> cases e
      · first | rfl | exact (if_pos rfl).mpr ⟨e', by simp [Obj.addH5]⟩
      · first | rfl | exact (if_pos rfl).mpr ⟨e', by simp [Obj.addH5]⟩
      · first | rfl | exact (if_pos rfl).mpr ⟨e', by simp [Obj.addH5]⟩
      · rintro ⟨k1, k2, k3, k4⟩
        refine ⟨?_, ?_, ?_, k4⟩ <;> first | exact k1 | exact k2 | exact k3 | exact Dict.nodup_keys_set _ _ _ k1 | exact Dict.nodup_keys_set _ _ _ k2 | exact Dict.nodup_keys_set _ _ _ k3
    · rename_i e
      refine h.same rfl rfl rfl rfl rfl rfl rfl rfl rfl rfl rfl rfl rfl rfl ?_
      have e' : x.kind ≠ .header := e
      rintro ⟨k1, k2, k3, k4, k5, k6, k7, k8, k9, k10, k11, k12, k13, k14, k15, k16⟩
      refine ⟨k1, k2, k3, k4, k5, k6, ?_, ?_, ?_, k10, ?_, ?_, ?_, k14, k15, k16⟩ <;>
        first
        | exact k7 | exact k8 | exact k9 | exact k11 | exact k12 | exact k13
        | exact Dict.nodup_keys_set _ _ _ k12
        | exact ⟨fun hm => absurd (k8.1 hm).1 e', fun hm => absurd hm.1 e'⟩
  · exact h

theorem _root_.S2N.Spec.Writers.procVE {k : Kind} {x : Obj} (h : Writers k x) (text : Str) : Writers k (procVE text x).1 := by
  unfold S2N.procVE Res.eval
  split
  · simp only [Res.ok]
    split
    · rename_i e
      have e' : x.kind = .header := e
      refine Writers.put h .VE rfl rfl rfl ?_ rfl (.inr rfl) (.inr rfl) rfl rfl rfl rfl (.inr (.inr rfl)) (.inr rfl) rfl rfl id
        rfl (.inr rfl) (.inr rfl) (.inr rfl) (.inr rfl) (.inr rfl) ?_ ?_ ?_ (.inr rfl) ?_
      · rintro (e | e) <;> cases e
      · first | rfl | exact (if_pos rfl).mpr ⟨e', by simp [Obj.addH5]⟩
      · first | rfl | exact (if_pos rfl).mpr ⟨e', by simp [Obj.addH5]⟩
      · first | rfl | exact (if_pos rfl).mpr ⟨e', by simp [Obj.addH5]⟩
      · rintro ⟨k1, k2, k3, k4⟩
        refine ⟨?_, ?_, ?_, k4⟩ <;> first | exact k1 | exact k2 | exact k3 | exact Dict.nodup_keys_set _ _ _ k1 | exact Dict.nodup_keys_set _ _ _ k2 | exact Dict.nodup_keys_set _ _ _ k3
    · rename_i e
      refine h.same rfl rfl rfl rfl rfl rfl rfl rfl rfl rfl rfl rfl rfl rfl ?_
      have e' : x.kind ≠ .header := e
      rintro ⟨k1, k2, k3, k4, k5, k6, k7, k8, k9, k10, k11, k12, k13, k14, k15, k16⟩
      refine ⟨k1, k2, k3, k4, k5, k6, ?_, ?_, ?_, k10, ?_, ?_, ?_, k14, k15, k16⟩ <;>
        first
        | exact k7 | exact k8 | exact k9 | exact k11 | exact k12 | exact k13
        | exact Dict.nodup_keys_set _ _ _ k13
        | exact ⟨fun hm => absurd (k9.1 hm).1 e', fun hm => absurd hm.1 e'⟩
  · exact h

theorem _root_.S2N.Spec.Writers.procG {k : Kind} {x : Obj} (h : Writers k x) (text : Str) : Writers k (procG text x).1 := by
  unfold S2N.procG Res.eval
  split
  · split
    · exact h
    · rename_i g hg
      refine h.same rfl rfl rfl rfl rfl rfl rfl rfl rfl rfl rfl rfl rfl rfl ?_
      rintro ⟨k1, k2, k3, k4, k5, k6, k7, k8, k9, k10, k11, k12, k13, k14, k15, k16⟩
      refine ⟨k1, k2, k3, k4, k5, k6, k7, k8, k9, k10, k11, k12, k13, k14, k15, ?_⟩
      rw [hg] at k16
      exact Dict.nodup_keys_set _ _ _ k16
  · exact h

theorem mca_roi {α : Type} (m : Option McaInfo) (r : Dict (Int × Int)) (g : McaInfo → Option α) (hg : ∀ m, g { m with roi := r } = g m)
    (h0 : g {} = none) : (some { m.getD {} with roi := r }).bind g = m.bind g := by
  cases m with
  | none => exact (hg _).trans h0
  | some m => exact hg m

theorem _root_.S2N.Spec.Writers.procRoi {k : Kind} {x : Obj} (h : Writers k x) (text : Str) : Writers k (procRoi text x).1 := by
  simp only [S2N.procRoi, Res.eval]
  split
  · split
    · refine h.same rfl rfl rfl rfl rfl rfl rfl rfl rfl rfl rfl rfl rfl rfl ?_
      rintro ⟨k1, k2, k3, k4, k5, k6, k7⟩
      refine ⟨k1, k2, k3, ?_, ?_, ?_, k7⟩
      · intro hh; exact k4 (by rwa [← mca_roi x.mca _ (·.calib) (fun _ => rfl) rfl])
      · intro hh; exact k5 (by rwa [← mca_roi x.mca _ (·.chann) (fun _ => rfl) rfl])
      · intro hh; exact k6 (by rwa [← mca_roi x.mca _ (·.ctime) (fun _ => rfl) rfl])
    · exact h
  · exact h

/-- a line -/
theorem _root_.S2N.Spec.Writers.procObj {k : Kind} {x : Obj} (h : Writers k x) (env : Env) (hk : HKey) (text : Str) :
    Writers k (procObj env hk text x).1 := by
  have hkind := h.kind
  by_cases hC : hk = .C
  · subst hC; exact h.procC text
  by_cases hG : hk = .G
  · subst hG; exact h.procG text
  by_cases hRoi : hk = .ROI
  · subst hRoi; exact h.procRoi text
  by_cases hVA : hk = .VA
  · subst hVA; exact h.procVA text
  by_cases hVD : hk = .VD
  · subst hVD; exact h.procVD text
  by_cases hVE : hk = .VE
  · subst hVE; exact h.procVE text
  cases hk <;> simp only [S2N.procObj, procDate, procI, procJ, procj, procL, procM,
    procN, procO, proco, procP, procQ, procR, procT, procU, procX, procData, procCalib, procChann,
    procCtime, procUnrec, procMD, procUIM, procH, procXPCS,
    procCCD, procUXML, Res.eval, Res.ok, Res.raise] <;>
    (repeat' split) <;>
    first
    | exact h
    | exact absurd rfl hC
    | exact absurd rfl hG
    | exact absurd rfl hRoi
    | exact absurd rfl hVA
    | exact absurd rfl hVD
    | exact absurd rfl hVE
    | exact h.same rfl rfl rfl rfl rfl rfl rfl rfl rfl rfl rfl rfl rfl rfl id
    | wput h .monitor
    | wput h .hkl
    | wput h .userResults
    | wput h .userReserved
    | wput h .countTime
    | wput h .temperature
    | wput h .calib
    | wput h .chann
    | wput h .ctime
    | wput h .unrec
    | wput h .MD
    | wput h .XPCS
    | wput h .CCD

omit [UniDB] in
theorem _root_.S2N.Dict.get?_setDefault_ne {α : Type} (d : Dict α) {k k2 : Str} (v : α) (h : k ≠ k2) :
    (d.setDefault k v).get? k2 = d.get? k2 := by
  unfold Dict.setDefault
  split
  · rfl
  · rw [Dict.get?_set_ne _ _ h]

/-- case split of the effect of a handler on the writers -/
macro "frame_obj_h5" k:term : tactic => `(tactic| (
  cases $k:term <;> simp only [procObj, procDate, procC, procG, procI, procJ, procj, procL, procM,
    procN, procO, proco, procP, procQ, procR, procT, procU, procX, procData, procCalib, procChann,
    procCtime, procRoi, procUnrec, procMD, procUIM, procH, procVA, procVD, procVE, procXPCS,
    procCCD, procUXML, Res.eval, Res.ok, Res.raise, Obj.addH5, Obj.addPost] <;>
    (repeat' split) <;> first | rfl | exact Dict.get?_setDefault_ne _ _ (by decide) | (exfalso; simp_all; done)))

/-- case split of the effect of a post-processor on the writers -/
macro "frame_post_h5" f:term : tactic => `(tactic| (
  cases $f:term <;> simp only [runPost, onScan, postGeometry, postPositions, postData, postUnicat,
    postUXML, counterXref, positionerXref, Res.eval, Res.ok, Res.raise, Res.andThen, Obj.addH5,
    Obj.addPost] <;>
    (repeat' split) <;> first | rfl | exact Dict.get?_setDefault_ne _ _ (by decide) | (exfalso; simp_all; done)))


theorem _root_.S2N.Spec.Writers.addDate {x : Obj} (h : Writers .scan x) : Writers .scan (x.addH5 p!"#D" .date) := by
  refine Writers.put h .date rfl rfl ?_ ?_ ?_ ?_ ?_ ?_ ?_ ?_ ?_ ?_ ?_ rfl rfl id rfl (.inr rfl) (.inr rfl) (.inr rfl) (.inr rfl) (.inr rfl) rfl rfl rfl (.inr rfl) id <;>
    first | rfl | (simp [Obj.addH5]; done)

/-- a line of a scan -/
theorem _root_.S2N.Spec.Writers.procScan {c : ScanCtx} (h : Writers .scan c.scan) (env : Env) (hk : HKey) (text : Str) :
    Writers .scan (procScan env hk text c).1.scan := by
  by_cases hD : hk = .D
  · subst hD
    simp only [S2N.procScan, Res.andThen]
    have h1 : Writers .scan (procDate env text c.scan).1 := h.procObj env .D text
    split
    · rw [dateHdr_scan]
      exact h1.addDate
    · exact h1
  by_cases hO : hk = .O
  · subst hO; exact h
  by_cases hV : hk = .V
  · subst hV
    simp only [S2N.procScan, procV]
    (repeat' split) <;>
      first
      | exact h
      | exact h.same rfl rfl rfl rfl rfl rfl rfl rfl rfl rfl rfl rfl rfl rfl id
  · have : S2N.procScan env hk text c = onScan (S2N.procObj env hk text) c := by
      cases hk <;> first | rfl | contradiction
    rw [this]
    exact h.procObj env hk text

theorem _root_.S2N.Spec.Writers.counterXref {k : Kind} {x : Obj} (h : Writers k x) {f : H5Fn}
    (hf : f = .counterJ ∨ f = .counterj) :
    Writers k ((counterXref x).1.addH5 p!"counter cross-referencing" f) := by
  have hl : labelOf f = p!"counter cross-referencing" := by rcases hf with rfl | rfl <;> rfl
  have hne : ∀ g : H5Fn, g ≠ .counterJ → g ≠ .counterj → ¬ f = g := by
    rintro g h1 h2 rfl
    rcases hf with e | e <;> contradiction
  rw [← hl]
  unfold S2N.counterXref
  split
  all_goals
    refine h.put f rfl rfl ?_ ?_ ?_ ?_ ?_ ?_ ?_ ?_ ?_ ?_ (.inr rfl) rfl rfl
      (by first | exact id | exact fun h => ⟨xrefRows_nodup _ _ _ h.1, h.2⟩)
      (by rw [if_neg (hne _ (by decide) (by decide))]; rfl) (.inr rfl) (.inr rfl) (.inr rfl) (.inr rfl) (.inr rfl)
      (by rw [if_neg (hne _ (by decide) (by decide))]; rfl) (by rw [if_neg (hne _ (by decide) (by decide))]; rfl)
      (by rw [if_neg (hne _ (by decide) (by decide))]; rfl) (.inr rfl) id
    · rw [if_neg (hne _ (by decide) (by decide))]; rfl
    · exact fun e => absurd e (not_or.2 ⟨hne _ (by decide) (by decide), hne _ (by decide) (by decide)⟩)
    · rw [if_neg (hne _ (by decide) (by decide))]; rfl
    · exact .inr rfl
    · exact .inr rfl
    · rw [if_neg (hne _ (by decide) (by decide))]; rfl
    · rw [if_neg (hne _ (by decide) (by decide))]; rfl
    · rw [if_neg (hne _ (by decide) (by decide))]; rfl
    · rw [if_neg (hne _ (by decide) (by decide))]; rfl
    · rcases hf with e | e
      · exact .inl e
      · exact .inr (.inl e)

theorem _root_.S2N.Spec.Writers.positionerXref {k : Kind} {x : Obj} (h : Writers k x) :
    Writers k ((positionerXref x).1.addH5 p!"positioner cross-referencing" .positionerXref) := by
  unfold S2N.positionerXref
  split <;> (wput h .positionerXref)

theorem _root_.S2N.Spec.Writers.uxml {k : Kind} {x : Obj} (h : Writers k x) (env : Env) (hok : (postUXML env x).2 = none) :
    Writers k (postUXML env x).1 := by
  revert hok
  unfold postUXML
  simp only [Res.eval, Res.ok, Res.raise]
  (repeat' split) <;> intro hok
  · wput h .uxml
  · cases hok
  · exact h

omit [UniDB] in
theorem andThen_ok_inv {σ : Type} {r : Res σ} {f : σ → Res σ} (h : (r.andThen f).2 = none) :
    r.2 = none ∧ r.andThen f = f r.1 := by
  obtain ⟨s, e⟩ := r
  cases e with
  | none => exact ⟨rfl, rfl⟩
  | some e => cases h

theorem _root_.S2N.Spec.Writers.postHdr {k : Kind} {x : Obj} (h : Writers k x) (env : Env) (f : PostFn)
    (hok : (runPostHdr env f x).2 = none) : Writers k (runPostHdr env f x).1 := by
  cases f with
  | counterJ =>
    simp only [runPostHdr] at hok ⊢
    rw [(andThen_ok_inv hok).2]; exact h.counterXref (.inl rfl)
  | counterj =>
    simp only [runPostHdr] at hok ⊢
    rw [(andThen_ok_inv hok).2]; exact h.counterXref (.inr rfl)
  | positionerXref =>
    simp only [runPostHdr] at hok ⊢
    rw [(andThen_ok_inv hok).2]; exact h.positionerXref
  | uxml => exact h.uxml env hok
  | geometry => exact h
  | positions => exact h
  | scanData => exact h
  | unicat => exact h

theorem positionRow_nodup (row : Nat) (names vs : List Str) : ∀ (n : Nat) (s : Dict PyFloat × List Str),
    s.1.keys.Nodup → (positionRow row names n vs s).1.1.keys.Nodup := by
  induction vs with
  | nil => intro n s h; simpa [positionRow, Res.ok] using h
  | cons v vs ih =>
    intro n s h
    simp only [positionRow, Res.eval, Res.raise]
    (repeat' split) <;> first | exact h | exact ih _ _ h | exact ih _ (_, _) (Dict.nodup_keys_set _ _ _ h)

theorem positionRows_nodup (O : List (List Str)) (rows : List (List Str)) : ∀ (n : Nat) (s : Dict PyFloat × List Str),
    s.1.keys.Nodup → (positionRows O n rows s).1.1.keys.Nodup := by
  induction rows with
  | nil => intro n s h; simpa [positionRows, Res.ok] using h
  | cons r rows ih =>
    intro n s h
    simp only [positionRows]
    split
    · first | exact h | exact ih _ _ h
    · unfold Res.andThen
      split
      · exact ih _ _ (positionRow_nodup _ _ _ _ _ h)
      · exact positionRow_nodup _ _ _ _ _ h

theorem metaRow_nodup (labels vs : List Str) : ∀ (n : Nat) (d : Dict MVal),
    d.keys.Nodup → (metaRow labels n vs d).1.keys.Nodup := by
  induction vs with
  | nil => intro n s h; simpa [metaRow, Res.ok] using h
  | cons v vs ih =>
    intro n s h
    simp only [metaRow]
    split
    · exact h
    · exact ih _ _ (Dict.nodup_keys_set _ _ _ h)

theorem metaRows_nodup (H : List (List Str)) (rows : List (List Str)) : ∀ (n : Nat) (d : Dict MVal),
    d.keys.Nodup → (metaRows H n rows d).1.keys.Nodup := by
  induction rows with
  | nil => intro n s h; simpa [metaRows, Res.ok] using h
  | cons r rows ih =>
    intro n s h
    simp only [metaRows]
    split
    · exact h
    · unfold Res.andThen
      split
      · exact ih _ _ (metaRow_nodup _ _ _ _ h)
      · exact metaRow_nodup _ _ _ _ h

theorem _root_.S2N.Spec.Writers.postScan {c : ScanCtx} (h : Writers .scan c.scan) (env : Env) (f : PostFn)
    (hok : (runPost env f c).2 = none) : Writers .scan (runPost env f c).1.scan := by
  cases f with
  | counterJ => exact h.postHdr env .counterJ hok
  | counterj => exact h.postHdr env .counterj hok
  | positionerXref => exact h.postHdr env .positionerXref hok
  | uxml => exact h.uxml env hok
  | geometry =>
    simp only [runPost, postGeometry, Res.eval, Res.ok, Res.raise]
    (repeat' split) <;>
      first
      | exact h
      | exact h.same rfl rfl rfl rfl rfl rfl rfl rfl rfl rfl rfl rfl rfl rfl id
      | wput h .geometry
  | positions =>
    have hn := positionRows_nodup (c.hdr.O.getD []) (c.scan.P.getD []) 0 ([], c.scan.interpComments) (by simp [Dict.keys])
    revert hok
    simp only [runPost, postPositions, Res.ok, Res.raise]
    split
    · intro hok; cases hok
    · intro _
      split
      · refine Writers.put h .positioners rfl rfl rfl ?_ rfl (.inr rfl) (.inr rfl) rfl rfl rfl rfl (.inr (.inr rfl)) (.inr rfl)
          rfl rfl id rfl (.inr rfl) (.inl rfl) (.inr rfl) (.inr rfl) (.inr rfl) rfl rfl rfl (.inr rfl) ?_
        · rintro (e | e) <;> cases e
        · rintro ⟨k1, k2, k3, k4, k5, k6⟩
          exact ⟨k1, k2, k3, k4, hn, k6⟩
      · rename_i hl
        refine h.same rfl rfl rfl rfl rfl rfl rfl rfl rfl rfl rfl rfl rfl rfl ?_
        rintro ⟨k1, k2, k3, k4, k5, k6, k7, k8, k9, k10, k11, k12, k13, k14, k15, k16⟩
        refine ⟨k1, k2, fun hne => absurd ?_ hne, k4, k5, k6, k7, k8, k9, k10, k11, k12, k13, k14, hn, k16⟩
        exact List.eq_nil_of_length_eq_zero (by simpa using hl)
  | scanData =>
    simp only [runPost, onScan, postData, Res.eval, Res.ok, Res.raise]
    (repeat' split) <;>
      first
      | exact h
      | exact h.same rfl rfl rfl rfl rfl rfl rfl rfl rfl rfl rfl rfl rfl rfl id
      | wput h .scanData
  | unicat =>
    revert hok
    simp only [runPost, postUnicat, Res.ok, Res.raise]
    split
    · intro hok; cases hok
    · rename_i H hH
      have hn := metaRows_nodup H (c.scan.V.getD []) 0 [] (by simp [Dict.keys])
      split
      · intro hok; cases hok
      · intro _
        refine Writers.put h .metadata rfl rfl rfl ?_ rfl (.inr rfl) (.inr rfl) rfl rfl rfl rfl (.inr (.inr rfl)) (.inr rfl)
          rfl rfl id rfl (.inl rfl) (.inr rfl) (.inr rfl) (.inr rfl) (.inr rfl) rfl rfl rfl (.inr rfl) ?_
        · rintro (e | e) <;> cases e
        · rintro ⟨k1, k2, k3, k4, k5, k6⟩
          exact ⟨k1, k2, k3, hn, k5, k6⟩

/-! ### the writer of the date -/

omit [UniDB] in
theorem po_dateWriter (env : Env) (k : HKey) (text : Str) (x : Obj) :
    (procObj env k text x).1.h5.get? p!"#D" = x.h5.get? p!"#D" := by
  frame_obj_h5 k

omit [UniDB] in
theorem pp_dateWriter (env : Env) (f : PostFn) (c : ScanCtx) :
    (runPost env f c).1.scan.h5.get? p!"#D" = c.scan.h5.get? p!"#D" := by
  frame_post_h5 f

omit [UniDB] in
/-- a #D line of a scan registers the writer, and no line takes it away -/
theorem ps_dateWriter (env : Env) (k : HKey) (text : Str) (c : ScanCtx)
    (h : (c.scan.h5.get? p!"#D").isSome ∨ (k = .D ∧ (procScan env k text c).2 = none)) :
    ((procScan env k text c).1.scan.h5.get? p!"#D").isSome := by
  by_cases hD : k = .D
  · subst hD
    have hp : (procDate env text c.scan).1.h5.get? p!"#D" = c.scan.h5.get? p!"#D" := po_dateWriter env .D text c.scan
    have hadd : ∀ x : Obj, ((x.addH5 p!"#D" .date).h5.get? p!"#D").isSome := by
      intro x
      unfold Obj.addH5 Dict.setDefault
      simp only
      split
      · assumption
      · rw [Dict.get?_set_self]; rfl
    rcases h with h | ⟨_, h⟩
    · simp only [procScan, Res.andThen]
      split
      · rw [dateHdr_scan]; exact hadd _
      · show ((procDate env text c.scan).1.h5.get? p!"#D").isSome
        rw [hp]; exact h
    · simp only [procScan] at h ⊢
      rw [(andThen_ok_inv h).2, dateHdr_scan]
      exact hadd _
  · rcases h with h | h
    · have : (procScan env k text c).1.scan.h5.get? p!"#D" = c.scan.h5.get? p!"#D" :=
        procScan_lift (fun x => x.h5.get? p!"#D") env k text c (fun _ => po_dateWriter env k text c.scan)
          (fun e => absurd e hD) (fun _ _ _ _ => rfl)
      rw [this]; exact h
    · exact absurd h.1 hD

theorem lines_dateWriter (env : Env) (reg : List HKey) (hr : reg.Perm HKey.all) : ∀ (ls : List Str) (c : ScanCtx),
    (∀ l ∈ ls, '\n' ∉ l) → (c.scan.h5.get? p!"#D").isSome ∨ (∃ l ∈ ls, isKind .D l = true) →
    (forEach (scanLine env reg) ls c).2 = none → ((forEach (scanLine env reg) ls c).1.scan.h5.get? p!"#D").isSome
  | [], c, _, h, _ => by
    rcases h with h | ⟨l, hl, _⟩
    · exact h
    · simp at hl
  | a :: ls, c, hn, h, hok => by
    obtain ⟨a1, a2, a3⟩ := forEach_cons_ok hok
    rw [a2]
    refine lines_dateWriter env reg hr ls _ (fun l hl => hn l (by simp [hl])) ?_ a3
    rw [scanLine_eq] at a1 ⊢
    have key : (c.scan.h5.get? p!"#D").isSome ∨ isKind .D a = true →
        ((match effKey reg a with | none => Res.ok c | some k => procScan env k a c).1.scan.h5.get? p!"#D").isSome := by
      intro h
      cases he : effKey reg a with
      | none =>
        rcases h with h | h
        · exact h
        · rw [← effKey_iff reg hr a (hn a (by simp)) .D (by decide) (by decide), he] at h
          cases h
      | some k =>
        refine ps_dateWriter env k a c ?_
        rcases h with h | h
        · exact .inl h
        · rw [← effKey_iff reg hr a (hn a (by simp)) .D (by decide) (by decide), he] at h
          injection h with h
          refine .inr ⟨h, ?_⟩
          rw [he] at a1
          exact a1
    rcases h with h | ⟨l, hl, hk⟩
    · exact .inl (key (.inl h))
    · rcases List.mem_cons.1 hl with e | e
      · subst e; exact .inl (key (.inr hk))
      · exact .inr ⟨l, e, hk⟩

/-- interpretation -/
theorem interp_writers {env : Env} {reg : List HKey} (hr : reg.Perm HKey.all) (c : ScanCtx) (h : Writers .scan c.scan)
    (hok : (interpretScan env reg c).2 = none) : Writers .scan (interpretScan env reg c).1.scan := by
  by_cases hi : c.scan.interpreted = true
  · rw [show interpretScan env reg c = (c, none) from by unfold interpretScan; rw [if_pos hi]; rfl]
    exact h
  rw [Bool.not_eq_true] at hi
  obtain ⟨c1, c2, e1, e2, e3⟩ := interpret_ok env reg c hi hok
  have h1 : Writers .scan c1.scan := by
    have : Writers .scan (forEach (scanLine env reg) (scanLines c.scan.raw) { c with scan := { c.scan with lazy := false } }).1.scan := by
      refine forEach_invariant (scanLine env reg) (fun c : ScanCtx => Writers .scan c.scan) ?_ _ _
        (h.same rfl rfl rfl rfl rfl rfl rfl rfl rfl rfl rfl rfl rfl rfl id)
      intro a s hs
      rw [scanLine_eq]
      cases effKey reg a with
      | none => exact hs
      | some k => exact hs.procScan env k a
    rw [e1] at this; exact this
  have h2 : ∀ (fs : List PostFn) (c : ScanCtx), Writers .scan c.scan → (forEach (runPost env) fs c).2 = none →
      Writers .scan (forEach (runPost env) fs c).1.scan ∧
      (forEach (runPost env) fs c).1.scan.h5.get? p!"#D" = c.scan.h5.get? p!"#D" := by
    intro fs
    induction fs with
    | nil => intro c h _; exact ⟨h, rfl⟩
    | cons f fs ih =>
      intro c h hok
      obtain ⟨a1, a2, a3⟩ := forEach_cons_ok hok
      rw [a2]
      obtain ⟨b1, b2⟩ := ih _ (h.postScan env f a1) a3
      exact ⟨b1, b2.trans (pp_dateWriter env f c)⟩
  obtain ⟨h3, h4⟩ := h2 c1.scan.post.values c1 h1 (by rw [e2])
  rw [e2] at h3 h4
  have hid := congrArg (fun p => p.1.raw) (interpretScan_ident env reg c)
  rw [e3] at hid ⊢
  refine ⟨h3.kind, h3.keys, h3.label, h3.comments, h3.date, h3.hkl, h3.monitor, h3.countTime, h3.userResults, h3.userReserved,
    h3.unrec, h3.md, h3.counters, h3.positioners, ?_, h3.dicts, h3.more⟩
  intro _ hD
  rw [show (scanLines ({ c2.scan with interpreted := true } : Obj).raw) = scanLines c.scan.raw from congrArg scanLines hid] at hD
  have h5 := lines_dateWriter env reg hr (scanLines c.scan.raw) { c with scan := { c.scan with lazy := false } }
    (scanLines_no_nl _) (.inr hD) (by rw [e1])
  rw [e1] at h5
  rw [← h4] at h5
  obtain ⟨f, hf⟩ := Option.isSome_iff_exists.1 h5
  have hm := Dict.mem_of_get? hf
  have hfl := h3.label _ hm
  have : H5Fn.date = f := labelOf_inj (f := f) (by rw [← hfl]; rfl) (by rintro rfl; exact absurd hfl (by decide)) (by rintro rfl; exact absurd hfl (by decide))
  exact mem_values_iff.2 ⟨_, this ▸ hm⟩

end
end S2N
