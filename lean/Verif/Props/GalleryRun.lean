import Verif.Props.Gallery
import Verif.Props.Read
import Mathlib.Data.List.Forall2
/-
Properties C51, C71, C72, C73: the plots of a file
-/
namespace S2N.Props
open S2N Py Spec Gallery Plot

/-! ### Paths -/

/-- the directory, ready to be followed by a name -/
def sepd (a : Str) : Str := if a = [] ∨ endsWith a ['/'] = true then a else a ++ ['/']

theorem pathJoin_sepd (a b : Str) (hb : b.head? ≠ some '/') : pathJoin a b = sepd a ++ b := by
  unfold pathJoin sepd
  rw [if_neg]
  · split <;> simp
  · intro h
    unfold startsWith at h
    obtain ⟨t, rfl⟩ := List.isPrefixOf_iff_prefix.1 h
    simp at hb

theorem sepd_prefix (a : Str) : ∃ t, sepd a = a ++ t := by
  unfold sepd
  split
  · exact ⟨[], by simp⟩
  · exact ⟨['/'], rfl⟩

theorem head_of_not_mem {c : Char} {x : Str} (h : c ∉ x) : x.head? ≠ some c := fun e => h (List.mem_of_head? e)

theorem join_inj {a x y : Str} (hx : '/' ∉ x) (hy : '/' ∉ y) (h : pathJoin a x = pathJoin a y) : x = y := by
  rw [pathJoin_sepd _ _ (head_of_not_mem hx), pathJoin_sepd _ _ (head_of_not_mem hy)] at h
  exact List.append_cancel_left h

/-- a path of something in the directory -/
def Inside (path p : Str) : Prop := ∃ x, '/' ∉ x ∧ p = pathJoin path x

theorem baseName_slash (p : Str) : '/' ∉ baseName p := by
  unfold baseName nameStart
  by_cases h : '/' ∈ p
  · obtain ⟨a, b, hb, e⟩ : ∃ a b, '/' ∉ b ∧ p = a ++ '/' :: b := by
      obtain ⟨a, b, e, hn⟩ := mem_split_first '/' p.reverse (by simpa using h)
      refine ⟨b.reverse, a.reverse, by simpa using hn, ?_⟩
      have := congrArg List.reverse e
      simpa using this
    rw [e, rfindC_last _ _ _ hb]
    rw [show a ++ '/' :: b = (a ++ ['/']) ++ b by simp]
    simp only
    rw [List.drop_left' (by simp)]
    exact hb
  · rw [rfindC_none h]
    simpa using h

theorem root_slash (p : Str) : '/' ∉ (splitext (baseName p)).1 := by
  intro h
  apply baseName_slash p
  rw [← splitext_join (baseName p)]
  exact List.mem_append_left _ h

theorem digit_ne (n : Nat) : (Char.ofNat (48 + n / 10 % 10)) ≠ '/' ∧ (Char.ofNat (48 + n / 10 % 10)) ≠ 'm' := by
  have : n / 10 % 10 < 10 := Nat.mod_lt _ (by omega)
  generalize n / 10 % 10 = k at this
  revert k
  decide

/-- a gallery directory starts with a year below the base directory -/
theorem getPlotDir_form {base fname path : Str} {f : FNode} (h : getPlotDir base fname f = .ok (some path)) :
    ∃ c t, c ≠ 'm' ∧ path = sepd base ++ c :: t := by
  unfold getPlotDir at h
  split at h
  · simp at h
  · simp at h
  · next date _ =>
    split at h
    · simp at h
    · next d hd =>
      unfold datePath at hd
      cases ht : Sdf.strptime date with
      | error e => rw [ht] at hd; simp [Except.map] at hd
      | ok tm =>
        rw [ht] at hd
        simp only [Except.map, Except.ok.injEq] at hd
        obtain ⟨t, ht⟩ := sepd_prefix (four tm.year)
        have hh : (four tm.year).head? = some (Char.ofNat (48 + tm.year / 100 / 10 % 10)) := rfl
        have hm : (two tm.mon).head? ≠ some '/' := by
          intro e
          simp only [two, List.head?_cons, Option.some.injEq] at e
          exact (digit_ne tm.mon).1 e
        rw [pathJoin_sepd _ _ hm, ht] at hd
        have hdh : d.head? ≠ some '/' := by
          rw [← hd]
          intro e
          simp only [four, two, List.cons_append, List.head?_cons, Option.some.injEq] at e
          exact (digit_ne (tm.year / 100)).1 e
        rw [pathJoin_sepd base d hdh] at h
        obtain ⟨t2, ht2⟩ := sepd_prefix (sepd base ++ d)
        rw [pathJoin_sepd _ _ (head_of_not_mem (root_slash fname)), ht2, ← hd] at h
        simp only [Except.ok.injEq, Option.some.injEq] at h
        obtain ⟨u, hu⟩ : ∃ u, four tm.year = Char.ofNat (48 + tm.year / 100 / 10 % 10) :: u := ⟨_, rfl⟩
        rw [hu] at h
        simp only [List.append_assoc, List.cons_append] at h
        exact ⟨_, _, (digit_ne (tm.year / 100)).2, h.symm⟩

theorem cachePath_eq (cfg : Cfg) : cachePath cfg = sepd cfg.plotDir ++ cacheName :=
  pathJoin_sepd _ _ (by decide)

theorem path_ne_cache {cfg : Cfg} {fname path : Str} {f : FNode} (h : getPlotDir cfg.plotDir fname f = .ok (some path)) :
    path ≠ cachePath cfg := by
  obtain ⟨c, t, hc, e⟩ := getPlotDir_form h
  rw [e, cachePath_eq]
  intro e'
  have := List.append_cancel_left e'
  simp only [cacheName, List.cons.injEq] at this
  exact hc this.1

theorem inside_ne_cache {cfg : Cfg} {fname path p : Str} {f : FNode} (h : getPlotDir cfg.plotDir fname f = .ok (some path))
    (hp : Inside path p) : p ≠ cachePath cfg := by
  obtain ⟨c, t, hc, e⟩ := getPlotDir_form h
  obtain ⟨x, hx, rfl⟩ := hp
  obtain ⟨t2, ht2⟩ := sepd_prefix path
  rw [pathJoin_sepd _ _ (head_of_not_mem hx), ht2, e, cachePath_eq]
  intro e'
  simp only [List.append_assoc, List.cons_append] at e'
  have := List.append_cancel_left e'
  simp only [cacheName, List.cons.injEq] at this
  exact hc this.1

/-! ### What can change -/

/-- from `s` to `s'` only things under these paths were changed, in every state between -/
def Steps (P : Str → Prop) (s s' : GS) : Prop :=
  ∃ new, s'.past = s.past ++ new ∧ s'.disk = new.getLast?.getD s.disk ∧
    ∀ d ∈ new, ∀ p, ¬ P p → d.get? p = s.disk.get? p

namespace Steps
variable {P : Str → Prop} {s s' s'' : GS}

theorem rfl' : Steps P s s := ⟨[], by simp, rfl, by simp⟩

theorem disk (h : Steps P s s') : ∀ p, ¬ P p → s'.disk.get? p = s.disk.get? p := by
  obtain ⟨new, h1, h2, h3⟩ := h
  intro p hp
  cases hl : new.getLast? with
  | none => rw [h2, hl]; rfl
  | some d => rw [h2, hl]; exact h3 d (List.mem_of_getLast? hl) p hp

theorem trans (h : Steps P s s') (h' : Steps P s' s'') : Steps P s s'' := by
  have hd := h.disk
  obtain ⟨n1, h1, h2, h3⟩ := h
  obtain ⟨n2, k1, k2, k3⟩ := h'
  refine ⟨n1 ++ n2, by rw [k1, h1, List.append_assoc], ?_, ?_⟩
  · rw [k2, h2, List.getLast?_append]
    cases n2.getLast? <;> rfl
  · intro d hd' p hp
    rcases List.mem_append.1 hd' with h | h
    · exact h3 d h p hp
    · rw [k3 d h p hp, hd p hp]

theorem mono {Q : Str → Prop} (h : Steps P s s') (hq : ∀ p, P p → Q p) : Steps Q s s' := by
  obtain ⟨new, h1, h2, h3⟩ := h
  exact ⟨new, h1, h2, fun d hd p hp => h3 d hd p (fun h => hp (hq p h))⟩

theorem step (d : Disk) (h : ∀ p, ¬ P p → d.get? p = s.disk.get? p) : Steps P s (s.to d) :=
  ⟨[d], rfl, rfl, by simpa using h⟩

theorem write (path : Str) (a b : GNode) (h : P path) : Steps P s (s.write path a b) := by
  have ne : ∀ p, ¬ P p → path ≠ p := fun p hp e => hp (e ▸ h)
  refine (step _ (fun p hp => Dict.get?_set_ne _ _ (ne p hp))).trans (step _ (fun p hp => ?_))
  exact Dict.get?_set_ne _ _ (ne p hp)

theorem remove (path : Str) (h : P path) : Steps P s (s.remove path)   :=
  step _ (fun p hp => Dict.get?_del_ne _ (fun e => hp (e ▸ h)))

/-- the selector does not matter -/
theorem sel {x : Selector} (h : Steps P s s') : Steps P s { s' with sel := x } := h

end Steps

theorem mem_listdir {d : Disk} {path k : Str} :
    k ∈ listdir d path ↔ k ≠ [] ∧ '/' ∉ k ∧ (d.get? (pathJoin path k)).isSome = true := by
  have hpre : pathJoin path [] = sepd path := by rw [pathJoin_sepd _ _ (by simp)]; simp
  unfold listdir
  rw [List.mem_filterMap, hpre]
  constructor
  · rintro ⟨q, hq, hn⟩
    unfold nameIn at hn
    split at hn
    · next hc =>
      cases hn
      refine ⟨hc.2.2, hc.2.1, ?_⟩
      rw [pathJoin_sepd _ _ (head_of_not_mem hc.2.1)]
      obtain ⟨t, rfl⟩ := List.isPrefixOf_iff_prefix.1 hc.1
      rw [List.drop_left]
      exact (Dict.has_iff_mem d _).2 hq
    · cases hn
  · rintro ⟨h1, h2, h3⟩
    refine ⟨_, (Dict.has_iff_mem d _).1 h3, ?_⟩
    rw [pathJoin_sepd _ _ (head_of_not_mem h2)]
    unfold nameIn
    rw [List.drop_left, if_pos ⟨by simp [startsWith], h2, h1⟩]

theorem listdir_slash {d : Disk} {path k : Str} (h : k ∈ listdir d path) : '/' ∉ k := (mem_listdir.1 h).2.1

theorem plotList_slash {d : Disk} {path k : Str} (h : k ∈ plotList d path) : '/' ∉ k := by
  unfold plotList at h
  exact listdir_slash ((sortBy_perm _ _).mem_iff.1 (List.mem_filter.1 h).1)

theorem removeStale_steps (cfg : Cfg) (fname path : Str) (old new : Int × Int) (s : GS) :
    Steps (Inside path) s (removeStale cfg fname path old new s).1 := by
  have hl : ∀ k ∈ plotList s.disk path, Inside path (pathJoin path k) := fun k hk => ⟨k, plotList_slash hk, rfl⟩
  unfold removeStale
  simp only
  split
  · split
    · split
      · exact .rfl'
      · exact .rfl'
      · split
        · exact .rfl'
        · next k hk => exact .remove _ (hl k (List.mem_of_getLast? hk))
    · simp only
      generalize plotList s.disk path = l at hl
      clear * - hl
      induction l generalizing s with
      | nil => exact .rfl'
      | cons k l ih =>
        simp only [List.foldl_cons]
        exact (Steps.remove _ (hl k List.mem_cons_self)).trans (ih _ (fun k hk => hl k (List.mem_cons_of_mem _ hk)))
  · exact .rfl'

/-! ### Which plots remain -/

theorem strLe_total : ∀ a b : Str, strLe a b = true ∨ strLe b a = true
  | [], _ => .inl (by simp [strLe])
  | _ :: _, [] => .inr (by simp [strLe])
  | a :: as, b :: bs => by
    simp only [strLe]
    by_cases h1 : a.toNat < b.toNat
    · left; simp [h1]
    · by_cases h2 : b.toNat < a.toNat
      · right; simp [h2]
      · simp only [h1, h2, if_false]; exact strLe_total as bs

theorem strLe_trans : ∀ a b c : Str, strLe a b = true → strLe b c = true → strLe a c = true
  | [], _, _, _, _ => by simp [strLe]
  | _ :: _, [], _, h, _ => by simp [strLe] at h
  | _ :: _, _ :: _, [], _, h => by simp [strLe] at h
  | a :: as, b :: bs, c :: cs, h1, h2 => by
    simp only [strLe] at h1 h2 ⊢
    have ih := strLe_trans as bs cs
    split at h1 <;> split at h2 <;> (try split at h1) <;> (try split at h2) <;>
      split <;> (try split) <;> first | omega | rfl | exact absurd h1 (by decide) | exact absurd h2 (by decide) | exact ih h1 h2

theorem strLe_antisymm : ∀ a b : Str, strLe a b = true → strLe b a = true → a = b
  | [], [], _, _ => rfl
  | [], _ :: _, _, h => by simp [strLe] at h
  | _ :: _, [], h, _ => by simp [strLe] at h
  | a :: as, b :: bs, h1, h2 => by
    simp only [strLe] at h1 h2
    by_cases k1 : a.toNat < b.toNat
    · have : ¬ b.toNat < a.toNat := by omega
      simp [k1, this] at h2
    · by_cases k2 : b.toNat < a.toNat
      · simp [k1, k2] at h1
      · simp only [k1, k2, if_false] at h1 h2
        have : a = b := by
          have e : a.toNat = b.toNat := by omega
          exact Char.toNat_inj.1 e
        rw [this, strLe_antisymm as bs h1 h2]

theorem mem_plotList {d : Disk} {path k : Str} : k ∈ plotList d path ↔ IsPlotFile d path k := by
  unfold plotList IsPlotFile
  rw [List.mem_filter, (sortBy_perm _ _).mem_iff, mem_listdir]
  unfold endsWith
  rw [List.isSuffixOf_iff_suffix, ← Option.isSome_iff_ne_none]
  constructor
  · rintro ⟨⟨-, h2, h3⟩, ⟨t, h4⟩⟩
    exact ⟨h2, ⟨t, h4.symm⟩, h3⟩
  · rintro ⟨h2, ⟨t, h4⟩, h3⟩
    refine ⟨⟨?_, h2, h3⟩, ⟨t, h4.symm⟩⟩
    rw [h4]; simp

theorem plotList_sorted (d : Disk) (path : Str) : (plotList d path).Pairwise (fun a b => strLe a b = true) :=
  (sortBy_sorted strLe strLe_total strLe_trans _).filter _

theorem listdir_nodup {d : Disk} (path : Str) (h : d.keys.Nodup) : (listdir d path).Nodup := by
  unfold listdir
  refine List.Nodup.filterMap ?_ h
  intro a b c ha hb
  unfold nameIn at ha hb
  split at ha
  · next h1 =>
    split at hb
    · next h2 =>
      simp only [Option.mem_def, Option.some.injEq] at ha hb
      obtain ⟨t1, rfl⟩ := List.isPrefixOf_iff_prefix.1 h1.1
      obtain ⟨t2, rfl⟩ := List.isPrefixOf_iff_prefix.1 h2.1
      rw [List.drop_left] at ha hb
      rw [ha, hb]
    · simp at hb
  · simp at ha

theorem plotList_nodup {d : Disk} (path : Str) (h : d.keys.Nodup) : (plotList d path).Nodup :=
  ((sortBy_perm _ _).nodup_iff.2 (listdir_nodup path h)).filter _

theorem continues_iff (content : Str) (size : Int) :
    ∃ b, continues (.file (some content)) size = .ok b ∧
      (b = false ↔ NewScanNext (universalNewlines content) size.toNat) := by
  refine ⟨_, rfl, ?_⟩
  generalize (universalNewlines content).drop size.toNat = t at *
  unfold NewScanNext
  simp only [Bool.not_eq_false', startsWith, List.isPrefixOf_iff_prefix]
  constructor
  · rintro ⟨r, hr⟩
    refine ⟨(List.drop size.toNat (universalNewlines content)).takeWhile isSpace, r, ?_, ?_⟩
    · intro c hc; exact List.all_eq_true.1 List.all_takeWhile c hc
    · rw [List.append_assoc, hr]
      exact (List.takeWhile_append_dropWhile).symm
  · rintro ⟨sp, r, hs, e⟩
    refine ⟨r, ?_⟩
    unfold lstrip
    rw [e, List.append_assoc, List.dropWhile_append_of_pos hs]
    rfl

theorem removeAll_spec (path : Str) : ∀ (l : List Str) (s : GS), s.disk.keys.Nodup → (∀ k ∈ l, '/' ∉ k) →
    (l.foldl (fun s k => s.remove (pathJoin path k)) s).sel = s.sel ∧
    (l.foldl (fun s k => s.remove (pathJoin path k)) s).disk.keys.Nodup ∧
    (∀ k ∈ l, (l.foldl (fun s k => s.remove (pathJoin path k)) s).disk.get? (pathJoin path k) = none) ∧
    (∀ p, (¬ ∃ k ∈ l, p = pathJoin path k) →
      (l.foldl (fun s k => s.remove (pathJoin path k)) s).disk.get? p = s.disk.get? p)
  | [], s, h, _ => ⟨rfl, h, by simp, by simp⟩
  | k :: l, s, h, hl => by
    simp only [List.foldl_cons]
    have hk := hl k List.mem_cons_self
    have hd : (s.remove (pathJoin path k)).disk.keys.Nodup := Dict.nodup_keys_del _ _ h
    obtain ⟨h1, h2, h3, h4⟩ := removeAll_spec path l (s.remove (pathJoin path k)) hd
      (fun k hk => hl k (List.mem_cons_of_mem _ hk))
    refine ⟨h1, h2, ?_, ?_⟩
    · intro j hj
      rcases List.mem_cons.1 hj with rfl | hj
      · by_cases hin : j ∈ l
        · exact h3 j hin
        · rw [h4]
          · have := Dict.has_del_self s.disk (pathJoin path j) h
            show (s.disk.del _).get? _ = none
            simpa [Dict.has] using this
          · rintro ⟨i, hi, e⟩
            exact hin (join_inj hk (hl i (List.mem_cons_of_mem _ hi)) e ▸ hi)
      · exact h3 j hj
    · intro p hp
      rw [h4 p (fun ⟨i, hi, e⟩ => hp ⟨i, List.mem_cons_of_mem _ hi, e⟩)]
      exact Dict.get?_del_ne _ (fun e => hp ⟨k, List.mem_cons_self, e⟩)

theorem removeStale_spec (cfg : Cfg) (fname path content : Str) (old new : Int × Int) (s : GS)
    (hd : s.disk.keys.Nodup) (hc : (cfg.files fname).node = .file (some content)) :
    ∃ kept s', removeStale cfg fname path old new s = (s', .ok kept) ∧ s'.sel = s.sel ∧ s'.disk.keys.Nodup ∧
      (∀ k, k ∈ kept ↔ IsPlotFile s.disk path k ∧
        ¬ Outdated s.disk path (universalNewlines content) old.2 new.2 k) ∧
      (∀ k, IsPlotFile s.disk path k → Outdated s.disk path (universalNewlines content) old.2 new.2 k →
        s'.disk.get? (pathJoin path k) = none) ∧
      (∀ p, (¬ ∃ k, IsPlotFile s.disk path k ∧ Outdated s.disk path (universalNewlines content) old.2 new.2 k ∧
        p = pathJoin path k) → s'.disk.get? p = s.disk.get? p) := by
  have hm : ∀ k, k ∈ plotList s.disk path ↔ IsPlotFile s.disk path k := fun k => mem_plotList
  have hnd := plotList_nodup path hd
  have hsd := plotList_sorted s.disk path
  -- nothing is removed
  have none_ : (∀ k, IsPlotFile s.disk path k → ¬ Outdated s.disk path (universalNewlines content) old.2 new.2 k) →
      removeStale cfg fname path old new s = (s, .ok (plotList s.disk path)) →
      ∃ kept s', removeStale cfg fname path old new s = (s', .ok kept) ∧ s'.sel = s.sel ∧ s'.disk.keys.Nodup ∧
      (∀ k, k ∈ kept ↔ IsPlotFile s.disk path k ∧
        ¬ Outdated s.disk path (universalNewlines content) old.2 new.2 k) ∧
      (∀ k, IsPlotFile s.disk path k → Outdated s.disk path (universalNewlines content) old.2 new.2 k →
        s'.disk.get? (pathJoin path k) = none) ∧
      (∀ p, (¬ ∃ k, IsPlotFile s.disk path k ∧ Outdated s.disk path (universalNewlines content) old.2 new.2 k ∧
        p = pathJoin path k) → s'.disk.get? p = s.disk.get? p) := by
    intro h e
    refine ⟨_, s, e, rfl, hd, ?_, ?_, fun _ _ => rfl⟩
    · intro k; rw [hm]; exact ⟨fun hk => ⟨hk, h k hk⟩, fun hk => hk.1⟩
    · intro k hk ho; exact absurd ho (h k hk)
  by_cases h1 : 0 < (plotList s.disk path).length ∧ 0 < new.2 ∧ new.2 ≠ old.2
  · by_cases h2 : old.2 < new.2
    · obtain ⟨b, hb, hbi⟩ := continues_iff content old.2
      cases b with
      | false =>
        apply none_
        · rintro k - ⟨-, h | ⟨-, hn, -⟩⟩
          · omega
          · exact hn (hbi.1 rfl)
        · unfold removeStale; simp only [if_pos h1, if_pos h2, hc, hb]
      | true =>
        have hns : ¬ NewScanNext (universalNewlines content) old.2.toNat := fun h => by simpa using hbi.2 h
        obtain ⟨k, hk⟩ : ∃ k, (plotList s.disk path).getLast? = some k := by
          cases hl : (plotList s.disk path).getLast? with
          | none => rw [List.getLast?_eq_none_iff] at hl; rw [hl] at h1; simp at h1
          | some k => exact ⟨k, rfl⟩
        obtain ⟨pre, hpre⟩ := List.getLast?_eq_some_iff.1 hk
        have e : removeStale cfg fname path old new s =
            (s.remove (pathJoin path k), .ok (plotList s.disk path).dropLast) := by
          unfold removeStale; simp only [if_pos h1, if_pos h2, hc, hb, hk]
        rw [hpre] at hnd hsd
        have hkm : IsPlotFile s.disk path k := (hm k).1 (List.mem_of_getLast? hk)
        have hout : ∀ j, IsPlotFile s.disk path j →
            (Outdated s.disk path (universalNewlines content) old.2 new.2 j ↔ j = k) := by
          intro j hj
          constructor
          · rintro ⟨-, h | ⟨-, -, h⟩⟩
            · omega
            · have hjm := (hm j).2 hj
              rw [hpre] at hjm
              rcases List.mem_append.1 hjm with hj' | hj'
              · exact strLe_antisymm j k ((List.pairwise_append.1 hsd).2.2 j hj' k (by simp)) (h k hkm)
              · simpa using hj'
          · rintro rfl
            refine ⟨h1.2.1, .inr ⟨h2, hns, ?_⟩⟩
            intro o ho
            have hom := (hm o).2 ho
            rw [hpre] at hom
            rcases List.mem_append.1 hom with ho' | ho'
            · exact (List.pairwise_append.1 hsd).2.2 o ho' j (by simp)
            · rcases strLe_total o o with h | h <;> (simp at ho'; subst ho'; exact h)
        refine ⟨_, _, e, rfl, Dict.nodup_keys_del _ _ hd, ?_, ?_, ?_⟩
        · intro j
          rw [hpre, List.dropLast_concat]
          constructor
          · intro hj
            have hjp : IsPlotFile s.disk path j := (hm j).1 (by rw [hpre]; exact List.mem_append_left _ hj)
            refine ⟨hjp, fun ho => ?_⟩
            have := (hout j hjp).1 ho
            subst this
            exact (List.nodup_append.1 hnd).2.2 j hj j (by simp) rfl
          · rintro ⟨hj, ho⟩
            have hjm := (hm j).2 hj
            rw [hpre] at hjm
            rcases List.mem_append.1 hjm with hj' | hj'
            · exact hj'
            · exact absurd ((hout j hj).2 (by simpa using hj')) ho
        · intro j hj ho
          rw [(hout j hj).1 ho]
          have := Dict.has_del_self s.disk (pathJoin path k) hd
          show (s.disk.del _).get? _ = none
          simpa [Dict.has] using this
        · intro p hp
          exact Dict.get?_del_ne _ (fun e => hp ⟨k, hkm, (hout k hkm).2 rfl, e⟩)
    · have hlt : new.2 < old.2 := by omega
      have e : removeStale cfg fname path old new s =
          ((plotList s.disk path).foldl (fun s k => s.remove (pathJoin path k)) s, .ok []) := by
        unfold removeStale; simp only [if_pos h1, if_neg h2]
      obtain ⟨r1, r2, r3, r4⟩ := removeAll_spec path (plotList s.disk path) s hd (fun k hk => plotList_slash hk)
      refine ⟨_, _, e, r1, r2, ?_, ?_, ?_⟩
      · intro k
        simp only [List.not_mem_nil, false_iff, not_and]
        exact fun _ hn => hn ⟨h1.2.1, .inl hlt⟩
      · intro k hk _; exact r3 k ((hm k).2 hk)
      · intro p hp
        exact r4 p (fun ⟨k, hk, e⟩ => hp ⟨k, (hm k).1 hk, ⟨h1.2.1, .inl hlt⟩, e⟩)
  · apply none_
    · rintro k hk ⟨h0, h⟩
      apply h1
      refine ⟨List.length_pos_of_mem ((hm k).2 hk), h0, ?_⟩
      rcases h with h | ⟨h, -⟩ <;> omega
    · unfold removeStale; simp only [if_neg h1]

/-! ### The loop over the scans -/

section
variable [UniDB] (env : Env) (reg : List HKey) (cfg : Cfg)

theorem makePlot_spec (w : Want) (s : Loop) (x : Obj) (hx : s.sdf.scans.get? w.key = some x)
    (hn : s.gs.disk.get? w.full = none) :
    ∃ s', makePlot env reg cfg w s =
        (s', match attempt env reg cfg s.sdf.fileName s.gs.sel ⟨x, s.sdf.headerOf x⟩ with
          | .error e => some e
          | .ok _ => none) ∧
      s'.gs.sel = (Selector.auto (some x) s.gs.sel).1 ∧ s'.sdf.fileName = s.sdf.fileName ∧
      (∀ k, k ≠ w.key → s'.sdf.scans.get? k = s.sdf.scans.get? k) ∧
      s'.remake = s.remake ∧ s'.problems = s.problems ∧
      (∀ p, p ≠ w.full → s'.gs.disk.get? p = s.gs.disk.get? p) ∧
      s'.gs.disk.get? w.full =
        (match attempt env reg cfg s.sdf.fileName s.gs.sel ⟨x, s.sdf.headerOf x⟩ with
          | .ok (some pic) => some (.plot (some pic) cfg.now)
          | _ => none) ∧
      s'.sdf.scans.get? w.key = some (attempted env reg cfg s.sdf.fileName s.gs.sel ⟨x, s.sdf.headerOf x⟩) := by
  unfold makePlot attempt attempted
  simp only [hx, hn, Option.map_none]
  cases ha : (Selector.auto (some x) s.gs.sel).2 with
  | error e => exact ⟨_, rfl, rfl, rfl, fun _ _ => rfl, rfl, rfl, fun _ _ => rfl, hn, hx⟩
  | ok m =>
    simp only
    cases hr : (plotScan env reg m {} s.sdf.fileName (some (cfg.files s.sdf.fileName).mtime) none
        ⟨x, s.sdf.headerOf x⟩).2 with
    | error e => exact ⟨_, rfl, rfl, rfl, fun k hk => Dict.get?_set_ne _ _ (Ne.symm hk), rfl, rfl, fun _ _ => rfl, hn, Dict.get?_set_self _ _ _⟩
    | ok o =>
      cases o with
      | none => exact ⟨_, rfl, rfl, rfl, fun k hk => Dict.get?_set_ne _ _ (Ne.symm hk), rfl, rfl, fun _ _ => rfl, hn, Dict.get?_set_self _ _ _⟩
      | some pic =>
        simp only
        cases hd : cfg.draw pic with
        | error e => exact ⟨_, rfl, rfl, rfl, fun k hk => Dict.get?_set_ne _ _ (Ne.symm hk), rfl, rfl, fun _ _ => rfl, hn, Dict.get?_set_self _ _ _⟩
        | ok u =>
          refine ⟨_, rfl, rfl, rfl, fun k hk => Dict.get?_set_ne _ _ (Ne.symm hk), rfl, rfl, ?_, ?_,
            Dict.get?_set_self _ _ _⟩
          · intro p hp
            simp only [GS.write, GS.to]
            rw [Dict.get?_set_ne _ _ (Ne.symm hp), Dict.get?_set_ne _ _ (Ne.symm hp)]
          · simp only [GS.write, GS.to]
            rw [Dict.get?_set_self]

/-- the outcome, and the scan afterwards, fit to the scan -/
def Came (fname : Str) (existing : List Str) (sel : Selector) (scans : Dict Obj) (w : Want) (o : Out)
    (y : Option Obj) : Prop :=
  ∃ x, scans.get? w.key = some x ∧
    ((w.base ∈ existing ∧ o = none ∧ y = some x) ∨
    (w.base ∉ existing ∧ ∃ xs hdr, o = some (attempt env reg cfg fname (asked sel xs) ⟨x, hdr⟩) ∧
      y = some (attempted env reg cfg fname (asked sel xs) ⟨x, hdr⟩)))

theorem loop_spec (fname : Str) (existing : List Str) (sel : Selector) (scans : Dict Obj) (ws : List Want) : ∀ (l : Loop),
    l.sdf.fileName = fname → (∃ xs, l.gs.sel = asked sel xs) →
    (ws.map Want.key).Nodup → (ws.map Want.full).Nodup →
    (∀ w ∈ ws, l.sdf.scans.get? w.key = scans.get? w.key ∧ (scans.get? w.key).isSome = true) →
    (∀ w ∈ ws, w.base ∉ existing → l.gs.disk.get? w.full = none) →
    ∃ outs : List Out, List.Forall₂ (fun w o => Came env reg cfg fname existing sel scans w o
          ((ws.foldl (plotOne env reg cfg existing) l).sdf.scans.get? w.key) ∧
        (ws.foldl (plotOne env reg cfg existing) l).gs.disk.get? w.full = Out.file cfg.now (l.gs.disk.get? w.full) o) ws outs ∧
      (ws.foldl (plotOne env reg cfg existing) l).problems = l.problems ++
        (ws.zip outs).filterMap (fun p => (Out.error p.2).map fun e => (e, p.1.key)) ∧
      (ws.foldl (plotOne env reg cfg existing) l).remake = (l.remake || outs.any Out.fine) ∧
      (∀ p, p ∉ ws.map Want.full → (ws.foldl (plotOne env reg cfg existing) l).gs.disk.get? p = l.gs.disk.get? p) ∧
      (∀ k, k ∉ ws.map Want.key → (ws.foldl (plotOne env reg cfg existing) l).sdf.scans.get? k = l.sdf.scans.get? k) := by
  induction ws with
  | nil => intro l _ _ _ _ _ _; exact ⟨[], .nil, by simp, by simp, by simp, by simp⟩
  | cons w ws ih =>
    intro l hfn hsel hk hf hs hn
    simp only [List.map_cons, List.nodup_cons] at hk hf
    simp only [List.foldl_cons]
    by_cases hb : w.base ∈ existing
    · have e : plotOne env reg cfg existing l w = l := by unfold plotOne; rw [if_pos hb]
      rw [e]
      obtain ⟨outs, h1, h2, h3, h4, h5⟩ := ih l hfn hsel hk.2 hf.2 (fun v hv => hs v (List.mem_cons_of_mem _ hv))
        (fun v hv => hn v (List.mem_cons_of_mem _ hv))
      obtain ⟨hx1, hx2⟩ := hs w List.mem_cons_self
      obtain ⟨x, hx⟩ := Option.isSome_iff_exists.1 hx2
      refine ⟨none :: outs, .cons ⟨⟨x, hx, .inl ⟨hb, rfl, by rw [h5 _ hk.1, hx1, hx]⟩⟩, h4 _ hf.1⟩ h1, ?_, ?_, ?_, ?_⟩
      · rw [h2]; simp [Out.error]
      · rw [h3]; simp [Out.fine]
      · intro p hp; exact h4 p (fun h => hp (List.mem_cons_of_mem _ h))
      · intro p hp; exact h5 p (fun h => hp (List.mem_cons_of_mem _ h))
    · obtain ⟨hx1, hx2⟩ := hs w List.mem_cons_self
      obtain ⟨x, hx⟩ := Option.isSome_iff_exists.1 hx2
      rw [hx] at hx1
      obtain ⟨xs, hxs⟩ := hsel
      obtain ⟨s', e1, e2, e3, e4, e5, e6, e7, e8, e9⟩ := makePlot_spec env reg cfg w l x hx1 (hn w List.mem_cons_self hb)
      rw [hfn, hxs] at e1 e8 e9
      generalize hat : attempt env reg cfg fname (asked sel xs) ⟨x, l.sdf.headerOf x⟩ = r at e1 e8
      have key : ∃ l', plotOne env reg cfg existing l w = l' ∧ l'.gs = s'.gs ∧ l'.sdf = s'.sdf ∧
          l'.remake = (l.remake || Out.fine (some r)) ∧
          l'.problems = l.problems ++ ((Out.error (some r)).map fun e => (e, w.key)).toList := by
        refine ⟨_, rfl, ?_⟩
        unfold plotOne
        rw [if_neg hb, e1]
        cases r with
        | error e => exact ⟨rfl, rfl, by simp [Out.fine, e5], by simp [Out.error, e6]⟩
        | ok o => exact ⟨rfl, rfl, by simp [Out.fine], by simp [Out.error, e6]⟩
      obtain ⟨l', hl', g1, g2, g3, g4⟩ := key
      rw [hl']
      have hne : ∀ v ∈ ws, v.full ≠ w.full := fun v hv e => hf.1 (List.mem_map.2 ⟨v, hv, e⟩)
      have hke : ∀ v ∈ ws, v.key ≠ w.key := fun v hv e => hk.1 (List.mem_map.2 ⟨v, hv, e⟩)
      obtain ⟨outs, h1, h2, h3, h4, h5⟩ := ih l' (by rw [g2, e3, hfn])
        ⟨xs ++ [x], by rw [g1, e2, hxs]; simp [asked]⟩ hk.2 hf.2
        (fun v hv => by
          rw [g2, e4 _ (hke v hv)]; exact hs v (List.mem_cons_of_mem _ hv))
        (fun v hv hvb => by
          rw [g1, e7 _ (hne v hv)]; exact hn v (List.mem_cons_of_mem _ hv) hvb)
      refine ⟨some r :: outs, .cons ⟨⟨x, hx, .inr ⟨hb, xs, _, by rw [hat], by rw [h5 _ hk.1, g2, e9]⟩⟩, ?_⟩ ?_, ?_, ?_, ?_, ?_⟩
      · rw [h4 _ hf.1, g1, e8, hn w List.mem_cons_self hb]
        rcases r with e | o
        · rfl
        · cases o <;> rfl
      · refine List.Forall₂.imp ?_ ((List.forall₂_and_left (p := fun v => v ∈ ws) ws outs).2 ⟨fun v hv => hv, h1⟩)
        rintro v o ⟨hv, hc, hd⟩
        refine ⟨hc, ?_⟩
        rw [hd, g1, e7 _ (hne v hv)]
      · rw [h2, g4]
        cases r <;> simp [Out.error]
      · rw [h3, g3]; simp [Bool.or_assoc]
      · intro p hp
        simp only [List.map_cons, List.mem_cons, not_or] at hp
        rw [h4 p hp.2, g1, e7 _ hp.1]
      · intro p hp
        simp only [List.map_cons, List.mem_cons, not_or] at hp
        rw [h5 p hp.2, g2, e4 _ hp.1]

/-! ### A run for one file -/

variable {env reg cfg}

theorem open_fileName (hr : reg.Perm HKey.all) {name : Str} {f stat : FileSt} {s : Sdf}
    (h : Sdf.openFile env reg name f stat = .ok s) : s.fileName = name := by
  obtain ⟨texts, s1, -, -, h3, h4⟩ := open_ok env reg hr name f stat s h
  obtain ⟨-, -, e, -⟩ := finish_ok stat s1 s h4
  have key : ∀ (ts : List Str) (sh : Shape), (ts.foldl absStep sh).fileName = sh.fileName := by
    intro ts
    induction ts with
    | nil => intro sh; rfl
    | cons t ts ih =>
      intro sh
      rw [List.foldl_cons, ih]
      unfold absStep
      repeat' split
      all_goals rfl
  have := congrArg Shape.fileName h3
  rw [key] at this
  rw [e]
  exact this

theorem open_isSpecFile {name : Str} {f stat : FileSt} {s : Sdf}
    (h : Sdf.openFile env reg name f stat = .ok s) : isSpecFile f.node = true := by
  unfold Sdf.openFile at h
  split at h
  · cases h
  · split at h
    · cases h
    · next hn => simpa using hn

/-- the plot of a scan -/
def wantOf (path : Str) (scans : Dict Obj) (n : Str) : Want where
  key := n
  base := plotName n
  alt := p!"#" ++ n ++ p!": " ++ ((scans.get? n).map Obj.scanCmd).getD []
  full := pathJoin path (plotName n)

theorem wanted_ok (hr : reg.Perm HKey.all) {fname content path : Str} {sdf : Sdf}
    (G : Galleried env reg cfg fname content sdf path) :
    ∃ l, sdf.getScanNumbers = .ok l ∧ l.Perm sdf.scans.keys ∧ IsStableSort Spec.numLe sdf.scans.keys l ∧
      wanted path sdf = .ok (l.map (wantOf path sdf.scans)) := by
  have hw := open_wellNamed env reg hr _ _ _ _ G.opened
  obtain ⟨l, h1, h2⟩ := C08_numbers sdf (fun k hk => by
    obtain ⟨q, hq, -⟩ := (G.names k hk).1
    exact ⟨_, hq, by simp⟩)
  refine ⟨l, h1, scanNumbers_perm sdf l h1, h2, ?_⟩
  unfold wanted
  rw [h1]
  refine mapE_ok_of _ _ _ (fun n hn => ?_)
  have hn : n ∈ sdf.scans.keys := (scanNumbers_perm sdf l h1).mem_iff.1 hn
  have hp := (G.names n hn).1
  unfold want
  rw [getScan_pos sdf (.str n) hp]
  obtain ⟨x, hx⟩ := (mem_keys_iff _ _).1 hn
  have hg := (Dict.mem_iff_get? sdf.scans hw.nodup n x).1 hx
  simp only [Ref.text, hg]
  have hnum := hw.named _ hx
  simp only at hnum
  simp only [wantOf, hg, hnum, Option.map_some, Option.getD_some]

omit [UniDB] in
theorem makeDir_disk (path : Str) (s : GS) (p : Str) (hp : p ≠ path) : (makeDir path s).disk.get? p = s.disk.get? p := by
  unfold makeDir
  split
  · rfl
  · exact Dict.get?_set_ne _ _ (Ne.symm hp)

omit [UniDB] in
theorem makeDir_nodup (path : Str) (s : GS) (h : s.disk.keys.Nodup) : (makeDir path s).disk.keys.Nodup := by
  unfold makeDir
  split
  · exact h
  · exact Dict.nodup_keys_set _ _ _ h

omit [UniDB] in
theorem makeDir_has (path : Str) (s : GS) : (makeDir path s).disk.has path = true := by
  unfold makeDir
  split
  · next h => exact h
  · show Dict.has (s.disk.set path .dir) path = true
    unfold Dict.has
    rw [Dict.get?_set_self]
    rfl

omit [UniDB] in
theorem holds_congr {d d' : Disk} {fname : Str} {m z : Int} (h : Holds cfg d fname m z)
    (e : d'.get? (cachePath cfg) = d.get? (cachePath cfg)) : Holds cfg d' fname m z := by
  unfold Holds at *
  rw [e]
  exact h

/-- the run for a file that counts as updated -/
theorem plotAllScans_updated (hr : reg.Perm HKey.all) {fname content path : Str} {sdf : Sdf}
    (G : Galleried env reg cfg fname content sdf path) (s : GS) (m z : Int) (hh : Holds cfg s.disk fname m z)
    (hu : (cfg.files fname).mtime ≠ m ∧ (cfg.files fname).size ≠ z) :
    ∃ l : List Str, l.Perm sdf.scans.keys ∧ IsStableSort Spec.numLe sdf.scans.keys l ∧
      plotAllScans env reg cfg fname s =
        replot env reg cfg fname path sdf (l.map (wantOf path sdf.scans)) (m, z)
          ((cfg.files fname).mtime, (cfg.files fname).size) (wasFileUpdated cfg fname (makeDir path s)).1 := by
  obtain ⟨l, -, h2, h3, h4⟩ := wanted_ok hr G
  refine ⟨l, h2, h3, ?_⟩
  have hd := G.dir
  have hne := path_ne_cache hd
  have hh' : Holds cfg (makeDir path s).disk fname m z := holds_congr hh (makeDir_disk path s _ (Ne.symm hne))
  obtain ⟨c, hc, hg⟩ := readCache_holds hh'
  obtain ⟨w1, w2, -⟩ := C50_updated cfg fname (makeDir path s) m z hh'
  obtain ⟨w2, -, -⟩ := w2 hu
  obtain ⟨c', hc', hg'⟩ := readCache_holds w2
  unfold plotAllScans
  have hf : (cfg.files fname).node.exists = true := by rw [G.file]; rfl
  rw [← G.file] at hd
  simp only [open_isSpecFile G.opened, Bool.true_eq_false, if_false, G.opened, if_neg G.headers, hd, h4, hc]
  unfold specFileUpdated
  rw [if_neg (by rw [hf]; simp)]
  have hp : wasFileUpdated cfg fname (makeDir path s) = ((wasFileUpdated cfg fname (makeDir path s)).1, .ok true) :=
    Prod.ext rfl (by rw [w1]; simp [hu])
  rw [hp]
  simp only [hc', Except.map, hg, hg']

/-- the run for a file that does not count as updated -/
theorem plotAllScans_same (hr : reg.Perm HKey.all) {fname content path : Str} {sdf : Sdf}
    (G : Galleried env reg cfg fname content sdf path) (s : GS) (m z : Int) (hh : Holds cfg s.disk fname m z)
    (hu : ¬ ((cfg.files fname).mtime ≠ m ∧ (cfg.files fname).size ≠ z)) :
    plotAllScans env reg cfg fname s = (makeDir path s, none) := by
  obtain ⟨l, -, h2, h3, h4⟩ := wanted_ok hr G
  have hd := G.dir
  have hne := path_ne_cache hd
  have hh' : Holds cfg (makeDir path s).disk fname m z := holds_congr hh (makeDir_disk path s _ (Ne.symm hne))
  obtain ⟨c, hc, hg⟩ := readCache_holds hh'
  obtain ⟨w1, -, w3⟩ := C50_updated cfg fname (makeDir path s) m z hh'
  unfold plotAllScans
  have hf : (cfg.files fname).node.exists = true := by rw [G.file]; rfl
  rw [← G.file] at hd
  simp only [open_isSpecFile G.opened, Bool.true_eq_false, if_false, G.opened, if_neg G.headers, hd, h4, hc]
  unfold specFileUpdated
  rw [if_neg (by rw [hf]; simp)]
  have hp : wasFileUpdated cfg fname (makeDir path s) = (makeDir path s, .ok false) :=
    Prod.ext (w3 hu) (by rw [w1]; simp [hu])
  rw [hp]

/-- the run with a cache that cannot be read -/
theorem plotAllScans_torn (hr : reg.Perm HKey.all) {fname content path : Str} {sdf : Sdf}
    (G : Galleried env reg cfg fname content sdf path) (s : GS)
    (hh : s.disk.get? (cachePath cfg) = some (.cache none)) :
    plotAllScans env reg cfg fname s = (makeDir path s, some .ValueError) := by
  obtain ⟨l, -, h2, h3, h4⟩ := wanted_ok hr G
  have hd := G.dir
  have hne := path_ne_cache hd
  unfold plotAllScans
  rw [← G.file] at hd
  have hc : readCache cfg (makeDir path s).disk = .error .ValueError := by
    unfold readCache
    rw [makeDir_disk path s _ (Ne.symm hne), hh]
  simp only [open_isSpecFile G.opened, Bool.true_eq_false, if_false, G.opened, if_neg G.headers, hd, h4, hc]

omit [UniDB] in
theorem exists_map_of_nodup {α β : Type} [DecidableEq α] : ∀ (l : List α) (r : List β), l.Nodup → l.length = r.length →
    (∀ b : β, ∃ f : α → β, r = l.map f) ∨ r = []
  | [], [], _, _ => .inr rfl
  | [], _ :: _, _, h => by simp at h
  | _ :: _, [], _, h => by simp at h
  | a :: l, b :: r, hn, h => by
    left
    intro b0
    simp only [List.nodup_cons] at hn
    have ih := exists_map_of_nodup l r hn.2 (by simpa using h)
    obtain ⟨f, hf⟩ : ∃ f : α → β, r = l.map f := by
      rcases ih with h | h
      · exact h b0
      · subst h
        have : l = [] := by simpa using h
        subst this
        exact ⟨fun _ => b, rfl⟩
    refine ⟨fun x => if x = a then b else f x, ?_⟩
    simp only [List.map_cons, if_true, List.cons.injEq, true_and]
    rw [hf]
    refine List.map_congr_left (fun x hx => ?_)
    have : x ≠ a := by rintro rfl; exact hn.1 hx
    rw [if_neg this]

omit [UniDB] in
theorem forall₂_fun {α β : Type} [DecidableEq α] [Inhabited β] {R : α → β → Prop} {l : List α} {r : List β} (hn : l.Nodup)
    (h : List.Forall₂ R l r) : ∃ f : α → β, r = l.map f ∧ ∀ a ∈ l, R a (f a) := by
  have hl := h.length_eq
  obtain ⟨f, hf⟩ : ∃ f : α → β, r = l.map f := by
    rcases exists_map_of_nodup l r hn hl with h | h
    · exact h default
    · subst h
      have : l = [] := by simpa using hl
      subst this
      exact ⟨fun _ => default, rfl⟩
  refine ⟨f, hf, ?_⟩
  subst hf
  have := List.forall₂_map_right_iff.1 h
  intro a ha
  exact List.forall₂_same.1 this a ha

omit [UniDB] in
theorem plotName_slash {n : Str} (h : PlainName n) : '/' ∉ plotName n := by
  rw [C52_name n h.noSpace]
  simp only [List.mem_append, not_or]
  refine ⟨⟨⟨by decide, ?_⟩, h.noSlash⟩, by decide⟩
  intro hm
  have := (List.mem_replicate.1 hm).2
  revert this; decide

omit [UniDB] in
theorem plotName_svg {n : Str} (h : PlainName n) : ∃ stem, plotName n = stem ++ p!".svg" :=
  ⟨_, C52_name n h.noSpace⟩

omit [UniDB] in
theorem join_ne {path k : Str} (hk : '/' ∉ k) (hne : k ≠ []) : pathJoin path k ≠ path := by
  rw [pathJoin_sepd _ _ (head_of_not_mem hk)]
  obtain ⟨t, ht⟩ := sepd_prefix path
  rw [ht]
  intro e
  have := congrArg List.length e
  simp only [List.length_append] at this
  have : 0 < k.length := List.length_pos_iff.2 hne
  omega

omit [UniDB] in
theorem isPlotFile_congr {d d' : Disk} {path : Str}
    (h : ∀ k, '/' ∉ k → k ≠ [] → d'.get? (pathJoin path k) = d.get? (pathJoin path k)) (k : Str) :
    IsPlotFile d' path k ↔ IsPlotFile d path k := by
  unfold IsPlotFile
  constructor <;> rintro ⟨h1, ⟨t, h2⟩, h3⟩ <;> refine ⟨h1, ⟨t, h2⟩, ?_⟩
  · rw [← h k h1 (by rw [h2]; simp)]; exact h3
  · rw [h k h1 (by rw [h2]; simp)]; exact h3

/-! #### The index page -/

omit [UniDB] in
theorem numLe_flt (a b : Num) : Gallery.numLe a b = PyFloat.le a.toFlt b.toFlt := by
  cases a <;> cases b <;> simp only [Gallery.numLe, Num.toFlt]
  next a b =>
    unfold PyFloat.le
    simp

omit [UniDB] in
theorem ordered_ok (rev : Bool) (S : Sdf) (path : Str) (scans : Dict Obj) (after : Str → Obj) (l : List Str)
    (h : ∀ n ∈ l, S.scans.get? n = some (after n)) (he : ∀ n ∈ l, (after n).epoch ≠ none) :
    ordered rev S (l.map (wantOf path scans)) = .ok ((sortBy (byTime rev after) l).map (wantOf path scans)) := by
  have hm : mapE (epochOf S) (l.map (wantOf path scans)) =
      .ok ((l.map (wantOf path scans)).map fun w => (((after w.key).epoch).getD (.int 0), w)) := by
    refine mapE_ok_of _ _ _ ?_
    intro w hw
    obtain ⟨n, hn, rfl⟩ := List.mem_map.1 hw
    unfold epochOf
    simp only [wantOf, h n hn]
    cases hx : (after n).epoch with
    | none => exact absurd hx (he n hn)
    | some t => rfl
  unfold ordered
  rw [hm]
  simp only [Except.map, List.map_map, Except.ok.injEq]
  rw [← sortBy_map (byTime rev after) _ ((fun w => (((after w.key).epoch).getD (.int 0), w)) ∘ wantOf path scans) l]
  · rw [List.map_map]; rfl
  · intro a ha b hb
    unfold byTime byKey
    obtain ⟨ta, hta⟩ := Option.ne_none_iff_exists'.1 (he a ha)
    obtain ⟨tb, htb⟩ := Option.ne_none_iff_exists'.1 (he b hb)
    simp only [Function.comp, wantOf, hta, htb, Option.map_some, Option.getD_some, numLe_flt]

omit [UniDB] in
theorem ordered_error (rev : Bool) (S : Sdf) (path : Str) (scans : Dict Obj) (after : Str → Obj) (l : List Str)
    (h : ∀ n ∈ l, S.scans.get? n = some (after n)) (he : ∃ n ∈ l, (after n).epoch = none) :
    ordered rev S (l.map (wantOf path scans)) = .error .AttributeError := by
  have hm : mapE (epochOf S) (l.map (wantOf path scans)) = .error .AttributeError := by
    induction l with
    | nil => obtain ⟨n, hn, -⟩ := he; cases hn
    | cons a l ih =>
      simp only [List.map_cons, mapE]
      cases ha : (after a).epoch with
      | none =>
        have : epochOf S (wantOf path scans a) = .error .AttributeError := by
          unfold epochOf; simp only [wantOf, h a List.mem_cons_self, ha]
        rw [this]
      | some t =>
        have e : epochOf S (wantOf path scans a) = .ok (t, wantOf path scans a) := by
          unfold epochOf; simp only [wantOf, h a List.mem_cons_self, ha]
        rw [e, ih (fun n hn => h n (List.mem_cons_of_mem _ hn)) (by
          obtain ⟨n, hn, hx⟩ := he
          rcases List.mem_cons.1 hn with rfl | hn
          · rw [ha] at hx; cases hx
          · exact ⟨n, hn, hx⟩)]
  unfold ordered
  rw [hm]
  rfl

omit [UniDB] in
theorem byTime_sorted (rev : Bool) (after : Str → Obj) (l : List Str) (he : ∀ n ∈ l, (after n).epoch ≠ none)
    (hn : ∀ n ∈ l, ∀ t, (after n).epoch = some t → t.toFlt ≠ .nan) :
    IsStableSort (byTime rev after) l (sortBy (byTime rev after) l) := by
  refine sortBy_byKey _ _ (fun x => x ≠ .nan) ?_ ?_ ?_ l ?_
  · intro a b ha hb
    cases rev
    · exact PyFloat.le_total ha hb
    · exact PyFloat.le_total hb ha
  · intro a b c _ _ _ h1 h2
    cases rev
    · exact PyFloat.le_trans h1 h2
    · exact PyFloat.le_trans h2 h1
  · intro a b ha
    have ha := Classical.not_not.1 ha
    subst ha
    cases rev
    · exact PyFloat.le_nan b
    · simp only [if_true]; cases b <;> simp [PyFloat.le]
  · intro n h
    obtain ⟨t, ht⟩ := Option.ne_none_iff_exists'.1 (he n h)
    exact ⟨_, by rw [ht]; rfl, hn n h t ht⟩

/-! #### The whole run -/

theorem updated_disk {fname content path : Str} {sdf : Sdf}
    (G : Galleried env reg cfg fname content sdf path) (s : GS) (m z : Int) (hh : Holds cfg s.disk fname m z)
    (hu : (cfg.files fname).mtime ≠ m ∧ (cfg.files fname).size ≠ z) (hd : s.disk.keys.Nodup) :
    (∀ p, p ≠ path → p ≠ cachePath cfg →
      (wasFileUpdated cfg fname (makeDir path s)).1.disk.get? p = s.disk.get? p) ∧
    (wasFileUpdated cfg fname (makeDir path s)).1.disk.keys.Nodup ∧
    (wasFileUpdated cfg fname (makeDir path s)).1.sel = s.sel := by
  have hne := path_ne_cache G.dir
  have hh' : Holds cfg (makeDir path s).disk fname m z := holds_congr hh (makeDir_disk path s _ (Ne.symm hne))
  obtain ⟨-, w2, -⟩ := C50_updated cfg fname (makeDir path s) m z hh'
  obtain ⟨-, -, w3⟩ := w2 hu
  refine ⟨?_, ?_, ?_⟩
  · intro p h1 h2
    rw [w3 p h2, makeDir_disk path s p h1]
  · obtain ⟨c, hc, hg⟩ := readCache_holds hh'
    unfold wasFileUpdated
    rw [hc]
    simp only [hg, if_pos hu]
    exact Dict.nodup_keys_set _ _ _ (Dict.nodup_keys_set _ _ _ (makeDir_nodup path s hd))
  · obtain ⟨c, hc, hg⟩ := readCache_holds hh'
    unfold wasFileUpdated
    rw [hc]
    simp only [hg, if_pos hu, GS.write, GS.to, makeDir]
    split <;> rfl

omit [UniDB] in
theorem write_other (s : GS) (path p : Str) (a b : GNode) (h : p ≠ path) :
    (s.write path a b).disk.get? p = s.disk.get? p := by
  simp only [GS.write, GS.to]
  rw [Dict.get?_set_ne _ _ (Ne.symm h), Dict.get?_set_ne _ _ (Ne.symm h)]

omit [UniDB] in
theorem write_self (s : GS) (path : Str) (a b : GNode) : (s.write path a b).disk.get? path = some b := by
  simp only [GS.write, GS.to]
  rw [Dict.get?_set_self]

omit [UniDB] in
theorem makeIndex_other (fname path p : Str) (ws : List Want) (L : Loop) (h : p ≠ pathJoin path indexName) :
    (makeIndex cfg fname path ws L).1.disk.get? p = L.gs.disk.get? p := by
  unfold makeIndex
  simp only
  split
  · split
    · rfl
    · exact write_other _ _ _ _ _ h
  · rfl

omit [UniDB] in
theorem copyFile_other (fname path p : Str) (s : GS) (h : p ≠ pathJoin path (baseName fname)) :
    (copyFile cfg fname path s).disk.get? p = s.disk.get? p := by
  unfold copyFile
  simp only
  split
  · split
    · exact write_other _ _ _ _ _ h
    · rfl
  · exact write_other _ _ _ _ _ h

/-- the end of a run: index page and copy -/
def finishRun (cfg : Cfg) (fname path : Str) (ws : List Want) (L : Loop) : GS × Option PyErr :=
  match makeIndex cfg fname path ws L with
  | (s, some e) => (s, some e)
  | (s, none) => (copyFile cfg fname path s, none)

omit [UniDB] in
theorem finishRun_err (fname path : Str) (ws : List Want) (L : Loop) :
    (finishRun cfg fname path ws L).2 = (makeIndex cfg fname path ws L).2 := by
  unfold finishRun
  rcases makeIndex cfg fname path ws L with ⟨s, _ | e⟩ <;> rfl

omit [UniDB] in
theorem finishRun_other (fname path p : Str) (ws : List Want) (L : Loop) 
    (h' : p ≠ pathJoin path (baseName fname)) :
    (finishRun cfg fname path ws L).1.disk.get? p = (makeIndex cfg fname path ws L).1.disk.get? p := by
  unfold finishRun
  rcases makeIndex cfg fname path ws L with ⟨s, _ | e⟩
  · exact copyFile_other _ _ _ _ h'
  · rfl

/-- the run for a file that counts as updated: what comes of each scan, of the index page and of the copy
of the file -/
theorem gallery_updated (hr : reg.Perm HKey.all) {fname content path : Str} {sdf : Sdf}
    (G : Galleried env reg cfg fname content sdf path) (s : GS) (m z : Int) (hh : Holds cfg s.disk fname m z)
    (hu : (cfg.files fname).mtime ≠ m ∧ (cfg.files fname).size ≠ z) (hd : s.disk.keys.Nodup) :
    ∃ (out : Str → Out) (after : Str → Obj),
      (∀ n x, (n, x) ∈ sdf.scans →
        Outcome env reg cfg fname path (universalNewlines content) s.disk z s.sel n x (out n) (after n) ∧
        (plotAllScans env reg cfg fname s).1.disk.get? (pathJoin path (plotName n)) =
          Out.file cfg.now (s.disk.get? (pathJoin path (plotName n))) (out n)) ∧
      (((¬ ∃ n ∈ sdf.scans.keys, Out.fine (out n) = true) ∧ s.disk.get? (pathJoin path indexName) ≠ none →
          (plotAllScans env reg cfg fname s).2 = none ∧
          (plotAllScans env reg cfg fname s).1.disk.get? (pathJoin path indexName) = s.disk.get? (pathJoin path indexName)) ∧
        (((∃ n ∈ sdf.scans.keys, Out.fine (out n) = true) ∨ s.disk.get? (pathJoin path indexName) = none) →
          (∀ n ∈ sdf.scans.keys, (after n).epoch ≠ none) →
          (plotAllScans env reg cfg fname s).2 = none ∧
          ∃ page, (plotAllScans env reg cfg fname s).1.disk.get? (pathJoin path indexName) = some (.index (some page)) ∧
            IsPage cfg fname path sdf.scans after out (plotAllScans env reg cfg fname s).1.disk page) ∧
        (((∃ n ∈ sdf.scans.keys, Out.fine (out n) = true) ∨ s.disk.get? (pathJoin path indexName) = none) →
          (∃ n ∈ sdf.scans.keys, (after n).epoch = none) →
          (plotAllScans env reg cfg fname s).2 = some .AttributeError ∧
          (plotAllScans env reg cfg fname s).1.disk.get? (pathJoin path indexName) = s.disk.get? (pathJoin path indexName))) ∧
      ((plotAllScans env reg cfg fname s).2 = none →
        (plotAllScans env reg cfg fname s).1.disk.get? (pathJoin path (baseName fname)) =
          match s.disk.get? (pathJoin path (baseName fname)) with
          | none => some (.copy (some (.file (some content))) cfg.now)
          | some old => if old.mtime < (cfg.files fname).mtime then some (.copy (some (.file (some content))) cfg.now)
            else some old) := by
  have hw := open_wellNamed env reg hr _ _ _ _ G.opened
  obtain ⟨l, hl1, hl2, hl3⟩ := plotAllScans_updated hr G s m z hh hu
  obtain ⟨u1, u2, u3⟩ := updated_disk G s m z hh hu hd
  rw [hl3]
  generalize (wasFileUpdated cfg fname (makeDir path s)).1 = s2 at u1 u2 u3 ⊢
  have hin : ∀ k, '/' ∉ k → k ≠ [] → s2.disk.get? (pathJoin path k) = s.disk.get? (pathJoin path k) :=
    fun k h1 h2 => u1 _ (join_ne h1 h2) (inside_ne_cache G.dir ⟨k, h1, rfl⟩)
  obtain ⟨kept, s3, r1, r2, r3, r4, r5, r6⟩ := removeStale_spec cfg fname path content (m, z)
    ((cfg.files fname).mtime, (cfg.files fname).size) s2 u2 G.file
  have hip : ∀ k, IsPlotFile s2.disk path k ↔ IsPlotFile s.disk path k := isPlotFile_congr hin
  have hout : ∀ k, Outdated s2.disk path (universalNewlines content) z (cfg.files fname).size k ↔
      Outdated s.disk path (universalNewlines content) z (cfg.files fname).size k := by
    intro k; unfold Outdated; simp only [hip]
  simp only [hip, hout] at r4 r5 r6
  -- the loop
  have hplain : ∀ n ∈ l, PlainName n := fun n hn => (G.names n (hl1.mem_iff.1 hn)).2
  have hlnd : l.Nodup := hl1.nodup_iff.2 hw.nodup
  have hknd : ((l.map (wantOf path sdf.scans)).map Want.key).Nodup := by
    rw [List.map_map]
    have : Want.key ∘ wantOf path sdf.scans = id := rfl
    rw [this, List.map_id]
    exact hlnd
  have hfnd : ((l.map (wantOf path sdf.scans)).map Want.full).Nodup := by
    rw [List.map_map]
    refine (List.nodup_map_iff_inj_on hlnd).2 ?_
    intro a ha b hb e
    simp only [Function.comp, wantOf] at e
    have := join_inj (plotName_slash (hplain a ha)) (plotName_slash (hplain b hb)) e
    by_cases hab : a = b
    · exact hab
    · exact absurd this (C52_distinct a b (hplain a ha) (hplain b hb) hab)
  have hkey : ∀ n ∈ l, ∃ x, (n, x) ∈ sdf.scans ∧ sdf.scans.get? n = some x := by
    intro n hn
    obtain ⟨x, hx⟩ := (mem_keys_iff _ _).1 (hl1.mem_iff.1 hn)
    exact ⟨x, hx, (Dict.mem_iff_get? sdf.scans hw.nodup n x).1 hx⟩
  have hgone : ∀ n ∈ l, plotName n ∉ kept → s3.disk.get? (pathJoin path (plotName n)) = none := by
    intro n hn hk
    by_cases hp : IsPlotFile s.disk path (plotName n)
    · by_cases ho : Outdated s.disk path (universalNewlines content) z (cfg.files fname).size (plotName n)
      · exact r5 _ hp ho
      · exact absurd ((r4 _).2 ⟨hp, ho⟩) hk
    · rw [r6, hin _ (plotName_slash (hplain n hn))]
      · have := hp
        unfold IsPlotFile at this
        have h2 := fun h => this ⟨plotName_slash (hplain n hn), plotName_svg (hplain n hn), h⟩
        exact Classical.not_not.1 h2
      · obtain ⟨t, ht⟩ := plotName_svg (hplain n hn)
        rw [ht]; simp
      · rintro ⟨k, hk1, -, e⟩
        exact hp (join_inj (plotName_slash (hplain n hn)) hk1.1 e ▸ hk1)
  obtain ⟨outs, o1, o2, o3, o4, o5⟩ := loop_spec env reg cfg fname kept s.sel sdf.scans (l.map (wantOf path sdf.scans))
    { gs := s3, sdf := sdf } (open_fileName hr G.opened) ⟨[], by rw [asked, List.foldl_nil]; exact r2.trans u3⟩ hknd hfnd
    (by
      intro w hwm
      obtain ⟨n, hn, rfl⟩ := List.mem_map.1 hwm
      obtain ⟨x, -, hx⟩ := hkey n hn
      exact ⟨rfl, by simp only [wantOf, hx]; rfl⟩)
    (by
      intro w hwm hb
      obtain ⟨n, hn, rfl⟩ := List.mem_map.1 hwm
      exact hgone n hn hb)
  have hrep : replot env reg cfg fname path sdf (l.map (wantOf path sdf.scans)) (m, z)
      ((cfg.files fname).mtime, (cfg.files fname).size) s2 = finishRun cfg fname path (l.map (wantOf path sdf.scans))
        ((l.map (wantOf path sdf.scans)).foldl (plotOne env reg cfg kept) { gs := s3, sdf := sdf }) := by
    unfold replot
    simp only [r1]
    rfl
  rw [hrep]
  generalize (l.map (wantOf path sdf.scans)).foldl (plotOne env reg cfg kept) { gs := s3, sdf := sdf } = L at o1 o2 o3 o4 o5 ⊢
  obtain ⟨out, rfl, hR⟩ := forall₂_fun hlnd (List.forall₂_map_left_iff.1 o1)
  have hafter : ∃ after : Str → Obj, ∀ n ∈ l, L.sdf.scans.get? n = some (after n) := by
    refine ⟨fun n => (L.sdf.scans.get? n).getD { kind := .scan, raw := [], fileName := [] }, fun n hn => ?_⟩
    obtain ⟨⟨x, hx, h⟩, -⟩ := hR n hn
    have hk : (wantOf path sdf.scans n).key = n := rfl
    rw [hk] at h
    rcases h with ⟨-, -, e⟩ | ⟨-, xs, hdr, -, e⟩ <;> simp only [e, Option.getD_some]
  obtain ⟨after, hafter⟩ := hafter
  have hpage : ∀ n ∈ l, pathJoin path (plotName n) ≠ pathJoin path indexName := by
    intro n hn e
    have := join_inj (plotName_slash (hplain n hn)) (by decide) e
    obtain ⟨t, ht⟩ := plotName_svg (hplain n hn)
    rw [ht] at this
    have := congrArg List.getLast? this
    simp [indexName] at this
  have hcopy : ∀ n ∈ l, pathJoin path (plotName n) ≠ pathJoin path (baseName fname) := by
    intro n hn e
    have := join_inj (plotName_slash (hplain n hn)) (baseName_slash fname) e
    obtain ⟨t, ht⟩ := plotName_svg (hplain n hn)
    exact G.notPlot.1 ⟨t, by rw [← this, ht]⟩
  have hpc : pathJoin path indexName ≠ pathJoin path (baseName fname) := by
    intro e
    exact G.notPlot.2.1 (join_inj (by decide) (baseName_slash fname) e).symm
  -- things that are not plots are not changed by the loop
  have hL : ∀ k, '/' ∉ k → k ≠ [] → (¬ ∃ stem, k = stem ++ p!".svg") → L.gs.disk.get? (pathJoin path k) = s.disk.get? (pathJoin path k) := by
    intro k h1 h2 h3
    rw [o4, r6, hin k h1 h2]
    · rintro ⟨j, hj, -, e⟩
      exact h3 (join_inj h1 hj.1 e ▸ hj.2.1)
    · intro hm
      rw [List.map_map] at hm
      obtain ⟨n, hn, e⟩ := List.mem_map.1 hm
      have := join_inj (plotName_slash (hplain n hn)) h1 e
      exact h3 (this ▸ plotName_svg (hplain n hn))
  have hLpage : L.gs.disk.get? (pathJoin path indexName) = s.disk.get? (pathJoin path indexName) :=
    hL _ (by decide) (by decide) (by
      rintro ⟨t, ht⟩
      have := congrArg List.getLast? ht
      simp [indexName] at this)
  have hbn : ∀ n, n ∈ l ↔ n ∈ sdf.scans.keys := fun n => hl1.mem_iff
  have hrem : L.remake = true ↔ ∃ n ∈ sdf.scans.keys, Out.fine (out n) = true := by
    rw [o3]
    simp only [Bool.false_or, List.any_map, List.any_eq_true, Function.comp, hbn]
  have hhas : ∀ (d : Disk) (q : Str), d.has q = false ↔ d.get? q = none := by
    intro d q; simp [Dict.has]
  refine ⟨out, after, ?_, ⟨?_, ?_, ?_⟩, ?_⟩
  · intro n x hx
    have hn : n ∈ l := hl1.mem_iff.2 ((mem_keys_iff _ _).2 ⟨x, hx⟩)
    have hgx := (Dict.mem_iff_get? sdf.scans hw.nodup n x).1 hx
    obtain ⟨⟨x', hx', hc⟩, hfile⟩ := hR n hn
    have : x' = x := by
      have e : (wantOf path sdf.scans n).key = n := rfl
      rw [e, hgx] at hx'
      cases hx'; rfl
    subst this
    have hk : (wantOf path sdf.scans n).key = n := rfl
    have hb : (wantOf path sdf.scans n).base = plotName n := rfl
    have hfull : (wantOf path sdf.scans n).full = pathJoin path (plotName n) := rfl
    rw [hk, hb, hafter n hn] at hc
    rw [hfull] at hfile
    rw [finishRun_other _ _ _ _ _ (hcopy n hn), makeIndex_other _ _ _ _ _ (hpage n hn), hfile]
    have hne : plotName n ≠ [] := by
      obtain ⟨t, ht⟩ := plotName_svg (hplain n hn)
      rw [ht]; simp
    rcases hc with ⟨h1, h2, h3⟩ | ⟨h1, xs, hdr, h2, h3⟩
    · have hkept := (r4 _).1 h1
      refine ⟨⟨fun _ => ⟨h2, by cases h3; rfl⟩, fun h => absurd hkept h⟩, ?_⟩
      rw [h2]
      simp only [Out.file]
      rw [r6, hin _ (plotName_slash (hplain n hn)) hne]
      rintro ⟨j, hj, hjo, e⟩
      have := join_inj (plotName_slash (hplain n hn)) hj.1 e
      exact hkept.2 (this ▸ hjo)
    · refine ⟨⟨fun h => absurd ((r4 _).2 h) h1, fun _ => ⟨xs, hdr, h2, by simpa using h3⟩⟩, ?_⟩
      rw [h2]
      generalize attempt env reg cfg fname (asked s.sel xs) ⟨x', hdr⟩ = r
      rcases r with e | o
      · rfl
      · cases o <;> rfl
  · rintro ⟨h1, h2⟩
    have hn1 : ¬ (L.remake = true ∨ L.gs.disk.has (pathJoin path indexName) = false) := by
      rintro (h | h)
      · exact h1 (hrem.1 h)
      · rw [hhas, hLpage] at h; exact h2 h
    have e : makeIndex cfg fname path (l.map (wantOf path sdf.scans)) L = (L.gs, none) := by
      unfold makeIndex; simp only [if_neg hn1]
    rw [finishRun_err, finishRun_other _ _ _ _ _ hpc, e]
    exact ⟨rfl, hLpage⟩
  · intro h1 h2
    have hn1 : L.remake = true ∨ L.gs.disk.has (pathJoin path indexName) = false := by
      rcases h1 with h | h
      · exact .inl (hrem.2 h)
      · right; rw [hhas, hLpage]; exact h
    have ho := ordered_ok cfg.reversed L.sdf path sdf.scans after l hafter (fun n hn => h2 n ((hbn n).1 hn))
    have e : makeIndex cfg fname path (l.map (wantOf path sdf.scans)) L =
        (L.gs.write (pathJoin path indexName) (.index none) (.index (some
          { specFile := fname,
            plotted := (((sortBy (byTime cfg.reversed after) l).map (wantOf path sdf.scans)).filter
              (fun w => L.gs.disk.has w.full)).map fun w => (w.base, w.alt),
            problems := L.problems })), none) := by
      unfold makeIndex; simp only [if_pos hn1, ho]
    rw [finishRun_err, finishRun_other _ _ _ _ _ hpc]
    refine ⟨by rw [e], _, by rw [e]; exact write_self _ _ _ _, ?_⟩
    refine ⟨l, sortBy (byTime cfg.reversed after) l, hl2, sortBy_perm _ _, ?_, rfl, ?_, ?_⟩
    · intro hnan
      exact byTime_sorted _ _ _ (fun n hn => h2 n ((hbn n).1 hn)) (fun n hn => hnan n ((hbn n).1 hn))
    · simp only [List.filter_map, List.map_map]
      have hf : (sortBy (byTime cfg.reversed after) l).filter ((fun w => L.gs.disk.has w.full) ∘ wantOf path sdf.scans) =
          (sortBy (byTime cfg.reversed after) l).filter (fun n =>
            (finishRun cfg fname path (l.map (wantOf path sdf.scans)) L).1.disk.has (pathJoin path (plotName n))) := by
        refine List.filter_congr (fun n hn => ?_)
        have hn : n ∈ l := (sortBy_perm _ _).mem_iff.1 hn
        simp only [Function.comp, wantOf, Dict.has]
        rw [finishRun_other _ _ _ _ _ (hcopy n hn), makeIndex_other _ _ _ _ _ (hpage n hn)]
      rw [hf]
      rfl
    · rw [o2]
      simp only [List.nil_append]
      rw [List.zip_map', List.filterMap_map]
      rfl
  · intro h1 h2
    have hn1 : L.remake = true ∨ L.gs.disk.has (pathJoin path indexName) = false := by
      rcases h1 with h | h
      · exact .inl (hrem.2 h)
      · right; rw [hhas, hLpage]; exact h
    have ho := ordered_error cfg.reversed L.sdf path sdf.scans after l hafter
      (by obtain ⟨n, hn, h⟩ := h2; exact ⟨n, (hbn n).2 hn, h⟩)
    have e : makeIndex cfg fname path (l.map (wantOf path sdf.scans)) L = (L.gs, some .AttributeError) := by
      unfold makeIndex; simp only [if_pos hn1, ho]
    rw [finishRun_err, finishRun_other _ _ _ _ _ hpc, e]
    exact ⟨rfl, hLpage⟩
  · intro hnone
    rw [finishRun_err] at hnone
    have hLc : (makeIndex cfg fname path (l.map (wantOf path sdf.scans)) L).1.disk.get? (pathJoin path (baseName fname)) =
        s.disk.get? (pathJoin path (baseName fname)) := by
      rw [makeIndex_other _ _ _ _ _ (Ne.symm hpc)]
      exact hL _ (baseName_slash fname) G.notPlot.2.2 G.notPlot.1
    unfold finishRun
    rcases hm : makeIndex cfg fname path (l.map (wantOf path sdf.scans)) L with ⟨s4, _ | e⟩
    · rw [hm] at hLc
      simp only
      unfold copyFile
      simp only [hLc, G.file]
      cases hso : s.disk.get? (pathJoin path (baseName fname)) with
      | none => exact write_self _ _ _ _
      | some old =>
        simp only
        split
        · exact write_self _ _ _ _
        · rw [← hso]; exact hLc
    · rw [hm] at hnone; cases hnone

end

end S2N.Props
