import Verif.Spec.Data
import Verif.Props.Tables
import Mathlib.Data.List.Perm.Subperm
/-
C21, C22, C24, C25: the data table of a scan.
-/
namespace S2N.Props
open S2N S2N.Py S2N.Spec

/-! ### C22: unique labels -/

theorem candidate_inj {label : Str} {a b : Nat} (h : candidate label a = candidate label b) : a = b := by
  have len : ∀ n, candidate label (n + 1) ≠ label := by
    intro n e
    have := congrArg List.length e
    simp [candidate] at this
  cases a with
  | zero =>
    cases b with
    | zero => rfl
    | succ b => exact absurd h.symm (len b)
  | succ a =>
    cases b with
    | zero => exact absurd h (len a)
    | succ b =>
      simp only [candidate, List.append_cancel_left_eq, List.cons.injEq, true_and] at h
      exact natStr_injective h

theorem uniqueKey_cands (label : Str) :
    label :: (List.range 999).map (fun i => label ++ '_' :: natStr (i + 1)) =
      (List.range 1000).map (candidate label) := by
  have h : ∀ n, label :: (List.range n).map (fun i => label ++ '_' :: natStr (i + 1)) =
      (List.range (n + 1)).map (candidate label) := by
    intro n
    rw [List.range_succ_eq_map, List.map_cons, List.map_map]
    rfl
  exact h 999

theorem find_range {p : Nat → Bool} : ∀ {n k : Nat}, (List.range n).find? p = some k →
    p k = true ∧ ∀ m < k, p m = false := by
  intro n k h
  rw [List.find?_range_eq_some] at h
  obtain ⟨h1, h2, h3⟩ := h
  exact ⟨h1, fun m hm => by simpa using h3 m hm⟩

theorem uniqueKey_ok {label : Str} {keys : List Str} {k : Str} (h : uniqueKey label keys = .ok k) :
    FirstFree label keys k := by
  unfold uniqueKey at h
  rw [uniqueKey_cands, List.find?_map] at h
  cases hf : (List.range 1000).find? ((fun k => !keys.contains k) ∘ candidate label) with
  | none => rw [hf] at h; cases h
  | some n =>
    rw [hf] at h
    simp only [Option.map_some] at h
    cases h
    obtain ⟨h1, h2⟩ := find_range hf
    refine ⟨n, rfl, by simpa using h1, fun m hm => ?_⟩
    have := h2 m hm
    simpa using this

theorem uniqueKey_total (label : Str) (keys : List Str) (h : keys.length < 1000) :
    ∃ k, uniqueKey label keys = .ok k := by
  unfold uniqueKey
  rw [uniqueKey_cands]
  cases hf : ((List.range 1000).map (candidate label)).find? (fun k => !keys.contains k) with
  | some k => exact ⟨k, rfl⟩
  | none =>
    exfalso
    rw [List.find?_eq_none] at hf
    have hsub : (List.range 1000).map (candidate label) ⊆ keys := by
      intro k hk
      simpa using hf k hk
    have hnd : ((List.range 1000).map (candidate label)).Nodup :=
      (List.nodup_range).map (fun a b e => candidate_inj e)
    have := (List.subperm_of_subset hnd hsub).length_le
    simp at this
    omega

theorem renameCols_ok : ∀ (ls done : List Str) (d : Dict DCol), d.keys = done →
    (renameCols ls done d).2 = none →
    ∃ ks, (renameCols ls done d).1 = (done ++ ks, d ++ ks.map (fun k => (k, DCol.col []))) ∧
      ks.length = ls.length ∧
      ∀ i l k, ls[i]? = some l → ks[i]? = some k → FirstFree l (done ++ ks.take i) k
  | [], done, d, _, _ => ⟨[], by simp [renameCols, Res.ok]⟩
  | l :: ls, done, d, hd, h => by
    unfold renameCols Res.eval at h ⊢
    cases hu : uniqueKey l d.keys with
    | error e => rw [hu] at h; simp [Res.raise] at h
    | ok k =>
      rw [hu] at h
      simp only at h ⊢
      have hff := uniqueKey_ok hu
      have hk : k ∉ d.keys := by obtain ⟨n, _, h2, _⟩ := hff; exact h2
      have hset : d.set k (.col []) = d ++ [(k, DCol.col [])] := Dict.set_of_not_mem d k _ hk
      obtain ⟨ks, h1, h2, h3⟩ := renameCols_ok ls (done ++ [k]) (d.set k (.col [])) (by
        rw [hset]; simp [Dict.keys] at hd ⊢; exact hd) h
      refine ⟨k :: ks, ?_, by simp [h2], ?_⟩
      · rw [h1, hset]; simp
      · intro i l' k' hl hk'
        cases i with
        | zero =>
          simp at hl hk'
          subst hl hk'
          simpa [hd] using hff
        | succ i =>
          have := h3 i l' k' (by simpa using hl) (by simpa using hk')
          simpa using this

theorem renamed_nodup {labels names : List Str} (h : Renamed labels names) : names.Nodup := by
  rw [List.nodup_iff_pairwise_ne, List.pairwise_iff_getElem]
  intro i j hi hj hij e
  have hj' : j < labels.length := h.length ▸ hj
  obtain ⟨n, _, h2, _⟩ := h.name j labels[j] names[j] (List.getElem?_eq_getElem hj')
    (List.getElem?_eq_getElem hj)
  apply h2
  rw [← e, List.mem_take_iff_getElem]
  exact ⟨i, by omega, rfl⟩

/-- **C22**, distinct labels are left alone. -/
theorem C22_distinct {labels names : List Str} (h : Renamed labels names) (hn : labels.Nodup) :
    names = labels := by
  have : ∀ i, names.take i = labels.take i := by
    intro i
    induction i with
    | zero => rfl
    | succ i ih =>
      rw [List.take_add_one, List.take_add_one, ih]
      congr 1
      cases hl : labels[i]? with
      | none =>
        have : names[i]? = none := by
          rw [List.getElem?_eq_none_iff] at hl ⊢
          rw [h.length]; exact hl
        rw [this]
      | some l =>
        obtain ⟨hi, e⟩ := List.getElem?_eq_some_iff.1 hl
        have hi' : i < names.length := h.length ▸ hi
        have hk : names[i]? = some names[i] := List.getElem?_eq_getElem hi'
        obtain ⟨n, h1, h2, h3⟩ := h.name i l _ hl hk
        rw [hk]
        cases n with
        | zero => simp only [candidate] at h1; rw [h1]
        | succ n =>
          exfalso
          have := h3 0 (by omega)
          rw [ih] at this
          simp only [candidate] at this
          rw [List.mem_take_iff_getElem] at this
          obtain ⟨j, hj, ej⟩ := this
          have := (List.Nodup.getElem_inj_iff hn).1 (ej.trans e.symm)
          omega
  have h1 := this labels.length
  rw [List.take_length, ← h.length, List.take_length] at h1
  exact h1

/-- **C22**, no exception: the labels of a scan with at most 1000 columns can always be made
unique. -/
theorem C22_never_raises : ∀ (ls done : List Str) (d : Dict DCol), d.keys = done →
    ls.length + done.length ≤ 1000 → (renameCols ls done d).2 = none
  | [], _, _, _, _ => rfl
  | l :: ls, done, d, hd, h => by
    unfold renameCols Res.eval
    simp only [List.length_cons] at h
    obtain ⟨k, hk⟩ := uniqueKey_total l d.keys (by rw [hd]; omega)
    rw [hk]
    simp only
    have hk' : k ∉ d.keys := by obtain ⟨n, _, h2, _⟩ := uniqueKey_ok hk; exact h2
    have hset : d.set k (.col []) = d ++ [(k, DCol.col [])] := Dict.set_of_not_mem d k _ hk'
    apply C22_never_raises
    · rw [hset]; simp [Dict.keys] at hd ⊢; exact hd
    · simp; omega

/-! ### C25: split rows -/

theorem splitWs_append_sp (a b : Str) : splitWs (a ++ ' ' :: b) = splitWs a ++ splitWs b := by
  have hs : isSpace ' ' = true := by decide
  suffices H : splitP isSpace (a ++ ' ' :: b) = splitP isSpace a ++ splitP isSpace b by
    unfold splitWs; rw [H, List.filter_append]
  induction a with
  | nil => rw [List.nil_append, splitP_cons_true hs]; rfl
  | cons c a ih =>
    cases hc : isSpace c with
    | true => rw [List.cons_append, splitP_cons_true hc, splitP_cons_true hc, ih]; rfl
    | false =>
      obtain ⟨w, ws, e⟩ := splitP_exists_cons isSpace a
      rw [List.cons_append, splitP_cons_false hc e, splitP_cons_false hc (w := w) (ws := ws ++ splitP isSpace b)
        (by rw [ih, e]; rfl)]
      rfl

/-- putting a line after a buffer, with a space in between if there is none -/
theorem splitWs_buf (b line : Str) :
    splitWs ((if b.length > 0 ∧ b.getLast? ≠ some ' ' then b ++ [' '] else b) ++ line) =
      splitWs b ++ splitWs line := by
  by_cases h : b.length > 0 ∧ b.getLast? ≠ some ' '
  · rw [if_pos h, List.append_assoc, List.singleton_append, splitWs_append_sp]
  · rw [if_neg h]
    rcases List.eq_nil_or_concat b with e | ⟨b', c, e⟩
    · subst e; rfl
    · subst e
      have : c = ' ' := by
        by_contra hc
        apply h
        simp [hc]
      subst this
      have h2 : splitWs [] = [] := by decide
      rw [List.concat_eq_append, List.append_assoc, List.singleton_append, splitWs_append_sp,
        show b' ++ [' '] = b' ++ ' ' :: [] from rfl, splitWs_append_sp, h2, List.append_nil]

theorem flatMap_length (g : List Str) : (g.flatMap splitWs).length = wordsIn g := by
  unfold wordsIn; rw [List.length_flatMap]

theorem wordsIn_append (g h : List Str) : wordsIn (g ++ h) = wordsIn g + wordsIn h := by
  simp [wordsIn]

theorem combine_mca {N : Int} : ∀ (ls : List Str) (dl out : List Str),
    combineLoop N ls .list dl = .ok out → (∀ l ∈ ls, isMcaLine l = true) ∧ out = dl ++ ls
  | [], dl, out, h => by simp [combineLoop] at h; simp [h]
  | l :: ls, dl, out, h => by
    unfold combineLoop at h
    by_cases hm : startsWith l p!"@A" = true
    · rw [if_pos hm] at h
      simp only at h
      obtain ⟨h1, h2⟩ := combine_mca ls _ _ h
      refine ⟨?_, by rw [h2]; simp⟩
      intro l' hl'
      rcases List.mem_cons.1 hl' with e | e
      · subst e; exact hm
      · exact h1 l' e
    · rw [if_neg hm] at h
      cases h

theorem incomplete_snoc {N : Int} {g : List Str} {l : Str} (h : Incomplete N g) (hl : isMcaLine l = false)
    (hn : (wordsIn (g ++ [l]) : Int) ≠ N) : Incomplete N (g ++ [l]) := by
  refine ⟨?_, ?_⟩
  · intro x hx
    rcases List.mem_append.1 hx with e | e
    · exact h.1 x e
    · rw [List.mem_singleton.1 e]; exact hl
  · intro m hm hle
    rw [List.length_append, List.length_singleton] at hle
    by_cases e : m = g.length + 1
    · subst e
      rw [List.take_of_length_le (by simp)]
      exact hn
    · rw [List.take_append_of_le_length (by omega)]
      exact h.2 m hm (by omega)

theorem incomplete_nil (N : Int) : Incomplete N [] := ⟨by simp, by intro m h1 h2; simp at h2; omega⟩

theorem combine_sound {N : Int} : ∀ (ls g : List Str) (b : Str) (dl out : List Str),
    Incomplete N g → splitWs b = g.flatMap splitWs → (b = [] → ∀ l ∈ g, l = []) →
    combineLoop N ls (.str b) dl = .ok out → ∃ o, out = dl ++ o ∧ Combined N (g ++ ls) o
  | [], g, b, dl, out, hg, _, _, h => by
    simp [combineLoop] at h
    exact ⟨[], by simp [h], by rw [List.append_nil]; exact .rest hg⟩
  | l :: ls, g, b, dl, out, hg, hb, hz, h => by
    unfold combineLoop at h
    by_cases hm : startsWith l p!"@A" = true
    · rw [if_pos hm] at h
      cases b with
      | nil =>
        simp only at h
        obtain ⟨h1, h2⟩ := combine_mca ls _ _ h
        refine ⟨l :: ls, by rw [h2]; simp, ?_⟩
        exact Combined.mca (pre := []) hg (by simp) (by
          intro x hx
          rcases List.mem_cons.1 hx with e | e
          · subst e; exact hm
          · exact h1 x e) (.inl ⟨rfl, hz rfl⟩)
      | cons c cs =>
        simp only at h
        obtain ⟨h1, h2⟩ := combine_mca ls _ _ h
        refine ⟨[c :: cs] ++ l :: ls, by rw [h2]; simp, ?_⟩
        exact Combined.mca (pre := [c :: cs]) hg (by simp) (by
          intro x hx
          rcases List.mem_cons.1 hx with e | e
          · subst e; exact hm
          · exact h1 x e) (.inr ⟨_, rfl, hb⟩)
    · rw [if_neg hm] at h
      have hm' : isMcaLine l = false := by simpa [isMcaLine] using hm
      simp only at h
      have hsp := splitWs_buf b l
      have hb0 : (if b.length > 0 ∧ b.getLast? ≠ some ' ' then b ++ [' '] else b) ++ l = [] →
          b = [] ∧ l = [] := by
        intro e
        obtain ⟨e1, e2⟩ := List.append_eq_nil_iff.1 e
        refine ⟨?_, e2⟩
        split at e1
        · simp at e1
        · exact e1
      generalize (if b.length > 0 ∧ b.getLast? ≠ some ' ' then b ++ [' '] else b) ++ l = b' at h hsp hb0
      have hw : splitWs b' = (g ++ [l]).flatMap splitWs := by
        rw [hsp, hb, List.flatMap_append]; simp
      have hlen : (splitWs b').length = wordsIn (g ++ [l]) := by rw [hw, flatMap_length]
      rw [hlen] at h
      by_cases hN : (wordsIn (g ++ [l]) : Int) = N
      · rw [if_pos hN] at h
        obtain ⟨o, h1, h2⟩ := combine_sound ls [] [] _ _ (incomplete_nil N) (by decide) (by simp) h
        exact ⟨b' :: o, by rw [h1]; simp, .row hg hm' hN hw h2⟩
      · rw [if_neg hN] at h
        obtain ⟨o, h1, h2⟩ := combine_sound ls (g ++ [l]) b' _ _ (incomplete_snoc hg hm' hN) hw (by
          intro e x hx
          obtain ⟨e1, e2⟩ := hb0 e
          rcases List.mem_append.1 hx with e | e
          · exact hz e1 x e
          · rw [List.mem_singleton.1 e]; exact e2) h
        exact ⟨o, h1, by simpa using h2⟩

/-- **C25**, what rows come out of the lines, in any case in which no exception is raised. -/
theorem C25_combined {nm : List Int} {ls out : List Str} (h : combineSplit nm ls = .ok out) :
    CombinedBy nm ls out := by
  unfold combineSplit at h
  split at h
  · cases h; rfl
  · obtain ⟨o, h1, h2⟩ := combine_sound ls [] [] [] out (incomplete_nil _) (by decide) (by simp) h
    simp only [List.nil_append] at h1 h2
    subst h1
    exact h2
  · cases h

/-- **C25**, one number on the #N line: the lines are the rows. -/
theorem C25_single (n : Int) (ls : List Str) : combineSplit [n] ls = .ok ls := rfl

theorem combine_group {N : Int} : ∀ (g : List Str) (l : Str) (ls : List Str) (b : Str) (dl : List Str) (k : List Str),
    splitWs b = k.flatMap splitWs → (∀ x ∈ g ++ [l], isMcaLine x = false) →
    (∀ m, 0 < m → m ≤ g.length → (wordsIn (k ++ g.take m) : Int) ≠ N) →
    (wordsIn (k ++ g ++ [l]) : Int) = N →
    ∃ row, splitWs row = (k ++ g ++ [l]).flatMap splitWs ∧
      combineLoop N (g ++ l :: ls) (.str b) dl = combineLoop N ls (.str []) (dl ++ [row])
  | [], l, ls, b, dl, k, hb, hm, _, hN => by
    have h1 := hm l (by simp)
    rw [List.nil_append]
    unfold combineLoop
    rw [if_neg (by simpa [isMcaLine] using h1)]
    simp only
    have hsp := splitWs_buf b l
    generalize (if b.length > 0 ∧ b.getLast? ≠ some ' ' then b ++ [' '] else b) ++ l = b' at hsp
    have hw : splitWs b' = (k ++ [] ++ [l]).flatMap splitWs := by
      rw [hsp, hb, List.append_nil, List.flatMap_append]; simp
    refine ⟨b', hw, ?_⟩
    have hlen : (splitWs b').length = wordsIn (k ++ [] ++ [l]) := by rw [hw, flatMap_length]
    rw [hlen, if_pos hN]
    conv_lhs => unfold combineLoop
  | a :: g, l, ls, b, dl, k, hb, hm, hs, hN => by
    have h1 := hm a (by simp)
    rw [List.cons_append]
    unfold combineLoop
    rw [if_neg (by simpa [isMcaLine] using h1)]
    simp only
    have hsp := splitWs_buf b a
    generalize (if b.length > 0 ∧ b.getLast? ≠ some ' ' then b ++ [' '] else b) ++ a = b' at hsp
    have hw : splitWs b' = (k ++ [a]).flatMap splitWs := by
      rw [hsp, hb, List.flatMap_append]; simp
    have hlen : (splitWs b').length = wordsIn (k ++ [a]) := by rw [hw, flatMap_length]
    have hne := hs 1 (by omega) (by simp)
    rw [hlen, if_neg (by simpa using hne)]
    obtain ⟨row, e1, e2⟩ := combine_group g l ls b' dl (k ++ [a]) hw (fun x hx => hm x (by simp at hx ⊢; tauto))
      (fun m h0 hle => by
        have := hs (m + 1) (by omega) (by simpa using hle)
        simpa using this) (by simpa using hN)
    refine ⟨row, by simpa using e1, ?_⟩
    rw [e2]
    conv_lhs => unfold combineLoop

theorem combine_groups {N : Int} : ∀ (groups : List (List Str)) (dl : List Str),
    (∀ g ∈ groups, (∀ l ∈ g, isMcaLine l = false) ∧ (∀ l ∈ g, splitWs l ≠ []) ∧ g ≠ [] ∧ (wordsIn g : Int) = N) →
    ∃ rows, combineLoop N groups.flatten (.str []) dl = .ok (dl ++ rows) ∧
      rows.map splitWs = groups.map (fun g => g.flatMap splitWs)
  | [], dl, _ => ⟨[], by simp [combineLoop]⟩
  | g :: gs, dl, h => by
    obtain ⟨h1, h2, h3, h4⟩ := h g (by simp)
    rcases List.eq_nil_or_concat g with e | ⟨g', l, e⟩
    · exact absurd e h3
    · subst e
      rw [List.concat_eq_append] at *
      obtain ⟨row, e1, e2⟩ := combine_group (N := N) g' l gs.flatten [] dl [] (by decide) h1 (by
        intro m h0 hle
        rw [List.nil_append, ← h4]
        have h5 : wordsIn (g' ++ [l]) = wordsIn (g'.take m) + wordsIn (g'.drop m) + (splitWs l).length := by
          rw [wordsIn_append]
          conv_lhs => rw [← List.take_append_drop m g', wordsIn_append]
          rfl
        have h6 : 0 < (splitWs l).length := List.length_pos_iff.2 (h2 l (by simp))
        omega) (by simpa using h4)
      obtain ⟨rows, e3, e4⟩ := combine_groups gs (dl ++ [row]) (fun g hg => h g (by simp [hg]))
      refine ⟨row :: rows, ?_, ?_⟩
      · rw [List.flatten_cons, List.append_assoc, List.singleton_append, e2, e3]; simp
      · simp only [List.map_cons, e4]
        rw [e1]; rfl

/-- **C25**, rows split over lines: if the lines come in groups of `N` words, each group becomes one
row with exactly these words in order, without exception. -/
theorem C25_groups (N M : Int) (groups : List (List Str))
    (h : ∀ g ∈ groups, (∀ l ∈ g, isMcaLine l = false) ∧ (∀ l ∈ g, splitWs l ≠ []) ∧ g ≠ [] ∧
      (wordsIn g : Int) = N) :
    ∃ rows, combineSplit [N, M] groups.flatten = .ok rows ∧
      rows.map splitWs = groups.map (fun g => g.flatMap splitWs) := by
  obtain ⟨rows, h1, h2⟩ := combine_groups groups [] h
  exact ⟨rows, h1, h2⟩

theorem C25_groups_nonvacuous :
    (∀ g ∈ [[p!"1 2 ", p!"3"], [p!"4", p!"5 6"]], (∀ l ∈ g, isMcaLine l = false) ∧
      (∀ l ∈ g, splitWs l ≠ []) ∧ g ≠ [] ∧ (wordsIn g : Int) = 3) ∧
    combineSplit [3, 2] [p!"1 2 ", p!"3", p!"4", p!"5 6"] = .ok [p!"1 2 3", p!"4 5 6"] := by
  decide +kernel

/-- An MCA line in the middle of split rows makes the next data line fail. -/
theorem C25_mca_between_rows : combineSplit [2, 2] [p!"1 2", p!"@A 1 2", p!"3 4"] = .error .AttributeError := by
  decide +kernel

end S2N.Props
