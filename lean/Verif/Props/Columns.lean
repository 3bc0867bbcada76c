import Verif.Props.Data
import Verif.Lemmas.Continue
/-
C21, C22, C24: the data table of a scan, after interpretation.
-/
namespace S2N.Props
open S2N S2N.Py S2N.Spec

/-! ### One row -/

theorem interpRow_ok : ∀ (L ws : List Str) (d r : Dict PyFloat), (Dict.keys d ++ L).Nodup →
    interpRow L ws d = .ok r →
    ∃ fs, List.Forall₂ (fun w x => parseFloat w = some x) ws fs ∧ ws.length ≤ L.length ∧
      r = d ++ L.zip fs
  | L, [], d, r, _, h => by simp [interpRow] at h; exact ⟨[], .nil, by simp, by simp [h]⟩
  | L, w :: ws, d, r, hn, h => by
    unfold interpRow at h
    unfold Py.float at h
    cases hw : parseFloat w with
    | none => rw [hw] at h; cases h
    | some f =>
      rw [hw] at h
      simp only at h
      cases L with
      | nil => cases h
      | cons l L =>
        simp only at h
        have hl : l ∉ Dict.keys d := by
          intro hc
          exact (List.nodup_append.1 hn).2.2 l hc l (by simp) rfl
        rw [Dict.set_of_not_mem _ _ _ hl] at h
        obtain ⟨fs, h1, h2, h3⟩ := interpRow_ok L ws _ r (by
          simp only [Dict.keys, List.map_append, List.map_cons, List.map_nil, List.append_assoc,
            List.singleton_append] at hn ⊢
          exact hn) h
        exact ⟨f :: fs, .cons hw h1, by simpa using h2, by rw [h3]; simp⟩

theorem interpRow_err : ∀ (L ws : List Str) (d : Dict PyFloat) (e : PyErr), interpRow L ws d = .error e →
    (e = .ValueError ∧ ∃ w ∈ ws, parseFloat w = none) ∨ e = .IndexError
  | L, [], d, e, h => by simp [interpRow] at h
  | L, w :: ws, d, e, h => by
    unfold interpRow at h
    unfold Py.float at h
    cases hw : parseFloat w with
    | none => rw [hw] at h; cases h; exact .inl ⟨rfl, w, by simp, hw⟩
    | some f =>
      rw [hw] at h
      simp only at h
      cases L with
      | nil => cases h; exact .inr rfl
      | cons l L =>
        simp only at h
        rcases interpRow_err L ws _ e h with ⟨h1, w', h2, h3⟩ | h1
        · exact .inl ⟨h1, w', by simp [h2], h3⟩
        · exact .inr h1

theorem appendRow_ok : ∀ (r : Dict PyFloat) (d : Dict DCol), (Dict.keys r).Nodup →
    (appendRow r d).2 = none →
    Dict.keys (appendRow r d).1 = Dict.keys d ∧
    (∀ k, k ∉ Dict.keys r → (appendRow r d).1.get? k = d.get? k) ∧
    (∀ k v, (k, v) ∈ r → ∃ xs, d.get? k = some (.col xs) ∧
      (appendRow r d).1.get? k = some (.col (xs ++ [v])))
  | [], d, _, _ => by simp [appendRow, Res.ok]
  | (l, v) :: r, d, hn, h => by
    unfold appendRow at h ⊢
    cases hd : d.get? l with
    | none => rw [hd] at h; simp [Res.raise] at h
    | some c =>
      rw [hd] at h
      cases c with
      | mca m => simp [Res.raise] at h
      | col xs =>
        simp only at h ⊢
        have hn' : l ∉ Dict.keys r ∧ (Dict.keys r).Nodup := by
          simpa [Dict.keys] using hn
        obtain ⟨h1, h2, h3⟩ := appendRow_ok r _ hn'.2 h
        have hmem : l ∈ Dict.keys d := by
          by_contra hc
          rw [(Dict.get?_eq_none_iff d l).2 hc] at hd
          cases hd
        refine ⟨?_, ?_, ?_⟩
        · rw [h1, Dict.keys_set]; simp [hmem]
        · intro k hk
          have hk' : l ≠ k ∧ k ∉ Dict.keys r := by
            simp only [Dict.keys, List.map_cons, List.mem_cons, not_or] at hk
            exact ⟨fun e => hk.1 e.symm, hk.2⟩
          rw [h2 k hk'.2, Dict.get?_set_ne _ _ hk'.1]
        · intro k w hkw
          rcases List.mem_cons.1 hkw with e | e
          · cases e
            refine ⟨xs, hd, ?_⟩
            rw [h2 _ hn'.1, Dict.get?_set_self]
          · obtain ⟨ys, a1, a2⟩ := h3 k w e
            have hne : l ≠ k := by
              rintro rfl
              apply hn'.1
              exact List.mem_map.2 ⟨(l, w), e, rfl⟩
            rw [Dict.get?_set_ne _ _ hne] at a1
            exact ⟨ys, a1, a2⟩

theorem forall2_isSome {ws : List Str} {fs : List PyFloat}
    (h : List.Forall₂ (fun w x => parseFloat w = some x) ws fs) :
    ws.all (fun w => (parseFloat w).isSome) = true := by
  induction h with
  | nil => rfl
  | cons h1 _ ih => simp [h1, ih]

theorem mapE_float_flt : ∀ (ws : List Str) (xs : List Num),
    mapE (fun w => (Py.float w).map .flt) ws = .ok xs →
    List.Forall₂ (fun w x => ∃ f, parseFloat w = some f ∧ x = .flt f) ws xs
  | [], xs, h => by simp [mapE] at h; subst h; exact .nil
  | w :: ws, xs, h => by
    unfold mapE Py.float at h
    cases hw : parseFloat w with
    | none => rw [hw] at h; cases h
    | some f =>
      rw [hw] at h
      simp only [Except.map] at h
      split at h
      · cases h
      · next h2 => cases h; exact .cons ⟨f, hw, rfl⟩ (mapE_float_flt ws _ h2)

theorem mapE_int_int : ∀ (ws : List Str) (xs : List Num),
    mapE (fun w => (Py.int w).map .int) ws = .ok xs →
    List.Forall₂ (fun w x => ∃ f, parseInt w = some f ∧ x = .int f) ws xs
  | [], xs, h => by simp [mapE] at h; subst h; exact .nil
  | w :: ws, xs, h => by
    unfold mapE Py.int at h
    cases hw : parseInt w with
    | none => rw [hw] at h; cases h
    | some f =>
      rw [hw] at h
      simp only [Except.map] at h
      split at h
      · cases h
      · next h2 => cases h; exact .cons ⟨f, hw, rfl⟩ (mapE_int_int ws _ h2)

theorem mcaNums_ok {line w : Str} {ws : List Str} {nums : List Num} (hs : splitWs line = w :: ws)
    (h : mcaNums line ws = .ok nums) : SpectrumOf line nums := by
  unfold SpectrumOf
  rw [hs, List.tail_cons]
  unfold mcaNums at h
  by_cases hd : '.' ∈ line
  · simp only [hd, if_true]
    rw [if_pos (by simpa using hd)] at h
    exact mapE_float_flt ws nums h
  · simp only [hd, if_false]
    rw [if_neg (by simpa using hd)] at h
    exact mapE_int_int ws nums h

theorem mem_firstOcc (l : List Str) (k : Str) : k ∈ firstOcc l ↔ k ∈ l := by
  induction l using List.reverseRecOn with
  | nil => simp [firstOcc]
  | append_singleton l a ih =>
    rw [firstOcc_snoc]
    split
    · next h =>
      constructor
      · intro hk; simp [ih.1 hk]
      · intro hk
        rcases List.mem_append.1 hk with e | e
        · exact ih.2 e
        · rw [List.mem_singleton.1 e]; exact h
    · simp [ih]

theorem setDefault_set {α : Type} (d : Dict α) (k : Str) (v : α) (h : k ∉ Dict.keys d) :
    d.setDefault k v = d.set k v := by
  rw [setDefault_of_not_has _ _ _ ((Dict.not_has_iff _ _).2 h), Dict.set_of_not_mem _ _ _ h]

theorem mcaOf_step {done : List Str} {s : Dict (List (List Num))} {line : Str} {nums : List Num}
    (h : McaOf done s) (hs : SpectrumOf line nums) :
    McaOf (done ++ [line]) ((s.setDefault (mcaName line) []).modify (mcaName line) (· ++ [nums])) := by
  have hmem : ∀ n, n ∈ s.keys ↔ n ∈ done.map mcaName := by
    intro n; rw [h.names, mem_firstOcc]
  have hk : (s.setDefault (mcaName line) []).keys =
      if mcaName line ∈ s.keys then s.keys else s.keys ++ [mcaName line] := by
    by_cases hm : mcaName line ∈ s.keys
    · rw [Dict.setDefault_of_has _ _ _ ((Dict.has_iff_mem _ _).2 hm), if_pos hm]
    · rw [setDefault_set _ _ _ hm, if_neg hm,
        Dict.keys_set, if_neg hm]
  have hg : (s.setDefault (mcaName line) []).get? (mcaName line) =
      some ((s.get? (mcaName line)).getD []) := by
    by_cases hm : mcaName line ∈ s.keys
    · rw [Dict.setDefault_of_has _ _ _ ((Dict.has_iff_mem _ _).2 hm)]
      cases hx : s.get? (mcaName line) with
      | none => exact absurd hm ((Dict.get?_eq_none_iff _ _).1 hx)
      | some v => rfl
    · rw [setDefault_set _ _ _ hm, Dict.get?_set_self,
        (Dict.get?_eq_none_iff _ _).2 hm]; rfl
  have hg2 : ∀ n, n ≠ mcaName line → (s.setDefault (mcaName line) []).get? n = s.get? n := by
    intro n hn
    by_cases hm : mcaName line ∈ s.keys
    · rw [Dict.setDefault_of_has _ _ _ ((Dict.has_iff_mem _ _).2 hm)]
    · rw [setDefault_set _ _ _ hm, Dict.get?_set_ne _ _ hn.symm]
  refine ⟨?_, ?_⟩
  · rw [Dict.keys_modify, hk, List.map_append, List.map_singleton, firstOcc_snoc, h.names]
  · intro n hn
    rw [Dict.get?_modify]
    by_cases e : n = mcaName line
    · subst e
      rw [if_pos rfl, hg, List.filter_append]
      refine ⟨_, rfl, ?_⟩
      have h1 : List.filter (fun l => mcaName l == mcaName line) [line] = [line] := by simp
      rw [h1]
      apply List.rel_append
      · by_cases hm : mcaName line ∈ s.keys
        · obtain ⟨sp, a1, a2⟩ := h.spectra _ ((hmem _).1 hm)
          rw [a1]; exact a2
        · have h2 : List.filter (fun l => mcaName l == mcaName line) done = [] := by
            rw [List.filter_eq_nil_iff]
            intro l hl hc
            apply hm
            rw [hmem]
            exact List.mem_map.2 ⟨l, hl, by simpa using hc⟩
          rw [h2, (Dict.get?_eq_none_iff _ _).2 hm]
          exact .nil
      · exact .cons hs .nil
    · rw [if_neg (fun e' => e e'.symm), hg2 n e, List.filter_append]
      have h1 : List.filter (fun l => mcaName l == n) [line] = [] := by
        simp; exact fun e' => e e'.symm
      rw [h1, List.append_nil]
      apply h.spectra
      simp only [List.map_append, List.map_cons, List.map_nil, List.mem_append, List.mem_singleton] at hn
      rcases hn with hn | hn
      · exact hn
      · exact absurd hn e

/-- the effect of one line on the table -/
theorem dataLine_ok {names : List Str} {rows : List (List PyFloat)}
    {m : Option (Dict (List (List Num)))} {d : Dict DCol} {line : Str} (hn : names.Nodup)
    (hm : m.isSome = true → p!"_mca_" ∉ names) (ht : TableOf names rows m d)
    (h : (dataLine names names.length line d).2 = none) :
    (isMcaLine line = true ∧ ∃ s nums, m = some s ∧ SpectrumOf line nums ∧
      TableOf names rows (some ((s.setDefault (mcaName line) []).modify (mcaName line) (· ++ [nums])))
        (dataLine names names.length line d).1) ∨
    (isCompleteRow names.length line = true ∧ ∃ row, NumbersOf line row ∧
      TableOf names (rows ++ [row]) m (dataLine names names.length line d).1) ∨
    (isMcaLine line = false ∧ isCompleteRow names.length line = false ∧
      TableOf names rows m (dataLine names names.length line d).1) := by
  unfold dataLine at h ⊢
  by_cases hA : startsWith line p!"@A" = true
  · rw [if_pos hA] at h ⊢
    left
    refine ⟨hA, ?_⟩
    unfold mcaLine at h ⊢
    cases hs : splitWs line with
    | nil => rw [hs] at h; simp [Res.raise] at h
    | cons w ws =>
      rw [hs] at h
      simp only at h ⊢
      cases hd : d.get? p!"_mca_" with
      | none => rw [hd] at h; simp [Res.raise] at h
      | some c =>
        rw [hd] at h
        cases c with
        | col xs => simp [Res.raise] at h
        | mca s =>
          simp only [Res.eval] at h ⊢
          cases hnum : mcaNums line ws with
          | error e => rw [hnum] at h; simp [Res.raise] at h
          | ok nums =>
            have hname : mcaKey w = mcaName line := by
              unfold mcaKey mcaName; rw [hs]; rfl
            have hms : m = some s := by
              cases m with
              | none =>
                exfalso
                have hk := ht.keys
                simp at hk
                have : p!"_mca_" ∈ names := by
                  rw [← hk]
                  by_contra hc
                  rw [(Dict.get?_eq_none_iff _ _).2 hc] at hd
                  cases hd
                obtain ⟨i, hi, e⟩ := List.getElem_of_mem this
                have := ht.column i _ (by rw [List.getElem?_eq_getElem hi, e])
                rw [hd] at this
                cases this
              | some s' =>
                have := ht.mca s' rfl
                rw [hd] at this
                cases this; rfl
            subst hms
            refine ⟨s, nums, rfl, mcaNums_ok hs hnum, ?_⟩
            rw [hname]
            simp only [Res.ok]
            have hmem : p!"_mca_" ∈ Dict.keys d := by rw [ht.keys]; simp
            have hnot := hm rfl
            refine ⟨?_, ht.width, ?_, ?_⟩
            · rw [Dict.keys_set, Dict.keys_set]
              simp only [hmem, if_true]
              rw [ht.keys]; rfl
            · intro i n hi
              have hne : p!"_mca_" ≠ n := by
                rintro rfl
                exact hnot (List.mem_of_getElem? hi)
              rw [Dict.get?_set_ne _ _ hne, Dict.get?_set_ne _ _ hne]
              exact ht.column i n hi
            · intro s' e
              cases e
              rw [Dict.get?_set_self]
  · rw [if_neg hA] at h ⊢
    right
    have hA' : isMcaLine line = false := by simpa [isMcaLine] using hA
    cases hi : interpRow names (splitWs line) [] with
    | error e =>
      rw [hi] at h
      rcases interpRow_err _ _ _ _ hi with ⟨h1, w, hw, hw2⟩ | h1
      · subst h1
        right
        refine ⟨hA', ?_, ht⟩
        unfold isCompleteRow
        have : (splitWs line).all (fun w => (parseFloat w).isSome) = false := by
          rw [List.all_eq_false]
          exact ⟨w, hw, by simp [hw2]⟩
        rw [this, Bool.and_false]
      · subst h1; simp [Res.raise] at h
    | ok r =>
      rw [hi] at h
      obtain ⟨fs, h1, h2, h3⟩ := interpRow_ok names (splitWs line) [] r (by show names.Nodup; exact hn) hi
      have hlen : r.length = (splitWs line).length := by
        rw [h3, List.nil_append, List.length_zip, ← h1.length_eq]; omega
      have hcr : isCompleteRow names.length line = ((splitWs line).length == names.length) := by
        unfold isCompleteRow
        rw [forall2_isSome h1, hA']; simp
      simp only at h ⊢
      by_cases hl : r.length = names.length
      · rw [if_pos hl] at h ⊢
        left
        refine ⟨by rw [hcr, ← hlen, hl]; simp, fs, h1, ?_⟩
        rw [List.nil_append] at h3
        have hfl : fs.length = names.length := by rw [← h1.length_eq, ← hlen, hl]
        have hkeys : Dict.keys r = names := by
          rw [h3]; simp only [Dict.keys]; rw [List.map_fst_zip (by omega)]
        obtain ⟨b1, b2, b3⟩ := appendRow_ok r d (by rw [hkeys]; exact hn) h
        refine ⟨by rw [b1, ht.keys], ?_, ?_, ?_⟩
        · intro x hx
          rcases List.mem_append.1 hx with e | e
          · exact ht.width x e
          · rw [List.mem_singleton.1 e]; exact hfl
        · intro i n hin
          obtain ⟨hi', e⟩ := List.getElem?_eq_some_iff.1 hin
          have hif : i < fs.length := by omega
          have hmem : (n, fs[i]) ∈ r := by
            rw [h3, List.mem_iff_getElem]
            exact ⟨i, by rw [List.length_zip]; omega, by rw [List.getElem_zip, e]⟩
          obtain ⟨xs, c1, c2⟩ := b3 n _ hmem
          rw [ht.column i n hin] at c1
          cases c1
          rw [c2, List.map_append, List.map_singleton]
          simp [List.getD_eq_getElem?_getD, List.getElem?_eq_getElem hif]
        · intro s e
          rw [b2 _ (by rw [hkeys]; exact hm (by rw [e]; rfl))]
          exact ht.mca s e
      · rw [if_neg hl] at h ⊢
        right
        refine ⟨hA', ?_, ht⟩
        rw [hcr, ← hlen]
        simpa using hl

/-- all the lines -/
theorem dataLines_ok {names : List Str} (hn : names.Nodup) : ∀ (lines done : List Str)
    (rows : List (List PyFloat)) (m : Option (Dict (List (List Num)))) (d : Dict DCol),
    (m.isSome = true → p!"_mca_" ∉ names) → TableOf names rows m d →
    (∀ s, m = some s → McaOf done s) →
    (forEach (dataLine names names.length) lines d).2 = none →
    ∃ rows' m', TableOf names (rows ++ rows') m' (forEach (dataLine names names.length) lines d).1 ∧
      m'.isSome = m.isSome ∧ (m = none → ∀ l ∈ lines, isMcaLine l = false) ∧
      List.Forall₂ NumbersOf (lines.filter (isCompleteRow names.length)) rows' ∧
      (∀ s, m' = some s → McaOf (done ++ lines.filter isMcaLine) s)
  | [], done, rows, m, d, hm, ht, hs, h => by
    refine ⟨[], m, by simpa [forEach, Res.ok] using ht, rfl, by simp, .nil, by simpa using hs⟩
  | l :: ls, done, rows, m, d, hm, ht, hs, h => by
    have h1 : (dataLine names names.length l d).2 = none := by
      by_contra hc
      unfold forEach Res.andThen at h
      cases hx : (dataLine names names.length l d).2 with
      | none => exact hc hx
      | some e => rw [hx] at h; simp [hx] at h
    have hstep : forEach (dataLine names names.length) (l :: ls) d =
        forEach (dataLine names names.length) ls (dataLine names names.length l d).1 := by
      conv_lhs => unfold forEach Res.andThen
      rw [h1]
    rw [hstep] at h ⊢
    rcases dataLine_ok hn hm ht h1 with ⟨a1, s, nums, a2, a3, a4⟩ | ⟨a1, row, a2, a3⟩ | ⟨a1, a2, a3⟩
    · have hcr : isCompleteRow names.length l = false := by simp [isCompleteRow, a1]
      obtain ⟨rows', m', b1, b2, b3, b4, b5⟩ := dataLines_ok hn ls (done ++ [l]) rows _ _
        (fun _ => hm (by rw [a2]; rfl)) a4 (fun s' e => by cases e; exact mcaOf_step (hs s a2) a3) h
      refine ⟨rows', m', b1, by rw [b2, a2]; rfl, (fun e => by rw [a2] at e; cases e), ?_, ?_⟩
      · rw [List.filter_cons_of_neg (by simp [hcr])]; exact b4
      · rw [List.filter_cons_of_pos a1]; simpa using b5
    · have hmc : isMcaLine l = false := by
        unfold isCompleteRow at a1
        cases hx : isMcaLine l with
        | false => rfl
        | true => rw [hx] at a1; simp at a1
      obtain ⟨rows', m', b1, b2, b3, b4, b5⟩ := dataLines_ok hn ls done (rows ++ [row]) _ _ hm a3 hs h
      refine ⟨row :: rows', m', by simpa using b1, b2, ?_, ?_, ?_⟩
      · intro e x hx
        rcases List.mem_cons.1 hx with e' | e'
        · rw [e']; exact hmc
        · exact b3 e x e'
      · rw [List.filter_cons_of_pos a1]; exact .cons a2 b4
      · rw [List.filter_cons_of_neg (by simp [hmc])]; exact b5
    · obtain ⟨rows', m', b1, b2, b3, b4, b5⟩ := dataLines_ok hn ls done rows _ _ hm a3 hs h
      refine ⟨rows', m', b1, b2, ?_, ?_, ?_⟩
      · intro e x hx
        rcases List.mem_cons.1 hx with e' | e'
        · rw [e']; exact a1
        · exact b3 e x e'
      · rw [List.filter_cons_of_neg (by simp [a2])]; exact b4
      · rw [List.filter_cons_of_neg (by simp [a1])]; exact b5

/-! ### Combining keeps MCA lines -/

theorem not_mca_buf {b line : Str} (hb : isMcaLine b = false) (hl : isMcaLine line = false) :
    isMcaLine ((if b.length > 0 ∧ b.getLast? ≠ some ' ' then b ++ [' '] else b) ++ line) = false := by
  unfold isMcaLine startsWith at *
  match b with
  | [] => simpa using hl
  | [c] =>
    by_cases h : c = ' '
    · subst h; simp [List.isPrefixOf]
    · simp [h, List.isPrefixOf]
  | c :: c2 :: cs =>
    split
    · simpa [List.isPrefixOf] using hb
    · simpa [List.isPrefixOf] using hb

theorem combine_filter {N : Int} : ∀ (ls : List Str) (b : Str) (dl out : List Str),
    isMcaLine b = false → combineLoop N ls (.str b) dl = .ok out →
    out.filter isMcaLine = dl.filter isMcaLine ++ ls.filter isMcaLine
  | [], b, dl, out, _, h => by simp [combineLoop] at h; simp [h]
  | l :: ls, b, dl, out, hb, h => by
    unfold combineLoop at h
    by_cases hm : startsWith l p!"@A" = true
    · rw [if_pos hm] at h
      have hm' : isMcaLine l = true := hm
      cases b with
      | nil =>
        simp only at h
        obtain ⟨h1, h2⟩ := combine_mca ls _ _ h
        rw [h2]; simp [hm']
      | cons c cs =>
        simp only at h
        obtain ⟨h1, h2⟩ := combine_mca ls _ _ h
        rw [h2]; simp [hm', hb]
    · rw [if_neg hm] at h
      have hm' : isMcaLine l = false := by simpa [isMcaLine] using hm
      simp only at h
      have hb' := not_mca_buf hb hm'
      generalize (if b.length > 0 ∧ b.getLast? ≠ some ' ' then b ++ [' '] else b) ++ l = b' at h hb'
      split at h
      · rw [combine_filter ls [] _ _ (by decide) h]; simp [hm', hb']
      · rw [combine_filter ls b' _ _ hb' h]; simp [hm']

/-- **C25**, MCA lines pass unchanged. -/
theorem C25_mca_kept {nm : List Int} {ls out : List Str} (h : combineSplit nm ls = .ok out) :
    out.filter isMcaLine = ls.filter isMcaLine := by
  unfold combineSplit at h
  split at h
  · cases h; rfl
  · rw [combine_filter ls [] [] out (by decide) h]; rfl
  · cases h

/-! ### The whole post-processing -/

theorem postData_ok {x : Obj} (h : (postData x).2 = none) :
    ∃ names nm lines d0, Renamed (x.L.getD []) names ∧ x.N = .nums nm ∧ nm ≠ [] ∧
      combineSplit nm (x.dataLines.getD []) = .ok lines ∧
      d0 = (if hasMca (x.dataLines.getD []) then
        Dict.set (names.map (fun k => (k, DCol.col []))) p!"_mca_" (.mca [])
        else names.map (fun k => (k, DCol.col []))) ∧
      (forEach (dataLine names names.length) lines d0).2 = none ∧
      (postData x).1.L = some names ∧
      (postData x).1.data = (forEach (dataLine names names.length) lines d0).1 := by
  unfold postData at h ⊢
  simp only at h ⊢
  split at h
  · simp [Res.raise] at h
  · next hc =>
    rw [if_neg hc]
    unfold Res.eval at h ⊢
    cases hN : x.N.first with
    | error e => rw [hN] at h; simp [Res.raise] at h
    | ok n =>
      rw [hN] at h
      simp only at h ⊢
      obtain ⟨nm, hnm, hne⟩ : ∃ nm, x.N = .nums nm ∧ nm ≠ [] := by
        cases hx : x.N with
        | absent => rw [hx] at hN; cases hN
        | minusOne => rw [hx] at hN; cases hN
        | nums l =>
          refine ⟨l, rfl, ?_⟩
          rintro rfl
          rw [hx] at hN; cases hN
      cases hr : (renameCols (x.L.getD []) [] []).2 with
      | some e => rw [hr] at h; simp [Res.raise] at h
      | none =>
        rw [hr] at h
        obtain ⟨names, h1, h2, h3⟩ := renameCols_ok (x.L.getD []) [] [] rfl hr
        simp only [List.nil_append] at h1 h3
        rw [h1] at h ⊢
        simp only [List.length_map] at h ⊢
        refine ⟨names, nm, ?_⟩
        cases hcs : combineSplit nm (x.dataLines.getD []) with
        | error e =>
          exfalso
          by_cases hm : hasMca (x.dataLines.getD []) = true
          · simp [hm, hnm, hcs, Res.raise] at h
          · simp [hm, hnm, hcs, Res.raise] at h
        | ok lines =>
          refine ⟨lines, _, ⟨h2, h3⟩, hnm, hne, rfl, rfl, ?_⟩
          by_cases hm : hasMca (x.dataLines.getD []) = true
          · simp only [hm, if_true, hnm, hcs, Option.getD_some] at h ⊢
            cases hf : (forEach (dataLine names names.length) lines
              (Dict.set (names.map (fun k => (k, DCol.col []))) p!"_mca_" (.mca []))).2 with
            | some e => rw [hf] at h; simp [Res.raise] at h
            | none => simp [Res.ok, Obj.addH5]
          · simp only [hm, hnm, hcs, Option.getD_some, Bool.false_eq_true, if_false] at h ⊢
            cases hf : (forEach (dataLine names names.length) lines
              (names.map (fun k => (k, DCol.col [])))).2 with
            | some e => rw [hf] at h; simp [Res.raise] at h
            | none => simp [Res.ok, Obj.addH5]

/-! ### Interpretation -/

section
variable [UniDB] (env : Env) (reg : List HKey) (hr : reg.Perm HKey.all)

/-- a property of the lines so far and the scan object, along a successful loop -/
theorem lines_rev (P : List Str → Obj → Prop)
    (hstep : ∀ pre l (c : ScanCtx), P pre c.scan → '\n' ∉ l →
      (effKey reg l = none → P (pre ++ [l]) c.scan) ∧
      (∀ k, effKey reg l = some k → (procScan env k l c).2 = none →
        P (pre ++ [l]) (procScan env k l c).1.scan)) :
    ∀ (lines pre : List Str) (c : ScanCtx), (∀ l ∈ lines, '\n' ∉ l) → P pre c.scan →
      (forEach (scanLine env reg) lines c).2 = none →
      P (pre ++ lines) (forEach (scanLine env reg) lines c).1.scan
  | [], pre, c, _, h0, _ => by simpa [forEach, Res.ok] using h0
  | l :: ls, pre, c, hn, h0, h => by
    obtain ⟨h1, h2, h3⟩ := forEach_cons_ok h
    rw [h2]
    have hs := hstep pre l c h0 (hn l (by simp))
    have : P (pre ++ [l]) (scanLine env reg l c).1.scan := by
      rw [scanLine_eq] at h1 ⊢
      cases hk : effKey reg l with
      | none => exact hs.1 hk
      | some k => rw [hk] at h1; exact hs.2 k hk h1
    simpa using lines_rev P hstep ls (pre ++ [l]) _ (fun x hx => hn x (by simp [hx])) this h3

/-- what is known about `scan.N` -/
def NInv (lines : List Str) (x : Obj) : Prop :=
  (x.N = .minusOne ∧ ∀ l ∈ lines, isKind .N l = false) ∨ ∃ nm, ColumnNumbers lines nm ∧ x.N = .nums nm

/-- what is known about `scan.L` -/
def LInv (lines : List Str) (x : Obj) : Prop :=
  ∃ L, x.L = some L ∧ StatedLabels lines L

omit [UniDB] in
theorem mapE_int_ok : ∀ (ws : List Str) (xs : List Int), mapE Py.int ws = .ok xs →
    List.Forall₂ (fun w i => parseInt w = some i) ws xs
  | [], xs, h => by simp [mapE] at h; subst h; exact .nil
  | w :: ws, xs, h => by
    unfold mapE Py.int at h
    cases hw : parseInt w with
    | none => rw [hw] at h; cases h
    | some f =>
      rw [hw] at h
      simp only at h
      split at h
      · cases h
      · next h2 => cases h; exact .cons hw (mapE_int_ok ws _ h2)

theorem isLast_snoc {k : HKey} {lines : List Str} {x l : Str} (h : IsLast k lines x) (hl : isKind k l = false) :
    IsLast k (lines ++ [l]) x := by
  obtain ⟨pre, post, e, h1, h2⟩ := h
  refine ⟨pre, post ++ [l], by rw [e]; simp, h1, ?_⟩
  intro y hy
  rcases List.mem_append.1 hy with e | e
  · exact h2 y e
  · rw [List.mem_singleton.1 e]; exact hl

theorem columnNumbers_snoc {lines : List Str} {nm : List Int} {l : Str} (h : ColumnNumbers lines nm)
    (hl : isKind .N l = false) : ColumnNumbers (lines ++ [l]) nm := by
  obtain ⟨x, h1, h2⟩ := h
  exact ⟨x, isLast_snoc h1 hl, h2⟩

theorem nInv_same {pre : List Str} {l : Str} {x y : Obj} (h : NInv pre x) (hl : isKind .N l = false)
    (he : y.N = x.N) : NInv (pre ++ [l]) y := by
  rcases h with ⟨h1, h2⟩ | ⟨nm, h1, h2⟩
  · refine .inl ⟨by rw [he, h1], ?_⟩
    intro z hz
    rcases List.mem_append.1 hz with e | e
    · exact h2 z e
    · rw [List.mem_singleton.1 e]; exact hl
  · exact .inr ⟨nm, columnNumbers_snoc h1 hl, by rw [he, h2]⟩

theorem lInv_same {pre : List Str} {l : Str} {x y : Obj} (h : LInv pre x) (hl : isKind .L l = false)
    (he : y.L = x.L) : LInv (pre ++ [l]) y := by
  obtain ⟨L, h0, h⟩ := h
  refine ⟨L, by rw [he, h0], ?_⟩
  rcases h with ⟨h1, h2⟩ | ⟨p, x, q, h1, h2, h3, h4⟩
  · refine .inl ⟨h1, ?_⟩
    intro z hz
    rcases List.mem_append.1 hz with e | e
    · exact h2 z e
    · rw [List.mem_singleton.1 e]; exact hl
  · refine .inr ⟨p, x, q ++ [l], by rw [h1]; simp, h2, ?_, h4⟩
    intro z hz
    rcases List.mem_append.1 hz with e | e
    · exact h3 z e
    · rw [List.mem_singleton.1 e]; exact hl

include hr in
theorem inv_lines (lines : List Str) (hn : ∀ l ∈ lines, '\n' ∉ l) (c : ScanCtx)
    (hN : c.scan.N = .minusOne) (hL : c.scan.L = some []) (hd : c.scan.dataLines = some [])
    (h : (forEach (scanLine env reg) lines c).2 = none) :
    let x := (forEach (scanLine env reg) lines c).1.scan
    NInv lines x ∧ LInv lines x ∧ x.dataLines = some (dataLinesOf lines) := by
  intro x
  have := lines_rev env reg (fun ls x => NInv ls x ∧ LInv ls x ∧ x.dataLines = some (dataLinesOf ls)) ?_
    lines [] c hn ?_ h
  · simpa using this
  · intro pre l c ⟨i1, i2, i3⟩ hnl
    have notk : ∀ K : HKey, K ≠ .S → K ≠ .unrec → effKey reg l ≠ some K → isKind K l = false := by
      intro K hS hU hk
      rw [← Bool.not_eq_true, ← effKey_iff reg hr l hnl K hS hU]; exact hk
    refine ⟨?_, ?_⟩
    · intro hk
      have hN' := notk .N (by simp) (by simp) (by rw [hk]; simp)
      have hL' := notk .L (by simp) (by simp) (by rw [hk]; simp)
      have hD' := notk .data (by simp) (by simp) (by rw [hk]; simp)
      have hA' := notk .A (by simp) (by simp) (by rw [hk]; simp)
      refine ⟨nInv_same i1 hN' rfl, lInv_same i2 hL' rfl, ?_⟩
      rw [i3]; simp [dataLinesOf, hD', hA']
    · intro k hk hok
      have hyes : k ≠ .S → k ≠ .unrec → isKind k l = true := fun hS hU =>
        (effKey_iff reg hr l hnl k hS hU).1 hk
      refine ⟨?_, ?_, ?_⟩
      · by_cases hkN : k = .N
        · subst hkN
          have hkind := hyes (by simp) (by simp)
          simp only [procScan, onScan, procObj, procN, Res.eval] at hok ⊢
          cases hm : mapE Py.int (splitWs (stripFirstWord l)) with
          | error e => rw [hm] at hok; simp [Res.raise] at hok
          | ok nm =>
            right
            refine ⟨nm, ⟨l, ⟨pre, [], rfl, hkind, by simp⟩, mapE_int_ok _ _ hm⟩, ?_⟩
            simp [Res.ok]
        · have hN' := notk .N (by simp) (by simp) (by rw [hk]; simpa using hkN)
          exact nInv_same i1 hN' (ps_N env k l c hkN)
      · by_cases hkL : k = .L
        · subst hkL
          have hkind := hyes (by simp) (by simp)
          simp only [procScan, onScan, procObj, procL, Res.eval] at hok ⊢
          cases hm : labelsOf c.scan.N l with
          | error e => rw [hm] at hok; simp [Res.raise] at hok
          | ok L =>
            rw [hm] at hok
            simp only at hok ⊢
            have hres : StatedLabels (pre ++ [l]) L := by
              right
              refine ⟨pre, l, [], rfl, hkind, by simp, ?_⟩
              unfold labelsOf at hm
              simp only at hm
              split at hm
              · next hc =>
                cases hf : c.scan.N.first with
                | error e => rw [hf] at hm; cases hm
                | ok n =>
                  rw [hf] at hm
                  left
                  rcases i1 with ⟨e, _⟩ | ⟨nm, e1, e2⟩
                  · rw [e] at hf; cases hf
                  · rw [e2] at hf
                    refine ⟨nm, n, e1, ?_, ?_⟩
                    · cases nm with
                      | nil => cases hf
                      | cons a as => cases hf; rfl
                    · simp only at hm
                      cases hm
                      unfold labelsOn
                      simp [hc.1]
              · next hc =>
                right
                cases hm
                refine ⟨rfl, ?_⟩
                intro h1
                apply hc
                refine ⟨h1, ?_⟩
                rcases i1 with ⟨e, _⟩ | ⟨nm, e1, e2⟩
                · rw [e]; simp
                · rw [e2]; simp
            cases h1 : L.head? with
            | none => rw [h1] at hok; simp [Res.raise] at hok
            | some a =>
              rw [h1] at hok
              cases h2 : L.getLast? with
              | none => rw [h2] at hok; simp [Res.raise] at hok
              | some b => exact ⟨L, rfl, hres⟩
        · have hL' := notk .L (by simp) (by simp) (by rw [hk]; simpa using hkL)
          exact lInv_same i2 hL' (ps_L env k l c hkL)
      · by_cases hkd : k = .data ∨ k = .A
        · have hkind : (isKind .data l || isKind .A l) = true := by
            rcases hkd with e | e
            · subst e; rw [hyes (by simp) (by simp)]; rfl
            · subst e; rw [hyes (by simp) (by simp)]; simp
          have : (procScan env k l c).1.scan.dataLines = some (dataLinesOf pre ++ [l]) := by
            rcases hkd with e | e
            · subst e; simp only [procScan, onScan, procObj, procData, i3]; rfl
            · subst e; simp only [procScan, onScan, procObj, procData, i3]; rfl
          rw [this]
          unfold dataLinesOf
          simp only [List.filter_append, List.filter_cons, hkind, if_true, List.filter_nil]
        · rw [not_or] at hkd
          rw [ps_dataLines env k l c hkd.1 hkd.2, i3]
          have hD' := notk .data (by simp) (by simp) (by rw [hk]; simpa using hkd.1)
          have hA' := notk .A (by simp) (by simp) (by rw [hk]; simpa using hkd.2)
          simp [dataLinesOf, hD', hA']
  · exact ⟨.inl ⟨hN, by simp⟩, ⟨[], hL, .inl ⟨rfl, by simp⟩⟩, hd⟩

include hr in
/-- Interpretation of a scan with data lines.  There is a line with the number
of columns.  The columns are named after the stated labels, renamed to be distinct.  The table has
one row for each complete line of numbers, in order; all other lines are left out.  Each MCA line
contributes its spectrum under its name, in order. -/
theorem interp_data (c : ScanCtx) (hf : Fresh c.scan) (hok : (interpretScan env reg c).2 = none)
    (hl : dataLinesOf (scanLines c.scan.raw) ≠ []) :
    let x := (interpretScan env reg c).1.scan
    let dl := dataLinesOf (scanLines c.scan.raw)
    ∃ labels names nm lines, StatedLabels (scanLines c.scan.raw) labels ∧ x.L = some names ∧
      Renamed labels names ∧ x.N = .nums nm ∧ nm ≠ [] ∧ ColumnNumbers (scanLines c.scan.raw) nm ∧
      CombinedBy nm dl lines ∧ lines.filter isMcaLine = dl.filter isMcaLine ∧
      (p!"_mca_" ∉ names ∨ hasMca dl = false → ∃ rows spectra,
        TableOf names rows spectra x.data ∧
        List.Forall₂ NumbersOf (lines.filter (isCompleteRow names.length)) rows ∧
        (spectra.isSome = true ↔ ∃ l ∈ dl, isMcaLine l = true ∧ 2 < l.length) ∧
        (∀ l ∈ dl, isMcaLine l = true → spectra.isSome = true) ∧
        ∀ s, spectra = some s → McaOf (dl.filter isMcaLine) s) := by
  intro x dl
  have hl' : ∃ l ∈ scanLines c.scan.raw, ∃ k, postOf k = some .scanData ∧ isKind k l = true := by
    obtain ⟨l, h⟩ := List.exists_mem_of_ne_nil _ hl
    obtain ⟨h1, h2⟩ := List.mem_filter.1 h
    rcases Bool.or_eq_true_iff.1 h2 with e | e
    · exact ⟨l, h1, .data, rfl, e⟩
    · exact ⟨l, h1, .A, rfl, e⟩
  obtain ⟨c1, c0, e1, a1, a2, a3⟩ := interp_post env reg hr .scanData (by simp [soleLabel])
    (fun c => (c.scan.L, c.scan.data, c.scan.N))
    (fun c => (c.scan.L, c.scan.N, c.scan.dataLines))
    (fun f c h => by simp only [pp_L env f c h, pp_data env f c h, pp_N])
    (fun f c h => by simp only [pp_L env f c h, pp_dataLines, pp_N])
    (fun c b => rfl) c hf hok hl'
  simp only [Prod.mk.injEq] at a1 a3
  obtain ⟨b1, b2, b3⟩ := a1
  obtain ⟨d1, d2, d3⟩ := a3
  rw [pp_N] at d3
  have hfr : c.scan.N = .minusOne ∧ c.scan.L = some [] ∧ c.scan.dataLines = some [] := by
    obtain ⟨_, _, _, _, _, _, _, _, _, e⟩ := hf; rw [e]; exact ⟨rfl, rfl, rfl⟩
  have hinv := inv_lines env reg hr (scanLines c.scan.raw) (scanLines_no_nl _)
    { c with scan := { c.scan with lazy := false } } hfr.1 hfr.2.1 hfr.2.2 (by rw [e1])
  rw [e1] at hinv
  obtain ⟨i1, ⟨L, i2, i3⟩, i4⟩ := hinv
  simp only at i1 i2 i4
  simp only [runPost, onScan] at a2 d1 d2
  obtain ⟨names, nm, lines, d0, p1, p2, p3, p4, p5, p6, p7, p8⟩ := postData_ok a2
  rw [b1, i2, Option.getD_some] at p1
  rw [b3, i4, Option.getD_some] at p4 p5
  rw [p7] at d1
  rw [p8] at d2
  refine ⟨L, names, nm, lines, i3, d1, p1, by rw [d3, p2], p3, ?_, C25_combined p4, C25_mca_kept p4, ?_⟩
  · rcases i1 with ⟨h1, _⟩ | ⟨nm', h1, h2⟩
    · rw [b2, h1] at p2; cases p2
    · rw [b2, h2] at p2; cases p2; exact h1
  · intro hmca
    have hnd := renamed_nodup p1
    have hcol : ∀ n ∈ names, Dict.get? (names.map (fun k => (k, DCol.col []))) n = some (.col []) := by
      intro n hn
      have hk : (Dict.keys (names.map (fun k => (k, DCol.col [])))) = names := by
        simp [Dict.keys, Function.comp_def]
      rw [← Dict.mem_iff_get? _ (by rw [hk]; exact hnd)]
      exact List.mem_map.2 ⟨n, hn, rfl⟩
    have hkeys : Dict.keys (names.map (fun k => (k, DCol.col []))) = names := by simp [Dict.keys, Function.comp_def]
    by_cases hm : hasMca (dataLinesOf (scanLines c.scan.raw)) = true
    · rw [if_pos hm] at p5
      have hnot : p!"_mca_" ∉ names := by
        rcases hmca with h | h
        · exact h
        · rw [hm] at h; cases h
      have ht : TableOf names [] (some []) d0 := by
        rw [p5]
        refine ⟨?_, by simp, ?_, ?_⟩
        · rw [Dict.set_of_not_mem _ _ _ (by rw [hkeys]; exact hnot)]
          simp [Dict.keys, Function.comp_def]
        · intro i n hi
          have hmem := List.mem_of_getElem? hi
          rw [Dict.get?_set_ne _ _ (by rintro rfl; exact hnot hmem), hcol n hmem]; rfl
        · intro s e; cases e; rw [Dict.get?_set_self]
      obtain ⟨rows, m', q1, q2, q3, q4, q5⟩ := dataLines_ok hnd lines [] [] (some []) d0
        (fun _ => hnot) ht (fun s e => by cases e; exact ⟨rfl, by simp⟩) p6
      rw [← d2] at q1
      simp only [List.nil_append] at q1 q5
      refine ⟨rows, m', q1, q4, ?_, ?_, ?_⟩
      · rw [q2]
        simp only [Option.isSome_some, true_iff]
        unfold hasMca at hm
        rw [List.any_eq_true] at hm
        obtain ⟨l, h1, h2⟩ := hm
        simp only [Bool.and_eq_true, decide_eq_true_eq, beq_iff_eq] at h2
        refine ⟨l, h1, ?_, h2.1⟩
        unfold isMcaLine startsWith
        rw [List.isPrefixOf_iff_prefix, ← h2.2]
        exact List.take_prefix _ _
      · intro l _ _; rw [q2]; rfl
      · intro s e; rw [← C25_mca_kept p4]; exact q5 s e
    · rw [if_neg hm] at p5
      have ht : TableOf names [] none d0 := by
        rw [p5]
        refine ⟨by rw [hkeys]; simp, by simp, ?_, by simp⟩
        intro i n hi
        rw [hcol n (List.mem_of_getElem? hi)]; rfl
      obtain ⟨rows, m', q1, q2, q3, q4, q5⟩ := dataLines_ok hnd lines [] [] none d0
        (by simp) ht (by simp) p6
      rw [← d2] at q1
      simp only [List.nil_append] at q1 q5
      have hno : ∀ l ∈ dl, isMcaLine l = false := by
        intro l hl
        by_contra hc
        rw [Bool.not_eq_false] at hc
        have : l ∈ dl.filter isMcaLine := List.mem_filter.2 ⟨hl, hc⟩
        rw [show dl.filter isMcaLine = lines.filter isMcaLine from (C25_mca_kept p4).symm] at this
        obtain ⟨h1, h2⟩ := List.mem_filter.1 this
        rw [q3 rfl l h1] at h2; cases h2
      refine ⟨rows, m', q1, q4, ?_, ?_, ?_⟩
      · rw [q2]
        constructor
        · intro h; cases h
        · rintro ⟨l, h1, h2, _⟩
          rw [hno l h1] at h2; cases h2
      · intro l h1 h2; rw [hno l h1] at h2; cases h2
      · intro s e; rw [← C25_mca_kept p4]; exact q5 s e

include hr in
/-- **C21.**  After a successful interpretation of a scan with data lines, `scan.data` is a table
whose columns are named by `scan.L` and which has one row for each complete line (as many words as
columns, all of them numbers), in file order; the other lines are left out.  The lines are the data
lines of the scan, put together as the #N line says (C25).  A label `_mca_` is excluded if there
are MCA lines. -/
theorem C21_table (c : ScanCtx) (hf : Fresh c.scan) (hok : (interpretScan env reg c).2 = none)
    (hl : dataLinesOf (scanLines c.scan.raw) ≠ []) :
    let x := (interpretScan env reg c).1.scan
    let dl := dataLinesOf (scanLines c.scan.raw)
    ∃ names nm lines, x.L = some names ∧ ColumnNumbers (scanLines c.scan.raw) nm ∧
      CombinedBy nm dl lines ∧
      (p!"_mca_" ∉ names ∨ (∀ l ∈ dl, isMcaLine l = false) → ∃ rows spectra,
        TableOf names rows spectra x.data ∧
        List.Forall₂ NumbersOf (lines.filter (isCompleteRow names.length)) rows) := by
  intro x dl
  obtain ⟨labels, names, nm, lines, h1, h2, h3, h4, h5, h6, h7, h8, h9⟩ := interp_data env reg hr c hf hok hl
  refine ⟨names, nm, lines, h2, h6, h7, ?_⟩
  intro h
  obtain ⟨rows, sp, a1, a2, _⟩ := h9 (h.imp id (fun h => by
    unfold hasMca
    rw [List.any_eq_false]
    intro l hl hc
    have := h l hl
    simp only [Bool.and_eq_true, decide_eq_true_eq, beq_iff_eq] at hc
    rw [← Bool.not_eq_true] at this
    apply this
    unfold isMcaLine startsWith
    rw [List.isPrefixOf_iff_prefix, ← hc.2]
    exact List.take_prefix _ _))
  exact ⟨rows, sp, a1, a2⟩

/-- all the columns of a table have the same length -/
theorem C21_rectangular {names : List Str} {rows : List (List PyFloat)}
    {sp : Option (Dict (List (List Num)))} {d : Dict DCol} (h : TableOf names rows sp d) (k : Str)
    (hk : k ∈ names) : ∃ xs, d.get? k = some (.col xs) ∧ xs.length = rows.length := by
  obtain ⟨i, hi, e⟩ := List.getElem_of_mem hk
  exact ⟨_, h.column i k (by rw [List.getElem?_eq_getElem hi, e]), by simp⟩

include hr in
/-- **C21**, without data lines there is no table and the labels stay as stated. -/
theorem C21_no_data (c : ScanCtx) (hf : Fresh c.scan) (hok : (interpretScan env reg c).2 = none)
    (hl : dataLinesOf (scanLines c.scan.raw) = []) :
    (interpretScan env reg c).1.scan.data = [] ∧
    ∃ labels, StatedLabels (scanLines c.scan.raw) labels ∧
      (interpretScan env reg c).1.scan.L = some labels := by
  obtain ⟨c1, e1, a1⟩ := interp_no_post env reg hr .scanData (by simp [soleLabel])
    (fun c => (c.scan.data, c.scan.L))
    (fun f c h => by simp only [pp_L env f c h, pp_data env f c h])
    (fun c b => rfl) c hf hok (by
      rintro ⟨l, h1, k, h2, h3⟩
      have : l ∈ dataLinesOf (scanLines c.scan.raw) := by
        refine List.mem_filter.2 ⟨h1, ?_⟩
        cases k <;> simp [postOf] at h2 <;> simp [h3]
      rw [hl] at this; cases this)
  simp only [Prod.mk.injEq] at a1
  have hfr : c.scan.N = .minusOne ∧ c.scan.L = some [] ∧ c.scan.dataLines = some [] ∧ c.scan.data = [] := by
    obtain ⟨_, _, _, _, _, _, _, _, _, e⟩ := hf; rw [e]; exact ⟨rfl, rfl, rfl, rfl⟩
  have hinv := inv_lines env reg hr (scanLines c.scan.raw) (scanLines_no_nl _)
    { c with scan := { c.scan with lazy := false } } hfr.1 hfr.2.1 hfr.2.2.1 (by rw [e1])
  have hd := forEach_pres (scanLine env reg) (fun c => c.scan.data) (scanLines c.scan.raw)
    (fun l _ s => by
      rw [scanLine_eq]
      split
      · rfl
      · exact ps_data env _ _ s) { c with scan := { c.scan with lazy := false } }
  rw [e1] at hinv hd
  obtain ⟨_, ⟨L, i2, i3⟩, _⟩ := hinv
  exact ⟨by rw [a1.1, hd]; exact hfr.2.2.2, L, i3, by rw [a1.2]; exact i2⟩

include hr in
/-- **C22.**  After a successful interpretation of a scan with data lines, the labels `scan.L` are
pairwise distinct, as many as the labels stated in the scan; one after the other, each is the first
of `label`, `label_1`, `label_2`, … that no label before it has.  They are, in this order, the keys
of `scan.data` (followed by `_mca_` if there are MCA data). -/
theorem C22_labels (c : ScanCtx) (hf : Fresh c.scan) (hok : (interpretScan env reg c).2 = none)
    (hl : dataLinesOf (scanLines c.scan.raw) ≠ []) :
    let x := (interpretScan env reg c).1.scan
    ∃ labels names, StatedLabels (scanLines c.scan.raw) labels ∧ x.L = some names ∧
      names.Nodup ∧ Renamed labels names ∧
      (p!"_mca_" ∉ names →
        x.data.keys = names ∨ x.data.keys = names ++ [p!"_mca_"]) := by
  intro x
  obtain ⟨labels, names, nm, lines, h1, h2, h3, h4, h5, h6, h7, h8, h9⟩ := interp_data env reg hr c hf hok hl
  refine ⟨labels, names, h1, h2, renamed_nodup h3, h3, ?_⟩
  intro hn
  obtain ⟨rows, sp, a1, _⟩ := h9 (.inl hn)
  have := a1.keys
  split at this
  · exact .inr this
  · exact .inl (by simpa using this)

include hr in
/-- **C24.**  After a successful interpretation, `scan.data["_mca_"]` holds exactly one spectrum for
each line that starts with `@A`, in file order, with exactly the numbers of the line, under the name
`mca` followed by what follows `@A`. -/
theorem C24_spectra (c : ScanCtx) (hf : Fresh c.scan) (hok : (interpretScan env reg c).2 = none)
    (hl : ∃ l ∈ dataLinesOf (scanLines c.scan.raw), isMcaLine l = true)
    (hn : p!"_mca_" ∉ ((interpretScan env reg c).1.scan.L).getD []) :
    ∃ s, (interpretScan env reg c).1.scan.data.get? p!"_mca_" = some (.mca s) ∧
      McaOf ((dataLinesOf (scanLines c.scan.raw)).filter isMcaLine) s := by
  obtain ⟨l, hl1, hl2⟩ := hl
  obtain ⟨labels, names, nm, lines, h1, h2, h3, h4, h5, h6, h7, h8, h9⟩ :=
    interp_data env reg hr c hf hok (List.ne_nil_of_mem hl1)
  rw [h2] at hn
  obtain ⟨rows, sp, a1, a2, a3, a4, a5⟩ := h9 (.inl hn)
  have := a4 l hl1 hl2
  cases sp with
  | none => cases this
  | some s => exact ⟨s, a1.mca s rfl, a5 s rfl⟩

omit [UniDB] in
/-- **C24**, continued lines: text lines ending with a backslash are one line with the next, the
backslash and line break counting as a space. -/
theorem C24_continued (gs : List (List Str)) (h : ∀ g ∈ gs, Parts g)
    (hl : ∀ g, gs.getLast? = some g → join [' '] g ≠ []) :
    scanLines (join ['\n'] (gs.map continued)) = gs.map (join [' ']) := scanLines_groups gs h hl

end

/-! A concrete scan with MCA data. -/

/-- text of a scan with MCA data -/
def mcaRaw : Str :=
  join ['\n'] [p!"#S 1 ascan  th 0 1 2 1", p!"#N 2", p!"#L th  det", p!"@A 1 2\\", p!" 3 4", p!"0 1",
    p!"@A1 0.5 1.5", p!"@A 5 6 7 8", p!"1 2 ", p!"7"]

/-- the scan as read -/
def mcaScan : ScanCtx :=
  ⟨Obj.newScan p!"f.dat" 0 mcaRaw, { Obj.newHeader p!"f.dat" [] with date := p!"x" }⟩

theorem mca_fresh : Fresh mcaScan.scan := ⟨_, _, _, _, _, _, _, _, _, rfl⟩

theorem C21_nonvacuous :
    (@interpretScan asciiDB demoEnv HKey.all demoScan).2 = none ∧
    @dataLinesOf asciiDB (scanLines demoScan.scan.raw) = [p!"0 1 2", p!"0.5 3 4", p!"1 5 6"] ∧
    (@interpretScan asciiDB demoEnv HKey.all demoScan).1.scan.data =
      [(p!"th", .col [.fin 0, .fin (1/2), .fin 1]), (p!"det", .col [.fin 1, .fin 3, .fin 5]),
       (p!"det_1", .col [.fin 2, .fin 4, .fin 6])] := by
  decide +kernel

theorem C22_nonvacuous :
    (@interpretScan asciiDB demoEnv HKey.all demoScan).1.scan.L = some [p!"th", p!"det", p!"det_1"] := by
  decide +kernel

theorem C24_nonvacuous :
    (@interpretScan asciiDB demoEnv HKey.all mcaScan).2 = none ∧
    @dataLinesOf asciiDB (scanLines mcaScan.scan.raw) =
      [p!"@A 1 2  3 4", p!"0 1", p!"@A1 0.5 1.5", p!"@A 5 6 7 8", p!"1 2 "] ∧
    (@interpretScan asciiDB demoEnv HKey.all mcaScan).1.scan.data.get? p!"_mca_" =
      some (.mca [(p!"mca", [[.int 1, .int 2, .int 3, .int 4], [.int 5, .int 6, .int 7, .int 8]]),
        (p!"mca1", [[.flt (.fin (1/2)), .flt (.fin (3/2))]])]) ∧
    p!"_mca_" ∉ ((@interpretScan asciiDB demoEnv HKey.all mcaScan).1.scan.L).getD [] := by
  decide +kernel

/-- The first occurrence of a label need not keep its name. -/
theorem C22_first_can_change :
    (renameCols [p!"a", p!"a", p!"a_1"] [] []).1.1 = [p!"a", p!"a_1", p!"a_1_1"] := by decide +kernel

/-- An indented MCA line is a data line, but contributes nothing. -/
theorem C24_indented_line_lost :
    isMcaLine p!" @A 1 2" = false ∧ @dataLinesOf asciiDB [p!" @A 1 2"] = [p!" @A 1 2"] := by
  decide +kernel

end S2N.Props
