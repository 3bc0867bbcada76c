import Verif.Lemmas.Fits
/-
The steps after the lines of a scan that can be interpreted do not raise.
-/
namespace S2N.Props
open S2N S2N.Py S2N.Spec

/-! ### Tables -/

theorem xrefRow_total : ∀ (ms ns : List Str) (d : Dict Str), ms.length ≤ ns.length → (xrefRow ms ns d).2 = none
  | [], _, _, _ => rfl
  | _ :: _, [], _, h => by simp at h
  | m :: ms, n :: ns, d, h => xrefRow_total ms ns (d.set m n) (by simpa using h)

theorem xrefRows_total : ∀ (ms ns : List (List Str)) (d : Dict Str),
    (∀ (i : Nat) (m : List Str), ms[i]? = some m → ∃ n, ns[i]? = some n ∧ m.length ≤ n.length) → (xrefRows ms ns d).2 = none
  | [], _, _, _ => rfl
  | m :: ms, [], _, h => by
    obtain ⟨n, hn, -⟩ := h 0 m rfl
    simp at hn
  | m :: ms, n :: ns, d, h => by
    obtain ⟨n', hn, hl⟩ := h 0 m rfl
    simp only [List.getElem?_cons_zero, Option.some.injEq] at hn
    subst hn
    unfold xrefRows
    rw [Res.andThen_of_none (xrefRow_total m n d hl)]
    exact xrefRows_total ms ns _ (fun i m' hi => by simpa using h (i + 1) m' (by simpa using hi))

theorem positionRow_total (row : Nat) (names : List Str) : ∀ (vs : List Str) (col : Nat) (s : Dict PyFloat × List Str),
    (∀ (i : Nat) (v : Str), vs[i]? = some v → col + i < names.length → Numeric v) → (positionRow row names col vs s).2 = none
  | [], _, _, _ => rfl
  | v :: vs, col, s, h => by
    have hrest : ∀ (i : Nat) (v' : Str), vs[i]? = some v' → col + 1 + i < names.length → Numeric v' := by
      intro i v' hi hl
      exact h (i + 1) v' (by simpa using hi) (by omega)
    unfold positionRow
    cases hn : names[col]? with
    | none => exact positionRow_total row names vs (col + 1) _ hrest
    | some mne =>
      obtain ⟨f, hf⟩ := h 0 v rfl (by
        rw [Nat.add_zero]
        by_contra hc
        rw [List.getElem?_eq_none (by omega)] at hn
        cases hn)
      simp only [hf, Res.eval]
      exact positionRow_total row names vs (col + 1) _ hrest

theorem positionRows_total (O : List (List Str)) : ∀ (rows : List (List Str)) (row : Nat) (s : Dict PyFloat × List Str),
    (∀ (i : Nat) (vs names : List Str), rows[i]? = some vs → O[row + i]? = some names → ∀ v ∈ vs.take names.length, Numeric v) →
    (positionRows O row rows s).2 = none
  | [], _, _, _ => rfl
  | vs :: rows, row, s, h => by
    have hrest : ∀ (i : Nat) (vs' names : List Str), rows[i]? = some vs' → O[row + 1 + i]? = some names → ∀ v ∈ vs'.take names.length, Numeric v := by
      intro i vs' names hi ho
      exact h (i + 1) vs' names (by simpa using hi) (by rw [← ho]; congr 1; omega)
    unfold positionRows
    cases hn : O[row]? with
    | none => exact positionRows_total O rows (row + 1) _ hrest
    | some names =>
      simp only
      rw [Res.andThen_of_none (positionRow_total row names vs 0 s ?_)]
      · exact positionRows_total O rows (row + 1) _ hrest
      · intro i v hi hl
        refine h 0 vs names rfl (by simpa using hn) v ?_
        rw [List.mem_iff_getElem?]
        exact ⟨i, by rw [List.getElem?_take_of_lt (by omega)]; exact hi⟩

theorem metaRow_total (labels : List Str) : ∀ (vs : List Str) (col : Nat) (d : Dict MVal), col + vs.length ≤ labels.length →
    (metaRow labels col vs d).2 = none
  | [], _, _, _ => rfl
  | v :: vs, col, d, h => by
    simp only [List.length_cons] at h
    unfold metaRow
    have : labels[col]? = some (labels[col]'(by omega)) := List.getElem?_eq_getElem _
    rw [this]
    exact metaRow_total labels vs (col + 1) _ (by omega)

theorem metaRows_total (H : List (List Str)) : ∀ (rows : List (List Str)) (row : Nat) (d : Dict MVal),
    (∀ (i : Nat) (r : List Str), rows[i]? = some r → ∃ labels, H[row + i]? = some labels ∧ r.length ≤ labels.length) →
    (metaRows H row rows d).2 = none
  | [], _, _, _ => rfl
  | r :: rows, row, d, h => by
    obtain ⟨labels, h1, h2⟩ := h 0 r rfl
    rw [Nat.add_zero] at h1
    unfold metaRows
    rw [h1]
    simp only
    rw [Res.andThen_of_none (metaRow_total labels r 0 d (by omega))]
    refine metaRows_total H rows (row + 1) _ ?_
    intro i r' hi
    obtain ⟨l', h3, h4⟩ := h (i + 1) r' (by simpa using hi)
    exact ⟨l', by rw [← h3]; congr 1; omega, h4⟩

/-! ### Data -/

theorem interpRow_total : ∀ (L ws : List Str) (d : Dict PyFloat), ws.length ≤ L.length →
    interpRow L ws d = .error .ValueError ∨ ∃ r, interpRow L ws d = .ok r
  | L, [], d, _ => .inr ⟨d, by cases L <;> rfl⟩
  | [], _ :: _, _, h => by simp at h
  | l :: L, w :: ws, d, h => by
    unfold interpRow
    cases hw : Py.float w with
    | error e =>
      left
      have : e = .ValueError := by
        unfold Py.float at hw
        split at hw
        · cases hw
        · cases hw; rfl
      rw [this]
    | ok f => exact interpRow_total L ws (d.set l f) (by simpa using h)

/-- the table has a column for each name, and a place for the spectra -/
structure TableInv (names : List Str) (mca : Bool) (d : Dict DCol) : Prop where
  col : ∀ n ∈ names, ∃ xs, d.get? n = some (.col xs)
  mca : mca = true → ∃ m, d.get? p!"_mca_" = some (.mca m)

theorem appendRow_total {names : List Str} {mca : Bool} (hm : mca = true → p!"_mca_" ∉ names) : ∀ (r : Dict PyFloat) (d : Dict DCol), TableInv names mca d → (∀ k ∈ r.keys, k ∈ names) →
    (appendRow r d).2 = none ∧ TableInv names mca (appendRow r d).1
  | [], d, h, _ => ⟨rfl, h⟩
  | (l, v) :: r, d, h, hk => by
    obtain ⟨xs, hx⟩ := h.col l (hk l (by simp [Dict.keys]))
    unfold appendRow
    rw [hx]
    simp only
    refine appendRow_total hm r _ ⟨?_, ?_⟩ (fun k h' => hk k (by simp [Dict.keys] at h' ⊢; exact .inr h'))
    · intro n hn
      by_cases he : l = n
      · subst he; exact ⟨_, Dict.get?_set_self _ _ _⟩
      · rw [Dict.get?_set_ne _ _ he]; exact h.col n hn
    · intro hb
      have : l ≠ p!"_mca_" := by
        rintro rfl
        exact hm hb (hk _ (by simp [Dict.keys]))
      rw [Dict.get?_set_ne _ _ this]
      exact h.mca hb

theorem mcaNums_total {line w : Str} {ws : List Str} {xs : List Num} (hs : splitWs line = w :: ws) (h : SpectrumOf line xs) :
    ∃ ns, mcaNums line ws = .ok ns := by
  unfold SpectrumOf at h
  rw [hs, List.tail_cons] at h
  unfold mcaNums
  have hm : ∀ v ∈ ws, ∃ x, if '.' ∈ line then ∃ f, parseFloat v = some f ∧ x = Num.flt f else ∃ i, parseInt v = some i ∧ x = Num.int i := by
    clear hs
    induction h with
    | nil => simp
    | cons h1 h2 ih =>
      intro v hv
      rcases List.mem_cons.1 hv with rfl | hv
      · exact ⟨_, h1⟩
      · exact ih v hv
  split
  · next hc =>
    have hc' : '.' ∈ line := by simpa using hc
    obtain ⟨bs, h1, -⟩ := mapE_all (fun w => (Py.float w).map Num.flt) ws (by
      intro v hv
      obtain ⟨x, hx⟩ := hm v hv
      rw [if_pos hc'] at hx
      obtain ⟨f, hf, -⟩ := hx
      exact ⟨.flt f, by simp [Py.float, hf, Except.map]⟩)
    exact ⟨bs, h1⟩
  · next hc =>
    have hc' : '.' ∉ line := by simpa using hc
    obtain ⟨bs, h1, -⟩ := mapE_all (fun w => (Py.int w).map Num.int) ws (by
      intro v hv
      obtain ⟨x, hx⟩ := hm v hv
      rw [if_neg hc'] at hx
      obtain ⟨f, hf, -⟩ := hx
      exact ⟨.int f, by simp [Py.int, hf, Except.map]⟩)
    exact ⟨bs, h1⟩

theorem mca_words {line : Str} (h : isMcaLine line = true) : ∃ w ws, splitWs line = w :: ws := by
  have hne : splitWs line ≠ [] := by
    rw [ne_eq, splitWs_eq_nil_iff]
    intro hall
    obtain ⟨r, rfl⟩ : p!"@A" <+: line := by simpa [isMcaLine, startsWith] using h
    exact absurd (hall '@' (by simp)) (by decide)
  exact List.exists_cons_of_ne_nil hne

theorem dataLine_total {names : List Str} {n : Nat} {mca : Bool} (hm : mca = true → p!"_mca_" ∉ names) (hn : names.Nodup) {line : Str} {d : Dict DCol} (h : TableInv names mca d)
    (h1 : isMcaLine line = true → mca = true ∧ ∃ xs, SpectrumOf line xs) (h2 : isMcaLine line = false → (splitWs line).length ≤ names.length) :
    (dataLine names n line d).2 = none ∧ TableInv names mca (dataLine names n line d).1 := by
  unfold dataLine
  by_cases hl : isMcaLine line = true
  · have hl' : startsWith line p!"@A" = true := hl
    simp only [hl', if_true]
    obtain ⟨hb, xs, hx⟩ := h1 hl
    obtain ⟨w, ws, hw⟩ := mca_words hl
    obtain ⟨m, hmm⟩ := h.mca hb
    obtain ⟨ns, hns⟩ := mcaNums_total hw hx
    unfold mcaLine
    simp only [hw, hmm, hns, Res.eval]
    refine ⟨rfl, ?_, ?_⟩
    · intro k hk
      have : p!"_mca_" ≠ k := fun e => hm hb (e ▸ hk)
      show ∃ xs, ((d.set _ _).set _ _).get? k = _
      rw [Dict.get?_set_ne _ _ this, Dict.get?_set_ne _ _ this]
      exact h.col k hk
    · intro _
      exact ⟨_, Dict.get?_set_self _ _ _⟩
  · have hl' : startsWith line p!"@A" = false := by
      rw [← Bool.not_eq_true]; exact hl
    simp only [hl', Bool.false_eq_true, if_false]
    rcases interpRow_total names (splitWs line) [] (h2 (by rw [← Bool.not_eq_true]; exact hl)) with he | ⟨r, he⟩
    · rw [he]; exact ⟨rfl, h⟩
    · rw [he]
      simp only
      split
      · refine appendRow_total hm r d h ?_
        obtain ⟨fs, -, -, e⟩ := interpRow_ok names (splitWs line) [] r (by simpa [Dict.keys] using hn) he
        rw [e]
        intro k hk
        simp only [List.nil_append, Dict.keys, List.mem_map] at hk
        obtain ⟨p, hp, rfl⟩ := hk
        exact (List.of_mem_zip hp).1
      · exact ⟨rfl, h⟩

theorem dataLines_total {names : List Str} {n : Nat} {mca : Bool} (hm : mca = true → p!"_mca_" ∉ names) (hn : names.Nodup) : ∀ (lines : List Str) (d : Dict DCol), TableInv names mca d →
    (∀ l ∈ lines, isMcaLine l = true → mca = true ∧ ∃ xs, SpectrumOf l xs) → (∀ l ∈ lines, isMcaLine l = false → (splitWs l).length ≤ names.length) →
    (forEach (dataLine names n) lines d).2 = none
  | [], _, _, _, _ => rfl
  | l :: ls, d, h, h1, h2 => by
    obtain ⟨h3, h4⟩ := dataLine_total (n := n) hm hn h (h1 l (by simp)) (h2 l (by simp))
    simp only [forEach, Res.andThen_of_none h3]
    exact dataLines_total hm hn ls _ h4 (fun x hx => h1 x (by simp [hx])) (fun x hx => h2 x (by simp [hx]))

theorem combineLoop_mca {N : Int} : ∀ (ls : List Str) (b : NMBuf) (dl : List Str), (∀ l ∈ ls, isMcaLine l = true) → ∃ out, combineLoop N ls b dl = .ok out
  | [], _, dl, _ => ⟨dl, rfl⟩
  | l :: ls, b, dl, h => by
    have hl : startsWith l p!"@A" = true := h l (by simp)
    unfold combineLoop
    simp only [hl, if_true]
    split
    · exact combineLoop_mca ls _ _ (fun x hx => h x (by simp [hx]))
    · exact combineLoop_mca ls _ _ (fun x hx => h x (by simp [hx]))

theorem combineLoop_total {N : Int} {ms : List Str} (hm : ∀ l ∈ ms, isMcaLine l = true) : ∀ (ls : List Str) (b : Str) (dl : List Str), (∀ l ∈ ls, isMcaLine l = false) →
    ∃ out, combineLoop N (ls ++ ms) (.str b) dl = .ok out
  | [], b, dl, _ => combineLoop_mca ms _ _ hm
  | l :: ls, b, dl, h => by
    have hl : startsWith l p!"@A" = false := h l (by simp)
    rw [List.cons_append]
    unfold combineLoop
    simp only [hl, Bool.false_eq_true, if_false]
    repeat' split
    all_goals exact combineLoop_total hm ls _ _ (fun x hx => h x (by simp [hx]))

/-- A label does not become `_mca_` by renaming. -/
theorem renamed_mca {L names : List Str} (h : Renamed L names) (hL : p!"_mca_" ∉ L) : p!"_mca_" ∉ names := by
  intro hm
  obtain ⟨i, hi, e⟩ := List.getElem_of_mem hm
  have hi' : i < L.length := h.length ▸ hi
  obtain ⟨n, h1, -, -⟩ := h.name i L[i] p!"_mca_" (List.getElem?_eq_getElem hi') (by rw [List.getElem?_eq_getElem hi, e])
  cases n with
  | zero => exact hL (by rw [h1]; exact List.getElem_mem _)
  | succ n =>
    unfold candidate at h1
    have h2 : (p!"_mca_").getLast? = some '_' := rfl
    have h3 := congrArg List.getLast? h1
    rw [h2, List.getLast?_append, List.getLast?_cons, Option.some_or] at h3
    have hne := natStr_ne_nil (n + 1)
    cases hg : (natStr (n + 1)).getLast? with
    | none => exact hne (List.getLast?_eq_none_iff.1 hg)
    | some c =>
      rw [hg] at h3
      simp only [Option.getD_some, Option.some.injEq] at h3
      have := natStr_isDig (n + 1) c (List.mem_of_getLast? hg)
      rw [← h3] at this
      exact absurd this (by decide)

theorem postData_total {x : Obj} {L dl : List Str} {nm : List Int} (hL : x.L = some L) (hN : x.N = .nums nm) (hd : x.dataLines = some dl)
    (hnm : nm.length = 1 ∨ nm.length = 2) (h1 : L.length ≤ 1000) (h2 : ∀ l, L = [l] → ' ' ∉ l)
    (h3 : (∃ l ∈ dl, isMcaLine l = true) → p!"_mca_" ∉ L) (hlen : ∀ l ∈ dl, isMcaLine l = true → 2 < l.length)
    (horder : nm.length = 2 → ∃ a b, dl = a ++ b ∧ (∀ l ∈ a, isMcaLine l = false) ∧ ∀ l ∈ b, isMcaLine l = true)
    (hrows : ∀ ls, CombinedBy nm dl ls → ∀ l ∈ ls, isMcaLine l = false → (splitWs l).length ≤ L.length)
    (hsp : ∀ l ∈ dl, isMcaLine l = true → ∃ xs, SpectrumOf l xs) : (postData x).2 = none := by
  obtain ⟨n, ns, rfl⟩ : ∃ n ns, nm = n :: ns := by
    cases nm with
    | nil => simp at hnm
    | cons n ns => exact ⟨n, ns, rfl⟩
  obtain ⟨lines, hc⟩ : ∃ lines, combineSplit (n :: ns) dl = .ok lines := by
    match ns, hnm with
    | [], _ => exact ⟨dl, rfl⟩
    | [m], _ =>
      obtain ⟨a, b, e, ha, hb⟩ := horder rfl
      rw [e]
      exact combineLoop_total hb a [] [] ha
    | _ :: _ :: _, h => simp at h
  have hcond : ¬ (L.length = 1 ∧ splitC ' ' (L.headD []) ≠ splitTwo (L.headD [])) := by
    rintro ⟨h, hne⟩
    obtain ⟨l, rfl⟩ := List.length_eq_one_iff.1 h
    have := h2 l rfl
    apply hne
    show splitC ' ' l = splitTwo l
    rw [splitTwo_clean l this]
    exact splitP_of_none _ _ (by intro y hy; simp; rintro rfl; exact this hy)
  have hr := C22_never_raises L [] [] rfl (by simpa using h1)
  obtain ⟨names, r1, r2, r3⟩ := renameCols_ok L [] [] rfl hr
  simp only [List.nil_append] at r1 r3
  have hren : Renamed L names := ⟨r2, r3⟩
  have hnd := renamed_nodup hren
  have hkeys : Dict.keys (names.map (fun k => (k, DCol.col []))) = names := by simp [Dict.keys, Function.comp_def]
  have hcol : ∀ n ∈ names, Dict.get? (names.map (fun k => (k, DCol.col []))) n = some (.col []) := by
    intro n hn
    rw [← Dict.mem_iff_get? _ (by rw [hkeys]; exact hnd)]
    exact List.mem_map.2 ⟨n, hn, rfl⟩
  have hkept := C25_mca_kept hc
  have inl : ∀ l ∈ lines, isMcaLine l = true → l ∈ dl := by
    intro l hl hm
    have : l ∈ lines.filter isMcaLine := List.mem_filter.2 ⟨hl, hm⟩
    rw [hkept] at this
    exact (List.mem_filter.1 this).1
  have hsome : ∀ l ∈ dl, isMcaLine l = true → hasMca dl = true := by
    intro l hl hm
    unfold hasMca
    rw [List.any_eq_true]
    refine ⟨l, hl, ?_⟩
    have h4 := hlen l hl hm
    obtain ⟨r, rfl⟩ : p!"@A" <+: l := by simpa [isMcaLine, startsWith] using hm
    simp at h4
    simp
    omega
  have hnot : hasMca dl = true → p!"_mca_" ∉ names := by
    intro hm
    refine renamed_mca hren (h3 ?_)
    unfold hasMca at hm
    rw [List.any_eq_true] at hm
    obtain ⟨l, h1, h2⟩ := hm
    simp only [Bool.and_eq_true, decide_eq_true_eq, beq_iff_eq] at h2
    refine ⟨l, h1, ?_⟩
    unfold isMcaLine startsWith
    rw [List.isPrefixOf_iff_prefix, ← h2.2]
    exact List.take_prefix _ _
  have key : ∀ d0 : Dict DCol, TableInv names (hasMca dl) d0 → (forEach (dataLine names names.length) lines d0).2 = none := by
    intro d0 h
    refine dataLines_total hnot hnd lines d0 h ?_ ?_
    · intro l hl hm
      exact ⟨hsome l (inl l hl hm) hm, hsp l (inl l hl hm) hm⟩
    · intro l hl hm
      rw [r2]
      exact hrows lines (C25_combined hc) l hl hm
  unfold postData
  simp only [hL, Option.getD_some, if_neg hcond, hN, NVal.first, Res.eval, hr, r1, hd, List.length_map]
  by_cases hm : hasMca dl = true
  · have hf := key (Dict.set (names.map (fun k => (k, DCol.col []))) p!"_mca_" (.mca [])) ⟨by
      intro k hk
      rw [Dict.get?_set_ne _ _ (by rintro rfl; exact hnot hm hk)]
      exact ⟨_, hcol k hk⟩, fun _ => ⟨_, Dict.get?_set_self _ _ _⟩⟩
    simp only [hm, if_true, hN, hc, Option.getD_some, hf]
    rfl
  · have hf := key (names.map (fun k => (k, DCol.col []))) ⟨fun k hk => ⟨_, hcol k hk⟩, fun h => absurd h hm⟩
    simp only [hm, Bool.false_eq_true, if_false, hN, hc, Option.getD_some, hf]
    rfl

end S2N.Props
