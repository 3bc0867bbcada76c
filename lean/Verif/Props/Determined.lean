import Verif.Props.Plot
import Verif.Props.Read
/-
C21, C25: the text of a scan determines its table.
-/
namespace S2N.Props
open S2N S2N.Py S2N.Spec

/-- the non-blank lines, as words -/
def lineWords (ls : List Str) : List (List Str) := (ls.map splitWs).filter (· ≠ [])

theorem incomplete_cut {N : Int} {g g' ls t : List Str} {l : Str} (hi : Incomplete N g')
    (hw : (wordsIn (g ++ [l]) : Int) = N) (e : g ++ l :: ls = g' ++ t) : g'.length ≤ g.length := by
  by_contra hlt
  have hlt : g.length < g'.length := by omega
  have h1 : g'.take (g.length + 1) = g ++ [l] := by
    have := congrArg (List.take (g.length + 1)) e
    rw [List.take_append_of_le_length (l₁ := g') (by omega)] at this
    rw [← this, show g ++ l :: ls = (g ++ [l]) ++ ls by simp, List.take_append_of_le_length (by simp)]
    rw [List.take_of_length_le (by simp)]
  exact hi.2 (g.length + 1) (by omega) (by omega) (by rw [h1]; exact hw)

theorem flatMap_blank {g : List Str} (h : ∀ l ∈ g, l = []) : g.flatMap splitWs = [] := by
  rw [List.flatMap_eq_nil_iff]
  intro l hl
  rw [h l hl]; rfl

theorem lineWords_append (a b : List Str) : lineWords (a ++ b) = lineWords a ++ lineWords b := by
  simp [lineWords]

theorem mca_pre {g pre ms : List Str}
    (h : pre = [] ∧ (∀ l ∈ g, l = []) ∨ ∃ row, pre = [row] ∧ splitWs row = g.flatMap splitWs) :
    lineWords (pre ++ ms) = (if g.flatMap splitWs = [] then [] else [g.flatMap splitWs]) ++ lineWords ms := by
  rw [lineWords_append]
  congr 1
  rcases h with ⟨rfl, h⟩ | ⟨row, rfl, h⟩
  · rw [if_pos (flatMap_blank h)]; rfl
  · by_cases h0 : g.flatMap splitWs = []
    · rw [if_pos h0]; simp [lineWords, h, h0]
    · rw [if_neg h0]
      have : List.filter (fun x => decide (x ≠ [])) [g.flatMap splitWs] = [g.flatMap splitWs] := by
        rw [List.filter_cons_of_pos (by simpa using h0)]; rfl
      simpa [lineWords, h] using h0

/-- the rows made of the data lines are the same, word by word, except for blank ones -/
theorem combined_unique {N : Int} {ls out out' : List Str} (h : Combined N ls out) (h' : Combined N ls out') :
    lineWords out = lineWords out' := by
  induction h generalizing out' with
  | @rest g hi =>
    generalize e : g = ls at h'
    cases h' with
    | rest _ => rfl
    | @row g' l row ls' out'' hi' hm hw hs hc =>
      have := incomplete_cut (t := []) hi hw (by simpa using e.symm)
      rw [e] at this; simp at this; omega
    | @mca g' ms pre hi' hne hms hpre =>
      obtain ⟨m, hm⟩ := List.exists_mem_of_ne_nil _ hne
      have := hi.1 m (by rw [e]; simp [hm])
      rw [hms m hm] at this; cases this
  | @row g l row ls out hi hm hw hs hc ih =>
    generalize e : g ++ l :: ls = all at h'
    cases h' with
    | rest hi' =>
      have := incomplete_cut (t := []) hi' hw (by simpa using e)
      rw [← e] at this; simp at this; omega
    | @row g' l' row' ls' out'' hi' hm' hw' hs' hc' =>
      have a := incomplete_cut hi' hw e
      have b := incomplete_cut hi hw' e.symm
      obtain ⟨rfl, e2⟩ := List.append_inj e (by omega)
      injection e2 with e2 e3
      subst e2 e3
      have := ih hc'
      unfold lineWords at this ⊢
      rw [List.map_cons, List.map_cons, hs, hs', List.filter_cons, List.filter_cons, this]
    | @mca g' ms pre hi' hne hms hpre =>
      have a := incomplete_cut hi' hw e
      have : l ∈ ms := by
        have h1 := congrArg (fun t : List Str => t[g.length]?) e
        simp only [List.getElem?_append_right (Nat.le_refl g.length), Nat.sub_self, List.getElem?_cons_zero] at h1
        rw [List.getElem?_append_right a] at h1
        exact List.mem_of_getElem? h1.symm
      rw [hms l this] at hm; cases hm
  | @mca g ms pre hi hne hms hpre =>
    generalize e : g ++ ms = all at h'
    cases h' with
    | rest hi' =>
      obtain ⟨m, hm⟩ := List.exists_mem_of_ne_nil _ hne
      have := hi'.1 m (by rw [← e]; simp [hm])
      rw [hms m hm] at this; cases this
    | @row g' l' row' ls' out'' hi' hm' hw' hs' hc' =>
      have a := incomplete_cut hi hw' e.symm
      have : l' ∈ ms := by
        have h1 := congrArg (fun t : List Str => t[g'.length]?) e.symm
        simp only [List.getElem?_append_right (Nat.le_refl g'.length), Nat.sub_self, List.getElem?_cons_zero] at h1
        rw [List.getElem?_append_right a] at h1
        exact List.mem_of_getElem? h1.symm
      rw [hms l' this] at hm'; cases hm'
    | @mca g' ms' pre' hi' hne' hms' hpre' =>
      have hf : ∀ (g ms : List Str), (∀ l ∈ g, isMcaLine l = false) → (∀ l ∈ ms, isMcaLine l = true) →
          (g ++ ms).filter isMcaLine = ms ∧ (g ++ ms).filter (fun l => !isMcaLine l) = g := by
        intro g ms h1 h2
        constructor
        · rw [List.filter_append, List.filter_eq_nil_iff.2 (fun l hl => by simp [h1 l hl]), List.nil_append,
            List.filter_eq_self.2 h2]
        · rw [List.filter_append, List.filter_eq_self.2 (fun l hl => by simp [h1 l hl]),
            List.filter_eq_nil_iff.2 (fun l hl => by simp [h2 l hl]), List.append_nil]
      obtain ⟨a1, a2⟩ := hf _ _ hi.1 hms
      obtain ⟨b1, b2⟩ := hf _ _ hi'.1 hms'
      rw [e, b1] at a1; rw [e, b2] at a2
      subst a1 a2
      rw [mca_pre hpre, mca_pre hpre']

theorem combinedBy_unique {nm : List Int} {ls out out' : List Str} (h : CombinedBy nm ls out) (h' : CombinedBy nm ls out') :
    lineWords out = lineWords out' := by
  match nm, h, h' with
  | [_], h, h' => rw [show out = ls from h, show out' = ls from h']
  | [N, _], h, h' => exact combined_unique h h'

theorem mca_no_number {l : Str} (h : isMcaLine l = true) : (splitWs l).all (fun t => (parseFloat t).isSome) = false := by
  unfold isMcaLine at h
  obtain ⟨u, rfl⟩ : p!"@A" <+: l := by simpa [startsWith] using h
  obtain ⟨v, ws, e⟩ := splitWs_two '@' 'A' u (by decide) (by decide)
  have e' : splitWs (p!"@A" ++ u) = ('@' :: 'A' :: v) :: ws := e
  rw [e', List.all_cons]
  have hw := (splitWs_word _ ('@' :: 'A' :: v) (by rw [e']; simp)).2
  have : parseFloat ('@' :: 'A' :: v) = none := by
    cases hf : parseFloat ('@' :: 'A' :: v) with
    | none => rfl
    | some x =>
      obtain ⟨d, ds, e2, h1, h2⟩ := parseFloat_head hf
      rw [strip_of_no_space _ hw] at e2
      injection e2 with e2
      exact absurd e2.symm h2
  rw [this]; rfl

/-- the numbers of the complete rows are those of the words -/
theorem rows_words {n : Nat} (hn : 0 < n) {ls : List Str} {rows : List (List PyFloat)}
    (h : List.Forall₂ NumbersOf (ls.filter (isCompleteRow n)) rows) :
    rows = ((lineWords ls).filter (fun w => w.length == n && w.all (fun t => (parseFloat t).isSome))).map
      (fun w => w.map (fun t => (parseFloat t).getD .nan)) := by
  have key : ls.filter (isCompleteRow n) = ls.filter (fun l => (splitWs l).length == n &&
      (splitWs l).all (fun t => (parseFloat t).isSome)) := by
    apply List.filter_congr
    intro l _
    unfold isCompleteRow
    by_cases hm : isMcaLine l = true
    · rw [mca_no_number hm]; simp
    · simp [hm]
  rw [key] at h
  have h2 : ∀ (ls : List Str) (rows : List (List PyFloat)), List.Forall₂ NumbersOf ls rows →
      rows = ls.map (fun l => (splitWs l).map (fun t => (parseFloat t).getD .nan)) := by
    intro ls rows h
    induction h with
    | nil => rfl
    | @cons l row ls rows h1 _ ih =>
      rw [List.map_cons, ← ih]
      congr 1
      unfold NumbersOf at h1
      generalize splitWs l = ws at h1
      clear ih
      induction h1 with
      | nil => rfl
      | cons q _ ih => rw [List.map_cons, ← ih, q]; rfl
  rw [h2 _ _ h]
  unfold lineWords
  clear h h2 key
  induction ls with
  | nil => rfl
  | cons l ls ih =>
    rw [List.filter_cons]
    by_cases h0 : splitWs l = []
    · rw [if_neg (by simp [h0]; omega), List.map_cons, List.filter_cons_of_neg (by simp [h0])]
      exact ih
    · rw [List.map_cons, List.filter_cons_of_pos (by simpa using h0), List.filter_cons]
      split
      · rw [List.map_cons, List.map_cons, ih]
      · exact ih

theorem renamed_unique {labels names names' : List Str} (h : Renamed labels names) (h' : Renamed labels names') :
    names = names' := by
  have hlen : names.length = names'.length := by rw [h.length, h'.length]
  have key : ∀ i, names.take i = names'.take i := by
    intro i
    induction i with
    | zero => simp
    | succ i ih =>
      by_cases hi : i < names.length
      · have hi' : i < names'.length := by omega
        have hl : i < labels.length := by rw [← h.length]; exact hi
        rw [List.take_succ_eq_append_getElem hi, List.take_succ_eq_append_getElem hi', ih]
        congr 2
        obtain ⟨n, a1, a2, a3⟩ := h.name i labels[i] names[i] (by simp) (by simp)
        obtain ⟨m, b1, b2, b3⟩ := h'.name i labels[i] names'[i] (by simp) (by simp)
        rw [ih] at a2 a3
        rcases Nat.lt_trichotomy n m with q | q | q
        · exact absurd (a1 ▸ b3 n q) a2
        · rw [a1, b1, q]
        · exact absurd (b1 ▸ a3 m q) b2
      · rw [List.take_of_length_le (by omega), List.take_of_length_le (by omega)] at ih ⊢
        exact ih
  have := key names.length
  rwa [List.take_of_length_le (by omega), List.take_of_length_le (by omega)] at this

section
variable [UniDB]

/-- C21, C25: the text of a scan determines its table: the labels, the names of the columns, and the numbers in the rows. -/
theorem C21_determined {raw : Str} {labels labels' names names' : List Str} {rows rows' : List (List PyFloat)}
    (h1 : StatedLabels (scanLines raw) labels) (h2 : Renamed labels names) (h3 : ScanRows raw names rows)
    (h1' : StatedLabels (scanLines raw) labels') (h2' : Renamed labels' names') (h3' : ScanRows raw names' rows')
    (hne : labels ≠ []) : labels = labels' ∧ names = names' ∧ rows = rows' := by
  obtain rfl := statedLabels_unique h1 h1'
  obtain rfl := renamed_unique h2 h2'
  refine ⟨rfl, rfl, ?_⟩
  obtain ⟨nm, lines, a1, a2, a3⟩ := h3
  obtain ⟨nm', lines', b1, b2, b3⟩ := h3'
  obtain rfl := columnNumbers_unique a1 b1
  have hn : 0 < names.length := by
    rw [h2.length]; exact List.length_pos_iff.2 hne
  rw [rows_words hn a3, rows_words hn b3, combinedBy_unique a2 b2]

end
end S2N.Props
