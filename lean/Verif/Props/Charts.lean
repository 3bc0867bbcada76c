import Verif.Spec.Charts
import Verif.Props.MeshPlot
/-
C104: what is drawn.
-/
namespace S2N.Props
open S2N S2N.Py S2N.Spec S2N.Plot S2N.Charts

/-! ### The boundaries of the pixels -/

/-- C104: an axis with at least two values `vs` gives one boundary more than values; the pixel of the value `i` begins half of the
first step `d` before the value, and ends half of `d` before the next value (the last one ends half of `d` after the value). -/
theorem C104_boundaries (v w : Rat) (vs : List Rat) :
    ∃ e, boundaries ((v :: w :: vs).map .fin) = .ok e ∧ e.length = (v :: w :: vs).length + 1 ∧
      ∀ i x, (v :: w :: vs)[i]? = some x →
        Spans e i (x - (w - v) / 2) (((v :: w :: vs)[i + 1]?).getD (x + (w - v)) - (w - v) / 2) := by
  refine ⟨_, rfl, by simp, ?_⟩
  intro i x hx
  have hlast : ((PyFloat.fin w :: vs.map PyFloat.fin).getLastD (.fin w)) = .fin ((w :: vs).getLast (by simp)) := by
    rw [← List.map_cons, List.getLastD_eq_getLast?, List.getLast?_map, List.getLast?_eq_getLast_of_ne_nil (by simp)]
    rfl
  have hstep : sub (.fin w) (.fin v) = .fin (w - v) := by simp [sub, neg, add, Rat.sub_eq_add_neg]
  have hsub : ∀ a b : Rat, sub (.fin a) (.fin b) = .fin (a - b) := by intro a b; simp [sub, neg, add, Rat.sub_eq_add_neg]
  have hlt : i < (v :: w :: vs).length := (List.getElem?_eq_some_iff.1 hx).1
  have hall : (PyFloat.fin v :: PyFloat.fin w :: vs.map PyFloat.fin) ++ [add ((PyFloat.fin w :: vs.map PyFloat.fin).getLastD (.fin w)) (sub (.fin w) (.fin v))]
      = ((v :: w :: vs) ++ [(w :: vs).getLast (by simp) + (w - v)]).map .fin := by
    rw [hlast, hstep]; simp [add]
  unfold Spans
  rw [hall, hstep, List.map_map, List.getElem?_map, List.getElem?_map]
  constructor
  · rw [List.getElem?_append_left hlt, hx]
    simp [half, hsub]
  · by_cases h : i + 1 < (v :: w :: vs).length
    · rw [List.getElem?_append_left h, List.getElem?_eq_getElem h]
      simp [half, hsub]
    · have he : i + 1 = (v :: w :: vs).length := by omega
      rw [List.getElem?_append_right (by omega), List.getElem?_eq_none (l := v :: w :: vs) (by omega)]
      have : x = (w :: vs).getLast (by simp) := by
        have h1 : (v :: w :: vs).getLast? = some x := by
          rw [List.getLast?_eq_getElem?, ← he]
          simpa using hx
        rw [List.getLast?_cons_cons, List.getLast?_eq_getLast_of_ne_nil (by simp)] at h1
        exact (Option.some.inj h1).symm
      subst this
      rw [he]
      simp [half, hsub]

/-- C104: on an axis with equal steps every value is in the middle of its pixel. -/
theorem C104_centre (vs : List Rat) (d : Rat) (h2 : 2 ≤ vs.length) (hd : Equidistant vs d) :
    ∃ e, boundaries (vs.map .fin) = .ok e ∧ e.length = vs.length + 1 ∧
      ∀ i x, vs[i]? = some x → Spans e i (x - d / 2) (x + d / 2) := by
  match vs, h2 with
  | v :: w :: vs, _ =>
    obtain ⟨e, h1, h3, h4⟩ := C104_boundaries v w vs
    have hw : w - v = d := by
      have := hd 0 v w rfl rfl
      rw [this]; grind
    rw [hw] at h4
    refine ⟨e, h1, h3, fun i x hx => ?_⟩
    have := h4 i x hx
    cases hn : (v :: w :: vs)[i + 1]? with
    | none => rw [hn] at this; simp only [Option.getD_none] at this; rwa [show x + d - d / 2 = x + d / 2 by grind] at this
    | some y =>
      rw [hn, hd i x y hx hn] at this
      simp only [Option.getD_some] at this
      rwa [show x + d - d / 2 = x + d / 2 by grind] at this

/-- C104: on an axis that first goes up by `d`, a value is inside its pixel exactly if the next value is at least half of `d` away. -/
theorem C104_inside (v w : Rat) (vs : List Rat) (hd : v < w) {e : List PyFloat} (he : boundaries ((v :: w :: vs).map .fin) = .ok e)
    {i : Nat} {x y : Rat} (hx : (v :: w :: vs)[i]? = some x) (hy : (v :: w :: vs)[i + 1]? = some y) :
    (∃ lo hi, Spans e i lo hi ∧ lo ≤ x ∧ x ≤ hi) ↔ (w - v) / 2 ≤ y - x := by
  obtain ⟨e', h1, h3, h4⟩ := C104_boundaries v w vs
  rw [he] at h1
  cases h1
  have hs := h4 i x hx
  rw [hy] at hs
  simp only [Option.getD_some] at hs
  constructor
  · rintro ⟨lo, hi, g, g1, g2⟩
    have e1 := g.1.symm.trans hs.1
    have e2 := g.2.symm.trans hs.2
    simp only [Option.some.injEq, PyFloat.fin.injEq] at e1 e2
    subst e1 e2
    grind
  · intro h
    exact ⟨_, _, hs, by grind, by grind⟩

/-- C104: the axis 0, 10, 11: the value 10 is outside of its pixel, which reaches from 5 to 6. -/
theorem C104_outside : ∃ e, boundaries [.fin 0, .fin 10, .fin 11] = .ok e ∧ Spans e 1 5 6 := by
  refine ⟨_, rfl, ?_⟩
  unfold Spans
  decide +kernel

/-! ### The values -/

theorem npMin_nan (vs : List PyFloat) (v : PyFloat) (h : .nan ∈ v :: vs) : vs.foldl npMin v = .nan := by
  induction vs generalizing v with
  | nil => simp at h; subst h; rfl
  | cons w vs ih =>
    rw [List.foldl_cons]
    apply ih
    rcases List.mem_cons.1 h with rfl | h
    · simp [npMin]
    · rcases List.mem_cons.1 h with rfl | h
      · cases v <;> simp [npMin]
      · exact List.mem_cons_of_mem _ h

theorem le_of_not_lt {a b : PyFloat} (ha : a ≠ .nan) (hb : b ≠ .nan) (h : b.lt a = false) : a.le b = true := by
  rcases a with - | ⟨- | -⟩ | q <;> rcases b with - | ⟨- | -⟩ | p <;>
    simp_all [PyFloat.lt, PyFloat.le]
  grind

theorem le_of_lt' {a b : PyFloat} (h : b.lt a = true) : b.le a = true := by
  rcases a with - | ⟨- | -⟩ | q <;> rcases b with - | ⟨- | -⟩ | p <;>
    simp_all [PyFloat.lt, PyFloat.le]
  grind

theorem le_trans' {a b c : PyFloat} (h : a.le b = true) (h' : b.le c = true) : a.le c = true := by
  rcases a with - | ⟨- | -⟩ | q <;> rcases b with - | ⟨- | -⟩ | p <;> rcases c with - | ⟨- | -⟩ | r <;>
    simp_all [PyFloat.le]
  grind

theorem le_refl' {a : PyFloat} (h : a ≠ .nan) : a.le a = true := by
  rcases a with - | ⟨- | -⟩ | q <;> simp_all [PyFloat.le]

theorem npMin_le {a b : PyFloat} (ha : a ≠ .nan) (hb : b ≠ .nan) :
    npMin a b ∈ [a, b] ∧ (npMin a b).le a = true ∧ (npMin a b).le b = true := by
  have : npMin a b = if b.lt a then b else a := by cases a <;> cases b <;> simp_all [npMin]
  rw [this]
  cases h : b.lt a with
  | true => exact ⟨by simp, le_of_lt' h, le_refl' hb⟩
  | false => exact ⟨by simp, le_refl' ha, le_of_not_lt ha hb h⟩

theorem npMin_fold (vs : List PyFloat) (v : PyFloat) (h : .nan ∉ v :: vs) :
    vs.foldl npMin v ∈ v :: vs ∧ ∀ x ∈ v :: vs, (vs.foldl npMin v).le x = true := by
  induction vs generalizing v with
  | nil => simp at h; simpa using le_refl' (Ne.symm h)
  | cons w vs ih =>
    simp only [List.mem_cons, not_or] at h
    obtain ⟨hv, hw, hr⟩ := h
    obtain ⟨k1, k2, k3⟩ := npMin_le (Ne.symm hv) (Ne.symm hw)
    have hm : npMin v w ≠ .nan := by
      intro e; rw [e] at k1; simp at k1; rcases k1 with k | k
      · exact hv k
      · exact hw k
    obtain ⟨i1, i2⟩ := ih (npMin v w) (by simp only [List.mem_cons, not_or]; exact ⟨Ne.symm hm, hr⟩)
    rw [List.foldl_cons]
    constructor
    · rcases List.mem_cons.1 i1 with h | h
      · rw [h]; simp only [List.mem_cons, List.not_mem_nil, or_false] at k1; rcases k1 with k | k <;> simp [k]
      · simp [h]
    · intro x hx
      have h0 := i2 _ (List.mem_cons_self ..)
      rcases List.mem_cons.1 hx with rfl | hx
      · exact le_trans' h0 k2
      · rcases List.mem_cons.1 hx with rfl | hx
        · exact le_trans' h0 k3
        · exact i2 x (by simp [hx])

theorem nonPositive_iff (v : PyFloat) : v.le (.fin 0) = true ↔ NonPositive v := by
  unfold NonPositive
  rcases v with - | ⟨- | -⟩ | q <;> simp [PyFloat.le]

/-- C104: a positive finite value is shown as it is. -/
theorem C104_positive (vals : List PyFloat) (k : Nat) (q : Rat) (hq : 0 < q) (h : vals[k]? = some (.fin q)) :
    (cleaned vals)[k]? = some (some q) := by
  unfold cleaned
  rw [List.getElem?_map, h]
  have : (PyFloat.fin q).le (.fin 0) = false := by simp [PyFloat.le]; grind
  simp [this]

/-- C104: NaN and infinity are not shown. -/
theorem C104_invalid (vals : List PyFloat) (k : Nat) (v : PyFloat) (h : vals[k]? = some v) (hv : v = .nan ∨ v = .inf false) :
    (cleaned vals)[k]? = some none := by
  unfold cleaned
  rw [List.getElem?_map, h]
  rcases hv with rfl | rfl <;> rfl

/-- C104: if the image has no NaN, zero and negative values are shown as the smallest positive value. -/
theorem C104_floor (vals : List PyFloat) (hn : .nan ∉ vals) (p : Rat) (hp : SmallestPositive vals p) (k : Nat) (v : PyFloat)
    (h : vals[k]? = some v) (hv : NonPositive v) : (cleaned vals)[k]? = some (some p) := by
  have hf : floor vals = .fin p := by
    unfold floor
    have hm : ∀ x, x ∈ vals.filter (fun v => !v.le (.fin 0)) ↔ x ∈ vals ∧ x.le (.fin 0) = false := by
      intro x; simp
    cases hc : vals.filter (fun v => !v.le (.fin 0)) with
    | nil =>
      have := (hm (.fin p)).2 ⟨hp.2.1, by have := hp.1; simp [PyFloat.le]; grind⟩
      rw [hc] at this; cases this
    | cons x xs =>
      rw [hc] at hm
      obtain ⟨k1, k2⟩ := npMin_fold xs x (fun hx => hn ((hm _).1 hx).1)
      simp only
      generalize xs.foldl npMin x = f at k1 k2
      have h1 := (hm f).1 k1
      have h2 := k2 (.fin p) ((hm _).2 ⟨hp.2.1, by have := hp.1; simp [PyFloat.le]; grind⟩)
      rcases f with - | ⟨- | -⟩ | q
      · exact absurd h1.1 hn
      · simp [PyFloat.le] at h2
      · simp [PyFloat.le] at h1
      · simp only [PyFloat.le, decide_eq_true_eq, decide_eq_false_iff_not] at h1 h2
        have := hp.2.2 q (by grind) h1.1
        congr 1; grind
  unfold cleaned
  rw [List.getElem?_map, h]
  simp [(nonPositive_iff v).2 hv, hf]

/-- C104: if no value is positive (nor NaN), the image is 0 everywhere. -/
theorem C104_zero (vals : List PyFloat) (hv : ∀ v ∈ vals, NonPositive v) : cleaned vals = vals.map (fun _ => some 0) := by
  have hf : floor vals = .fin 0 := by
    unfold floor
    rw [List.filter_eq_nil_iff.2]
    intro v h
    simp [(nonPositive_iff v).2 (hv v h)]
  unfold cleaned
  apply List.map_congr_left
  intro v h
  simp [(nonPositive_iff v).2 (hv v h), hf]

/-- C104: if there is a NaN in the image, then zero and negative values are not shown at all. -/
theorem C104_nan (vals : List PyFloat) (hn : .nan ∈ vals) (k : Nat) (v : PyFloat) (h : vals[k]? = some v) (hv : NonPositive v) :
    (cleaned vals)[k]? = some none := by
  have hf : floor vals = .nan := by
    unfold floor
    have hm : PyFloat.nan ∈ vals.filter (fun v => !v.le (.fin 0)) := by
      rw [List.mem_filter]; exact ⟨hn, rfl⟩
    cases hc : vals.filter (fun v => !v.le (.fin 0)) with
    | nil => rw [hc] at hm; cases hm
    | cons x xs => rw [hc] at hm; exact npMin_nan xs x hm
  unfold cleaned
  rw [List.getElem?_map, h]
  simp [(nonPositive_iff v).2 hv, hf]

/-! ### Log scale -/

theorem least_eq {l : List Rat} {m : Rat} (hm : m ∈ l) (h : ∀ x ∈ l, m ≤ x) : least l = some m := by
  have key : ∀ (l : List Rat) (q : Rat), (∀ x ∈ q :: l, m ≤ x) → m ∈ q :: l → l.foldl (fun m x => if x < m then x else m) q = m := by
    intro l
    induction l with
    | nil => intro q _ hq; exact (List.mem_singleton.1 hq).symm
    | cons w l ih =>
      intro q h1 h2
      rw [List.foldl_cons]
      apply ih
      · intro x hx
        rcases List.mem_cons.1 hx with rfl | hx
        · split
          · exact h1 w (by simp)
          · exact h1 q (by simp)
        · exact h1 x (by simp [hx])
      · have hw := h1 w (by simp)
        have hq := h1 q (by simp)
        rcases List.mem_cons.1 h2 with rfl | h2
        · split
          · next hh => have : m = w := by grind
                       simp [this]
          · simp
        · rcases List.mem_cons.1 h2 with rfl | h2
          · split
            · simp
            · next hh => have : m = q := by grind
                         simp [this]
          · simp [h2]
  cases l with
  | nil => cases hm
  | cons q l => exact congrArg some (key l q h hm)

theorem greatest_eq {l : List Rat} {m : Rat} (hm : m ∈ l) (h : ∀ x ∈ l, x ≤ m) : greatest l = some m := by
  have key : ∀ (l : List Rat) (q : Rat), (∀ x ∈ q :: l, x ≤ m) → m ∈ q :: l → l.foldl (fun m x => if m < x then x else m) q = m := by
    intro l
    induction l with
    | nil => intro q _ hq; exact (List.mem_singleton.1 hq).symm
    | cons w l ih =>
      intro q h1 h2
      rw [List.foldl_cons]
      apply ih
      · intro x hx
        rcases List.mem_cons.1 hx with rfl | hx
        · split
          · exact h1 w (by simp)
          · exact h1 q (by simp)
        · exact h1 x (by simp [hx])
      · have hw := h1 w (by simp)
        have hq := h1 q (by simp)
        rcases List.mem_cons.1 h2 with rfl | h2
        · split
          · next hh => have : m = w := by grind
                       simp [this]
          · simp
        · rcases List.mem_cons.1 h2 with rfl | h2
          · split
            · simp
            · next hh => have : m = q := by grind
                         simp [this]
          · simp [h2]
  cases l with
  | nil => cases hm
  | cons q l => exact congrArg some (key l q h hm)

/-- the values shown are values of the image, from the smallest positive to the largest positive -/
theorem shown_range {vals : List PyFloat} {p q : Rat} (hp : SmallestPositive vals p) (hq : LargestPositive vals q) :
    (p ∈ (cleaned vals).filterMap id ∧ q ∈ (cleaned vals).filterMap id) ∧ ∀ a ∈ (cleaned vals).filterMap id, p ≤ a ∧ a ≤ q := by
  have hin : ∀ x, 0 < x → .fin x ∈ vals → x ∈ (cleaned vals).filterMap id := by
    intro x hx hm
    obtain ⟨k, hk⟩ := List.mem_iff_getElem?.1 hm
    exact List.mem_filterMap.2 ⟨some x, List.mem_iff_getElem?.2 ⟨k, C104_positive vals k x hx hk⟩, rfl⟩
  refine ⟨⟨hin p hp.1 hp.2.1, hin q hq.1 hq.2.1⟩, ?_⟩
  intro a ha
  obtain ⟨o, ho, h⟩ := List.mem_filterMap.1 ha
  simp only [id_eq] at h
  subst h
  obtain ⟨k, hk⟩ := List.mem_iff_getElem?.1 ho
  have hlen : k < vals.length := by
    have := (List.getElem?_eq_some_iff.1 hk).1
    simpa [cleaned] using this
  have hv := List.getElem?_eq_getElem hlen
  have hpq := hq.2.2 p hp.1 hp.2.1
  by_cases hnp : NonPositive vals[k]
  · by_cases hn : .nan ∈ vals
    · rw [C104_nan vals hn k _ hv hnp] at hk; cases hk
    · rw [C104_floor vals hn p hp k _ hv hnp] at hk
      cases hk
      exact ⟨Rat.le_refl, hpq⟩
  · generalize vals[k] = v at hv hnp
    rcases v with - | ⟨- | -⟩ | x
    · rw [C104_invalid vals k _ hv (.inl rfl)] at hk; cases hk
    · rw [C104_invalid vals k _ hv (.inr rfl)] at hk; cases hk
    · exact absurd (.inl rfl) hnp
    · have hx : 0 < x := by
        have : ¬ x ≤ 0 := fun h => hnp (.inr ⟨x, rfl, h⟩)
        grind
      rw [C104_positive vals k x hx hv] at hk
      cases hk
      have hm := List.mem_iff_getElem?.2 ⟨k, hv⟩
      exact ⟨hp.2.2 _ hx hm, hq.2.2 _ hx hm⟩

theorem filterMap_map_id (f : Rat → Rat) (l : List (Option Rat)) : (l.map (Option.map f)).filterMap id = (l.filterMap id).map f := by
  induction l with
  | nil => rfl
  | cons o l ih => cases o <;> simpa [Function.comp_def] using ih

/-- C104: with a log scale, a value `a` that would be shown on a linear scale is shown as (ln a - ln p) / (ln q - ln p), where `p` is
the smallest and `q` the largest positive value of the image; what is not shown on a linear scale is not shown either. -/
theorem C104_log (ln : Rat → Rat) (hln : LikeLog ln) (vals : List PyFloat) (p q : Rat) (hp : SmallestPositive vals p)
    (hq : LargestPositive vals q) (hpq : p < q) :
    logScaled ln (cleaned vals) = (cleaned vals).map (Option.map fun a => (ln a - ln p) / (ln q - ln p)) := by
  obtain ⟨⟨h1, h2⟩, h3⟩ := shown_range hp hq
  have mono : ∀ a b, 0 < a → a ≤ b → ln a ≤ ln b := by
    intro a b h h'
    rcases Rat.le_iff_lt_or_eq.1 h' with h' | rfl
    · exact Rat.le_of_lt (hln a b h h')
    · exact Rat.le_refl
  have hlow : least (((cleaned vals).filterMap id).map ln) = some (ln p) := by
    apply least_eq (List.mem_map_of_mem h1)
    intro x hx
    obtain ⟨a, ha, rfl⟩ := List.mem_map.1 hx
    exact mono p a hp.1 (h3 a ha).1
  have htop : greatest ((((cleaned vals).filterMap id).map ln).map (· - ln p)) = some (ln q - ln p) := by
    apply greatest_eq (List.mem_map_of_mem (List.mem_map_of_mem h2))
    intro x hx
    obtain ⟨b, hb, rfl⟩ := List.mem_map.1 hx
    obtain ⟨a, ha, rfl⟩ := List.mem_map.1 hb
    have := mono a q (by have := (h3 a ha).1; have := hp.1; grind) (h3 a ha).2
    show ln a - ln p ≤ ln q - ln p
    grind
  unfold logScaled
  rw [greatest_eq h2 (fun x hx => (h3 x hx).2)]
  simp only
  rw [if_neg (by have := hq.1; grind)]
  simp only [filterMap_map_id, hlow, Option.getD_some, htop]
  rw [if_neg (by have := hln p q hp.1 hpq; grind), List.map_map, List.map_map]
  apply List.map_congr_left
  intro o _
  cases o <;> rfl

/-- C104: with a log scale larger values are shown larger, and all between 0 (the smallest positive value) and 1 (the largest). -/
theorem C104_log_order (ln : Rat → Rat) (hln : LikeLog ln) (vals : List PyFloat) (p q : Rat) (hp : SmallestPositive vals p)
    (hq : LargestPositive vals q) (hpq : p < q) (k : Nat) (a : Rat) (hk : (cleaned vals)[k]? = some (some a)) :
    ∃ u, (logScaled ln (cleaned vals))[k]? = some (some u) ∧ 0 ≤ u ∧ u ≤ 1 ∧ (a = p → u = 0) ∧ (a = q → u = 1) ∧
      ∀ (k' : Nat) (b : Rat), (cleaned vals)[k']? = some (some b) → a < b → ∃ w, (logScaled ln (cleaned vals))[k']? = some (some w) ∧ u < w := by
  have hd : 0 < ln q - ln p := by have := hln p q hp.1 hpq; grind
  have hin : ∀ (i : Nat) (c : Rat), (cleaned vals)[i]? = some (some c) → p ≤ c ∧ c ≤ q := fun i c h =>
    (shown_range hp hq).2 c (List.mem_filterMap.2 ⟨some c, List.mem_iff_getElem?.2 ⟨i, h⟩, rfl⟩)
  have mono : ∀ a b, 0 < a → a ≤ b → ln a ≤ ln b := by
    intro a b h h'
    rcases Rat.le_iff_lt_or_eq.1 h' with h' | rfl
    · exact Rat.le_of_lt (hln a b h h')
    · exact Rat.le_refl
  have hval : ∀ (i : Nat) (c : Rat), (cleaned vals)[i]? = some (some c) →
      (logScaled ln (cleaned vals))[i]? = some (some ((ln c - ln p) / (ln q - ln p))) := by
    intro i c h
    rw [C104_log ln hln vals p q hp hq hpq, List.getElem?_map, h]; rfl
  obtain ⟨g1, g2⟩ := hin k a hk
  have hpa := mono p a hp.1 g1
  have haq := mono a q (by have := hp.1; grind) g2
  refine ⟨_, hval k a hk, ?_, ?_, ?_, ?_, ?_⟩
  · exact Rat.not_lt.1 (fun h => by rw [Rat.div_lt_iff hd] at h; grind)
  · exact Rat.not_lt.1 (fun h => by rw [Rat.lt_div_iff hd] at h; grind)
  · rintro rfl; rw [show ln a - ln a = 0 by grind]; grind
  · rintro rfl; grind
  · intro k' b hk' hab
    refine ⟨_, hval k' b hk', ?_⟩
    have := hln a b (by have := hp.1; grind) hab
    rw [Rat.div_lt_iff hd, Rat.div_mul_cancel (by grind)]
    grind

/-- C104: if all positive values are the same, nothing is shown with a log scale. -/
theorem C104_log_flat (ln : Rat → Rat) (vals : List PyFloat) (p : Rat) (hp : SmallestPositive vals p) (hq : LargestPositive vals p) :
    logScaled ln (cleaned vals) = vals.map (fun _ => none) := by
  obtain ⟨⟨h1, h2⟩, h3⟩ := shown_range hp hq
  have heq : ∀ a ∈ (cleaned vals).filterMap id, a = p := fun a ha => by have := h3 a ha; grind
  have hlow : least (((cleaned vals).filterMap id).map ln) = some (ln p) := by
    apply least_eq (List.mem_map_of_mem h1)
    intro x hx
    obtain ⟨a, ha, rfl⟩ := List.mem_map.1 hx
    rw [heq a ha]; exact Rat.le_refl
  have htop : greatest ((((cleaned vals).filterMap id).map ln).map (· - ln p)) = some 0 := by
    apply greatest_eq
    · rw [show (0 : Rat) = ln p - ln p by grind]
      exact List.mem_map_of_mem (f := (· - ln p)) (List.mem_map_of_mem h2)
    · intro x hx
      obtain ⟨b, hb, rfl⟩ := List.mem_map.1 hx
      obtain ⟨a, ha, rfl⟩ := List.mem_map.1 hb
      rw [heq a ha]
      show ln p - ln p ≤ 0
      grind
  unfold logScaled
  rw [greatest_eq h2 (fun x hx => (h3 x hx).2)]
  simp only
  rw [if_neg (by have := hq.1; grind)]
  simp only [filterMap_map_id, hlow, Option.getD_some, htop]
  simp only [Option.getD_some, if_true]
  simp [cleaned, List.map_map, Function.comp_def]

/-! ### The drawing -/

theorem boundaries_length {xs e : List PyFloat} (h : boundaries xs = .ok e) : e.length = xs.length + 1 := by
  match xs, h with
  | a :: b :: rest, h => cases h; simp

theorem boundaries_ok {xs : List PyFloat} (h : 2 ≤ xs.length) : ∃ e, boundaries xs = .ok e := by
  match xs, h with
  | a :: b :: rest, _ => exact ⟨_, rfl⟩

/-- C104: an image whose shape fits its axes is drawn, if both axes have at least two values: the boundaries are those of the axes,
the values those of the image, row by row. -/
theorem C104_drawn (ln : Rat → Rat) (a : NdArray Num) (xs ys : List PyFloat) (log : Bool) (hs : a.shape = [ys.length, xs.length])
    (hx : 2 ≤ xs.length) (hy : 2 ≤ ys.length) :
    ∃ ex ey, boundaries xs = .ok ex ∧ boundaries ys = .ok ey ∧ ex.length = xs.length + 1 ∧ ey.length = ys.length + 1 ∧
      makePng ln (.nd a) [.col (.col xs), .col (.col ys)] log = .ok (.pixels ex ey
        (if log then logScaled ln (cleaned (a.flat.map Num.toFlt)) else cleaned (a.flat.map Num.toFlt))) := by
  obtain ⟨ex, h1⟩ := boundaries_ok hx
  obtain ⟨ey, h2⟩ := boundaries_ok hy
  refine ⟨ex, ey, h1, h2, boundaries_length h1, boundaries_length h2, ?_⟩
  unfold makePng
  simp only [values, h1, h2, imageValues, PVal.shape, bind, Except.bind]
  have : a.shape = [ey.length - 1, ex.length - 1] := by rw [hs, boundaries_length h1, boundaries_length h2]; rfl
  simp only [this, if_true]

/-- C104: with an axis of fewer than two values drawing raises IndexError. -/
theorem C104_one (ln : Rat → Rat) (image : PVal) (xs ys : List PyFloat) (log : Bool) (h : xs.length < 2 ∨ ys.length < 2) :
    makePng ln image [.col (.col xs), .col (.col ys)] log = .error .IndexError := by
  have hb : ∀ l : List PyFloat, l.length < 2 → boundaries l = .error .IndexError := by
    intro l hl
    match l, hl with
    | [], _ => rfl
    | [a], _ => rfl
  unfold makePng
  simp only [values, bind, Except.bind]
  by_cases hx : xs.length < 2
  · rw [hb xs hx]
  · obtain ⟨e, he⟩ := boundaries_ok (by omega : 2 ≤ xs.length)
    rw [he]
    simp only
    rw [hb ys (by omega)]

/-- C104: columns of the same length are drawn point by point on linear scales. -/
theorem C104_line (ln : Rat → Rat) (xs ys : List PyFloat) (set : Settings) (h : xs.length = ys.length) (hx : set.xLog ≠ some true)
    (hy : set.yLog ≠ some true) :
    draw ln (.xy (.col (.col xs)) (.col (.col ys)) set) = .ok (.points (xs.zip ys) false false) := by
  have e : ∀ o : Option Bool, o ≠ some true → o.getD false = false := by
    intro o ho; cases o with
    | none => rfl
    | some b => cases b with
      | false => rfl
      | true => exact absurd rfl ho
  simp [draw, e _ hx, e _ hy, xyPlot, values, logTest, h, bind, Except.bind]

/-- C104: on a log scale they are drawn if some value of the axis is positive, and refused (ValueError) otherwise; NaN left out. -/
theorem C104_line_log (xs ys : List PyFloat) (h : xs.length = ys.length) (hn : .nan ∉ ys) :
    ((∃ v ∈ ys, ¬ NonPositive v) → xyPlot (.col (.col xs)) (.col (.col ys)) false true = .ok (.points (xs.zip ys) false true)) ∧
    ((∀ v ∈ ys, NonPositive v) → xyPlot (.col (.col xs)) (.col (.col ys)) false true = .error .ValueError) := by
  have key : ∀ (l : List PyFloat) (v : PyFloat), .nan ∉ v :: l →
      l.foldl (fun m y => if m.lt y then y else m) v ∈ v :: l ∧
      ∀ x ∈ v :: l, x.le (l.foldl (fun m y => if m.lt y then y else m) v) = true := by
    intro l
    induction l with
    | nil => intro v hv; simp at hv; simpa using le_refl' (Ne.symm hv)
    | cons w l ih =>
      intro v hv
      simp only [List.mem_cons, not_or] at hv
      obtain ⟨hv, hw, hr⟩ := hv
      rw [List.foldl_cons]
      have hm : (if v.lt w then w else v) ≠ .nan := by split <;> first | exact Ne.symm hw | exact Ne.symm hv
      have h1 : v.le (if v.lt w then w else v) = true ∧ w.le (if v.lt w then w else v) = true := by
        cases hh : v.lt w with
        | true => exact ⟨le_of_lt' hh, le_refl' (Ne.symm hw)⟩
        | false => exact ⟨le_refl' (Ne.symm hv), le_of_not_lt (Ne.symm hw) (Ne.symm hv) hh⟩
      have h2 : (if v.lt w then w else v) = v ∨ (if v.lt w then w else v) = w := by split <;> simp
      generalize (if v.lt w then w else v) = m at hm h1 h2
      obtain ⟨i1, i2⟩ := ih m (by simp only [List.mem_cons, not_or]; exact ⟨Ne.symm hm, hr⟩)
      constructor
      · rcases List.mem_cons.1 i1 with h | h
        · rw [h]; rcases h2 with k | k <;> simp [k]
        · simp [h]
      · intro x hx
        have h0 := i2 _ (List.mem_cons_self ..)
        rcases List.mem_cons.1 hx with rfl | hx
        · exact le_trans' h1.1 h0
        · rcases List.mem_cons.1 hx with rfl | hx
          · exact le_trans' h1.2 h0
          · exact i2 x (by simp [hx])
  cases ys with
  | nil => exact ⟨(fun ⟨v, hv, _⟩ => by cases hv), fun _ => rfl⟩
  | cons v l =>
    obtain ⟨k1, k2⟩ := key l v hn
    constructor
    · rintro ⟨x, hx, hnp⟩
      have : (l.foldl (fun m y => if m.lt y then y else m) v).le (.fin 0) = false := by
        cases hh : (l.foldl (fun m y => if m.lt y then y else m) v).le (.fin 0) with
        | false => rfl
        | true => exact absurd ((nonPositive_iff x).1 (le_trans' (k2 x hx) hh)) hnp
      simp [xyPlot, values, logTest, h, bind, Except.bind, pyMax, this]
    · intro hall
      have := (nonPositive_iff _).2 (hall _ k1)
      simp [xyPlot, values, logTest, bind, Except.bind, pyMax, this]

/-! ### Mesh scans -/

section
variable [UniDB] (env : Env) (reg : List HKey) (hr : reg.Perm HKey.all)

include hr in
/-- **C104**: the drawing of a mesh scan just read from its file.  If at least two points were asked for on the first axis and the
second row was begun, an image is drawn as `MeshDrawing` says.  If only the first row was measured (with at least as many points as
intervals), drawing raises IndexError. -/
theorem C104_mesh (ln : Rat → Rat) (c : ScanCtx) (hf : Fresh c.scan) (hok : (interpretScan env reg c).2 = none)
    (hl : dataLinesOf (scanLines c.scan.raw) ≠ [])
    (hm : ∀ l ∈ dataLinesOf (scanLines c.scan.raw), isMcaLine l = false)
    (dataFile : Str) (td : Int) (tp : Option Int) (htm : tp.getD 0 < td) (line1 : Str)
    (hl1 : (splitlines c.scan.raw).head? = some line1)
    (w w1 s1 e1 t1 w2 s2 e2 t2 t : Str) (n1 : Nat) (n2 : Int)
    (hcmd : splitWs c.scan.scanCmd = [w, w1, s1, e1, t1, w2, s2, e2, t2, t])
    (hn1 : parseInt t1 = some (n1 : Int)) (hn2 : parseInt t2 = some n2) (hw1 : w1 ≠ p!"_mca_") (hw2 : w2 ≠ p!"_mca_") :
    ∃ labels names rows, StatedLabels (scanLines c.scan.raw) labels ∧ Renamed labels names ∧
      ScanRows c.scan.raw names rows ∧
      (rows ≠ [] → n1 ≤ rows.length → p!"_mca_" ∉ names → ∀ l1 l2 last, NamedColumn names w1 0 l1 → NamedColumn names w2 1 l2 → l1 ≠ l2 →
        labels.getLast? = some last → cleanName last = .ok last → last ≠ l1 → last ≠ l2 →
        (p!"hkl" <+: c.scan.scanCmd → last ∉ [p!"H", p!"K", p!"L"] ∧
          ∃ a ∈ [p!"H", p!"K", p!"L"], a ∈ names ∧ a ≠ l1 ∧ a ≠ l2) →
        ∃ pic, (plotScan env reg .mesh {} dataFile (some td) tp c).2 = .ok (some pic) ∧
          (rows.length ≤ n1 + 1 → draw ln pic = .error .IndexError) ∧
          (1 ≤ n1 → n1 + 1 < rows.length → ∃ d, draw ln pic = .ok d ∧ MeshDrawing names rows l1 l2 last n1 d)) := by
  obtain ⟨labels, names, rows, g1, g2, g3, g4⟩ :=
    C56_mesh env reg hr c hf hok hl hm dataFile td tp htm line1 hl1 w w1 s1 e1 t1 w2 s2 e2 t2 t n1 n2 hcmd hn1 hn2 hw1 hw2
  refine ⟨labels, names, rows, g1, g2, g3, ?_⟩
  intro a1 a2 a3 l1 l2 last a4 a5 a6 a7 a8 a9 a10 a11
  obtain ⟨a, x1, x2, p1, p2, p3, p4, p4', p5, p6, p7⟩ := g4 a1 a2 a3 l1 l2 last a4 a5 a6 a7 a8 a9 a10 a11
  refine ⟨_, p1, ?_, ?_⟩
  · intro h
    have hx2 : x2.length < 2 := by
      have := (p3 1)
      have : ¬ 1 < x2.length := fun hh => by have := this.1 hh; omega
      omega
    exact C104_one ln _ _ _ _ (.inr hx2)
  · intro b1 b2
    have hx1 : x1.length = n1 + 1 := by omega
    have hx2 : 2 ≤ x2.length := by have := (p3 1).2 (by omega); omega
    obtain ⟨ex, ey, d1, d2, -, -, d5⟩ := C104_drawn ln a x1 x2 false p4 (by omega) hx2
    simp only [Bool.false_eq_true, if_false] at d5
    have hflat : ∀ j i, j < x2.length → i < n1 + 1 →
        (a.flat.map Num.toFlt)[j * (n1 + 1) + i]? = some (observed names rows last (j * (n1 + 1) + i)) := by
      intro j i hj hi
      have := p7 j i hj (by omega)
      unfold pixel at this
      rw [p4] at this
      have ho : offset [x2.length, x1.length] [j, i] = some (j * (n1 + 1) + i) := by
        simp [offset, hj, hx1, hi]
      rw [ho] at this
      simp only at this
      rw [List.getElem?_map, this]
      rfl
    have hk : ∀ k, k < x2.length * (n1 + 1) → (a.flat.map Num.toFlt)[k]? = some (observed names rows last k) := by
      intro k hk
      have h1 : k / (n1 + 1) < x2.length := Nat.div_lt_of_lt_mul (by rw [Nat.mul_comm]; exact hk)
      have h2 := hflat (k / (n1 + 1)) (k % (n1 + 1)) h1 (Nat.mod_lt _ (by omega))
      have h3 : k / (n1 + 1) * (n1 + 1) + k % (n1 + 1) = k := by rw [Nat.mul_comm]; exact Nat.div_add_mod k (n1 + 1)
      rwa [h3] at h2
    have hsize : rows.length ≤ x2.length * (n1 + 1) := by
      have := p3 x2.length
      have h : ¬ x2.length * (n1 + 1) < rows.length := fun hh => by have := this.2 hh; omega
      omega
    have hall : a.flat.length = x2.length * (n1 + 1) := by rw [p4', hx1]
    refine ⟨_, d5, x1, x2, ex, ey, _, rfl, d1, hx1, fun i hi => p5 i (by omega), d2, p3, p6, by simp [cleaned, hall], ?_⟩
    have hmem : ∀ v, v ∈ a.flat.map Num.toFlt ↔ ∃ k, k < x2.length * (n1 + 1) ∧ observed names rows last k = v := by
      intro v
      constructor
      · intro h
        obtain ⟨k, hk'⟩ := List.mem_iff_getElem?.1 h
        have hlt := (List.getElem?_eq_some_iff.1 hk').1
        rw [List.length_map, hall] at hlt
        rw [hk k hlt] at hk'
        exact ⟨k, hlt, Option.some.inj hk'⟩
      · rintro ⟨k, h1, rfl⟩
        exact List.mem_iff_getElem?.2 ⟨k, hk k h1⟩
    have hout : ∀ k, ¬ k < rows.length → observed names rows last k = .nan := by
      intro k hh
      unfold observed
      rw [List.getElem?_eq_none (by omega)]
    intro k hlt
    have hkk := hk k (by omega)
    refine ⟨fun q hq e => C104_positive _ k q hq (by rw [hkk, e]), ?_, ?_⟩
    · intro hnp hnn p hp
      refine C104_floor _ ?_ p ⟨hp.1, ?_, ?_⟩ k _ hkk hnp
      · intro h
        obtain ⟨k', h1, h2⟩ := (hmem _).1 h
        exact hnn k' h1 h2
      · obtain ⟨k', h1, h2⟩ := hp.2.1
        exact (hmem _).2 ⟨k', by omega, h2⟩
      · intro q hq h
        obtain ⟨k', h1, h2⟩ := (hmem _).1 h
        by_cases hh : k' < rows.length
        · exact hp.2.2 k' q hh h2 hq
        · rw [hout k' hh] at h2; cases h2
    · intro hnp hlt'
      exact C104_nan _ ((hmem _).2 ⟨rows.length, hlt', hout _ (by omega)⟩) k _ hkk hnp

include hr in
/-- **C104**: the line plot of a scan just read from its file, with labels that are all different, is drawn as one point per row of
the table, in the order of the rows: the value of the first column and that of the last column. -/
theorem C104_scan (ln : Rat → Rat) (c : ScanCtx) (hf : Fresh c.scan) (hok : (interpretScan env reg c).2 = none)
    (hl : dataLinesOf (scanLines c.scan.raw) ≠ []) (dataFile : Str) (td : Int) (tp : Option Int) (htm : tp.getD 0 < td)
    (labels : List Str) (hs : StatedLabels (scanLines c.scan.raw) labels) (hn : labels.Nodup)
    (hm : p!"_mca_" ∉ labels ∨ ∀ l ∈ dataLinesOf (scanLines c.scan.raw), isMcaLine l = false)
    (first last : Str) (hfst : labels.head? = some first) (hlst : labels.getLast? = some last) :
    ∃ rows, ScanRows c.scan.raw labels rows ∧
      (rows ≠ [] → ∃ pic, (plotScan env reg .line {} dataFile (some td) tp c).2 = .ok (some pic) ∧
        draw ln pic = .ok (.points (rows.map fun r => (r.getD 0 .nan, r.getD (labels.length - 1) .nan)) false false)) := by
  obtain ⟨rows, h1, h2⟩ := C55_line env reg hr c hf hok hl dataFile td tp labels hs hn hm first last hfst hlst
  refine ⟨rows, h1, fun hne => ?_⟩
  rw [if_pos ⟨hne, htm⟩] at h2
  refine ⟨_, h2, ?_⟩
  unfold columnOf
  rw [C104_line ln _ _ _ (by simp) (by simp [lineTexts]) (by simp [lineTexts]), List.zip_map']

end

/-! ### Examples -/

/-- a function that goes up, as the logarithm does -/
def someLog : Rat → Rat := fun q => 2 * q

/-- C104: a mesh of 2 by 3 points with the last one missing, as in C56: the zero is not shown; the pixels are centred at the points. -/
theorem C104_nonvacuous : LikeLog someLog ∧
    (plotOf .mesh (plotDemo p!"mesh a 0 1 1 b 0 2 2 1"
      [p!"#N 3", p!"#L a  b  I", p!"0 0 1", p!"1 0 0", p!"0 1 3", p!"1 1 4", p!"0 2 5"])).2.map (Option.map (draw someLog)) =
      .ok (some (.ok (.pixels [.fin (-1/2), .fin (1/2), .fin (3/2)] [.fin (-1/2), .fin (1/2), .fin (3/2), .fin (5/2)]
        [some 1, none, some 3, some 4, some 5, none]))) ∧
    (plotOf .mesh (plotDemo p!"mesh a 0 1 1 b 0 1 1 1"
      [p!"#N 3", p!"#L a  b  I", p!"0 0 2", p!"1 0 0", p!"0 1 3", p!"1 1 -4"])).2.map (Option.map (draw someLog)) =
      .ok (some (.ok (.pixels [.fin (-1/2), .fin (1/2), .fin (3/2)] [.fin (-1/2), .fin (1/2), .fin (3/2)]
        [some 2, some 2, some 3, some 2]))) ∧
    Equidistant [0, 1, 2] 1 ∧ SmallestPositive [.fin 2, .fin 0, .fin 3, .fin (-4)] 2 ∧ LargestPositive [.fin 2, .fin 0, .fin 3, .fin (-4)] 3 ∧
    logScaled someLog (cleaned [.fin 2, .fin 0, .fin 4, .fin 3]) = [some 0, some 0, some 1, some (1/2)] := by
  refine ⟨fun a b h h' => by unfold someLog; grind, by decide +kernel, by decide +kernel, ?_, ?_, ?_, by decide +kernel⟩
  · intro i a b h1 h2
    match i with
    | 0 => simp at h1 h2; subst h1 h2; grind
    | 1 => simp at h1 h2; subst h1 h2; grind
    | n + 2 => simp at h2
  · refine ⟨by grind, by simp, ?_⟩
    intro q hq h
    simp at h
    grind
  · refine ⟨by grind, by simp, ?_⟩
    intro q hq h
    simp at h
    grind

/-- C104: a mesh scan that was stopped when its first row was complete cannot be drawn. -/
theorem C104_first_row : (plotOf .mesh (plotDemo p!"mesh a 0 1 1 b 0 2 2 1"
    [p!"#N 3", p!"#L a  b  I", p!"0 0 1", p!"1 0 2"])).2.map (Option.map (draw someLog)) = .ok (some (.error .IndexError)) := by
  decide +kernel

end S2N.Props
