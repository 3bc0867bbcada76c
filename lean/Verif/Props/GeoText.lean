import Verif.Spec.GeometryText
import Verif.Props.GeoDesc
import Verif.Props.ArriveHeader
/-
C98: the diffractometer of a scan, from the text of the header and of the scan.
-/
namespace S2N.Props
open S2N S2N.Py S2N.Spec

/-- C63: a variant with other motors is never the first one that agrees: an earlier variant of the same geometry has only motors
which it has too -/
theorem C63_others : ∀ i < variants.length, ∀ p, variants[i]? = some p → p.2.others = [] ∨
    ∃ j < i, ∃ q, variants[j]? = some q ∧ q.1 = p.1 ∧ q.2.others = [] ∧ q.2.motors <+: p.2.motors := by decide +kernel

theorem catalogMatches_eq (s : DScan) (G : Dict Str) :
    catalogMatches s G = (variants.filter (fun p => geometryMatches G p.1 && variantMatches s p.2)).map (fun p => p.1.name ++ '.' :: p.2.name) := by
  unfold catalogMatches variants
  generalize geoDb = db
  induction db with
  | nil => rfl
  | cons g l ih =>
    rw [List.flatMap_cons, List.filter_append, List.map_append, ← ih]
    have e : ((g.variations.map (fun v => (g, v))).filter (fun p => geometryMatches G p.1 && variantMatches s p.2)).map (fun p => p.1.name ++ '.' :: p.2.name) =
        if geometryMatches G g = true then (g.variations.filter (variantMatches s)).map (fun v => dotted g.name v.name) else [] := by
      rw [List.filter_map, List.map_map]
      cases hg : geometryMatches G g with
      | true =>
        simp only [Function.comp_def, hg, Bool.true_and, if_pos]
        rfl
      | false =>
        simp only [Function.comp_def, hg, Bool.false_and, List.filter_false, List.map_nil, Bool.false_eq_true, if_false]
    rw [e, List.filter_cons]
    split
    · rw [List.flatMap_cons]
    · rfl

/-- a variant suits, apart from the other motors -/
structure Fit (s : DScan) (G : Dict Str) (p : Geometry × Variation) : Prop where
  G0 : valueCount ((G.get? p!"G0").getD p!"0") = p.1.G.length
  G4 : ∀ row, G.get? p!"G4" = some row → valueCount row = p.1.Q.length
  motors : p.2.motors <+: motorNames s

theorem fit_iff (s : DScan) (G : Dict Str) (p : Geometry × Variation) (h : p.2.others = []) :
    Fit s G p ↔ (geometryMatches G p.1 && variantMatches s p.2) = true := by
  rw [Bool.and_eq_true, ← agrees_iff]
  exact ⟨fun f => ⟨f.G0, f.G4, f.motors, by rw [h]; simp⟩, fun f => ⟨f.G0, f.G4, f.motors⟩⟩

theorem fit_of (s : DScan) (G : Dict Str) (p : Geometry × Variation) (h : (geometryMatches G p.1 && variantMatches s p.2) = true) : Fit s G p := by
  rw [Bool.and_eq_true, ← agrees_iff] at h
  exact ⟨h.G0, h.G4, h.motors⟩

theorem first_of {α : Type} (l : List α) (P : α → Prop) (h : ∃ p ∈ l, P p) :
    ∃ p pre post, l = pre ++ p :: post ∧ P p ∧ ∀ q ∈ pre, ¬ P q := by
  induction l with
  | nil => obtain ⟨p, hp, _⟩ := h; cases hp
  | cons a l ih =>
    obtain ⟨p, hp, h⟩ := h
    by_cases ha : P a
    · exact ⟨a, [], l, rfl, ha, by simp⟩
    · rcases List.mem_cons.1 hp with rfl | hp
      · exact absurd h ha
      · obtain ⟨p, pre, post, rfl, h1, h2⟩ := ih ⟨p, hp, h⟩
        refine ⟨p, a :: pre, post, rfl, h1, ?_⟩
        intro q hq
        rcases List.mem_cons.1 hq with rfl | hq
        · exact ha
        · exact h2 q hq

theorem first_unique {α : Type} {P : α → Prop} : ∀ {pre pre' : List α} {p p' : α} {post post' : List α}, pre ++ p :: post = pre' ++ p' :: post' →
    P p → P p' → (∀ q ∈ pre, ¬ P q) → (∀ q ∈ pre', ¬ P q) → p = p'
  | [], [], _, _, _, _, h, _, _, _, _ => by injection h
  | [], a :: l, _, _, _, _, h, hp, _, _, h2 => by injection h with h _; subst h; exact absurd hp (h2 _ (by simp))
  | a :: l, [], _, _, _, _, h, _, hp, h1, _ => by injection h with h _; subst h; exact absurd hp (h1 _ (by simp))
  | a :: l, b :: l', _, _, _, _, h, hp, hp', h1, h2 => by
    injection h with _ h
    exact first_unique h hp hp' (fun q hq => h1 q (by simp [hq])) (fun q hq => h2 q (by simp [hq]))

/-- the first variant that suits is the first of the list of matches -/
theorem match_found (s : DScan) (G : Dict Str) (hG : s.G = some G) (h0 : statedGeometry s = []) {p : Geometry × Variation}
    {pre post : List (Geometry × Variation)} (hv : variants = pre ++ p :: post) (hf : Fit s G p) (hn : ∀ q ∈ pre, ¬ Fit s G q) :
    geoMatch s = .ok (p.1.name ++ '.' :: p.2.name) := by
  have ho : p.2.others = [] := by
    have hi : variants[pre.length]? = some p := by rw [hv]; simp
    rcases C63_others pre.length (List.getElem?_eq_some_iff.1 hi).1 p hi with h | ⟨j, hj, q, hq, h1, _, h3⟩
    · exact h
    · exfalso
      refine hn q ?_ ⟨by rw [h1]; exact hf.G0, by rw [h1]; exact hf.G4, h3.trans hf.motors⟩
      rw [hv, List.getElem?_append_left hj] at hq
      exact List.mem_of_getElem? hq
  unfold geoMatch
  rw [hG]
  simp only [h0, List.nil_append]
  rw [catalogMatches_eq, hv, List.filter_append, List.filter_cons, if_pos ((fit_iff s G p ho).1 hf), List.filter_eq_nil_iff.2]
  · rfl
  · intro q hq h
    exact hn q hq (fit_of s G q h)

theorem match_unknown (s : DScan) (G : Dict Str) (hG : s.G = some G) (h0 : statedGeometry s = []) (hn : ∀ q ∈ variants, ¬ Fit s G q) :
    geoMatch s = .ok geo0.name := by
  unfold geoMatch
  rw [hG]
  simp only [h0, List.nil_append]
  rw [catalogMatches_eq, List.filter_eq_nil_iff.2]
  · rfl
  · intro q hq h
    exact hn q hq (fit_of s G q h)

/-- C63: a variant that needs other motors is never found, for any scan: `fourc.picker`, for example. -/
theorem C63_others_never (s : DScan) (G : Dict Str) (hG : s.G = some G) (h0 : statedGeometry s = []) {n : Str} (hn : geoMatch s = .ok n)
    {p : Geometry × Variation} (hp : p ∈ variants) (ho : p.2.others ≠ []) : n ≠ p.1.name ++ '.' :: p.2.name := by
  have named : ∀ p ∈ variants, ∀ q ∈ variants, p.1.name ++ '.' :: p.2.name = q.1.name ++ '.' :: q.2.name → p.2.others = q.2.others := by decide +kernel
  by_cases hs : ∃ p ∈ variants, Fit s G p
  · obtain ⟨p', pre, post, e, h1, h2⟩ := first_of variants (Fit s G) hs
    rw [match_found s G hG h0 e h1 h2] at hn
    injection hn with hn
    rintro rfl
    refine ho ?_
    rw [← named p' (by rw [e]; simp) p hp hn]
    have hi : variants[pre.length]? = some p' := by rw [e]; simp
    rcases C63_others pre.length (List.getElem?_eq_some_iff.1 hi).1 p' hi with h | ⟨j, hj, q, hq, g1, _, g3⟩
    · exact h
    · exfalso
      refine h2 q ?_ ⟨by rw [g1]; exact h1.G0, by rw [g1]; exact h1.G4, g3.trans h1.motors⟩
      rw [e, List.getElem?_append_left hj] at hq
      exact List.mem_of_getElem? hq
  · rw [match_unknown s G hG h0 (fun q hq h => hs ⟨q, hq, h⟩)] at hn
    injection hn with hn
    rintro rfl
    have : '.' ∈ geo0.name := by rw [hn]; simp
    revert this; decide

/-- such variants are in the catalog -/
theorem C63_others_nonvacuous : (variants.filter (fun p => !p.2.others.isEmpty)).map (fun p => p.1.name ++ '.' :: p.2.name) =
    [p!"fourc.picker", p!"fourc.3axis", p!"fourc.xtalogic"] := by decide +kernel

/-- reading the numbers keeps the name -/
theorem parse_full {n : Str} {G : Dict Str} {d : Diff} (h : (Diff.new n).parse G = (d, none)) :
    d.full = n := by
  obtain ⟨g, d0, d1, d3, hg, h0, h1, h3, h4⟩ := parse_stages h
  have w0 : d0.full = n := by
    rcases parseG0_ok h0 with rfl | ⟨_, _, _, -, -, -, rfl⟩ <;> rfl
  have w1 : d1.full = n := by
    rcases parseG1_ok h1 with rfl | ⟨_, _, _, -, -, -, -, rfl⟩ <;> exact w0
  have w3 : d3.full = n := by
    rcases parseG3_ok h3 with rfl | ⟨_, rfl⟩ <;> exact w1
  rcases parseG4_ok h4 with rfl | ⟨_, -, -, rfl⟩ <;> exact w3

/-- a stated geometry of which the numbers could be read is in the catalog -/
theorem stated_known {n : Str} {g : Geometry} (h : geoGet (n ++ p!".default") = some g) : g ∈ geoDb ∧ g.name = n := by
  obtain ⟨h1, h2⟩ := geoGet_mem h
  refine ⟨h1, ?_⟩
  have hdot := (geoDb_facts g h1).2.2.2.2.1
  by_cases hn : '.' ∈ n
  · exfalso
    have e : splitNameVariation (n ++ p!".default") = (n ++ p!".default", none) := by
      obtain ⟨a, b, rfl, ha⟩ := List.eq_append_cons_of_mem hn
      have h1 : splitC '.' (a ++ '.' :: b ++ p!".default") = a :: splitC '.' (b ++ '.' :: p!"default") := by
        show splitC '.' (a ++ '.' :: b ++ '.' :: p!"default") = _
        rw [List.append_assoc, List.cons_append]
        exact splitP_append_sep _ a '.' _ (by intro d hd; simp; rintro rfl; exact ha hd) (by simp)
      have hm : '.' ∈ b ++ '.' :: p!"default" := by simp
      obtain ⟨a', b', e', ha'⟩ := List.eq_append_cons_of_mem hm
      have h2 : splitC '.' (b ++ '.' :: p!"default") = a' :: splitC '.' b' := by
        rw [e']
        exact splitP_append_sep _ a' '.' _ (by intro d hd; simp; rintro rfl; exact ha' hd) (by simp)
      obtain ⟨w, ws, h3⟩ := List.exists_cons_of_ne_nil (splitP_ne_nil (· == '.') b')
      unfold splitNameVariation
      rw [h1, h2, show splitC '.' b' = w :: ws from h3]
    rw [e] at h2
    exact hdot (by rw [h2]; exact List.mem_append_left _ hn)
  · have := split_dotted n p!"default" hn (by decide)
    rw [h2]
    exact congrArg Prod.fst this

section
variable [UniDB]

/-- the last value under a key is that of the last line -/
theorem lookup_last (ls : List Str) (n : Str) :
    List.lookup n (ls.map (fun l => (gName l, stripFirstWord l))).reverse = ((ls.filter (fun l => gName l == n)).getLast?).map stripFirstWord := by
  induction ls using List.reverseRecOn with
  | nil => rfl
  | append_singleton l a ih =>
    rw [List.map_append, List.map_singleton, lookup_append_single, List.filter_append, List.filter_singleton]
    by_cases h : gName a = n
    · simp [h]
    · have hb : (gName a == n) = false := by simpa using h
      rw [if_neg h, ih, hb]
      simp only [cond_false, List.append_nil]

/-- the name and the geometry of a scan of which the numbers could be read -/
theorem match_text {s : DScan} {G : Dict Str} {n head text : Str} {g : Geometry} (hG : s.G = some G)
    (hg : LastWins G ((ofKind .G (scanLines text)).map (fun l => (gName l, stripFirstWord l))))
    (hc : s.comments = hTexts .C head) (hmo : (∃ g ∈ geoDb, States head g.name) ∨ motorNames s = motorsOf head)
    (hn : geoMatch s = .ok n) (hk : geoGet n = some g) : GeometryIs head text n g := by
  have get : ∀ k, G.get? k = (gLine k text).map stripFirstWord := fun k => by
    rw [hg.value, lookup_last]; rfl
  have fit : motorNames s = motorsOf head → ∀ p, Fit s G p ↔ Suits head text p := by
    intro hm p
    constructor
    · rintro ⟨a, b, c⟩
      refine ⟨?_, ?_, by rw [← hm]; exact c⟩
      · rw [get] at a
        cases hl : gLine p!"G0" text with
        | none => rw [hl] at a; rw [← a]; decide
        | some l => rw [hl] at a; exact a
      · intro l hl
        exact b _ (by rw [get, hl]; rfl)
    · rintro ⟨a, b, c⟩
      refine ⟨?_, ?_, by rw [hm]; exact c⟩
      · rw [get]
        cases hl : gLine p!"G0" text with
        | none => rw [hl] at a; exact a
        | some l => rw [hl] at a; exact a
      · intro row hrow
        rw [get] at hrow
        cases hl : gLine p!"G4" text with
        | none => rw [hl] at hrow; cases hrow
        | some l =>
          rw [hl] at hrow
          injection hrow with hrow
          rw [← hrow]
          exact b l hl
  by_cases hst : ∃ c cs m u v, s.comments = c :: cs ∧ splitWs c = [m, p!"User", u, v] ∧ hasGeometry m = true
  · obtain ⟨c, cs, m, u, v, e1, e2, e3⟩ := hst
    rw [C63_stated s G hG m u v c cs e1 e2 e3] at hn
    injection hn with hn
    subst hn
    obtain ⟨k1, k2⟩ := stated_known hk
    subst k2
    exact .stated g k1 ⟨c, cs, u, v, by rw [← hc, e1], e2⟩
  · have h0 : statedGeometry s = [] := by
      unfold statedGeometry
      split
      · rfl
      · next c cs e =>
        split
        · next g u x y e2 =>
          rw [if_neg]
          rintro ⟨rfl, h⟩
          exact hst ⟨c, cs, g, x, y, e, e2, h⟩
        · rfl
    have hno : ∀ g' ∈ geoDb, ¬ States head g'.name := by
      rintro g' hg' ⟨c, cs, u, v, e1, e2⟩
      refine hst ⟨c, cs, g'.name, u, v, by rw [hc, e1], e2, ?_⟩
      unfold hasGeometry
      have hdot := (geoDb_facts g' hg').2.2.2.2.1
      have e : splitNameVariation g'.name = (g'.name, none) := by
        unfold splitNameVariation splitC
        rw [splitP_of_none _ _ (by intro d hd; simp; rintro rfl; exact hdot hd)]
      rw [e]
      exact List.contains_iff_mem.2 (List.mem_map.2 ⟨g', hg', rfl⟩)
    have hm : motorNames s = motorsOf head := by
      rcases hmo with ⟨g', a, b⟩ | h
      · exact absurd b (hno g' a)
      · exact h
    have fit := fit hm
    by_cases hs : ∃ p ∈ variants, Suits head text p
    · obtain ⟨⟨g1, v⟩, pre, post, e, h1, h2⟩ := first_of _ _ hs
      rw [match_found s G hG h0 e ((fit _).2 h1) (fun q hq h => h2 q hq ((fit q).1 h))] at hn
      injection hn with hn
      subst hn
      have hmem : (g1, v) ∈ variants := by rw [e]; simp
      unfold variants at hmem
      simp only [List.mem_flatMap, List.mem_map, Prod.mk.injEq] at hmem
      obtain ⟨g2, hg2, v2, hv2, rfl, rfl⟩ := hmem
      obtain ⟨-, -, -, -, hdot, hv, hget, -⟩ := geoDb_facts g2 hg2
      have : g = g2 := by
        have e2 := split_dotted g2.name v2.name hdot (hv v2 hv2).1
        have e0 : splitNameVariation g2.name = (g2.name, none) := by
          unfold splitNameVariation splitC
          rw [splitP_of_none _ _ (by intro d hd; simp; rintro rfl; exact hdot hd)]
        unfold geoGet at hk hget
        rw [e0] at hget
        have e2 : splitNameVariation (g2.name ++ '.' :: v2.name) = (g2.name, some v2.name) := e2
        simp only [e2] at hk
        rw [hget] at hk
        injection hk with hk
        exact hk.symm
      subst this
      exact .found g v2 pre post hno e h1 h2
    · rw [match_unknown s G hG h0 (fun q hq h => hs ⟨q, hq, (fit q).1 h⟩)] at hn
      injection hn with hn
      subst hn
      have : geoGet geo0.name = some geo0 := by decide +kernel
      rw [this] at hk
      injection hk with hk
      subst hk
      exact .unknown geo0 hno (fun p hp h => hs ⟨p, hp, h⟩) rfl

/-- C98: the texts of a header and a scan determine the diffractometer. -/
theorem C98_unique {head text n n' : Str} {g g' : Geometry} (h : GeometryIs head text n g) (h' : GeometryIs head text n' g') : n = n' ∧ g = g' := by
  have name : ∀ g ∈ geoDb, ∀ g' ∈ geoDb, g.name = g'.name → g = g' := by decide +kernel
  cases h with
  | stated _ a1 a2 =>
    cases h' with
    | stated _ b1 b2 =>
      obtain ⟨c, cs, u, v, e1, e2⟩ := a2
      obtain ⟨c', cs', u', v', f1, f2⟩ := b2
      rw [e1] at f1
      injection f1 with f1 _
      subst f1
      rw [e2] at f2
      injection f2 with f2 _
      exact ⟨by rw [f2], name _ a1 _ b1 f2⟩
    | found _ _ _ _ b1 => exact absurd a2 (b1 _ a1)
    | unknown _ b1 => exact absurd a2 (b1 _ a1)
  | found _ _ _ _ a1 a2 a3 a4 =>
    cases h' with
    | stated _ b1 b2 => exact absurd b2 (a1 _ b1)
    | found _ _ _ _ b1 b2 b3 b4 =>
      have := first_unique (a2.symm.trans b2) a3 b3 a4 b4
      injection this with h1 h2
      exact ⟨by rw [h1, h2], h1⟩
    | unknown _ b1 b2 => exact absurd a3 (b2 _ (by rw [a2]; simp))
  | unknown _ a1 a2 a3 =>
    cases h' with
    | stated _ b1 b2 => exact absurd b2 (a1 _ b1)
    | found _ _ _ _ b1 b2 b3 b4 => exact absurd b3 (a2 _ (by rw [b2]; simp))
    | unknown _ b1 b2 b3 =>
      rw [a3] at b3
      injection b3 with b3
      exact ⟨by rw [b3], b3⟩

end
end S2N.Props
