import Verif.Spec.Geometry
import Verif.Py.StrLemmas
import Verif.Py.NumLemmas
import Mathlib.Data.List.Induction
/-
C63, C64: diffractometer catalog.
-/
namespace S2N.Props
open S2N Py Spec

/-! ### facts about the packaged table (finite, checked by evaluation in the kernel) -/

theorem geoDb_facts : ∀ g ∈ geoDb, g.G.Nodup ∧ g.Q.Nodup ∧ (g.U.getD defaultU).Nodup ∧
    (∃ v ∈ g.variations, v.name = p!"default") ∧ '.' ∉ g.name ∧
    (∀ v ∈ g.variations, '.' ∉ v.name ∧ v.motors.Nodup) ∧
    geoGet g.name = some g ∧ (g.U = none ∨ g = geo13) := by decide +kernel

/-- the key is unknown to the other tables of the geometry -/
theorem geoDb_disjoint : ∀ g ∈ geoDb, (∀ k ∈ g.Q, k ∉ g.G ∧ k ∉ g.U.getD defaultU ∧
      k ≠ p!"ub_matrix" ∧ startsWith k p!"diffractometer_" = false) ∧
    (∀ k ∈ g.U.getD defaultU, k ≠ p!"ub_matrix" ∧ k ∉ g.Q) ∧
    (∀ k ∈ g.G, k ≠ p!"ub_matrix" ∧ endsWith k p!"_name" = false ∧
      (startsWith k p!"g_sect" = true → k = p!"g_sect")) := by decide +kernel

theorem geoGet_mem {n : Str} {g : Geometry} (h : geoGet n = some g) :
    g ∈ geoDb ∧ g.name = (splitNameVariation n).1 := by
  unfold geoGet at h
  refine ⟨List.mem_of_find?_eq_some h, ?_⟩
  have := List.find?_some h
  simpa using this

/-! ### C63 -/

/-- `n` names a geometry of the catalog, or a listed variant of one as `geometry.variant` -/
def Listed (n : Str) : Prop :=
  ∃ g ∈ geoDb, n = g.name ∨ ∃ v ∈ g.variations, n = g.name ++ '.' :: v.name

theorem split_dotted (a b : Str) (ha : '.' ∉ a) (hb : '.' ∉ b) :
    splitNameVariation (dotted a b) = (a, some b) := by
  unfold splitNameVariation dotted splitC
  rw [splitP_append_sep _ a '.' b (by intro d hd; simp; rintro rfl; exact ha hd) (by simp),
    splitP_of_none _ b (by intro d hd; simp; rintro rfl; exact hb hd)]

theorem listed_get {n : Str} (h : Listed n) : ∃ g ∈ geoDb, geoGet n = some g ∧
    (splitNameVariation n).1 = g.name ∧
    ∀ v, (splitNameVariation n).2 = some v → ∃ x ∈ g.variations, x.name = v := by
  obtain ⟨g, hg, h⟩ := h
  obtain ⟨-, -, -, -, hdot, hv, hget, -⟩ := geoDb_facts g hg
  rcases h with rfl | ⟨v, hvm, rfl⟩
  · have e : splitNameVariation g.name = (g.name, none) := by
      unfold splitNameVariation splitC
      rw [splitP_of_none _ _ (by intro d hd; simp; rintro rfl; exact hdot hd)]
    exact ⟨g, hg, hget, by rw [e], by rw [e]; simp⟩
  · have e := split_dotted g.name v.name hdot (hv v hvm).1
    have e0 : splitNameVariation g.name = (g.name, none) := by
      unfold splitNameVariation splitC
      rw [splitP_of_none _ _ (by intro d hd; simp; rintro rfl; exact hdot hd)]
    refine ⟨g, hg, ?_, ?_, ?_⟩
    · unfold geoGet at hget ⊢
      rw [e0] at hget
      show geoDb.find? (fun g' => g'.name == (splitNameVariation (dotted g.name v.name)).1) = some g
      rw [e]; exact hget
    · show (splitNameVariation (dotted g.name v.name)).1 = _
      rw [e]
    · intro w hw
      change (splitNameVariation (dotted g.name v.name)).2 = some w at hw
      rw [e] at hw
      exact ⟨v, hvm, Option.some.inj hw⟩

theorem catalogMatches_listed (s : DScan) (G : Dict Str) : ∀ n ∈ catalogMatches s G, Listed n := by
  intro n hn
  unfold catalogMatches at hn
  simp only [List.mem_flatMap, List.mem_filter, List.mem_map] at hn
  obtain ⟨g, ⟨hg, -⟩, v, ⟨hv, -⟩, rfl⟩ := hn
  exact ⟨g, hg, Or.inr ⟨v, hv, rfl⟩⟩

/-- no dotted geometry name is stated in the header's first comment -/
def NoDottedUser (s : DScan) : Prop :=
  ∀ c g u x y, s.comments.head? = some c → splitWs c = [g, u, x, y] → '.' ∉ g

theorem stated_listed (s : DScan) (h : NoDottedUser s) : ∀ n ∈ statedGeometry s, Listed n := by
  intro n hn
  unfold statedGeometry at hn
  split at hn
  · simp at hn
  · next c cs hc =>
    split at hn
    · next g u x y e =>
      split at hn
      · next hg =>
        obtain ⟨rfl, hg⟩ := hg
        have hd := h c g _ x y (by rw [hc]; rfl) e
        have es : splitNameVariation g = (g, none) := by
          unfold splitNameVariation splitC
          rw [splitP_of_none _ _ (by intro d hd'; simp; rintro rfl; exact hd hd')]
        unfold hasGeometry at hg
        rw [es] at hg
        simp only [geometriesSimple, List.contains_iff_mem, List.mem_map] at hg
        obtain ⟨gg, hgg, rfl⟩ := hg
        obtain ⟨-, -, -, ⟨v, hv, hvn⟩, -⟩ := geoDb_facts gg hgg
        simp only [List.mem_singleton] at hn
        exact ⟨gg, hgg, Or.inr ⟨v, hv, by rw [hn, hvn]; rfl⟩⟩
      · simp at hn
    · simp at hn

/-- C63, what holds: for every scan with #G lines whose header comment does not state a dotted
geometry name, `match` returns a listed name; the catalog has the geometry, and a variant in the
name is one listed for it.  Missing: a dotted name stated in the header (`C63_false`). -/
theorem C63_partial (s : DScan) (G : Dict Str) (hG : s.G = some G) (h : NoDottedUser s) :
    ∃ n, geoMatch s = .ok n ∧ Listed n ∧ ∃ g ∈ geoDb, geoGet n = some g ∧
      ∀ v, (splitNameVariation n).2 = some v → ∃ x ∈ g.variations, x.name = v := by
  have key : ∃ n, geoMatch s = .ok n ∧ Listed n := by
    unfold geoMatch
    rw [hG]
    simp only
    split
    · exact ⟨_, rfl, geo0, by simp [geoDb], Or.inl rfl⟩
    · next m ms e =>
      refine ⟨m, rfl, ?_⟩
      have hm : m ∈ statedGeometry s ++ catalogMatches s G := by rw [e]; simp
      rcases List.mem_append.1 hm with hm | hm
      · exact stated_listed s h m hm
      · exact catalogMatches_listed s G m hm
  obtain ⟨n, h1, h2⟩ := key
  obtain ⟨g, hg, h3, -, h4⟩ := listed_get h2
  exact ⟨n, h1, h2, g, hg, h3, h4⟩

/-- C63: `match` never raises for a scan with #G lines. -/
theorem C63_total (s : DScan) (G : Dict Str) (hG : s.G = some G) : ∃ n, geoMatch s = .ok n := by
  unfold geoMatch
  rw [hG]
  simp only
  split
  · exact ⟨_, rfl⟩
  · exact ⟨_, rfl⟩

/-- C63: the geometry is the one stated in the header, if it is in the catalog ... -/
theorem C63_stated (s : DScan) (G : Dict Str) (hG : s.G = some G) (g x y c : Str) (cs : List Str)
    (hc : s.comments = c :: cs) (e : splitWs c = [g, p!"User", x, y]) (hg : hasGeometry g = true) :
    geoMatch s = .ok (g ++ p!".default") := by
  have : statedGeometry s = [dotted g p!"default"] := by
    unfold statedGeometry
    rw [hc]
    simp only [e]
    rw [if_pos ⟨by trivial, hg⟩]
  unfold geoMatch
  rw [hG]
  simp only [this, List.cons_append]
  rfl

theorem first_agreeing (s : DScan) (G : Dict Str) (hG : s.G = some G)
    (h0 : statedGeometry s = []) :
    (geoMatch s = .ok p!"spec" ∧
      ∀ g ∈ geoDb, ∀ v ∈ g.variations, ¬ (geometryMatches G g = true ∧ variantMatches s v = true)) ∨
    ∃ pre g post vpre v vpost, geoDb = pre ++ g :: post ∧ g.variations = vpre ++ v :: vpost ∧
      geoMatch s = .ok (g.name ++ '.' :: v.name) ∧
      geometryMatches G g = true ∧ variantMatches s v = true ∧
      (∀ g' ∈ pre, geometryMatches G g' = true → ∀ v' ∈ g'.variations, variantMatches s v' = false) ∧
      (∀ v' ∈ vpre, variantMatches s v' = false) := by
  have step : ∀ db : List Geometry,
      let ms := (db.filter (geometryMatches G)).flatMap (fun g =>
        (g.variations.filter (variantMatches s)).map (fun v => dotted g.name v.name))
      (ms = [] ∧ ∀ g ∈ db, ∀ v ∈ g.variations,
        ¬ (geometryMatches G g = true ∧ variantMatches s v = true)) ∨
      ∃ pre g post vpre v vpost rest, db = pre ++ g :: post ∧ g.variations = vpre ++ v :: vpost ∧
        ms = (g.name ++ '.' :: v.name) :: rest ∧
        geometryMatches G g = true ∧ variantMatches s v = true ∧
        (∀ g' ∈ pre, geometryMatches G g' = true → ∀ v' ∈ g'.variations, variantMatches s v' = false) ∧
        (∀ v' ∈ vpre, variantMatches s v' = false) := by
    have vstep : ∀ vs : List Variation, vs.filter (variantMatches s) = [] ∨
        ∃ vpre v vpost rest, vs = vpre ++ v :: vpost ∧ vs.filter (variantMatches s) = v :: rest ∧
          variantMatches s v = true ∧ ∀ v' ∈ vpre, variantMatches s v' = false := by
      intro vs
      cases e : vs.filter (variantMatches s) with
      | nil => exact Or.inl rfl
      | cons v rest =>
        right
        obtain ⟨l1, l2, h1, h2, h3, -⟩ := List.filter_eq_cons_iff.1 e
        exact ⟨l1, v, l2, rest, h1, rfl, h3, fun v' hv' => by simpa using h2 v' hv'⟩
    intro db
    induction db with
    | nil => left; simp
    | cons g db ih =>
      by_cases hg : geometryMatches G g = true
      · rcases vstep g.variations with hv | ⟨vpre, v, vpost, rest, h1, h2, h3, h4⟩
        · rcases ih with ⟨e, hn⟩ | ⟨pre, g2, post, vpre, v, vpost, rest, h1, h2, h3, h4, h5, h6, h7⟩
          · left
            refine ⟨by simp only [List.filter_cons, hg, if_true, List.flatMap_cons, hv, List.map_nil,
              List.nil_append]; exact e, ?_⟩
            intro g' hg' v' hv'
            rcases List.mem_cons.1 hg' with rfl | hg'
            · intro hc
              have : v' ∈ g'.variations.filter (variantMatches s) := List.mem_filter.2 ⟨hv', hc.2⟩
              rw [hv] at this; simp at this
            · exact hn g' hg' v' hv'
          · right
            refine ⟨g :: pre, g2, post, vpre, v, vpost, rest, by rw [h1]; rfl, h2, ?_, h4, h5, ?_, h7⟩
            · simp only [List.filter_cons, hg, if_true, List.flatMap_cons, hv, List.map_nil,
                List.nil_append]; exact h3
            · intro g' hg' hm v' hv'
              rcases List.mem_cons.1 hg' with rfl | hg'
              · cases hh : variantMatches s v' with
                | false => rfl
                | true =>
                  have : v' ∈ g'.variations.filter (variantMatches s) := List.mem_filter.2 ⟨hv', hh⟩
                  rw [hv] at this; simp at this
              · exact h6 g' hg' hm v' hv'
        · right
          refine ⟨[], g, db, vpre, v, vpost, (rest.map fun v => dotted g.name v.name) ++
            (db.filter (geometryMatches G)).flatMap (fun g =>
              (g.variations.filter (variantMatches s)).map (fun v => dotted g.name v.name)),
            rfl, h1, ?_, hg, h3, by simp, h4⟩
          simp only [List.filter_cons, hg, if_true, List.flatMap_cons, h2, List.map_cons,
            List.cons_append]
          rfl
      · rcases ih with ⟨e, hn⟩ | ⟨pre, g2, post, vpre, v, vpost, rest, h1, h2, h3, h4, h5, h6, h7⟩
        · left
          refine ⟨by simp only [List.filter_cons, hg]; exact e, ?_⟩
          intro g' hg' v' hv'
          rcases List.mem_cons.1 hg' with rfl | hg'
          · exact fun hc => hg hc.1
          · exact hn g' hg' v' hv'
        · right
          refine ⟨g :: pre, g2, post, vpre, v, vpost, rest, by rw [h1]; rfl, h2, ?_, h4, h5, ?_, h7⟩
          · simp only [List.filter_cons, hg]; exact h3
          · intro g' hg' hm
            rcases List.mem_cons.1 hg' with rfl | hg'
            · exact absurd hm hg
            · exact h6 g' hg' hm
  unfold geoMatch
  rw [hG]
  simp only [h0, List.nil_append]
  rcases step geoDb with ⟨e, hn⟩ | ⟨pre, g2, post, vpre, v, vpost, rest, h1, h2, h3, h4, h5, h6, h7⟩
  · left
    refine ⟨?_, hn⟩
    have : catalogMatches s G = [] := e
    rw [this]; rfl
  · right
    refine ⟨pre, g2, post, vpre, v, vpost, h1, h2, ?_, h4, h5, h6, h7⟩
    have : catalogMatches s G = (g2.name ++ '.' :: v.name) :: rest := h3
    rw [this]

/-- the motors of the scan by the names of the catalog: the mnemonics of the #o lines; without #o
lines the names of the #O lines in lower case; without those the positioners of the scan -/
def motorNames (s : DScan) : List Str :=
  match s.o, s.O with
  | some rows, _ => rows.flatten.map catalogName
  | none, some rows => rows.flatten.map (fun k => catalogName (lower k))
  | none, none => s.positioner.map (fun k => catalogName (lower k))

/-- a catalog entry agrees with a scan: as many #G0 values as parameters, as many #G4 values (if
there is such a line) as the entry has, the motors of the entry come first, and the scan has the
other motors of the entry -/
structure Agrees (s : DScan) (G : Dict Str) (g : Geometry) (v : Variation) : Prop where
  G0 : valueCount ((G.get? p!"G0").getD p!"0") = g.G.length
  G4 : ∀ row, G.get? p!"G4" = some row → valueCount row = g.Q.length
  motors : v.motors <+: motorNames s
  others : ∀ m ∈ v.others, m ∈ s.positioner

theorem stdName_eq (k : Str) : stdName k = catalogName k := by
  have e : (k = p!"2-theta" ∨ k = p!"two theta" ∨ endsWith k p!"tth" = true) ↔
      (k ∈ [p!"2-theta", p!"two theta"] ∨ p!"tth" <:+ k) := by
    simp only [endsWith, List.isSuffixOf_iff_suffix, List.mem_cons, List.not_mem_nil, or_false, or_assoc]
  unfold stdName catalogName
  by_cases h : k = p!"2-theta" ∨ k = p!"two theta" ∨ endsWith k p!"tth" = true
  · rw [if_pos h, if_pos (e.1 h)]
  · rw [if_neg h, if_neg (fun h2 => h (e.2 h2))]
    by_cases h1 : k = p!"theta"
    · subst h1; decide
    by_cases h2 : k = p!"delta"
    · subst h2; decide
    by_cases h3 : k = p!"gamma"
    · subst h3; decide
    rw [if_neg h1, if_neg h2, if_neg h3]
    have : Dict.get? [(p!"theta", p!"th"), (p!"delta", p!"del"), (p!"gamma", p!"gam")] k = none := by
      rw [Dict.get?_eq_none_iff]
      simp only [Dict.keys, List.map_cons, List.map_nil, List.mem_cons, List.not_mem_nil, or_false]
      rintro (h | h | h)
      exacts [h1 h, h2 h, h3 h]
    rw [this]; rfl

theorem scanPositioners_eq (s : DScan) : scanPositioners s = motorNames s := by
  unfold scanPositioners motorNames
  have : stdName = catalogName := funext stdName_eq
  rw [this]
  cases s.o <;> cases s.O <;> simp [Function.comp_def]

theorem gWords_length (row : Str) : (gWords row).length = valueCount row := by
  unfold gWords valueCount
  split <;> simp_all

theorem agrees_iff (s : DScan) (G : Dict Str) (g : Geometry) (v : Variation) :
    Agrees s G g v ↔ geometryMatches G g = true ∧ variantMatches s v = true := by
  unfold geometryMatches variantMatches
  rw [scanPositioners_eq]
  simp only [Bool.and_eq_true, beq_iff_eq, gWords_length, List.all_eq_true, List.contains_iff_mem]
  constructor
  · rintro ⟨h1, h2, h3, h4⟩
    refine ⟨⟨h1, ?_⟩, (List.prefix_iff_eq_take.1 h3).symm, h4⟩
    split
    · rfl
    · next row e => simpa using h2 row e
  · rintro ⟨⟨h1, h2⟩, h3, h4⟩
    refine ⟨h1, fun row e => ?_, List.prefix_iff_eq_take.2 h3.symm, h4⟩
    rw [e] at h2
    simpa using h2

/-- ... otherwise the first entry in catalog order that agrees with the scan; the default geometry
if no entry agrees. -/
theorem C63_first_agreeing (s : DScan) (G : Dict Str) (hG : s.G = some G)
    (h0 : ¬ ∃ c cs g x y, s.comments = c :: cs ∧ splitWs c = [g, p!"User", x, y] ∧
      hasGeometry g = true) :
    (geoMatch s = .ok p!"spec" ∧ ∀ g ∈ geoDb, ∀ v ∈ g.variations, ¬ Agrees s G g v) ∨
    ∃ pre g post vpre v vpost, geoDb = pre ++ g :: post ∧ g.variations = vpre ++ v :: vpost ∧
      geoMatch s = .ok (g.name ++ '.' :: v.name) ∧ Agrees s G g v ∧
      (∀ g' ∈ pre, ∀ v' ∈ g'.variations, ¬ Agrees s G g' v') ∧ ∀ v' ∈ vpre, ¬ Agrees s G g v' := by
  have h1 : statedGeometry s = [] := by
    unfold statedGeometry
    split
    · rfl
    · next c cs e =>
      split
      · next g u x y e2 =>
        rw [if_neg]
        rintro ⟨rfl, hg⟩
        exact h0 ⟨c, cs, g, x, y, e, e2, hg⟩
      · rfl
  rcases first_agreeing s G hG h1 with ⟨h, hn⟩ | ⟨pre, g, post, vpre, v, vpost, h1, h2, h3, h4, h5, h6, h7⟩
  · exact .inl ⟨h, fun g hg v hv ha => hn g hg v hv ((agrees_iff s G g v).1 ha)⟩
  · refine .inr ⟨pre, g, post, vpre, v, vpost, h1, h2, h3, (agrees_iff s G g v).2 ⟨h4, h5⟩, ?_, ?_⟩
    · intro g' hg' v' hv' ha
      obtain ⟨a1, a2⟩ := (agrees_iff s G g' v').1 ha
      rw [h6 g' hg' a1 v' hv'] at a2; cases a2
    · intro v' hv' ha
      obtain ⟨a1, a2⟩ := (agrees_iff s G g v').1 ha
      rw [h7 v' hv'] at a2; cases a2

/-- a scan of a four circle diffractometer -/
def fourcScan (comment : Str) : DScan where
  comments := [comment]
  o := none
  O := some [[p!"Two Theta", p!"Theta", p!"Chi", p!"Phi"]]
  positioner := []
  G := some [(p!"G0", join [' '] (List.replicate 27 p!"1"))]

/-- C63 does not hold for a header comment such as `fourc.kappa  User = me`: the answer is a name
that the catalog does not have, and parsing the scan raises RuntimeError. -/
theorem C63_false :
    geoMatch (fourcScan p!"fourc.kappa  User = me") = .ok p!"fourc.kappa.default" ∧
    geoGet p!"fourc.kappa.default" = none ∧
    geoPost (fourcScan p!"fourc.kappa  User = me") = .error .RuntimeError := by decide +kernel

theorem C63_nonvacuous :
    geoMatch (fourcScan p!"a comment") = .ok p!"fourc.default" ∧
    geoMatch (fourcScan p!"sixc User = me") = .ok p!"sixc.default" ∧
    NoDottedUser (fourcScan p!"a comment") := by
  refine ⟨by decide +kernel, by decide +kernel, ?_⟩
  intro c g u x y h e
  simp only [fourcScan, List.head?_cons, Option.some.injEq] at h
  subst h
  have : splitWs p!"a comment" = [p!"a", p!"comment"] := by decide
  rw [this] at e
  simp at e

/-! ### C64 -/

theorem foldl_set_append (ks : List (Str × PyFloat)) (d : Dict PyFloat)
    (h : (d.keys ++ ks.map (·.1)).Nodup) :
    ks.foldl (fun d kv => d.set kv.1 kv.2) d = d ++ ks := by
  induction ks generalizing d with
  | nil => simp
  | cons a as ih =>
    have hn : a.1 ∉ d.keys := by
      intro hm
      rw [List.map_cons, List.nodup_append] at h
      exact h.2.2 _ hm _ (by simp) rfl
    rw [List.foldl_cons, Dict.set_of_not_mem _ _ _ hn, ih]
    · simp
    · simpa [Dict.keys] using h

theorem zip_keys_nodup (ks : List Str) (vs : List PyFloat) (h : ks.Nodup) :
    ((ks.zip vs).map (·.1)).Nodup := by
  have : (ks.zip vs).map (·.1) = ks.take (min ks.length vs.length) := by
    rw [List.zip_eq_zip_take_min]
    exact List.map_fst_zip (by simp)
  rw [this]
  exact h.sublist (List.take_sublist _ _)

theorem zipDict_eq (ks : List Str) (vs : List PyFloat) (h : ks.Nodup) : zipDict ks vs = ks.zip vs := by
  unfold zipDict
  rw [foldl_set_append _ [] (by simpa [Dict.keys] using zip_keys_nodup ks vs h)]
  rfl

/-- the value of the key at place `i` is the value at place `i` -/
theorem zip_get (ks : List Str) (vs : List PyFloat) (h : ks.Nodup) (i : Nat) (k : Str)
    (hk : ks[i]? = some k) : Dict.get? (ks.zip vs) k = vs[i]? := by
  induction ks generalizing vs i with
  | nil => simp at hk
  | cons a as ih =>
    cases vs with
    | nil => simp [Dict.get?_nil]
    | cons v vs =>
      rw [List.zip_cons_cons, Dict.get?_cons]
      cases i with
      | zero => simp only [List.getElem?_cons_zero, Option.some.injEq] at hk; simp [hk]
      | succ i =>
        simp only [List.getElem?_cons_succ] at hk ⊢
        have hm : k ∈ as := List.mem_of_getElem? hk
        have hne : a ≠ k := by rintro rfl; exact (List.nodup_cons.1 h).1 hm
        rw [if_neg hne]
        exact ih vs (List.nodup_cons.1 h).2 i hk

theorem zip_get_none (ks : List Str) (vs : List PyFloat) (k : Str) (hk : k ∉ ks) :
    Dict.get? (ks.zip vs) k = none := by
  rw [Dict.get?_eq_none_iff]
  intro hm
  simp only [Dict.keys, List.mem_map, Prod.exists, exists_and_right, exists_eq_right] at hm
  obtain ⟨x, hx⟩ := hm
  exact hk (List.of_mem_zip hx).1

theorem updNum_get_mem (e : Dict PyFloat) (he : (e.map (·.1)).Nodup) (d : Dict GVal) (k : Str) :
    (updNum d e).get? k = match Dict.get? e k with | some x => some (.num x) | none => d.get? k := by
  unfold updNum
  induction e generalizing d with
  | nil => rfl
  | cons a as ih =>
    have h2 := List.nodup_cons.1 he
    rw [List.foldl_cons, ih h2.2, Dict.get?_cons]
    by_cases hk : a.1 = k
    · subst hk
      have : Dict.get? as a.1 = none := by
        rw [Dict.get?_eq_none_iff]; exact h2.1
      simp [this, Dict.get?_set_self]
    · rw [if_neg hk, Dict.get?_set_ne _ _ hk]

/-- reading a key after `geometry_parameters.update(...)` -/
theorem updNum_get (ks : List Str) (vs : List PyFloat) (h : ks.Nodup) (d : Dict GVal) (k : Str) :
    (updNum d (zipDict ks vs)).get? k =
      match Dict.get? (ks.zip vs) k with | some x => some (.num x) | none => d.get? k := by
  rw [zipDict_eq ks vs h, updNum_get_mem _ (zip_keys_nodup ks vs h)]

/-- the words of the row are the numbers `xs` -/
def RowIs (G : Dict Str) (k : Str) (xs : List PyFloat) : Prop :=
  ∃ row, G.get? k = some row ∧ mapE Py.float (splitWs row) = .ok xs

theorem eval_ok_inv {α σ : Type} {x : Except PyErr α} {s t : σ} {f : α → Res σ}
    (h : Res.eval x s f = (t, none)) : ∃ a, x = .ok a ∧ f a = (t, none) := by
  cases x with
  | error e => simp [Res.eval] at h
  | ok a => exact ⟨a, rfl, h⟩

theorem andThen_ok {σ : Type} {r : Res σ} {f : σ → Res σ} {x : σ}
    (h : r.andThen f = (x, none)) : ∃ y, r = (y, none) ∧ f y = (x, none) := by
  obtain ⟨y, e⟩ := r
  cases e with
  | none => exact ⟨y, rfl, h⟩
  | some e => simp [Res.andThen] at h

/-- the stages of a successful parse -/
theorem parse_stages {n : Str} {G : Dict Str} {d : Diff} (h : (Diff.new n).parse G = (d, none)) :
    ∃ g d0 d1 d3, geoGet n = some g ∧ parseG0 g G (Diff.new n) = (d0, none) ∧
      parseG1 g G d0 = (d1, none) ∧ parseG3 G d1 = (d3, none) ∧ parseG4 g G d3 = (d, none) := by
  unfold Diff.parse at h
  have e : (Diff.new n).full = n := rfl
  rw [e] at h
  split at h
  · simp [Res.raise] at h
  · next g hg =>
    obtain ⟨d0, h0, h⟩ := andThen_ok h
    obtain ⟨d1, h1, h⟩ := andThen_ok h
    obtain ⟨d3, h3, h⟩ := andThen_ok h
    exact ⟨g, d0, d1, d3, hg, h0, h1, h3, h⟩

theorem parseG4_ok {g : Geometry} {G : Dict Str} {d e : Diff} (h : parseG4 g G d = (e, none)) :
    e = d ∨ ∃ xs, RowIs G p!"G4" xs ∧ xs.length = g.Q.length ∧ e = { d with
      wavelength := (match (zipDict g.Q xs).get? p!"LAMBDA" with | some w => some w | none => d.wavelength)
      gpar := updNum d.gpar (zipDict g.Q xs)
      gdesc := updDesc d.gdesc g.Q g.Qd xs.length } := by
  unfold parseG4 at h
  split at h
  · left; exact (Prod.mk.inj h).1.symm
  · next row hr =>
    cases hx : mapE Py.float (splitWs row) with
    | error err => rw [hx] at h; simp [Res.raise] at h
    | ok xs =>
      rw [hx] at h
      simp only [Res.eval_ok] at h
      split at h
      · next hl => right; exact ⟨xs, ⟨row, hr, hx⟩, hl, (Prod.mk.inj h).1.symm⟩
      · left; exact (Prod.mk.inj h).1.symm

theorem parseG4_row {g : Geometry} {G : Dict Str} {d e : Diff} (h : parseG4 g G d = (e, none))
    {xs : List PyFloat} (hr : RowIs G p!"G4" xs) (hl : xs.length = g.Q.length) : e = { d with
      wavelength := (match (zipDict g.Q xs).get? p!"LAMBDA" with | some w => some w | none => d.wavelength)
      gpar := updNum d.gpar (zipDict g.Q xs)
      gdesc := updDesc d.gdesc g.Q g.Qd xs.length } := by
  obtain ⟨row, h1, h2⟩ := hr
  unfold parseG4 at h
  rw [h1] at h
  simp only [h2, Res.eval_ok] at h
  rw [if_pos hl] at h
  exact (Prod.mk.inj h).1.symm

theorem parseG3_ok {G : Dict Str} {d e : Diff} (h : parseG3 G d = (e, none)) :
    e = d ∨ ∃ m, e = { d with gpar := d.gpar.set p!"ub_matrix" (.mat m), gdesc := d.gdesc.set p!"ub_matrix" p!"UB[] matrix", UB := some m } := by
  unfold parseG3 at h
  split at h
  · left; exact (Prod.mk.inj h).1.symm
  · next row hr =>
    cases hx : mapE Py.float (splitWs row) with
    | error err => rw [hx] at h; simp [Res.raise] at h
    | ok xs =>
      rw [hx] at h
      simp only [Res.eval_ok] at h
      split at h
      · right; exact ⟨_, (Prod.mk.inj h).1.symm⟩
      · left; exact (Prod.mk.inj h).1.symm

theorem parseG3_row {G : Dict Str} {d e : Diff} (h : parseG3 G d = (e, none))
    {xs : List PyFloat} (hr : RowIs G p!"G3" xs) :
    (xs.length = 9 → ∃ m, e = { d with gpar := d.gpar.set p!"ub_matrix" (.mat m), gdesc := d.gdesc.set p!"ub_matrix" p!"UB[] matrix", UB := some m } ∧
      m.flatten = xs ∧ m.map List.length = [3, 3, 3] ∧
      ∀ i j, i < 3 → j < 3 → (m[i]?).bind (·[j]?) = xs[3 * i + j]?) ∧ (xs.length ≠ 9 → e = d) := by
  obtain ⟨row, h1, h2⟩ := hr
  unfold parseG3 at h
  rw [h1] at h
  simp only [h2, Res.eval_ok] at h
  split at h
  · refine ⟨fun _ => ⟨_, (Prod.mk.inj h).1.symm, rfl, rfl, ?_⟩, fun hn => absurd rfl hn⟩
    intro i j hi hj
    have hi : i = 0 ∨ i = 1 ∨ i = 2 := by omega
    have hj : j = 0 ∨ j = 1 ∨ j = 2 := by omega
    rcases hi with rfl | rfl | rfl <;> rcases hj with rfl | rfl | rfl <;> rfl
  · next hne =>
    refine ⟨fun hl => ?_, fun _ => (Prod.mk.inj h).1.symm⟩
    exfalso
    match xs, hl with
    | [a, b, c, e, f, g, h, i, j], _ => exact hne _ _ _ _ _ _ _ _ _ rfl

theorem reflections_fields {g : Geometry} {v : Option Str} {U : Dict PyFloat} {d e : Diff}
    (h : reflections g v U d = (e, none)) : ∃ rs, e = { d with reflections := d.reflections ++ rs } := by
  unfold reflections at h
  split at h
  · simp [Res.raise] at h
  · split at h
    · obtain ⟨r, -, h⟩ := eval_ok_inv h
      exact ⟨[r], (Prod.mk.inj h).1.symm⟩
    · obtain ⟨r, -, h⟩ := eval_ok_inv h
      obtain ⟨r1, -, h⟩ := eval_ok_inv h
      exact ⟨[r, r1], by rw [← (Prod.mk.inj h).1]; simp⟩

theorem parseG1_ok {g : Geometry} {G : Dict Str} {d e : Diff} (h : parseG1 g G d = (e, none)) :
    e = d ∨ ∃ xs l rs, RowIs G p!"G1" xs ∧ 1 < xs.length ∧
      latticeOf (zipDict (g.U.getD defaultU) xs) = .ok l ∧
      reflections g d.variant (zipDict (g.U.getD defaultU) xs) { d with lattice := some l }
        = ({ d with lattice := some l, reflections := rs }, none) ∧
      e = { d with lattice := some l, reflections := rs,
                   gpar := updNum d.gpar (zipDict (g.U.getD defaultU) xs)
                   gdesc := updDesc d.gdesc (g.U.getD defaultU) (g.Ud.getD defaultUd) xs.length } := by
  unfold parseG1 at h
  split at h
  · left; exact (Prod.mk.inj h).1.symm
  · next row hr =>
    obtain ⟨xs, hx, h⟩ := eval_ok_inv h
    split at h
    · next hl =>
      obtain ⟨l, hlat, h⟩ := eval_ok_inv h
      obtain ⟨d1, h1, h⟩ := andThen_ok h
      obtain ⟨rs, rfl⟩ := reflections_fields h1
      right
      exact ⟨xs, l, _, ⟨row, hr, hx⟩, hl, hlat, h1, (Prod.mk.inj h).1.symm⟩
    · left; exact (Prod.mk.inj h).1.symm

theorem RowIs_unique {G : Dict Str} {k : Str} {xs ys : List PyFloat} (h1 : RowIs G k xs)
    (h2 : RowIs G k ys) : xs = ys := by
  obtain ⟨r, h1, h3⟩ := h1
  obtain ⟨r', h2, h4⟩ := h2
  rw [h1] at h2
  cases h2
  rw [h3] at h4
  exact Except.ok.inj h4

theorem parseG1_row {g : Geometry} {G : Dict Str} {d e : Diff} (h : parseG1 g G d = (e, none))
    {xs : List PyFloat} (hr : RowIs G p!"G1" xs) (hl : 1 < xs.length) :
    ∃ l rs, latticeOf (zipDict (g.U.getD defaultU) xs) = .ok l ∧
      reflections g d.variant (zipDict (g.U.getD defaultU) xs) { d with lattice := some l }
        = ({ d with lattice := some l, reflections := rs }, none) ∧
      e = { d with lattice := some l, reflections := rs,
                   gpar := updNum d.gpar (zipDict (g.U.getD defaultU) xs)
                   gdesc := updDesc d.gdesc (g.U.getD defaultU) (g.Ud.getD defaultUd) xs.length } := by
  obtain ⟨row, h1, h2⟩ := hr
  unfold parseG1 at h
  rw [h1] at h
  simp only [h2, Res.eval_ok] at h
  rw [if_pos hl] at h
  obtain ⟨l, hlat, h⟩ := eval_ok_inv h
  obtain ⟨d1, h1, h⟩ := andThen_ok h
  obtain ⟨rs, rfl⟩ := reflections_fields h1
  exact ⟨l, _, hlat, h1, (Prod.mk.inj h).1.symm⟩

/-- what the #G0 numbers `xs` do to the object -/
def g0Result (g : Geometry) (xs : List PyFloat) (d : Diff) (sec : Option Int)
    (adds : List (Str × Str)) : Diff := { d with
      sector := sec
      mode := (adds.foldl (fun m a => if a.1 = p!"g_mode_name" then some a.2 else m) d.mode)
      gpar := adds.foldl (fun g a => g.set a.1 (.str a.2)) (updNum d.gpar (zipDict g.G xs))
      gdesc := adds.foldl (fun g a => g.set a.1 (nameDesc g a.1)) (updDesc d.gdesc g.G g.Gd xs.length) }

theorem parseG0_ok {g : Geometry} {G : Dict Str} {d e : Diff} (h : parseG0 g G d = (e, none)) :
    e = d ∨ ∃ xs sec adds, RowIs G p!"G0" xs ∧ xs.length = g.G.length ∧
      g0Loop g.modes (zipDict g.G xs) d.sector [] = (sec, .ok adds) ∧
      e = g0Result g xs d sec adds := by
  unfold parseG0 at h
  split at h
  · left; exact (Prod.mk.inj h).1.symm
  · next row hr =>
    obtain ⟨ys, hy, h⟩ := eval_ok_inv h
    split at h
    · next hl =>
      simp only at h
      split at h
      · simp [Res.raise] at h
      · next sec adds hh =>
        right
        exact ⟨ys, sec, adds, ⟨row, hr, hy⟩, hl, hh, (Prod.mk.inj h).1.symm⟩
    · left; exact (Prod.mk.inj h).1.symm

theorem parseG0_row {g : Geometry} {G : Dict Str} {d e : Diff} (h : parseG0 g G d = (e, none))
    {xs : List PyFloat} (hr : RowIs G p!"G0" xs) (hl : xs.length = g.G.length) :
    ∃ sec adds, g0Loop g.modes (zipDict g.G xs) d.sector [] = (sec, .ok adds) ∧
      e = g0Result g xs d sec adds := by
  obtain ⟨row, h1, h2⟩ := hr
  unfold parseG0 at h
  rw [h1] at h
  simp only [h2, Res.eval_ok] at h
  rw [if_pos hl] at h
  split at h
  · simp [Res.raise] at h
  · next sec adds hh => exact ⟨sec, adds, hh, (Prod.mk.inj h).1.symm⟩

/-- C64: for every #G4 row with one number for each Q parameter of the geometry, the parameter at
place `i` gets the number at place `i`, and the wavelength is the number at the place of LAMBDA. -/
theorem C64_Q {n : Str} {G : Dict Str} {d : Diff} {g : Geometry} {xs : List PyFloat}
    (h : (Diff.new n).parse G = (d, none)) (hg : geoGet n = some g) (hr : RowIs G p!"G4" xs)
    (hl : xs.length = g.Q.length) (i : Nat) (k : Str) (hk : g.Q[i]? = some k) :
    d.gpar.get? k = (xs[i]?).map .num ∧ (k = p!"LAMBDA" → d.wavelength = xs[i]?) := by
  obtain ⟨g', d0, d1, d3, hg', -, -, -, h4⟩ := parse_stages h
  rw [hg] at hg'; cases hg'
  have nd := (geoDb_facts g (geoGet_mem hg).1).2.1
  have hi : i < xs.length := by rw [hl]; exact (List.getElem?_eq_some_iff.1 hk).1
  have hx : xs[i]? = some xs[i] := List.getElem?_eq_getElem hi
  rw [parseG4_row h4 hr hl]
  constructor
  · simp only
    rw [updNum_get _ _ nd, zip_get _ _ nd i k hk, hx]
    rfl
  · rintro rfl
    simp only
    rw [zipDict_eq _ _ nd, zip_get _ _ nd i _ hk, hx]

/-- C64: a #G4 row with another number of values sets nothing. -/
theorem C64_Q_other {n : Str} {G : Dict Str} {d : Diff} {g : Geometry} {xs : List PyFloat}
    (h : (Diff.new n).parse G = (d, none)) (hg : geoGet n = some g) (hr : RowIs G p!"G4" xs)
    (hl : xs.length ≠ g.Q.length) : d.wavelength = none := by
  obtain ⟨g', d0, d1, d3, hg', h0, h1, h3, h4⟩ := parse_stages h
  rw [hg] at hg'; cases hg'
  have w0 : d0.wavelength = none := by
    rcases parseG0_ok h0 with rfl | ⟨_, _, _, -, -, -, rfl⟩ <;> rfl
  have w1 : d1.wavelength = none := by
    rcases parseG1_ok h1 with rfl | ⟨_, _, _, -, -, -, -, rfl⟩ <;> exact w0
  have w3 : d3.wavelength = none := by
    rcases parseG3_ok h3 with rfl | ⟨_, rfl⟩ <;> exact w1
  rcases parseG4_ok h4 with rfl | ⟨ys, hy, hyl, -⟩
  · exact w3
  · rw [RowIs_unique hr hy] at hl; exact absurd hyl hl

theorem gpar_G4_frame {g : Geometry} {G : Dict Str} {d e : Diff} (hg : g ∈ geoDb)
    (h : parseG4 g G d = (e, none)) (k : Str) (hk : k ∉ g.Q) : e.gpar.get? k = d.gpar.get? k := by
  have nd := (geoDb_facts g hg).2.1
  rcases parseG4_ok h with rfl | ⟨xs, -, -, rfl⟩
  · rfl
  · simp only
    rw [updNum_get _ _ nd, zip_get_none _ _ _ hk]

theorem gpar_G3_frame {G : Dict Str} {d e : Diff} (h : parseG3 G d = (e, none)) (k : Str)
    (hk : k ≠ p!"ub_matrix") : e.gpar.get? k = d.gpar.get? k := by
  rcases parseG3_ok h with rfl | ⟨m, rfl⟩
  · rfl
  · exact Dict.get?_set_ne _ _ hk.symm

theorem gpar_G1_frame {g : Geometry} {G : Dict Str} {d e : Diff} (hg : g ∈ geoDb)
    (h : parseG1 g G d = (e, none)) (k : Str) (hk : k ∉ g.U.getD defaultU) :
    e.gpar.get? k = d.gpar.get? k := by
  have nd := (geoDb_facts g hg).2.2.1
  rcases parseG1_ok h with rfl | ⟨xs, _, _, -, -, -, -, rfl⟩
  · rfl
  · simp only
    rw [updNum_get _ _ nd, zip_get_none _ _ _ hk]

/-- C64: the UB matrix is the 3×3 matrix of the nine numbers of #G3, row by row; with another
number of values there is none. -/
theorem C64_UB {n : Str} {G : Dict Str} {d : Diff} {xs : List PyFloat}
    (h : (Diff.new n).parse G = (d, none)) (hr : RowIs G p!"G3" xs) (hl : xs.length = 9) :
    ∃ m, d.UB = some m ∧ d.gpar.get? p!"ub_matrix" = some (.mat m) ∧ m.flatten = xs ∧ m.map List.length = [3, 3, 3] ∧
      ∀ i j, i < 3 → j < 3 → (m[i]?).bind (·[j]?) = xs[3 * i + j]? := by
  obtain ⟨g, d0, d1, d3, hg, h0, h1, h3, h4⟩ := parse_stages h
  obtain ⟨m, rfl, hm⟩ := (parseG3_row h3 hr).1 hl
  have hmem := (geoGet_mem hg).1
  have hub : p!"ub_matrix" ∉ g.Q := fun hc => ((geoDb_disjoint g hmem).1 _ hc).2.2.1 rfl
  refine ⟨m, ?_, ?_, hm⟩
  · rcases parseG4_ok h4 with rfl | ⟨_, -, -, rfl⟩ <;> rfl
  · rw [gpar_G4_frame hmem h4 _ hub]
    exact Dict.get?_set_self _ _ _

/-- C64: for every #G1 row of at least two numbers, the U parameter at place `i` gets the number at
place `i` (if there is one). -/
theorem C64_U {n : Str} {G : Dict Str} {d : Diff} {g : Geometry} {xs : List PyFloat}
    (h : (Diff.new n).parse G = (d, none)) (hg : geoGet n = some g) (hr : RowIs G p!"G1" xs)
    (hl : 1 < xs.length) (i : Nat) (k : Str) (hk : (g.U.getD defaultU)[i]? = some k)
    (x : PyFloat) (hx : xs[i]? = some x) : d.gpar.get? k = some (.num x) := by
  obtain ⟨g', d0, d1, d3, hg', h0, h1, h3, h4⟩ := parse_stages h
  rw [hg] at hg'; cases hg'
  have hmem := (geoGet_mem hg).1
  have nd := (geoDb_facts g hmem).2.2.1
  have hkm : k ∈ g.U.getD defaultU := List.mem_of_getElem? hk
  obtain ⟨hk1, hk2⟩ := (geoDb_disjoint g hmem).2.1 k hkm
  obtain ⟨l, rs, -, -, rfl⟩ := parseG1_row h1 hr hl
  rw [gpar_G4_frame hmem h4 _ hk2, gpar_G3_frame h3 _ hk1]
  simp only
  rw [updNum_get _ _ nd, zip_get _ _ nd i k hk, hx]

theorem uGet_eq {U : Dict PyFloat} {k : Str} {x : PyFloat} (h : uGet U k = .ok x) :
    U.get? k = some x := by
  unfold uGet at h
  split at h
  · next y e => rw [e, Except.ok.inj h]
  · simp at h

theorem bind_ok_inv {α β : Type} {x : Except PyErr α} {f : α → Except PyErr β} {b : β}
    (h : (x >>= f) = .ok b) : ∃ a, x = .ok a ∧ f a = .ok b := by
  cases x with
  | error e => exact absurd h (by simp [bind, Except.bind])
  | ok a => exact ⟨a, rfl, h⟩

/-- places of the default U parameters -/
theorem defaultU_places :
    defaultU[0]? = some p!"g_aa" ∧ defaultU[1]? = some p!"g_bb" ∧ defaultU[2]? = some p!"g_cc" ∧
    defaultU[3]? = some p!"g_al" ∧ defaultU[4]? = some p!"g_be" ∧ defaultU[5]? = some p!"g_ga" ∧
    defaultU[12]? = some p!"g_h0" ∧ defaultU[13]? = some p!"g_k0" ∧ defaultU[14]? = some p!"g_l0" ∧
    defaultU[15]? = some p!"g_h1" ∧ defaultU[16]? = some p!"g_k1" ∧ defaultU[17]? = some p!"g_l1" ∧
    defaultU[30]? = some p!"g_lambda0" ∧ defaultU[31]? = some p!"g_lambda1" ∧
    p!"g_lambda" ∉ defaultU ∧ defaultU.Nodup ∧ p!"g_h" ++ natStr 0 = p!"g_h0" ∧
    p!"g_k" ++ natStr 0 = p!"g_k0" ∧ p!"g_l" ++ natStr 0 = p!"g_l0" ∧
    p!"g_lambda" ++ natStr 0 = p!"g_lambda0" ∧ p!"g_h" ++ natStr 1 = p!"g_h1" ∧
    p!"g_k" ++ natStr 1 = p!"g_k1" ∧ p!"g_l" ++ natStr 1 = p!"g_l1" ∧
    p!"g_lambda" ++ natStr 1 = p!"g_lambda1" := by decide +kernel

theorem anglesOf_go (U : Dict PyFloat) (ref : Nat) (xs : List PyFloat) : ∀ (motors : List Str) (places : List Nat) (i : Nat) (d : Dict PyFloat),
    motors.Nodup → (∀ m ∈ motors, m ∉ d.keys) →
    (∀ j < motors.length, U.get? (p!"g_u" ++ natStr ref ++ natStr (i + j)) = (places[j]?).bind (xs[·]?)) →
    (motors.zipIdx i).foldl (fun d mi =>
      match U.get? (p!"g_u" ++ natStr ref ++ natStr mi.2) with
      | some x => d.set mi.1 x
      | none => d) d = d ++ atPlaces places motors xs
  | [], _, _, d, _, _, _ => by simp [atPlaces]
  | m :: ms, ps, i, d, hn, hd, hp => by
    obtain ⟨h1, h2⟩ := List.nodup_cons.1 hn
    rw [List.zipIdx_cons, List.foldl_cons]
    have e : U.get? (p!"g_u" ++ natStr ref ++ natStr i) = (ps[0]?).bind (xs[·]?) := hp 0 (by simp)
    simp only [e]
    have hp' : ∀ j < ms.length, U.get? (p!"g_u" ++ natStr ref ++ natStr (i + 1 + j)) = (ps.tail[j]?).bind (xs[·]?) := by
      intro j hj
      have := hp (j + 1) (by simpa using hj)
      rw [show i + (j + 1) = i + 1 + j by omega] at this
      rw [this]
      cases ps <;> simp
    cases hx : (ps[0]?).bind (xs[·]?) with
    | none =>
      rw [anglesOf_go U ref xs ms ps.tail (i + 1) d h2 (fun a ha => hd a (by simp [ha])) hp']
      cases ps with
      | nil => simp [atPlaces]
      | cons p ps =>
        have hx : xs[p]? = none := hx
        simp only [atPlaces, List.tail_cons, List.zip_cons_cons, List.filterMap_cons, hx, Option.map_none]
    | some x =>
      have hs : d.set m x = d ++ [(m, x)] := Dict.set_of_not_mem _ _ _ (hd m (by simp))
      simp only
      rw [hs, anglesOf_go U ref xs ms ps.tail (i + 1) _ h2 ?_ hp']
      · cases ps with
        | nil => simp at hx
        | cons p ps =>
          have hx : xs[p]? = some x := hx
          simp [atPlaces, hx]
      · intro a ha h
        simp only [Dict.keys, List.map_append, List.map_cons, List.map_nil, List.mem_append, List.mem_singleton] at h
        rcases h with h | h
        · exact hd a (by simp [ha]) h
        · exact h1 (h ▸ ha)

/-- the key number `j` of the angles is at its place -/
def KeyAt (us : List Str) (ref : Nat) (places : List Nat) (j : Nat) : Prop :=
  (places[j]?).map (fun p => us[p]?) = some (some (p!"g_u" ++ natStr ref ++ natStr (0 + j))) ∨
    (places[j]? = none ∧ (p!"g_u" ++ natStr ref ++ natStr (0 + j)) ∉ us)

instance (us : List Str) (ref : Nat) (places : List Nat) (j : Nat) : Decidable (KeyAt us ref places j) := by unfold KeyAt; infer_instance

/-- the places of the angles -/
theorem angle_places :
    (∀ j < 8, KeyAt defaultU 0 [18, 19, 20, 21, 22, 23, 32] j) ∧ (∀ j < 8, KeyAt defaultU 1 [24, 25, 26, 27, 28, 29, 33] j) ∧
    (∀ j < 2, KeyAt (geo13.U.getD defaultU) 0 [8, 9] j) ∧
    (∀ g ∈ geoDb, ∀ v ∈ g.variations, v.motors.length ≤ 8) ∧ (∀ v ∈ geo13.variations, v.motors.length ≤ 2) := by decide +kernel

theorem anglesOf_eq {us : List Str} (nd : us.Nodup) (ref : Nat) (places : List Nat) (xs : List PyFloat) {v : Variation} {b : Nat} (hb : v.motors.length ≤ b)
    (hv : v.motors.Nodup) (h : ∀ j < b, KeyAt us ref places j) :
    anglesOf (us.zip xs) ref v.motors = atPlaces places v.motors xs := by
  refine (anglesOf_go (us.zip xs) ref xs v.motors places 0 [] hv (by simp [Dict.keys]) ?_).trans (List.nil_append _)
  intro j hj
  rcases h j (by omega) with h | ⟨h1, h2⟩
  · cases hp : places[j]? with
    | some p => rw [hp] at h; injection h with h; exact zip_get _ _ nd _ _ h
    | none => rw [hp] at h; cases h
  · rw [h1]; exact zip_get_none _ _ _ h2

theorem getVariant_of {n : Str} {g : Geometry} {v : Variation} (hg : geoGet n = some g)
    (h : getVariant g (splitNameVariation n).2 = some v) : v ∈ g.variations ∧ VariantOf g n v := by
  obtain ⟨hm, hn⟩ := geoGet_mem hg
  obtain ⟨-, -, -, -, hdot, hv, -, -⟩ := geoDb_facts g hm
  unfold getVariant at h
  split at h
  · next x hx =>
    injection h with h
    subst h
    have h1 := List.mem_of_find?_eq_some hx
    have h2 : some x.name = (splitNameVariation n).2 := by simpa using List.find?_some hx
    refine ⟨h1, .inl ⟨h1, ?_⟩⟩
    revert hn h2
    unfold splitNameVariation
    split
    · next a b e =>
      intro hn h2
      injection h2 with h2
      have := join_splitC '.' n
      rw [e] at this
      rw [hn, h2]
      show n = a ++ '.' :: b
      rw [← this]; simp [join]
    · intro _ h2; cases h2
  · next hx =>
    refine ⟨List.mem_of_mem_head? h, .inr ⟨?_, h⟩⟩
    rintro w hw rfl
    rw [List.find?_eq_none] at hx
    refine hx w hw ?_
    have := split_dotted g.name w.name hdot (hv w hw).1
    unfold dotted at this
    rw [this]
    simp

/-- C64: for the geometries with the standard U table, the lattice constants are the first six
numbers of #G1, and there are two reflections, whose indices and wavelengths are the numbers at
places 12..17, 30 and 31; their angles are the numbers at places 18..23 and 32, and 24..29 and 33, for
the motors of the variant. -/
theorem C64_lattice_reflections {n : Str} {G : Dict Str} {d : Diff} {g : Geometry}
    {xs : List PyFloat} (h : (Diff.new n).parse G = (d, none)) (hg : geoGet n = some g)
    (hU : g.U = none) (hr : RowIs G p!"G1" xs) (hl : 1 < xs.length) :
    ∃ a b c al be ga h0 k0 l0 w0 h1 k1 l1 w1 v, VariantOf g n v ∧
      xs.take 6 = [a, b, c, al, be, ga] ∧ d.lattice = some (.three a b c al be ga) ∧
      xs[12]? = some h0 ∧ xs[13]? = some k0 ∧ xs[14]? = some l0 ∧ xs[30]? = some w0 ∧
      xs[15]? = some h1 ∧ xs[16]? = some k1 ∧ xs[17]? = some l1 ∧ xs[31]? = some w1 ∧
      d.reflections = [.three h0 k0 l0 w0 (atPlaces [18, 19, 20, 21, 22, 23, 32] v.motors xs),
        .three h1 k1 l1 w1 (atPlaces [24, 25, 26, 27, 28, 29, 33] v.motors xs)] := by
  obtain ⟨g', d0, d1, d3, hg', hd0, hd1, hd3, hd4⟩ := parse_stages h
  rw [hg] at hg'; cases hg'
  obtain ⟨p0, p1, p2, p3, p4, p5, p12, p13, p14, p15, p16, p17, p30, p31, nl, nd,
    e1, e2, e3, e4, e5, e6, e7, e8⟩ := defaultU_places
  obtain ⟨l, rs, hlat, href, rfl⟩ := parseG1_row hd1 hr hl
  rw [hU] at hlat href
  simp only [Option.getD_none, zipDict_eq _ _ nd] at hlat href
  have get : ∀ i k, defaultU[i]? = some k → Dict.get? (defaultU.zip xs) k = xs[i]? :=
    fun i k hk => zip_get _ _ nd i k hk
  have hr0 : d0.reflections = [] := by
    rcases parseG0_ok hd0 with rfl | ⟨_, _, _, -, -, -, rfl⟩ <;> rfl
  -- the lattice
  have hnl : Dict.has (defaultU.zip xs) p!"g_lambda" = false := by
    unfold Dict.has; rw [zip_get_none _ _ _ nl]; rfl
  unfold reflections at href
  split at href
  · simp [Res.raise] at href
  · next v hv =>
    have hvar : d0.variant = (splitNameVariation n).2 := by
      rcases parseG0_ok hd0 with rfl | ⟨_, _, _, -, -, -, rfl⟩ <;> rfl
    rw [hvar] at hv
    obtain ⟨hvm, hvo⟩ := getVariant_of hg hv
    have hmem := (geoGet_mem hg).1
    have hv8 := angle_places.2.2.2.1 g hmem v hvm
    have hvn := ((geoDb_facts g hmem).2.2.2.2.2.1 v hvm).2
    rw [hnl] at href
    simp only [Bool.false_eq_true, if_false] at href
    obtain ⟨r0, q0, href⟩ := eval_ok_inv href
    obtain ⟨r1, q1, href⟩ := eval_ok_inv href
    have hrs : rs = [r0, r1] := by
      have := congrArg Diff.reflections (Prod.mk.inj href).1
      simp only [hr0, List.nil_append, List.cons_append] at this
      exact this.symm
    unfold refl3 at q0 q1
    rw [e1, e2, e3, e4] at q0
    rw [e5, e6, e7, e8] at q1
    obtain ⟨h0, z1, q0⟩ := bind_ok_inv q0
    obtain ⟨k0, z2, q0⟩ := bind_ok_inv q0
    obtain ⟨l0, z3, q0⟩ := bind_ok_inv q0
    obtain ⟨w0, z4, q0⟩ := bind_ok_inv q0
    obtain ⟨h1, z5, q1⟩ := bind_ok_inv q1
    obtain ⟨k1, z6, q1⟩ := bind_ok_inv q1
    obtain ⟨l1, z7, q1⟩ := bind_ok_inv q1
    obtain ⟨w1, z8, q1⟩ := bind_ok_inv q1
    have z1 := (get _ _ p12).symm.trans (uGet_eq z1)
    have z2 := (get _ _ p13).symm.trans (uGet_eq z2)
    have z3 := (get _ _ p14).symm.trans (uGet_eq z3)
    have z4 := (get _ _ p30).symm.trans (uGet_eq z4)
    have z5 := (get _ _ p15).symm.trans (uGet_eq z5)
    have z6 := (get _ _ p16).symm.trans (uGet_eq z6)
    have z7 := (get _ _ p17).symm.trans (uGet_eq z7)
    have z8 := (get _ _ p31).symm.trans (uGet_eq z8)
    have q0 : r0 = _ := (Except.ok.inj q0).symm
    have q1 : r1 = _ := (Except.ok.inj q1).symm
    have hlen : 31 < xs.length := (List.getElem?_eq_some_iff.1 z8).1
    match xs, hlen with
    | a :: b :: c :: al :: be :: ga :: rest, _ =>
      have y : ∀ (i : Nat) (k : Str) (x : PyFloat), defaultU[i]? = some k →
          (a :: b :: c :: al :: be :: ga :: rest)[i]? = some x →
          uGet (defaultU.zip (a :: b :: c :: al :: be :: ga :: rest)) k = .ok x := by
        intro i k x hk hx
        unfold uGet
        rw [get i k hk, hx]
      have hc : Dict.has (defaultU.zip (a :: b :: c :: al :: be :: ga :: rest)) p!"g_cc" = true := by
        unfold Dict.has; rw [get _ _ p2]; rfl
      have hal : Dict.has (defaultU.zip (a :: b :: c :: al :: be :: ga :: rest)) p!"g_al" = true := by
        unfold Dict.has; rw [get _ _ p3]; rfl
      have hbe : Dict.has (defaultU.zip (a :: b :: c :: al :: be :: ga :: rest)) p!"g_be" = true := by
        unfold Dict.has; rw [get _ _ p4]; rfl
      unfold latticeOf at hlat
      rw [hc, hal, hbe] at hlat
      simp only [Bool.and_self, if_true] at hlat
      rw [y 0 _ a p0 rfl, y 1 _ b p1 rfl, y 2 _ c p2 rfl, y 3 _ al p3 rfl, y 4 _ be p4 rfl,
        y 5 _ ga p5 rfl] at hlat
      have hlat : l = _ := (Except.ok.inj hlat).symm
      refine ⟨a, b, c, al, be, ga, h0, k0, l0, w0, h1, k1, l1, w1,
        v, hvo, by simp, ?_, z1, z2, z3, z4,
        z5, z6, z7, z8, ?_⟩
      · have : d3.lattice = some l := by
          rcases parseG3_ok hd3 with rfl | ⟨_, rfl⟩ <;> rfl
        rcases parseG4_ok hd4 with rfl | ⟨_, -, -, rfl⟩ <;> rw [← hlat] <;> exact this
      · have : d3.reflections = rs := by
          rcases parseG3_ok hd3 with rfl | ⟨_, rfl⟩ <;> rfl
        have : d.reflections = rs := by
          rcases parseG4_ok hd4 with rfl | ⟨_, -, -, rfl⟩ <;> exact this
        rw [this, hrs, q0, q1, anglesOf_eq nd 0 _ _ hv8 hvn angle_places.1, anglesOf_eq nd 1 _ _ hv8 hvn angle_places.2.1]

theorem twocU_places :
    (geo13.U.getD defaultU)[0]? = some p!"g_aa" ∧ (geo13.U.getD defaultU)[1]? = some p!"g_bb" ∧ (geo13.U.getD defaultU)[2]? = some p!"g_ga" ∧
    (geo13.U.getD defaultU)[6]? = some p!"g_h0" ∧ (geo13.U.getD defaultU)[7]? = some p!"g_k0" ∧ (geo13.U.getD defaultU)[10]? = some p!"g_lambda" ∧
    p!"g_cc" ∉ geo13.U.getD defaultU ∧ (geo13.U.getD defaultU).Nodup := by decide +kernel

/-- C64: for the geometry twoc, which has its own U table, the lattice constants are the first three numbers of #G1; there is one
reflection.  Its indices and wavelength
are the numbers at places 6, 7 and 10, and its angles those at places 8 and 9. -/
theorem C64_twoc {n : Str} {G : Dict Str} {d : Diff} {g : Geometry}
    {xs : List PyFloat} (h : (Diff.new n).parse G = (d, none)) (hg : geoGet n = some g)
    (hU : g.U ≠ none) (hr : RowIs G p!"G1" xs) (hl : 1 < xs.length) :
    ∃ a b ga h0 k0 w0 v, VariantOf g n v ∧
      xs.take 3 = [a, b, ga] ∧ d.lattice = some (.two a b ga) ∧
      xs[6]? = some h0 ∧ xs[7]? = some k0 ∧ xs[10]? = some w0 ∧
      d.reflections = [.two h0 k0 w0 (atPlaces [8, 9] v.motors xs)] := by
  obtain ⟨g', d0, d1, d3, hg', hd0, hd1, hd3, hd4⟩ := parse_stages h
  rw [hg] at hg'; cases hg'
  have hmem := (geoGet_mem hg).1
  have hgeo : g = geo13 := ((geoDb_facts g hmem).2.2.2.2.2.2.2).resolve_left hU
  subst hgeo
  obtain ⟨p0, p1, p2, p6, p7, p10, ncc, nd⟩ := twocU_places
  obtain ⟨l, rs, hlat, href, rfl⟩ := parseG1_row hd1 hr hl
  simp only [zipDict_eq _ _ nd] at hlat href
  have get : ∀ i k, (geo13.U.getD defaultU)[i]? = some k → Dict.get? ((geo13.U.getD defaultU).zip xs) k = xs[i]? :=
    fun i k hk => zip_get _ _ nd i k hk
  have hr0 : d0.reflections = [] := by
    rcases parseG0_ok hd0 with rfl | ⟨_, _, _, -, -, -, rfl⟩ <;> rfl
  have hcc : Dict.has ((geo13.U.getD defaultU).zip xs) p!"g_cc" = false := by
    unfold Dict.has; rw [zip_get_none _ _ _ ncc]; rfl
  unfold latticeOf at hlat
  rw [hcc] at hlat
  simp only [Bool.false_and, Bool.false_eq_true, if_false] at hlat
  obtain ⟨a, y1, hlat⟩ := bind_ok_inv hlat
  obtain ⟨b, y2, hlat⟩ := bind_ok_inv hlat
  obtain ⟨ga, y3, hlat⟩ := bind_ok_inv hlat
  have y1 := (get _ _ p0).symm.trans (uGet_eq y1)
  have y2 := (get _ _ p1).symm.trans (uGet_eq y2)
  have y3 := (get _ _ p2).symm.trans (uGet_eq y3)
  have hlat : l = _ := (Except.ok.inj hlat).symm
  unfold reflections at href
  split at href
  · simp [Res.raise] at href
  · next v hv =>
    have hvar : d0.variant = (splitNameVariation n).2 := by
      rcases parseG0_ok hd0 with rfl | ⟨_, _, _, -, -, -, rfl⟩ <;> rfl
    rw [hvar] at hv
    obtain ⟨hvm, hvo⟩ := getVariant_of hg hv
    have hv8 := angle_places.2.2.2.2 v hvm
    have hvn := ((geoDb_facts _ hmem).2.2.2.2.2.1 v hvm).2
    by_cases hlam : Dict.has ((geo13.U.getD defaultU).zip xs) p!"g_lambda" = true
    · rw [if_pos hlam] at href
      obtain ⟨r0, q0, href⟩ := eval_ok_inv href
      have hrs : rs = [r0] := by
        have := congrArg Diff.reflections (Prod.mk.inj href).1
        simp only [hr0, List.nil_append] at this
        exact this.symm
      unfold refl2 at q0
      obtain ⟨h0, z1, q0⟩ := bind_ok_inv q0
      obtain ⟨k0, z2, q0⟩ := bind_ok_inv q0
      obtain ⟨w0, z4, q0⟩ := bind_ok_inv q0
      have z1 := (get _ _ p6).symm.trans (uGet_eq z1)
      have z2 := (get _ _ p7).symm.trans (uGet_eq z2)
      have z4 := (get _ _ p10).symm.trans (uGet_eq z4)
      have q0 : r0 = _ := (Except.ok.inj q0).symm
      refine ⟨a, b, ga, h0, k0, w0, v, hvo, ?_, ?_, z1, z2, z4, ?_⟩
      · match xs, y1, y2, y3 with
        | x :: y :: z :: rest, y1, y2, y3 =>
          injection y1 with y1
          injection y2 with y2
          injection y3 with y3
          rw [← y1, ← y2, ← y3]; rfl
      · have : d3.lattice = some l := by
          rcases parseG3_ok hd3 with rfl | ⟨_, rfl⟩ <;> rfl
        rcases parseG4_ok hd4 with rfl | ⟨_, -, -, rfl⟩ <;> rw [← hlat] <;> exact this
      · have : d3.reflections = rs := by
          rcases parseG3_ok hd3 with rfl | ⟨_, rfl⟩ <;> rfl
        have : d.reflections = rs := by
          rcases parseG4_ok hd4 with rfl | ⟨_, -, -, rfl⟩ <;> exact this
        rw [this, hrs, q0, anglesOf_eq nd 0 _ _ hv8 hvn angle_places.2.2.1]
    · exfalso
      rw [if_neg hlam] at href
      obtain ⟨r0, q0, href⟩ := eval_ok_inv href
      unfold refl3 at q0
      obtain ⟨h0, z1, q0⟩ := bind_ok_inv q0
      obtain ⟨k0, z2, q0⟩ := bind_ok_inv q0
      obtain ⟨l0, z3, q0⟩ := bind_ok_inv q0
      have z3 := uGet_eq z3
      rw [zip_get_none _ _ _ (by decide +kernel)] at z3
      cases z3

/-- C64: a #G1 row of twoc with two or more numbers, but fewer than 11, is refused with an exception. -/
theorem C64_short_twoc {n : Str} {G : Dict Str} {g : Geometry} {xs : List PyFloat}
    (hg : geoGet n = some g) (hU : g.U ≠ none) (hr : RowIs G p!"G1" xs) (hl : 1 < xs.length)
    (hl2 : xs.length < 11) : ∃ d e, (Diff.new n).parse G = (d, some e) := by
  cases hp : (Diff.new n).parse G with
  | mk d e =>
    cases e with
    | some e => exact ⟨d, e, rfl⟩
    | none =>
      obtain ⟨_, _, _, _, _, _, _, _, _, _, _, _, h10, _⟩ := C64_twoc hp hg hU hr hl
      have := (List.getElem?_eq_some_iff.1 h10).1
      omega

/-- the hypotheses are met by a two circle scan -/
theorem C64_twoc_nonvacuous :
    let row (m : Nat) := join [' '] ((List.range m).map natStr)
    let G : Dict Str := [(p!"G1", row 11), (p!"G4", row 4)]
    let d := ((Diff.new p!"twoc.default").parse G).1
    ((Diff.new p!"twoc.default").parse G).2 = none ∧ geoGet p!"twoc.default" = some geo13 ∧ geo13.U ≠ none ∧
      d.lattice = some (.two (.fin 0) (.fin 1) (.fin 2)) ∧
      d.reflections = [.two (.fin 6) (.fin 7) (.fin 10) [(p!"tth", .fin 8), (p!"th", .fin 9)]] ∧ d.wavelength = some (.fin 3) := by
  decide +kernel

/-! #### #G0: parameters, mode and sector -/

/-- the mode name entered for one parameter -/
def modeAdd (modes : List Str) (kv : Str × PyFloat) : Option (Str × Str) :=
  if startsWith kv.1 p!"g_sect" then none
  else if startsWith kv.1 p!"g_mode" then
    match kv.2.toInt with
    | .ok i => if 0 ≤ i ∧ i < modes.length then some (kv.1 ++ p!"_name", (modes[i.toNat]?).getD [])
        else none
    | .error _ => none
  else none

theorem g0Loop_ok (modes : List Str) (l : List (Str × PyFloat)) (sec : Option Int)
    (adds : List (Str × Str)) (sec' : Option Int) (adds' : List (Str × Str))
    (h : g0Loop modes l sec adds = (sec', .ok adds')) :
    adds' = adds ++ l.filterMap (modeAdd modes) ∧
    (∀ k v, (k, v) ∈ l → startsWith k p!"g_sect" = true ∨ startsWith k p!"g_mode" = true →
      ∃ i, v.toInt = .ok i) ∧
    (∀ v i, (∀ k w, (k, w) ∈ l → startsWith k p!"g_sect" = true → w = v) → v.toInt = .ok i →
      (sec = some i ∨ ∃ k, (k, v) ∈ l ∧ startsWith k p!"g_sect" = true) → sec' = some i) := by
  induction l generalizing sec adds with
  | nil =>
    simp only [g0Loop, Prod.mk.injEq, Except.ok.injEq] at h
    refine ⟨by simp [h.2], by simp, ?_⟩
    intro v i _ _ hs
    rcases hs with hs | ⟨k, hk, -⟩
    · rw [← h.1, hs]
    · simp at hk
  | cons a l ih =>
    obtain ⟨k, v⟩ := a
    unfold g0Loop at h
    split at h
    · next hsec =>
      cases hi : v.toInt with
      | error e => rw [hi] at h; simp at h
      | ok i =>
        rw [hi] at h
        simp only at h
        obtain ⟨h1, h2, h3⟩ := ih _ _ h
        refine ⟨?_, ?_, ?_⟩
        · rw [h1, List.filterMap_cons]
          have : modeAdd modes (k, v) = none := by unfold modeAdd; rw [if_pos hsec]
          rw [this]
        · intro k' v' hm hh
          rcases List.mem_cons.1 hm with e | hm
          · cases e; exact ⟨i, hi⟩
          · exact h2 k' v' hm hh
        · intro v' i' hu hv' _
          have hvv : v = v' := hu k v (by simp) hsec
          subst hvv
          rw [hi] at hv'
          cases hv'
          exact h3 v i (fun k' w hm => hu k' w (by simp [hm])) hi (Or.inl rfl)
    · next hsec =>
      have tail : ∀ v' i', (∀ k' w, (k', w) ∈ (k, v) :: l → startsWith k' p!"g_sect" = true → w = v') →
          (sec = some i' ∨ ∃ k', (k', v') ∈ (k, v) :: l ∧ startsWith k' p!"g_sect" = true) →
          (∀ k' w, (k', w) ∈ l → startsWith k' p!"g_sect" = true → w = v') ∧
          (sec = some i' ∨ ∃ k', (k', v') ∈ l ∧ startsWith k' p!"g_sect" = true) := by
        intro v' i' hu hs
        refine ⟨fun k' w hm => hu k' w (by simp [hm]), ?_⟩
        rcases hs with hs | ⟨k', hm, hk'⟩
        · exact Or.inl hs
        · rcases List.mem_cons.1 hm with e | hm
          · cases e; exact absurd hk' hsec
          · exact Or.inr ⟨k', hm, hk'⟩
      split at h
      · next hmode =>
        cases hi : v.toInt with
        | error e => rw [hi] at h; simp at h
        | ok i =>
          rw [hi] at h
          simp only at h
          have h2' : ∀ k' v', (k', v') = (k, v) → ∃ i, v'.toInt = .ok i := by
            intro k' v' e; cases e; exact ⟨i, hi⟩
          split at h
          · next hr =>
            obtain ⟨h1, h2, h3⟩ := ih _ _ h
            refine ⟨?_, ?_, ?_⟩
            · have : modeAdd modes (k, v) = some (k ++ p!"_name", (modes[i.toNat]?).getD []) := by
                unfold modeAdd; rw [if_neg hsec, if_pos hmode]; simp only [hi]; rw [if_pos hr]
              rw [h1, List.filterMap_cons, this]
              simp
            · intro k' v' hm hh
              rcases List.mem_cons.1 hm with e | hm
              · exact h2' k' v' e
              · exact h2 k' v' hm hh
            · intro v' i' hu hv' hs
              have := tail v' i' hu hs
              exact h3 v' i' this.1 hv' this.2
          · next hr =>
            obtain ⟨h1, h2, h3⟩ := ih _ _ h
            refine ⟨?_, ?_, ?_⟩
            · have : modeAdd modes (k, v) = none := by
                unfold modeAdd; rw [if_neg hsec, if_pos hmode]; simp only [hi]; rw [if_neg hr]
              rw [h1, List.filterMap_cons, this]
            · intro k' v' hm hh
              rcases List.mem_cons.1 hm with e | hm
              · exact h2' k' v' e
              · exact h2 k' v' hm hh
            · intro v' i' hu hv' hs
              have := tail v' i' hu hs
              exact h3 v' i' this.1 hv' this.2
      · next hmode =>
        obtain ⟨h1, h2, h3⟩ := ih _ _ h
        refine ⟨?_, ?_, ?_⟩
        · have : modeAdd modes (k, v) = none := by unfold modeAdd; rw [if_neg hsec, if_neg hmode]
          rw [h1, List.filterMap_cons, this]
        · intro k' v' hm hh
          rcases List.mem_cons.1 hm with e | hm
          · cases e
            rcases hh with hh | hh
            · exact absurd hh hsec
            · exact absurd hh hmode
          · exact h2 k' v' hm hh
        · intro v' i' hu hv' hs
          have := tail v' i' hu hs
          exact h3 v' i' this.1 hv' this.2

theorem modeAdd_key {modes : List Str} {kv : Str × PyFloat} {a : Str × Str}
    (h : modeAdd modes kv = some a) : a.1 = kv.1 ++ p!"_name" := by
  unfold modeAdd at h
  split at h
  · simp at h
  · split at h
    · split at h
      · split at h
        · rw [← Option.some.inj h]
        · simp at h
      · simp at h
    · simp at h

theorem adds_get (adds : List (Str × Str)) (d : Dict GVal) (k : Str)
    (h : ∀ a ∈ adds, a.1 ≠ k) : (adds.foldl (fun g a => g.set a.1 (.str a.2)) d).get? k = d.get? k := by
  induction adds generalizing d with
  | nil => rfl
  | cons a as ih =>
    rw [List.foldl_cons, ih _ fun b hb => h b (by simp [hb]), Dict.get?_set_ne _ _ (h a (by simp))]

/-- C64: for every #G0 row with one number for each G parameter, the parameter at place `i` gets the
number at place `i`, unless #G1 redefines that parameter (only g_h0, g_k0, g_l0 of surf and g_h0,
g_k0 of twoc_old, see `C64_G_redefined`). -/
theorem C64_G {n : Str} {G : Dict Str} {d : Diff} {g : Geometry} {xs : List PyFloat}
    (h : (Diff.new n).parse G = (d, none)) (hg : geoGet n = some g) (hr : RowIs G p!"G0" xs)
    (hl : xs.length = g.G.length) (i : Nat) (k : Str) (hk : g.G[i]? = some k)
    (hkU : G.get? p!"G1" = none ∨ k ∉ g.U.getD defaultU) : d.gpar.get? k = (xs[i]?).map .num := by
  obtain ⟨g', d0, d1, d3, hg', h0, h1, h3, h4⟩ := parse_stages h
  rw [hg] at hg'; cases hg'
  have hmem := (geoGet_mem hg).1
  have nd := (geoDb_facts g hmem).1
  have hkm : k ∈ g.G := List.mem_of_getElem? hk
  obtain ⟨hk1, hk2, -⟩ := (geoDb_disjoint g hmem).2.2 k hkm
  have hkQ : k ∉ g.Q := fun hc => ((geoDb_disjoint g hmem).1 k hc).1 hkm
  have hi : i < xs.length := by rw [hl]; exact (List.getElem?_eq_some_iff.1 hk).1
  have hx : xs[i]? = some xs[i] := List.getElem?_eq_getElem hi
  obtain ⟨sec, adds, hloop, rfl⟩ := parseG0_row h0 hr hl
  have e1 : d1.gpar.get? k = (g0Result g xs (Diff.new n) sec adds).gpar.get? k := by
    rcases hkU with hn | hkU
    · unfold parseG1 at h1
      rw [hn] at h1
      rw [← (Prod.mk.inj h1).1]
    · exact gpar_G1_frame hmem h1 k hkU
  rw [gpar_G4_frame hmem h4 _ hkQ, gpar_G3_frame h3 _ hk1, e1]
  unfold g0Result
  simp only
  rw [adds_get, updNum_get _ _ nd, zip_get _ _ nd i k hk, hx]
  · rfl
  · intro a ha hc
    rw [(g0Loop_ok _ _ _ _ _ _ hloop).1, List.nil_append, List.mem_filterMap] at ha
    obtain ⟨kv, -, hkv⟩ := ha
    rw [modeAdd_key hkv] at hc
    have : endsWith k p!"_name" = true := by
      unfold endsWith; rw [← hc]; simp
    rw [hk2] at this; simp at this

theorem C64_G_redefined : ∀ g ∈ geoDb, ∀ k ∈ g.G, k ∈ g.U.getD defaultU →
    (g.name = p!"surf" ∧ k ∈ [p!"g_h0", p!"g_k0", p!"g_l0"]) ∨
    (g.name = p!"twoc_old" ∧ k ∈ [p!"g_h0", p!"g_k0"]) := by decide +kernel

theorem foldl_unique (adds : List (Str × Str)) (k v : Str) (m : Option Str)
    (hu : ∀ a ∈ adds, a.1 = k → a.2 = v) (hm : m = some v ∨ ∃ a ∈ adds, a.1 = k) :
    adds.foldl (fun m a => if a.1 = k then some a.2 else m) m = some v := by
  induction adds generalizing m with
  | nil => rcases hm with hm | ⟨a, ha, -⟩
           · exact hm
           · simp at ha
  | cons a as ih =>
    rw [List.foldl_cons]
    refine ih _ (fun b hb => hu b (by simp [hb])) ?_
    by_cases h : a.1 = k
    · left; rw [if_pos h, hu a (by simp) h]
    · rcases hm with hm | ⟨b, hb, hbk⟩
      · left; rw [if_neg h]; exact hm
      · rcases List.mem_cons.1 hb with rfl | hb
        · exact absurd hbk h
        · exact Or.inr ⟨b, hb, hbk⟩

theorem zip_value_unique (ks : List Str) (vs : List PyFloat) (h : ks.Nodup) (k : Str) (i : Nat)
    (hk : ks[i]? = some k) {w : PyFloat} (hw : (k, w) ∈ ks.zip vs) : vs[i]? = some w := by
  have h1 := zip_get ks vs h i k hk
  have h2 := (Dict.mem_iff_get? (ks.zip vs) (zip_keys_nodup ks vs h) k w).1 hw
  rw [← h1, h2]

theorem zip_mem (ks : List Str) (vs : List PyFloat) (h : ks.Nodup) (k : Str) (i : Nat)
    (hk : ks[i]? = some k) {w : PyFloat} (hw : vs[i]? = some w) : (k, w) ∈ ks.zip vs := by
  rw [Dict.mem_iff_get? (ks.zip vs) (zip_keys_nodup ks vs h) k w, zip_get ks vs h i k hk, hw]

/-- C64: the geometry mode is the name at the place given by the number of parameter g_mode. -/
theorem C64_mode {n : Str} {G : Dict Str} {d : Diff} {g : Geometry} {xs : List PyFloat}
    (h : (Diff.new n).parse G = (d, none)) (hg : geoGet n = some g) (hr : RowIs G p!"G0" xs)
    (hl : xs.length = g.G.length) (i : Nat) (hk : g.G[i]? = some p!"g_mode") (x : PyFloat)
    (hx : xs[i]? = some x) (j : Nat) (hj : x.toInt = .ok (j : Int)) (name : Str)
    (hm : g.modes[j]? = some name) : d.mode = some name := by
  obtain ⟨g', d0, d1, d3, hg', h0, h1, h3, h4⟩ := parse_stages h
  rw [hg] at hg'; cases hg'
  have hmem := (geoGet_mem hg).1
  have nd := (geoDb_facts g hmem).1
  obtain ⟨sec, adds, hloop, rfl⟩ := parseG0_row h0 hr hl
  have hjl : j < g.modes.length := (List.getElem?_eq_some_iff.1 hm).1
  have hadd : modeAdd g.modes (p!"g_mode", x) = some (p!"g_mode_name", name) := by
    unfold modeAdd
    simp only
    rw [if_neg (by decide), if_pos (by decide)]
    simp only [hj]
    rw [if_pos (by omega)]
    simp [hm]
  have hadds : adds = (g.G.zip xs).filterMap (modeAdd g.modes) := by
    rw [(g0Loop_ok _ _ _ _ _ _ hloop).1, zipDict_eq _ _ nd, List.nil_append]
  have e0 : (g0Result g xs (Diff.new n) sec adds).mode = some name := by
    unfold g0Result
    simp only
    refine foldl_unique adds _ name _ ?_ (Or.inr ⟨(p!"g_mode_name", name), ?_, rfl⟩)
    · intro a ha hak
      rw [hadds, List.mem_filterMap] at ha
      obtain ⟨⟨k, w⟩, hkv, hkw⟩ := ha
      have := modeAdd_key hkw
      rw [hak] at this
      have hk2 : k = p!"g_mode" := by
        have e : (p!"g_mode" : Str) ++ p!"_name" = k ++ p!"_name" := this
        exact (List.append_cancel_right e).symm
      subst hk2
      have := zip_value_unique _ _ nd _ i hk hkv
      rw [hx] at this
      cases this
      rw [hadd] at hkw
      exact (congrArg Prod.snd (Option.some.inj hkw)).symm
    · rw [hadds, List.mem_filterMap]
      exact ⟨_, zip_mem _ _ nd _ i hk hx, hadd⟩
  have w1 : d1.mode = some name := by
    rcases parseG1_ok h1 with rfl | ⟨_, _, _, -, -, -, -, rfl⟩ <;> exact e0
  have w3 : d3.mode = some name := by
    rcases parseG3_ok h3 with rfl | ⟨_, rfl⟩ <;> exact w1
  rcases parseG4_ok h4 with rfl | ⟨ys, -, -, rfl⟩ <;> exact w3

/-- C64: the sector is the number of parameter g_sect. -/
theorem C64_sector {n : Str} {G : Dict Str} {d : Diff} {g : Geometry} {xs : List PyFloat}
    (h : (Diff.new n).parse G = (d, none)) (hg : geoGet n = some g) (hr : RowIs G p!"G0" xs)
    (hl : xs.length = g.G.length) (i : Nat) (hk : g.G[i]? = some p!"g_sect") (x : PyFloat)
    (hx : xs[i]? = some x) : ∃ j, x.toInt = .ok j ∧ d.sector = some j := by
  obtain ⟨g', d0, d1, d3, hg', h0, h1, h3, h4⟩ := parse_stages h
  rw [hg] at hg'; cases hg'
  have hmem := (geoGet_mem hg).1
  have nd := (geoDb_facts g hmem).1
  obtain ⟨sec, adds, hloop, rfl⟩ := parseG0_row h0 hr hl
  have hloop2 := hloop
  rw [zipDict_eq _ _ nd] at hloop2
  obtain ⟨-, q1, q2⟩ := g0Loop_ok _ _ _ _ _ _ hloop2
  have hin := zip_mem _ _ nd _ i hk hx
  obtain ⟨j, hj⟩ := q1 _ x hin (Or.inl (by decide))
  have hs : sec = some j := by
    refine q2 x j ?_ hj (Or.inr ⟨_, hin, by decide⟩)
    intro k w hkw hsk
    have hkG : k ∈ g.G := (List.of_mem_zip hkw).1
    have := ((geoDb_disjoint g hmem).2.2 k hkG).2.2 hsk
    subst this
    have := zip_value_unique _ _ nd _ i hk hkw
    rw [hx] at this
    exact (Option.some.inj this).symm
  have w1 : d1.sector = some j := by
    rcases parseG1_ok h1 with rfl | ⟨_, _, _, -, -, -, -, rfl⟩ <;> exact hs
  have w3 : d3.sector = some j := by
    rcases parseG3_ok h3 with rfl | ⟨_, rfl⟩ <;> exact w1
  refine ⟨j, hj, ?_⟩
  rcases parseG4_ok h4 with rfl | ⟨ys, -, -, rfl⟩ <;> exact w3

/-- C64: a #G1 row of 2 to 31 numbers cannot be parsed (KeyError inside) for a geometry with the
standard U table. -/
theorem C64_short_G1 {n : Str} {G : Dict Str} {g : Geometry} {xs : List PyFloat}
    (hg : geoGet n = some g) (hU : g.U = none) (hr : RowIs G p!"G1" xs) (hl : 1 < xs.length)
    (hl2 : xs.length < 32) : ∃ d e, (Diff.new n).parse G = (d, some e) := by
  cases hp : (Diff.new n).parse G with
  | mk d e =>
    cases e with
    | some e => exact ⟨d, e, rfl⟩
    | none =>
      obtain ⟨_, _, _, _, _, _, _, _, _, _, _, _, _, _, _, _, _, _, _, _, _, _, _, _, _, h31, _⟩ :=
        C64_lattice_reflections hp hg hU hr hl
      have := (List.getElem?_eq_some_iff.1 h31).1
      omega

/-- the hypotheses of the C64 theorems are met by a four circle scan -/
theorem C64_nonvacuous :
    let row (m : Nat) := join [' '] ((List.range m).map natStr)
    let G : Dict Str := [(p!"G0", row 27), (p!"G1", row 34), (p!"G3", row 9), (p!"G4", row 26)]
    let d := ((Diff.new p!"fourc.default").parse G).1
    ((Diff.new p!"fourc.default").parse G).2 = none ∧ d.mode = some p!"Omega equals zero" ∧
      d.sector = some 1 ∧
      d.lattice = some (.three (.fin 0) (.fin 1) (.fin 2) (.fin 3) (.fin 4) (.fin 5)) ∧
      d.UB = some [[.fin 0, .fin 1, .fin 2], [.fin 3, .fin 4, .fin 5], [.fin 6, .fin 7, .fin 8]] := by
  decide +kernel

end S2N.Props
