import Verif.Spec.Report
import Verif.Props.ArriveGeo
import Verif.Py.NumLemmas
/-
C100: the reports on a diffractometer.
-/
namespace S2N.Props
open S2N S2N.Py S2N.Spec

/-! ### facts about the packaged table (finite, checked by evaluation in the kernel) -/

theorem miller_table : ∀ g ∈ geoDb, ((g.Q.zip g.Qd).filter (fun q => contains p!"Miller index" q.2)).map (fun q => lower q.1) = millerNames g ∧
    (millerNames g).map upper <+: g.Q ∧ stripQuotes (quoted g.name) = g.name ∧ p!"LAMBDA" ∉ (Diff.new g.name).gpar.keys := by decide +kernel

theorem qnames_cases (g : Geometry) : millerNames g = [] ∨ millerNames g = [p!"h", p!"k"] ∨ millerNames g = [p!"h", p!"k", p!"l"] := by
  unfold millerNames
  split
  · exact .inl rfl
  · split
    · exact .inr (.inl rfl)
    · exact .inr (.inr rfl)

/-- the names of the other parameters have small letters -/
theorem angle_others : ∀ g ∈ geoDb, ∀ k ∈ [p!"H", p!"K", p!"L", p!"ALPHA", p!"BETA", p!"AZIMUTH", p!"OMEGA", p!"LAMBDA"],
    k ∉ g.G ∧ k ∉ g.U.getD defaultU ∧ endsWith k p!"_name" = false ∧ k ≠ p!"ub_matrix" ∧ startsWith k p!"diffractometer_" = false := by decide +kernel

/-! ### dictionaries -/

theorem setSame {α : Type} : ∀ (d : Dict α) (k : Str) (v : α), d.get? k = some v → d.set k v = d
  | [], _, _, h => by cases h
  | (k', v') :: d, k, v, h => by
    rw [Dict.get?_cons] at h
    unfold Dict.set
    split at h
    · next e =>
      injection h with h
      rw [if_pos e, h]
    · next e => rw [if_neg e, setSame d k v h]

/-- set a key if there is a value -/
def optSet {α : Type} (i : Dict α) (k : Str) : Option α → Dict α
  | some v => i.set k v
  | none => i

theorem setFresh {α : Type} (f : Str → Option α) : ∀ (ks : List Str) (i : Dict α), ks.Nodup → (∀ k ∈ ks, k ∉ i.keys) →
    ks.foldl (fun i k => optSet i k (f k)) i = i ++ ks.filterMap (fun k => (f k).map (fun v => (k, v)))
  | [], i, _, _ => by simp
  | k :: ks, i, hn, hd => by
    rw [List.foldl_cons]
    have hn' := (List.nodup_cons.1 hn)
    cases hf : f k with
    | none =>
      rw [show optSet i k none = i from rfl, setFresh f ks i hn'.2 (fun k' h => hd k' (List.mem_cons_of_mem _ h)), List.filterMap_cons_none (by simp [hf])]
    | some v =>
      rw [show optSet i k (some v) = i.set k v from rfl, Dict.set_of_not_mem _ _ _ (hd k List.mem_cons_self), setFresh f ks _ hn'.2, List.filterMap_cons_some (b := (k, v)) (by simp [hf])]
      · simp
      · intro k' h
        have : k' ≠ k := fun e => hn'.1 (e ▸ h)
        simp [Dict.keys, this]
        have := hd k' (List.mem_cons_of_mem _ h)
        simpa [Dict.keys] using this

theorem updFresh {α : Type} : ∀ (l : List (Str × α)) (i : Dict α), (l.map (·.1)).Nodup → (∀ k ∈ l.map (·.1), k ∉ i.keys) →
    l.foldl (fun i kv => i.set kv.1 kv.2) i = i ++ l
  | [], i, _, _ => by simp
  | kv :: l, i, hn, hd => by
    rw [List.map_cons, List.nodup_cons] at hn
    rw [List.foldl_cons, Dict.set_of_not_mem _ _ _ (hd _ (by simp)), updFresh l _ hn.2]
    · simp
    · intro k' h
      have h1 : k' ≠ kv.1 := fun e => hn.1 (e ▸ h)
      have h2 := hd k' (by rw [List.map_cons]; exact List.mem_cons_of_mem _ h)
      simp [Dict.keys, h1]
      simpa [Dict.keys] using h2

/-! ### the parameters -/

/-- the numbers that the #G4 row gives to the diffractometer: none if it has not as many as the catalog says -/
def G4Is (G : Dict Str) (g : Geometry) (xs : List PyFloat) : Prop :=
  (RowIs G p!"G4" xs ∧ xs.length = g.Q.length) ∨ (xs = [] ∧ ∀ ys, RowIs G p!"G4" ys → ys.length ≠ g.Q.length)

section
variable {n : Str} {G : Dict Str} {d : Diff} {g : Geometry} (h : (Diff.new n).parse G = (d, none)) (hg : geoGet n = some g)
include h hg

theorem gpar_q {xs : List PyFloat} (hx : G4Is G g xs) {k : Str}
    (hk : k ∈ [p!"H", p!"K", p!"L", p!"ALPHA", p!"BETA", p!"AZIMUTH", p!"OMEGA", p!"LAMBDA"]) :
    d.gpar.get? k = (qNumber g xs k).map .num := by
  obtain ⟨g', d0, d1, d3, hg', h0, h1, h3, h4⟩ := parse_stages h
  rw [hg] at hg'; cases hg'
  have hmem := (geoGet_mem hg).1
  obtain ⟨k1, k2, k3, k4, k5⟩ := angle_others g hmem k hk
  have hnew : (Diff.new n).gpar.get? k = none := by
    rw [Dict.get?_eq_none_iff]
    intro hc
    have : k = p!"diffractometer_full" ∨ k = p!"diffractometer_simple" ∨ k = p!"diffractometer_variant" := by
      simpa [Diff.new, Dict.set, Dict.keys] using hc
    rcases this with rfl | rfl | rfl <;> exact absurd k5 (by decide)
  have e0 : d0.gpar.get? k = none := by
    rcases parseG0_ok h0 with rfl | ⟨ys, sec, adds, -, -, hloop, rfl⟩
    · exact hnew
    · unfold g0Result
      simp only
      rw [adds_get, updNum_get _ _ (geoDb_facts g hmem).1, zip_get_none _ _ _ k1, hnew]
      intro a ha hc
      rw [(g0Loop_ok _ _ _ _ _ _ hloop).1, List.nil_append, List.mem_filterMap] at ha
      obtain ⟨kv, -, hkv⟩ := ha
      rw [modeAdd_key hkv] at hc
      have : endsWith k p!"_name" = true := by
        unfold endsWith; rw [← hc]; simp
      rw [k3] at this; simp at this
  have e3 : d3.gpar.get? k = none := by
    rw [gpar_G3_frame h3 _ k4, gpar_G1_frame hmem h1 _ k2, e0]
  rcases hx with ⟨hr, hl⟩ | ⟨rfl, hr⟩
  · rw [parseG4_row h4 hr hl]
    simp only
    rw [updNum_get _ _ (geoDb_facts g hmem).2.1]
    unfold qNumber
    cases Dict.get? (g.Q.zip xs) k with
    | none => exact e3
    | some x => rfl
  · rcases parseG4_ok h4 with rfl | ⟨ys, hy, hyl, -⟩
    · rw [e3]
      simp [qNumber, Dict.get?]
    · exact absurd hyl (hr ys hy)

theorem wavelength_q {xs : List PyFloat} (hx : G4Is G g xs) : d.wavelength = qNumber g xs p!"LAMBDA" := by
  rcases hx with ⟨hr, hl⟩ | ⟨rfl, hr⟩
  · obtain ⟨g', d0, d1, d3, hg', h0, h1, h3, h4⟩ := parse_stages h
    rw [hg] at hg'; cases hg'
    have w0 : d0.wavelength = none := by
      rcases parseG0_ok h0 with rfl | ⟨_, _, _, -, -, -, rfl⟩ <;> rfl
    have w1 : d1.wavelength = none := by
      rcases parseG1_ok h1 with rfl | ⟨_, _, _, -, -, -, -, rfl⟩ <;> exact w0
    have w3 : d3.wavelength = none := by
      rcases parseG3_ok h3 with rfl | ⟨_, rfl⟩ <;> exact w1
    rw [parseG4_row h4 hr hl]
    simp only
    rw [zipDict_eq _ _ (geoDb_facts g (geoGet_mem hg).1).2.1, w3]
    unfold qNumber
    cases Dict.get? (g.Q.zip xs) p!"LAMBDA" <;> rfl
  · rw [wavelength_none h hg hr]
    simp [qNumber, Dict.get?]

theorem parse_name : d.name = g.name := by
  have : d.name = (splitNameVariation n).1 := by
    obtain ⟨g', d0, d1, d3, hg', h0, h1, h3, h4⟩ := parse_stages h
    have w0 : d0.name = (splitNameVariation n).1 := by
      rcases parseG0_ok h0 with rfl | ⟨_, _, _, -, -, -, rfl⟩ <;> rfl
    have w1 : d1.name = (splitNameVariation n).1 := by
      rcases parseG1_ok h1 with rfl | ⟨_, _, _, -, -, -, -, rfl⟩ <;> exact w0
    have w3 : d3.name = (splitNameVariation n).1 := by
      rcases parseG3_ok h3 with rfl | ⟨_, rfl⟩ <;> exact w1
    rcases parseG4_ok h4 with rfl | ⟨_, -, -, rfl⟩ <;> exact w3
  rw [this, (geoGet_mem hg).2]

/-- the numbers of the Miller indices -/
theorem miller_numbers {xs : List PyFloat} (hl : xs.length = g.Q.length) (i : Nat) (k : Str) (hk : (millerNames g)[i]? = some k) :
    ∃ x, xs[i]? = some x ∧ qNumber g xs (upper k) = some x := by
  have hmem := (geoGet_mem hg).1
  obtain ⟨-, ⟨t, ht⟩, -⟩ := miller_table g hmem
  have hi : i < (millerNames g).length := (List.getElem?_eq_some_iff.1 hk).1
  have hq : g.Q[i]? = some (upper k) := by
    rw [← ht, List.getElem?_append_left (by simpa using hi), List.getElem?_map, hk]; rfl
  have hx : i < xs.length := by rw [hl]; exact (List.getElem?_eq_some_iff.1 hq).1
  refine ⟨xs[i], List.getElem?_eq_getElem hx, ?_⟩
  unfold qNumber
  rw [zip_get _ _ (geoDb_facts g hmem).2.1 i _ hq, List.getElem?_eq_getElem hx]

theorem qNames_eq : d.qNames = .ok (millerNames g) := by
  unfold Diff.qNames
  rw [parse_full h, hg]
  simp only [(miller_table g (geoGet_mem hg).1).1]

end

/-! ### the reports -/

theorem zip_fst_sublist {α : Type} : ∀ (l : List Str) (m : List α), ((l.zip m).map (·.1)).Sublist l
  | [], m => by simp
  | a :: l, [] => by simp
  | a :: l, b :: m => by simpa using zip_fst_sublist l m

theorem orNone_shown {α : Type} (f : α → Str) (o : Option α) : orNone f o = shown f o := by cases o <;> rfl

theorem lattice_text (T : Texts) (l : Lattice) : l.text T = latticeText T l := by cases l <;> rfl

theorem reflection_text (T : Texts) (r : Reflection) : r.text T = reflectionText T r := by cases r <;> rfl

section
variable {n : Str} {G : Dict Str} {d : Diff} {g : Geometry} (h : (Diff.new n).parse G = (d, none)) (hg : geoGet n = some g) (T : Texts)
include h hg

theorem infoQ_ok {xs : List PyFloat} (hx : G4Is G g xs) (hm : millerNames g = [] ∨ xs.length = g.Q.length) :
    d.infoQ T (millerNames g) (basicItems T g d xs) = .ok (basicItems T g d xs ++ millerItems T g xs) := by
  rcases hm with hm | hl
  · rw [hm]
    simp [Diff.infoQ, millerItems, hm]
  · have num := miller_numbers h hg hl
    rcases qnames_cases g with hm | hm | hm
    · rw [hm]; simp [Diff.infoQ, millerItems, hm]
    · rw [hm] at num
      obtain ⟨x0, a0, b0⟩ := num 0 p!"h" rfl
      obtain ⟨x1, a1, b1⟩ := num 1 p!"k" rfl
      have e0 := gpar_q h hg hx (k := p!"H") (by decide)
      have e1 := gpar_q h hg hx (k := p!"K") (by decide)
      rw [show upper p!"h" = p!"H" from by decide] at b0
      rw [show upper p!"k" = p!"K" from by decide] at b1
      rw [b0] at e0
      rw [b1] at e1
      rw [hm]
      have hxs : ∃ t, xs = x0 :: x1 :: t := by
        rcases xs with _ | ⟨y0, _ | ⟨y1, t⟩⟩
        · cases a0
        · cases a1
        · injection a0 with a0; injection a1 with a1; subst a0; subst a1; exact ⟨t, rfl⟩
      obtain ⟨t, rfl⟩ := hxs
      unfold millerItems
      rw [hm]
      simp only [Diff.infoQ, show upper p!"h" = p!"H" from by decide, show upper p!"k" = p!"K" from by decide, e0, e1, Option.map_some, GVal.text]
      rw [Dict.set_of_not_mem _ _ _ (show p!"h" ∉ Dict.keys (basicItems T g d (x0 :: x1 :: t)) from by
          show p!"h" ∉ [p!"geometry", p!"wavelength", p!"mode", p!"sector"]; decide),
        Dict.set_of_not_mem _ _ _ (show p!"k" ∉ Dict.keys (basicItems T g d (x0 :: x1 :: t) ++ [(p!"h", T.float x0)]) from by
          show p!"k" ∉ [p!"geometry", p!"wavelength", p!"mode", p!"sector", p!"h"]; decide)]
      simp
    · rw [hm] at num
      obtain ⟨x0, a0, b0⟩ := num 0 p!"h" rfl
      obtain ⟨x1, a1, b1⟩ := num 1 p!"k" rfl
      obtain ⟨x2, a2, b2⟩ := num 2 p!"l" rfl
      have e0 := gpar_q h hg hx (k := p!"H") (by decide)
      have e1 := gpar_q h hg hx (k := p!"K") (by decide)
      have e2 := gpar_q h hg hx (k := p!"L") (by decide)
      rw [show upper p!"h" = p!"H" from by decide] at b0
      rw [show upper p!"k" = p!"K" from by decide] at b1
      rw [show upper p!"l" = p!"L" from by decide] at b2
      rw [b0] at e0
      rw [b1] at e1
      rw [b2] at e2
      rw [hm]
      have hxs : ∃ t, xs = x0 :: x1 :: x2 :: t := by
        rcases xs with _ | ⟨y0, _ | ⟨y1, _ | ⟨y2, t⟩⟩⟩
        · cases a0
        · cases a1
        · cases a2
        · injection a0 with a0; injection a1 with a1; injection a2 with a2; subst a0; subst a1; subst a2; exact ⟨t, rfl⟩
      obtain ⟨t, rfl⟩ := hxs
      unfold millerItems
      rw [hm]
      simp only [Diff.infoQ, show upper p!"h" = p!"H" from by decide, show upper p!"k" = p!"K" from by decide,
        show upper p!"l" = p!"L" from by decide, e0, e1, e2, Option.map_some, GVal.text]
      rw [Dict.set_of_not_mem _ _ _ (show p!"h" ∉ Dict.keys (basicItems T g d (x0 :: x1 :: x2 :: t)) from by
          show p!"h" ∉ [p!"geometry", p!"wavelength", p!"mode", p!"sector"]; decide),
        Dict.set_of_not_mem _ _ _ (show p!"k" ∉ Dict.keys (basicItems T g d (x0 :: x1 :: x2 :: t) ++ [(p!"h", T.float x0)]) from by
          show p!"k" ∉ [p!"geometry", p!"wavelength", p!"mode", p!"sector", p!"h"]; decide),
        Dict.set_of_not_mem _ _ _ (show p!"l" ∉ Dict.keys (basicItems T g d (x0 :: x1 :: x2 :: t) ++ [(p!"h", T.float x0)] ++ [(p!"k", T.float x1)]) from by
          show p!"l" ∉ [p!"geometry", p!"wavelength", p!"mode", p!"sector", p!"h", p!"k"]; decide)]
      simp

theorem info_start {xs : List PyFloat} (hx : G4Is G g xs) :
    (((Dict.set ([] : Dict Str) p!"geometry" (quoted d.name)).set p!"wavelength" (orNone T.float d.wavelength)).set
    p!"mode" (quoted (orNone id d.mode))).set p!"sector" (orNone intStr d.sector) = basicItems T g d xs := by
  rw [parse_name h hg, wavelength_q h hg hx, orNone_shown, orNone_shown, orNone_shown]
  rfl

theorem info_str {xs : List PyFloat} (hx : G4Is G g xs) (hm : millerNames g = [] ∨ xs.length = g.Q.length) :
    d.info T .str = .ok (basicItems T g d xs ++ millerItems T g xs) := by
  unfold Diff.info
  simp only [info_start h hg T hx, qNames_eq h hg, infoQ_ok h hg T hx hm]
  rfl

theorem base_keys (xs : List PyFloat) : ∀ k ∈ Dict.keys (basicItems T g d xs ++ millerItems T g xs),
    k ∈ [p!"geometry", p!"wavelength", p!"mode", p!"sector", p!"h", p!"k", p!"l"] := by
  intro k hk
  rw [Dict.keys, List.map_append, List.mem_append] at hk
  rcases hk with hk | hk
  · have : k ∈ [p!"geometry", p!"wavelength", p!"mode", p!"sector"] := hk
    simp at this ⊢
    tauto
  · have : k ∈ millerNames g := by
      unfold millerItems at hk
      obtain ⟨q, hq, rfl⟩ := List.mem_map.1 hk
      exact (List.of_mem_zip hq).1
    rcases qnames_cases g with hm | hm | hm <;> rw [hm] at this <;> simp at this ⊢ <;> tauto

theorem base_nodup (xs : List PyFloat) : (Dict.keys (basicItems T g d xs ++ millerItems T g xs)).Nodup := by
  have hs : (Dict.keys (millerItems T g xs)).Sublist (millerNames g) := by
    exact zip_fst_sublist _ _
  have : (Dict.keys (basicItems T g d xs ++ millerItems T g xs)).Sublist
      ([p!"geometry", p!"wavelength", p!"mode", p!"sector"] ++ millerNames g) := by
    unfold Dict.keys
    rw [List.map_append]
    exact List.Sublist.append (List.Sublist.refl _) hs
  refine this.nodup ?_
  rcases qnames_cases g with hm | hm | hm <;> rw [hm] <;> decide

theorem angles_eq {xs : List PyFloat} (hx : G4Is G g xs) (i : Dict Str) (hi : ∀ k ∈ angleNames.map (·.1), k ∉ i.keys) :
    d.infoAngles T i = i ++ angleItems T g xs angleNames := by
  have hf : d.infoAngles T i = (angleNames.map (·.1)).foldl (fun (i : Dict Str) k =>
      optSet i k ((d.gpar.get? (upper k)).map (GVal.text T))) i := by
    unfold Diff.infoAngles
    congr 1
    funext i k
    cases d.gpar.get? (upper k) <;> rfl
  refine (hf.trans (setFresh (fun k => (d.gpar.get? (upper k)).map (GVal.text T)) _ _ (by decide) hi)).trans ?_
  rw [List.filterMap_map]
  congr 1
  unfold angleItems
  refine List.filterMap_congr (fun q hq => ?_)
  have : upper q.1 = q.2 ∧ q.2 ∈ [p!"H", p!"K", p!"L", p!"ALPHA", p!"BETA", p!"AZIMUTH", p!"OMEGA", p!"LAMBDA"] := by
    revert q
    decide
  simp only [Function.comp, this.1, gpar_q h hg hx this.2]
  cases qNumber g xs q.2 <;> rfl

theorem info_wh {xs : List PyFloat} (hx : G4Is G g xs) (hm : millerNames g = [] ∨ xs.length = g.Q.length) :
    d.info T .wh = .ok (basicItems T g d xs ++ millerItems T g xs ++ [(p!"lattice", shown (latticeText T) d.lattice)] ++ angleItems T g xs angleNames) := by
  have hl : orNone (Lattice.text T) d.lattice = shown (latticeText T) d.lattice := by
    cases d.lattice with
    | none => rfl
    | some l => exact lattice_text T l
  have hb := base_keys h hg T xs
  unfold Diff.info
  simp only [info_start h hg T hx, qNames_eq h hg, infoQ_ok h hg T hx hm]
  rw [if_pos (show Detail.wh ≠ .pa by decide), if_neg (show ¬ Detail.wh = .str by decide), hl, Dict.set_of_not_mem _ _ _ (fun hc => absurd (hb _ hc) (by decide)), angles_eq h hg T hx]
  intro k hk hc
  rw [Dict.keys, List.map_append, List.mem_append] at hc
  rcases hc with hc | hc
  · exact absurd (hb _ hc) ((show ∀ k ∈ angleNames.map (·.1), k ∉ [p!"geometry", p!"wavelength", p!"mode", p!"sector", p!"h", p!"k", p!"l"] from by decide) k hk)
  · have : k = p!"lattice" := by simpa using hc
    subst this
    exact absurd hk (by decide)

/-- the items of the brief report -/
theorem wh_keys (xs : List PyFloat) (l : Str) :
    let W := basicItems T g d xs ++ millerItems T g xs ++ [(p!"lattice", l)] ++ angleItems T g xs angleNames
    (Dict.keys W).Nodup ∧ ∀ k ∈ Dict.keys W, k ∈ [p!"geometry", p!"wavelength", p!"mode", p!"sector", p!"h", p!"k", p!"l", p!"lattice",
      p!"alpha", p!"beta", p!"azimuth", p!"omega"] := by
  intro W
  have ha : ∀ names : List (Str × Str), (Dict.keys (angleItems T g xs names)).Sublist (names.map (·.1)) := by
    intro names
    induction names with
    | nil => exact List.Sublist.refl _
    | cons a as ih =>
      unfold angleItems Dict.keys at ih ⊢
      rw [List.filterMap_cons]
      cases (qNumber g xs a.2) with
      | none => exact ih.cons _
      | some x => exact ih.cons₂ _
  have e : Dict.keys W = Dict.keys (basicItems T g d xs ++ millerItems T g xs) ++ ([p!"lattice"] ++ Dict.keys (angleItems T g xs angleNames)) := by
    simp [W, Dict.keys]
  have hb := base_keys h hg T xs
  have hs : ([p!"lattice"] ++ Dict.keys (angleItems T g xs angleNames)).Sublist [p!"lattice", p!"alpha", p!"beta", p!"azimuth", p!"omega"] :=
    (ha angleNames).cons₂ _
  rw [e]
  refine ⟨List.nodup_append.2 ⟨base_nodup h hg T xs, hs.nodup (by decide), ?_⟩, ?_⟩
  · intro k hk k' hk' e
    subst e
    exact absurd (hs.subset hk') ((show ∀ k ∈ [p!"geometry", p!"wavelength", p!"mode", p!"sector", p!"h", p!"k", p!"l"],
      k ∉ [p!"lattice", p!"alpha", p!"beta", p!"azimuth", p!"omega"] from by decide) k (hb k hk))
  · intro k hk
    rcases List.mem_append.1 hk with hk | hk
    · exact List.mem_append_left [p!"lattice", p!"alpha", p!"beta", p!"azimuth", p!"omega"] (hb k hk)
    · exact List.mem_append_right [p!"geometry", p!"wavelength", p!"mode", p!"sector", p!"h", p!"k", p!"l"] (hs.subset hk)

omit h hg in
theorem reflection_keys (l : List Reflection) : (l.zipIdx.map (fun r => p!"reflection " ++ natStr (r.2 + 1))).Nodup := by
  have : ((l.zipIdx.map (·.2)).map (fun i => p!"reflection " ++ natStr (i + 1))).Nodup := by
    refine List.Nodup.map (fun a b e => ?_) (by rw [List.zipIdx_map_snd]; exact List.nodup_range')
    have := natStr_injective (List.append_cancel_left e)
    omega
  rwa [List.map_map] at this

theorem info_pa {xs : List PyFloat} (hx : G4Is G g xs) (hm : millerNames g = [] ∨ xs.length = g.Q.length) {m : List (List PyFloat)}
    (hu : d.UB = some m) :
    d.info T .pa = .ok (basicItems T g d xs ++ millerItems T g xs ++ [(p!"lattice", shown (latticeText T) d.lattice)] ++ angleItems T g xs angleNames ++
      [(p!"full_geometry_name", p!"'" ++ n ++ p!"'"), (p!"UB", T.matrix m)] ++
      d.reflections.zipIdx.map (fun r => (p!"reflection " ++ natStr (r.2 + 1), reflectionText T r.1))) := by
  have hw := info_wh h hg T hx hm
  obtain ⟨nd, kw⟩ := wh_keys h hg T xs (shown (latticeText T) d.lattice)
  unfold Diff.info at hw ⊢
  simp only [info_start h hg T hx, qNames_eq h hg, infoQ_ok h hg T hx hm] at hw ⊢
  rw [if_pos (show Detail.wh ≠ .pa by decide), if_neg (show ¬ Detail.wh = .str by decide)] at hw
  injection hw with hw
  rw [if_neg (show ¬ Detail.pa ≠ .pa by decide), if_neg (show ¬ Detail.pa = .str by decide), hw]
  have hlat : Dict.get? (basicItems T g d xs ++ millerItems T g xs ++ [(p!"lattice", shown (latticeText T) d.lattice)] ++ angleItems T g xs angleNames)
      p!"lattice" = some (shown (latticeText T) d.lattice) :=
    (Dict.mem_iff_get? _ nd _ _).1 (by simp)
  generalize hW : (basicItems T g d xs ++ millerItems T g xs ++ [(p!"lattice", shown (latticeText T) d.lattice)] ++ angleItems T g xs angleNames : List (Str × Str)) = W at *
  rw [parse_full h, hu, Dict.set_of_not_mem W _ _ (fun hc => absurd (kw _ hc) (by decide))]
  have hW1 : (match d.lattice with
      | some l => Dict.set (W ++ [(p!"full_geometry_name", quoted n)]) p!"lattice" (l.text T)
      | none => W ++ [(p!"full_geometry_name", quoted n)] : Dict Str) = W ++ [(p!"full_geometry_name", quoted n)] := by
    cases hl : d.lattice with
    | none => rfl
    | some l =>
      refine setSame _ _ _ ?_
      rw [hl] at hlat
      have : (p!"lattice", l.text T) ∈ W := by
        rw [lattice_text]
        exact (Dict.mem_iff_get? _ nd _ _).2 hlat
      refine (Dict.mem_iff_get? _ ?_ _ _).1 (List.mem_append_left _ this)
      rw [Dict.keys, List.map_append]
      refine List.nodup_append.2 ⟨nd, by simp, ?_⟩
      intro k hk k' hk' e
      simp at hk'
      subst hk'
      subst e
      exact absurd (kw _ hk) (by decide)
  simp only
  refine congrArg Except.ok ?_
  have k1 : ∀ k ∈ Dict.keys (W ++ [(p!"full_geometry_name", quoted n)]), k ∈ [p!"geometry", p!"wavelength", p!"mode", p!"sector", p!"h", p!"k", p!"l", p!"lattice",
      p!"alpha", p!"beta", p!"azimuth", p!"omega", p!"full_geometry_name"] := by
    intro k hk
    rw [Dict.keys, List.map_append, List.mem_append] at hk
    rcases hk with hk | hk
    · exact List.mem_append_left [p!"full_geometry_name"] (kw k hk)
    · have : k = p!"full_geometry_name" := by simpa using hk
      subst this; decide
  have hfold : ∀ i : Dict Str, d.reflections.zipIdx.foldl (fun i r => i.set (p!"reflection " ++ natStr (r.2 + 1)) (r.1.text T)) i =
      (d.reflections.zipIdx.map (fun r => (p!"reflection " ++ natStr (r.2 + 1), reflectionText T r.1))).foldl (fun (i : Dict Str) kv => i.set kv.1 kv.2) i := by
    intro i
    rw [List.foldl_map]
    simp only [reflection_text]
  have step : (match d.lattice with
      | some l => Dict.set (W ++ [(p!"full_geometry_name", quoted n)]) p!"lattice" (l.text T)
      | none => W ++ [(p!"full_geometry_name", quoted n)] : Dict Str).set p!"UB" (T.matrix m) = W ++ [(p!"full_geometry_name", p!"'" ++ n ++ p!"'"), (p!"UB", T.matrix m)] := by
    rw [hW1, Dict.set_of_not_mem _ _ _ (fun hc => absurd (k1 _ hc) (by decide)), List.append_assoc]
    rfl
  have k2 : ∀ k ∈ Dict.keys (W ++ [(p!"full_geometry_name", p!"'" ++ n ++ p!"'"), (p!"UB", T.matrix m)]), k ∈ [p!"geometry", p!"wavelength", p!"mode", p!"sector", p!"h", p!"k", p!"l", p!"lattice",
      p!"alpha", p!"beta", p!"azimuth", p!"omega", p!"full_geometry_name", p!"UB"] := by
    intro k hk
    rw [Dict.keys, List.map_append, List.mem_append] at hk
    rcases hk with hk | hk
    · exact List.mem_append_left [p!"full_geometry_name", p!"UB"] (kw k hk)
    · have : k = p!"full_geometry_name" ∨ k = p!"UB" := by simpa using hk
      rcases this with rfl | rfl <;> decide
  have hdis : ∀ k ∈ (d.reflections.zipIdx.map (fun r => (p!"reflection " ++ natStr (r.2 + 1), reflectionText T r.1))).map (·.1),
      k ∉ Dict.keys (W ++ [(p!"full_geometry_name", p!"'" ++ n ++ p!"'"), (p!"UB", T.matrix m)]) := by
    intro k hk hc
    have := k2 k hc
    rw [List.map_map] at hk
    obtain ⟨r, -, rfl⟩ := List.mem_map.1 hk
    have hp : ∀ k ∈ [p!"geometry", p!"wavelength", p!"mode", p!"sector", p!"h", p!"k", p!"l", p!"lattice",
      p!"alpha", p!"beta", p!"azimuth", p!"omega", p!"full_geometry_name", p!"UB"], ¬ p!"reflection " <+: k := by decide
    exact hp _ this (List.prefix_append _ _)
  have final : Dict.set (W ++ [(p!"full_geometry_name", p!"'" ++ n ++ p!"'"), (p!"UB", T.matrix m)] ++
      d.reflections.zipIdx.map (fun r => (p!"reflection " ++ natStr (r.2 + 1), reflectionText T r.1))) p!"UB" (T.matrix m) =
      W ++ [(p!"full_geometry_name", p!"'" ++ n ++ p!"'"), (p!"UB", T.matrix m)] ++
      d.reflections.zipIdx.map (fun r => (p!"reflection " ++ natStr (r.2 + 1), reflectionText T r.1)) := by
    refine setSame _ _ _ ((Dict.mem_iff_get? _ ?_ _ _).1 (by simp))
    rw [Dict.keys, List.map_append]
    refine List.nodup_append.2 ⟨?_, ?_, ?_⟩
    · rw [List.map_append]
      refine List.nodup_append.2 ⟨nd, by simp, ?_⟩
      intro k hk k' hk' e
      subst e
      have hk' : k = p!"full_geometry_name" ∨ k = p!"UB" := by simpa using hk'
      rcases hk' with rfl | rfl <;> exact absurd (kw _ hk) (by decide)
    · rw [List.map_map]; exact reflection_keys _
    · intro k hk k' hk' e
      subst e
      exact hdis k hk' hk
  refine Eq.trans ?_ final
  congr 1
  refine Eq.trans (congrArg (fun i => d.reflections.zipIdx.foldl (fun (i : Dict Str) r => i.set (p!"reflection " ++ natStr (r.2 + 1)) (r.1.text T)) i) step) ?_
  refine (hfold _).trans (updFresh _ _ ?_ hdis)
  rw [List.map_map]; exact reflection_keys _

theorem info_no_matrix {xs : List PyFloat} (hx : G4Is G g xs) (hm : millerNames g = [] ∨ xs.length = g.Q.length)
    (hu : d.UB = none) : d.info T .pa = .error .AttributeError := by
  unfold Diff.info
  simp only [info_start h hg T hx, qNames_eq h hg, infoQ_ok h hg T hx hm, hu]
  rfl

theorem info_no_numbers (hm : millerNames g ≠ []) (hr : ∀ xs, RowIs G p!"G4" xs → xs.length ≠ g.Q.length) (lv : Detail) :
    d.info T lv = .error .KeyError := by
  have hx : G4Is G g [] := .inr ⟨rfl, hr⟩
  have e := gpar_q h hg hx (k := p!"H") (by decide)
  have e : d.gpar.get? p!"H" = none := by simpa [qNumber, Dict.get?] using e
  have : ∀ i, d.infoQ T (millerNames g) i = .error .KeyError := by
    intro i
    rcases qnames_cases g with hn | hn | hn
    · exact absurd hn hm
    all_goals
      rw [hn]
      simp only [Diff.infoQ, show upper p!"h" = p!"H" from by decide, e]
  unfold Diff.info
  simp only [qNames_eq h hg, this]

omit h hg in
theorem qDict_ok (i : Dict Str) (hn : i.keys.Nodup) : ∀ (l : List (Str × Str)) (q : Dict Str), (∀ kv ∈ l, kv ∈ i) → (l.map (·.1)).Nodup →
    (∀ k ∈ l.map (·.1), k ∉ q.keys) → Diff.qDict i (l.map (·.1)) q = .ok (q ++ l)
  | [], q, _, _, _ => by simp [Diff.qDict]
  | kv :: l, q, hm, hd, hf => by
    rw [List.map_cons, List.nodup_cons] at hd
    rw [List.map_cons]
    unfold Diff.qDict
    rw [(Dict.mem_iff_get? i hn kv.1 kv.2).1 (hm kv List.mem_cons_self)]
    simp only
    rw [Dict.set_of_not_mem _ _ _ (hf _ (by simp)), qDict_ok i hn l _ (fun a ha => hm a (List.mem_cons_of_mem _ ha)) hd.2]
    · simp
    · intro k hk
      have h1 : k ≠ kv.1 := fun e => hd.1 (e ▸ hk)
      have h2 := hf k (by rw [List.map_cons]; exact List.mem_cons_of_mem _ hk)
      simp [Dict.keys, h1]
      simpa [Dict.keys] using h2

omit h in
theorem miller_keys {xs : List PyFloat} (hm : millerNames g = [] ∨ xs.length = g.Q.length) :
    (millerItems T g xs).map (·.1) = millerNames g ∧ (millerItems T g xs).map (·.2) = (xs.take (millerNames g).length).map T.float := by
  have hle : (millerNames g).length ≤ xs.length := by
    rcases hm with hm | hl
    · rw [hm]; exact Nat.zero_le _
    · have := (miller_table g (geoGet_mem hg).1).2.1.length_le
      rw [List.length_map] at this
      omega
  unfold millerItems
  refine ⟨List.map_fst_zip (by simpa using hle), ?_⟩
  rw [List.zip_eq_zip_take_min, List.map_snd_zip]
  · simp [hle]
  · simp

/-- the angles in the report -/
theorem angle_get (xs : List PyFloat) (l : Str) (k K : Str) (hk : (k, K) ∈ angleNames) :
    Dict.get? (basicItems T g d xs ++ millerItems T g xs ++ [(p!"lattice", l)] ++ angleItems T g xs angleNames) k = (qNumber g xs K).map T.float := by
  have hu : ∀ q ∈ angleNames, q.1 = k → q.2 = K := by
    intro q hq e
    have : ∀ a ∈ angleNames, ∀ b ∈ angleNames, a.1 = b.1 → a.2 = b.2 := by decide
    exact this q hq (k, K) hk e
  obtain ⟨nd, -⟩ := wh_keys h hg T xs l
  cases hq : qNumber g xs K with
  | some x =>
    refine (Dict.mem_iff_get? _ nd _ _).1 (List.mem_append_right _ ?_)
    unfold angleItems
    exact List.mem_filterMap.2 ⟨(k, K), hk, by simp [hq]⟩
  | none =>
    refine (Dict.get?_eq_none_iff _ _).2 (fun hc => ?_)
    rw [Dict.keys, List.map_append, List.mem_append] at hc
    rcases hc with hc | hc
    · rw [List.map_append, List.mem_append] at hc
      rcases hc with hc | hc
      · exact absurd (base_keys h hg T xs k hc) ((show ∀ q ∈ angleNames, q.1 ∉ [p!"geometry", p!"wavelength", p!"mode", p!"sector", p!"h", p!"k", p!"l"] from by decide) _ hk)
      · have : k = p!"lattice" := by simpa using hc
        subst this
        exact absurd rfl ((show ∀ q ∈ angleNames, q.1 ≠ p!"lattice" from by decide) _ hk)
    · obtain ⟨q, hq', e⟩ := List.mem_map.1 hc
      obtain ⟨p, hp, e'⟩ := List.mem_filterMap.1 hq'
      cases hp2 : qNumber g xs p.2 with
      | none => rw [hp2] at e'; cases e'
      | some y =>
        rw [hp2] at e'
        simp only [Option.map_some, Option.some.injEq] at e'
        have := hu p hp (by rw [← e, ← e'])
        rw [this, hq] at hp2
        cases hp2

theorem brief_ok {xs : List PyFloat} (hx : G4Is G g xs) (hm : millerNames g = [] ∨ xs.length = g.Q.length) (scan : Obj)
    (hp : scan.positioner.keys.Nodup) : d.printBrief T scan = .ok (join p!"\n" (briefLines T g xs scan.positioner)) := by
  have hw := info_wh h hg T hx hm
  obtain ⟨nd, kw⟩ := wh_keys h hg T xs (shown (latticeText T) d.lattice)
  have ang := angle_get h hg T xs (shown (latticeText T) d.lattice)
  obtain ⟨mk1, mk2⟩ := miller_keys hg T hm
  have hq : Diff.qDict (basicItems T g d xs ++ millerItems T g xs ++ [(p!"lattice", shown (latticeText T) d.lattice)] ++ angleItems T g xs angleNames)
      (millerNames g) [] = .ok (millerItems T g xs) := by
    rw [← mk1]
    refine qDict_ok _ nd _ _ ?_ ?_ (by simp [Dict.keys])
    · intro kv hkv; simp [hkv]
    · rw [mk1]
      rcases qnames_cases g with e | e | e <;> rw [e] <;> decide
  have hpos : d.positioners scan = .ok (scan.positioner.take g.numgeo) := by
    unfold Diff.positioners
    rw [parse_full h, hg]
    simp only
    rw [updFresh _ _ _ (by simp [Dict.keys])]
    · rfl
    · exact ((List.take_sublist _ _).map _).nodup hp
  have hgeo : Dict.get? (basicItems T g d xs ++ millerItems T g xs ++ [(p!"lattice", shown (latticeText T) d.lattice)] ++ angleItems T g xs angleNames)
      p!"geometry" = some (quoted g.name) := (Dict.mem_iff_get? _ nd _ _).1 (by
        have : (p!"geometry", quoted g.name) ∈ basicItems T g d xs := List.mem_cons_self
        simp [this])
  have hwl : Dict.get? (basicItems T g d xs ++ millerItems T g xs ++ [(p!"lattice", shown (latticeText T) d.lattice)] ++ angleItems T g xs angleNames)
      p!"wavelength" = some (shown T.float (qNumber g xs p!"LAMBDA")) := (Dict.mem_iff_get? _ nd _ _).1 (by
        have : (p!"wavelength", shown T.float (qNumber g xs p!"LAMBDA")) ∈ basicItems T g d xs := List.mem_cons_of_mem _ List.mem_cons_self
        simp [this])
  generalize (basicItems T g d xs ++ millerItems T g xs ++ [(p!"lattice", shown (latticeText T) d.lattice)] ++ angleItems T g xs angleNames : List (Str × Str)) = W at *
  unfold Diff.printBrief
  simp only [hw, qNames_eq h hg, hq, hgeo, hpos]
  have r1 : composeRow W [p!"alpha", p!"beta", p!"azimuth"] = Spec.row (angleItems T g xs (angleNames.take 3)) := by
    have a := ang p!"alpha" p!"ALPHA" (by decide)
    have b := ang p!"beta" p!"BETA" (by decide)
    have c := ang p!"azimuth" p!"AZIMUTH" (by decide)
    unfold composeRow Spec.row angleItems angleNames
    simp only [List.filterMap_cons, a, b, c, List.take_succ_cons, List.take_zero, List.filterMap_nil]
    cases qNumber g xs p!"ALPHA" <;> cases qNumber g xs p!"BETA" <;> cases qNumber g xs p!"AZIMUTH" <;> rfl
  have r2 : composeRow W [p!"omega", p!"wavelength"] =
      Spec.row (angleItems T g xs (angleNames.drop 3) ++ [(p!"wavelength", shown T.float (qNumber g xs p!"LAMBDA"))]) := by
    have a := ang p!"omega" p!"OMEGA" (by decide)
    unfold composeRow Spec.row angleItems angleNames
    simp only [List.filterMap_cons, a, hwl, List.drop_succ_cons, List.drop_zero, List.filterMap_nil]
    cases qNumber g xs p!"OMEGA" <;> rfl
  have r3 : (if (millerItems T g xs).length > 0 then [join p!" " ((millerItems T g xs).map (·.1)) ++ p!" = " ++ join p!"  " ((millerItems T g xs).map (·.2))] else []) =
      (if millerNames g = [] then []
    else [join p!" " (millerNames g) ++ p!" = " ++ join p!"  " ((xs.take (millerNames g).length).map T.float)]) := by
    rw [mk1, mk2]
    have : (millerItems T g xs).length = (millerNames g).length := by rw [← mk1, List.length_map]
    rw [this]
    by_cases he : millerNames g = []
    · rw [if_pos he, if_neg (by rw [he]; decide)]
    · rw [if_neg he, if_pos (List.length_pos_iff.2 he)]
  rw [r1, r2, (miller_table g (geoGet_mem hg).1).2.2.1]
  refine congrArg (fun x => Except.ok (join p!"\n" x)) ?_
  unfold briefLines
  rw [← r3]

omit h hg T in
theorem aligned (D : Dict Str) (hne : D ≠ []) :
    Aligned D (join p!"\n" (D.map (fun kv => centered ((D.map (fun kv => kv.1.length)).foldl max 0) kv.1 ++ p!" = " ++ kv.2))) := by
  have up : ∀ (l : List Nat) (a : Nat), a ≤ l.foldl max a ∧ (∀ x ∈ l, x ≤ l.foldl max a) ∧ (l.foldl max a = a ∨ l.foldl max a ∈ l) := by
    intro l
    induction l with
    | nil => intro a; simp
    | cons b l ih =>
      intro a
      obtain ⟨i1, i2, i3⟩ := ih (max a b)
      rw [List.foldl_cons]
      refine ⟨by omega, ?_, ?_⟩
      · intro x hx
        rcases List.mem_cons.1 hx with rfl | hx
        · omega
        · exact i2 x hx
      · rcases i3 with i3 | i3
        · rw [i3]
          rcases Nat.le_total a b with hab | hab
          · right; rw [Nat.max_eq_right hab]; exact List.mem_cons_self
          · left; exact Nat.max_eq_left hab
        · right; exact List.mem_cons_of_mem _ i3
  obtain ⟨-, u2, u3⟩ := up (D.map (fun kv => kv.1.length)) 0
  generalize hw : (D.map (fun kv => kv.1.length)).foldl max 0 = w at *
  have hle : ∀ k ∈ D.keys, k.length ≤ w := by
    intro k hk
    obtain ⟨kv, hkv, rfl⟩ := List.mem_map.1 hk
    exact u2 _ (List.mem_map.2 ⟨kv, hkv, rfl⟩)
  refine ⟨w, _, rfl, hle, ?_, ?_⟩
  · rcases u3 with u3 | u3
    · cases D with
      | nil => exact absurd rfl hne
      | cons kv D => exact ⟨kv.1, List.mem_cons_self, by have := hle kv.1 List.mem_cons_self; omega⟩
    · obtain ⟨kv, hkv, e⟩ := List.mem_map.1 u3
      exact ⟨kv.1, List.mem_map.2 ⟨kv, hkv, rfl⟩, e⟩
  · rw [List.forall₂_map_right_iff, List.forall₂_same]
    intro kv hkv
    have := hle kv.1 (List.mem_map.2 ⟨kv, hkv, rfl⟩)
    refine ⟨centered w kv.1, ⟨_, _, rfl, ?_, ?_⟩, rfl⟩
    · simp [centered]; omega
    · omega

theorem all_ok {xs : List PyFloat} (hx : G4Is G g xs) (hm : millerNames g = [] ∨ xs.length = g.Q.length) {m : List (List PyFloat)}
    (hu : d.UB = some m) (scan : Obj) (hp : scan.positioner.keys.Nodup) (date : Option Str)
    (hd : DateIs T scan.epoch date) :
    ∃ D text, d.printAll T scan = .ok text ∧
      LastWins D (allItems T g n d xs m scan.fileName scan.scanNum scan.scanCmd date scan.positioner) ∧ Aligned D text := by
  have hi := info_pa h hg T hx hm hu
  have hpos : d.positioners scan = .ok (scan.positioner.take g.numgeo) := by
    unfold Diff.positioners
    rw [parse_full h, hg]
    simp only
    rw [updFresh _ _ _ (by simp [Dict.keys])]
    · rfl
    · exact ((List.take_sublist _ _).map _).nodup hp
  have h0 : LastWins (((Dict.set ([] : Dict Str) p!"SPEC file" scan.fileName).set p!"scan #" scan.scanNum).set p!"SPEC scanCmd" scan.scanCmd)
      [(p!"SPEC file", scan.fileName), (p!"scan #", scan.scanNum), (p!"SPEC scanCmd", scan.scanCmd)] :=
    lastWins_foldl [(p!"SPEC file", scan.fileName), (p!"scan #", scan.scanNum), (p!"SPEC scanCmd", scan.scanCmd)] [] [] lastWins_nil
  generalize hs : ((Dict.set ([] : Dict Str) p!"SPEC file" scan.fileName).set p!"scan #" scan.scanNum).set p!"SPEC scanCmd" scan.scanCmd = s at h0
  have h1 : ∃ s1, withDate T s scan.epoch = .ok s1 ∧
      LastWins s1 ([(p!"SPEC file", scan.fileName), (p!"scan #", scan.scanNum), (p!"SPEC scanCmd", scan.scanCmd)] ++ (date.map (fun t => (p!"date", t))).toList) := by
    rcases hd with ⟨he, rfl⟩ | ⟨e, t, he, ht, rfl⟩
    · rw [he]
      exact ⟨s, rfl, by simpa using h0⟩
    · rw [he]
      simp only [withDate, ht]
      exact ⟨_, rfl, lastWins_set h0 _ _⟩
  obtain ⟨s1, e1, h1⟩ := h1
  unfold Diff.printAll
  simp only [hs, e1, hi, hpos]
  have h2 := lastWins_foldl (basicItems T g d xs ++ millerItems T g xs ++ [(p!"lattice", shown (latticeText T) d.lattice)] ++ angleItems T g xs angleNames ++
      [(p!"full_geometry_name", p!"'" ++ n ++ p!"'"), (p!"UB", T.matrix m)] ++
      d.reflections.zipIdx.map (fun r => (p!"reflection " ++ natStr (r.2 + 1), reflectionText T r.1))) _ _ h1
  have h3 := lastWins_foldl ((scan.positioner.take g.numgeo).map (fun kv => (kv.1, T.float kv.2))) _ _ h2
  rw [List.foldl_map] at h3
  refine ⟨_, _, rfl, ?_, aligned _ ?_⟩
  · unfold allItems
    simpa only [List.append_assoc] using h3
  · intro e
    have := h3.value p!"SPEC file"
    rw [e] at this
    have := List.lookup_eq_none_iff.1 this.symm (p!"SPEC file", scan.fileName) (by simp)
    simp at this

omit h hg in
theorem all_errors (scan : Obj) :
    (∀ e err, scan.epoch = some e → T.date e = .error err → d.printAll T scan = .error err) ∧
    (∀ err, (∀ e, scan.epoch = some e → ∃ t, T.date e = .ok t) → d.info T .pa = .error err → d.printAll T scan = .error err) := by
  constructor
  · intro e err he ht
    unfold Diff.printAll
    simp only [he, withDate, ht]
  · intro err hd hi
    unfold Diff.printAll
    cases he : scan.epoch with
    | none => simp only [withDate, hi]
    | some e =>
      obtain ⟨t, ht⟩ := hd e he
      simp only [withDate, ht, hi]

end

/-! ### from the text of a scan -/

theorem UB_none {n : Str} {G : Dict Str} {d : Diff} (h : (Diff.new n).parse G = (d, none)) (hr : ∀ xs, RowIs G p!"G3" xs → xs.length ≠ 9) :
    d.UB = none := by
  obtain ⟨g, d0, d1, d3, hg, h0, h1, h3, h4⟩ := parse_stages h
  have w0 : d0.UB = none := by
    rcases parseG0_ok h0 with rfl | ⟨_, _, _, -, -, -, rfl⟩ <;> rfl
  have w1 : d1.UB = none := by
    rcases parseG1_ok h1 with rfl | ⟨_, _, _, -, -, -, -, rfl⟩ <;> exact w0
  have w3 : d3.UB = none := by
    cases hG : G.get? p!"G3" with
    | none =>
      unfold parseG3 at h3
      rw [hG] at h3
      rw [← (Prod.mk.inj h3).1]
      exact w1
    | some row =>
      have h3' := h3
      unfold parseG3 at h3
      rw [hG] at h3
      cases hx : mapE Py.float (splitWs row) with
      | error err => simp only [hx] at h3; cases h3
      | ok xs =>
        have hR : RowIs G p!"G3" xs := ⟨row, hG, hx⟩
        have := (parseG3_row h3' hR).2 (hr xs hR)
        rw [this]
        exact w1
  rcases parseG4_ok h4 with rfl | ⟨_, -, -, rfl⟩ <;> exact w3

section
variable [UniDB] {env : Env} {reg : List HKey} (hr : reg.Perm HKey.all) {c : ScanCtx} (hf : Fresh c.scan) (hok : (interpretScan env reg c).2 = none)
  (hG : ofKind .G (scanLines c.scan.raw) ≠ [])
include hr hf hok hG

theorem report_of : ∃ G d n g, (interpretScan env reg c).1.scan.diff = some d ∧ (Diff.new n).parse G = (d, none) ∧ geoGet n = some g ∧
    (∀ m xs, GNumbers m c.scan.raw xs ↔ RowIs G m xs) := by
  obtain ⟨G, d, n, pos, g1, g2, g3, g4, g5⟩ := interp_diff hr hf hok hG
  obtain ⟨g, d0, d1, d3, hg, -⟩ := parse_stages g5
  have get : ∀ m, G.get? m = (gLine m c.scan.raw).map stripFirstWord := fun m => by
    rw [g2.value, lookup_last]; rfl
  refine ⟨G, d, n, g, g3, g5, hg, fun m xs => ⟨?_, ?_⟩⟩
  · rintro ⟨l, e1, e2⟩
    exact ⟨stripFirstWord l, by rw [get, e1]; rfl, mapE_float_of _ _ e2⟩
  · rintro ⟨w, e1, e2⟩
    rw [get] at e1
    cases hl : gLine m c.scan.raw with
    | none => rw [hl] at e1; cases e1
    | some l =>
      rw [hl] at e1
      injection e1 with e1
      subst e1
      exact ⟨l, hl, mapE_float_ok _ _ e2⟩

omit hr hf hok hG in
theorem geoDb_names : (geoDb.map (·.name)).Nodup := by decide +kernel

/-- C100: an interpreted scan with #G lines has a diffractometer, and its geometry is in the catalog. -/
theorem C100_known : ∃ d g, (interpretScan env reg c).1.scan.diff = some d ∧ g ∈ geoDb ∧ d.name = g.name := by
  obtain ⟨G, d, n, g, h1, h2, h3, h4⟩ := report_of hr hf hok hG
  exact ⟨d, g, h1, (geoGet_mem h3).1, parse_name h2 h3⟩

section
variable {d : Diff} (hd : (interpretScan env reg c).1.scan.diff = some d) {g : Geometry} (hg : g ∈ geoDb) (hn : d.name = g.name) (T : Texts)
include hd hg hn

theorem report_at : ∃ G, (Diff.new d.full).parse G = (d, none) ∧ geoGet d.full = some g ∧ (∀ m xs, GNumbers m c.scan.raw xs ↔ RowIs G m xs) := by
  obtain ⟨G, d', n, g', h1, h2, h3, h4⟩ := report_of hr hf hok hG
  rw [hd] at h1
  injection h1 with h1
  subst h1
  have : g' = g := List.inj_on_of_nodup_map geoDb_names (geoGet_mem h3).1 hg (by rw [← parse_name h2 h3, hn])
  subst this
  rw [parse_full h2]
  exact ⟨G, h2, h3, h4⟩

omit hd hg hn in
theorem positioner_nodup : (interpretScan env reg c).1.scan.positioner.keys.Nodup := by
  obtain ⟨-, ⟨ps, -, h⟩, -⟩ := C26_positioners env reg hr c hf hok
  rw [h.order]
  exact firstOcc_nodup _

/-- C100: `str()` tells the name, wavelength, mode and sector, and the Miller indices, which are the first numbers of the #G4 line. -/
theorem C100_str {xs : List PyFloat} (hx : G4Numbers c.scan.raw g xs) (hm : millerNames g = [] ∨ xs.length = g.Q.length) :
    d.toStr T = .ok (strText T g d xs) := by
  obtain ⟨G, h2, h3, h4⟩ := report_at hr hf hok hG hd hg hn
  unfold Diff.toStr
  rw [info_str h2 h3 T (xs := xs) (by unfold G4Is; unfold G4Numbers at hx; simpa only [h4] using hx) hm]
  simp [tupleText, strText, asTuple]

/-- C100: `print_brief` tells, line by line, the name; the Miller indices; the angles alpha, beta and azimuth of the #G4 line; omega and
the wavelength; and the positions of the first motors of the scan, as many as the geometry has. -/
theorem C100_brief {xs : List PyFloat} (hx : G4Numbers c.scan.raw g xs) (hm : millerNames g = [] ∨ xs.length = g.Q.length) :
    d.printBrief T (interpretScan env reg c).1.scan = .ok (join p!"\n" (briefLines T g xs (interpretScan env reg c).1.scan.positioner)) := by
  obtain ⟨G, h2, h3, h4⟩ := report_at hr hf hok hG hd hg hn
  exact brief_ok h2 h3 T (by unfold G4Is; unfold G4Numbers at hx; simpa only [h4] using hx) hm _ (positioner_nodup hr hf hok hG)

/-- C100: `print_all` tells the file, number, command and date of the scan, all of the above, the unit cell, the orientation matrix (the
nine numbers of the #G3 line) and the reflections: each item on one line, and the names in a column of equal width. -/
theorem C100_all {xs ys : List PyFloat} (hx : G4Numbers c.scan.raw g xs) (hm : millerNames g = [] ∨ xs.length = g.Q.length)
    (hy : GNumbers p!"G3" c.scan.raw ys) (hl : ys.length = 9) {date : Option Str} (ht : DateIs T (interpretScan env reg c).1.scan.epoch date) :
    ∃ D text m, d.printAll T (interpretScan env reg c).1.scan = .ok text ∧ m.flatten = ys ∧ m.map List.length = [3, 3, 3] ∧
      LastWins D (allItems T g d.full d xs m (interpretScan env reg c).1.scan.fileName (interpretScan env reg c).1.scan.scanNum
        (interpretScan env reg c).1.scan.scanCmd date (interpretScan env reg c).1.scan.positioner) ∧ Aligned D text := by
  obtain ⟨G, h2, h3, h4⟩ := report_at hr hf hok hG hd hg hn
  obtain ⟨m, hu, -, m1, m2, -⟩ := C64_UB h2 ((h4 _ _).1 hy) hl
  obtain ⟨D, text, a, b⟩ := all_ok h2 h3 T (xs := xs) (by unfold G4Is; unfold G4Numbers at hx; simpa only [h4] using hx) hm hu
    (interpretScan env reg c).1.scan (positioner_nodup hr hf hok hG) date ht
  exact ⟨D, text, m, a, m1, m2, b⟩

/-- C100: without a #G4 line of as many numbers as the geometry has, there is no report of a geometry with Miller indices: KeyError. -/
theorem C100_no_numbers (hm : millerNames g ≠ []) (hx : ∀ xs, GNumbers p!"G4" c.scan.raw xs → xs.length ≠ g.Q.length) :
    d.toStr T = .error .KeyError ∧ d.printBrief T (interpretScan env reg c).1.scan = .error .KeyError ∧
      ∀ date, DateIs T (interpretScan env reg c).1.scan.epoch date → d.printAll T (interpretScan env reg c).1.scan = .error .KeyError := by
  obtain ⟨G, h2, h3, h4⟩ := report_at hr hf hok hG hd hg hn
  have := info_no_numbers h2 h3 T hm (fun xs h => hx xs ((h4 _ _).2 h))
  refine ⟨?_, ?_, fun date ht => (all_errors T _).2 _ ?_ (this _)⟩
  · unfold Diff.toStr
    rw [this]
  · unfold Diff.printBrief
    rw [this]
  · intro e he
    rcases ht with ⟨h0, -⟩ | ⟨e', t, h0, h1, -⟩
    · rw [h0] at he; cases he
    · rw [h0] at he
      injection he with he
      subst he
      exact ⟨t, h1⟩

/-- C100: without a #G3 line of nine numbers, `print_all` raises AttributeError. -/
theorem C100_no_matrix {xs : List PyFloat} (hx : G4Numbers c.scan.raw g xs) (hm : millerNames g = [] ∨ xs.length = g.Q.length)
    (hy : ∀ ys, GNumbers p!"G3" c.scan.raw ys → ys.length ≠ 9) {date : Option Str} (ht : DateIs T (interpretScan env reg c).1.scan.epoch date) :
    d.printAll T (interpretScan env reg c).1.scan = .error .AttributeError := by
  obtain ⟨G, h2, h3, h4⟩ := report_at hr hf hok hG hd hg hn
  refine (all_errors T _).2 _ ?_ (info_no_matrix h2 h3 T (xs := xs) (by unfold G4Is; unfold G4Numbers at hx; simpa only [h4] using hx) hm
    (UB_none h2 (fun ys h => hy ys ((h4 _ _).2 h))))
  intro e he
  rcases ht with ⟨h0, -⟩ | ⟨e', t, h0, h1, -⟩
  · rw [h0] at he; cases he
  · rw [h0] at he
    injection he with he
    subst he
    exact ⟨t, h1⟩

end

end

/-- C100: the text of the aligned report is determined by its items. -/
theorem C100_aligned_unique {D : Dict Str} {t t' : Str} (h : Aligned D t) (h' : Aligned D t') : t = t' := by
  obtain ⟨w, ls, rfl, a1, ⟨k, k1, k2⟩, a3⟩ := h
  obtain ⟨w', ls', rfl, b1, ⟨k', k1', k2'⟩, b3⟩ := h'
  have hw : w = w' := by
    have := a1 k' k1'
    have := b1 k k1
    omega
  subst hw
  congr 1
  clear a1 b1 k1 k1' k2 k2'
  revert ls ls'
  induction D with
  | nil => intro ls h1 ls' h2; cases h1; cases h2; rfl
  | cons kv D ih =>
    intro ls h1 ls' h2
    cases h1 with
    | cons p1 q1 =>
      cases h2 with
      | cons p2 q2 =>
        obtain ⟨t, ⟨a, b, e, hl, hab⟩, rfl⟩ := p1
        obtain ⟨t', ⟨a', b', e', hl', hab'⟩, rfl⟩ := p2
        have h1 : a + kv.1.length + b = w := by rw [e] at hl; simp at hl; omega
        have h2 : a' + kv.1.length + b' = w := by rw [e'] at hl'; simp at hl'; omega
        have : a = a' ∧ b = b' := by omega
        rw [e, e', this.1, this.2, ih _ q1 _ q2]

/-- C100: the motors that are reported are those of the variant, except for these variants. -/
theorem C100_motors : (variants.filter (fun p => p.2.motors.length != p.1.numgeo)).map (fun p => (p.1.name ++ '.' :: p.2.name, p.2.motors.length, p.1.numgeo)) =
    [(p!"fivec.kappa", 8, 5), (p!"fourc.kappa", 7, 4), (p!"fourc.xtalogic", 7, 4), (p!"psic.kappa", 5, 6), (p!"psic.+daz", 7, 6), (p!"psic.s2d2", 4, 6),
      (p!"psic.s2d2+daz", 5, 6), (p!"w21h.default", 7, 4), (p!"w21v.d32", 6, 4), (p!"zaxis_old.beta", 5, 4)] := by decide +kernel

end S2N.Props
