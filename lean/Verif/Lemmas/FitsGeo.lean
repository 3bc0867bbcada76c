import Verif.Lemmas.FitsPost
/-
The geometry of a scan with complete #G lines is found and read.
-/
namespace S2N.Props
open S2N S2N.Py S2N.Spec

theorem mapE_mem {α β : Type} (f : α → Except PyErr β) : ∀ (l : List α) (bs : List β), mapE f l = .ok bs → ∀ b ∈ bs, ∃ a ∈ l, f a = .ok b
  | [], bs, h, b, hb => by simp [mapE] at h; subst h; cases hb
  | a :: as, bs, h, b, hb => by
    unfold mapE at h
    cases ha : f a with
    | error e => rw [ha] at h; cases h
    | ok v =>
      rw [ha] at h
      simp only at h
      split at h
      · cases h
      · next h2 =>
        cases h
        rcases List.mem_cons.1 hb with rfl | hb
        · exact ⟨a, by simp, ha⟩
        · obtain ⟨a', h3, h4⟩ := mapE_mem f as _ h2 b hb
          exact ⟨a', by simp [h3], h4⟩

/-- Words which are finite numbers are read, as finite numbers. -/
theorem floats_total {row : Str} (h : ∀ w ∈ splitWs row, Finite w) :
    ∃ xs, mapE Py.float (splitWs row) = .ok xs ∧ xs.length = (splitWs row).length ∧ ∀ x ∈ xs, ∃ q, x = .fin q := by
  obtain ⟨xs, h1, h2⟩ := mapE_all Py.float (splitWs row) (fun w hw => by
    obtain ⟨q, hq⟩ := h w hw
    exact ⟨_, hq⟩)
  refine ⟨xs, h1, h2, ?_⟩
  intro x hx
  obtain ⟨w, hw, e⟩ := mapE_mem _ _ _ h1 x hx
  obtain ⟨q, hq⟩ := h w hw
  rw [hq] at e
  cases e
  exact ⟨q, rfl⟩

theorem g0Loop_total (modes : List Str) : ∀ (l : List (Str × PyFloat)) (sec : Option Int) (adds : List (Str × Str)),
    (∀ p ∈ l, ∃ q, p.2 = .fin q) → ∃ sec' adds', g0Loop modes l sec adds = (sec', .ok adds')
  | [], sec, adds, _ => ⟨sec, adds, rfl⟩
  | (k, v) :: r, sec, adds, h => by
    obtain ⟨q, hq⟩ := h (k, v) (by simp)
    simp only at hq
    subst hq
    have hr : ∀ p ∈ r, ∃ q, p.2 = .fin q := fun p hp => h p (by simp [hp])
    have ht : ∃ i, (PyFloat.fin q).toInt = .ok i := ⟨_, rfl⟩
    obtain ⟨i, hi⟩ := ht
    unfold g0Loop
    simp only [hi]
    repeat' split
    all_goals exact g0Loop_total modes r _ _ hr

theorem parseG0_total {g : Geometry} (hg : g ∈ geoDb) {G : Dict Str} {d : Diff} (h : ∀ row, G.get? p!"G0" = some row → ∀ w ∈ splitWs row, Finite w) :
    (parseG0 g G d).2 = none ∧ (parseG0 g G d).1.variant = d.variant := by
  unfold parseG0
  cases hG : G.get? p!"G0" with
  | none => exact ⟨rfl, rfl⟩
  | some row =>
    obtain ⟨xs, h1, h2, h3⟩ := floats_total (h row hG)
    simp only [h1, Res.eval]
    split
    · obtain ⟨sec, adds, h4⟩ := g0Loop_total g.modes (zipDict g.G xs) d.sector [] (by
        intro p hp
        rw [zipDict_eq _ _ (geoDb_facts g hg).1] at hp
        exact h3 _ (List.of_mem_zip hp).2)
      rw [h4]
      exact ⟨rfl, rfl⟩
    · exact ⟨rfl, rfl⟩

theorem uGet_total {ks : List Str} {vs : List PyFloat} (hn : ks.Nodup) {i : Nat} {k : Str} (hk : ks[i]? = some k) (hi : i < vs.length) :
    ∃ v, uGet (zipDict ks vs) k = .ok v := by
  unfold uGet
  rw [zipDict_eq _ _ hn, zip_get ks vs hn i k hk, List.getElem?_eq_getElem hi]
  exact ⟨_, rfl⟩

theorem uHas {ks : List Str} {vs : List PyFloat} (hn : ks.Nodup) {i : Nat} {k : Str} (hk : ks[i]? = some k) (hi : i < vs.length) :
    (zipDict ks vs).has k = true := by
  rw [zipDict_eq _ _ hn, Dict.has, zip_get ks vs hn i k hk, List.getElem?_eq_getElem hi]
  rfl

theorem uHas_not {ks : List Str} {vs : List PyFloat} (hn : ks.Nodup) {k : Str} (hk : k ∉ ks) : (zipDict ks vs).has k = false := by
  rw [zipDict_eq _ _ hn, Dict.has, zip_get_none ks vs k hk]
  rfl

theorem getVariant_total {g : Geometry} (hg : g ∈ geoDb) (v : Option Str) : ∃ x, getVariant g v = some x := by
  unfold getVariant
  split
  · exact ⟨_, rfl⟩
  · obtain ⟨-, -, -, ⟨x, hx, -⟩, -⟩ := geoDb_facts g hg
    cases hh : g.variations.head? with
    | some y => exact ⟨y, rfl⟩
    | none => rw [List.head?_eq_none_iff] at hh; rw [hh] at hx; cases hx

/-- A complete #G1 line is read, with the standard table. -/
theorem unit_total {xs : List PyFloat} (h : 32 ≤ xs.length) : (∃ l, latticeOf (zipDict defaultU xs) = .ok l) ∧
    (zipDict defaultU xs).has p!"g_lambda" = false ∧
    ∀ a, (∃ r, refl3 (zipDict defaultU xs) 0 a = .ok r) ∧ ∃ r, refl3 (zipDict defaultU xs) 1 a = .ok r := by
  obtain ⟨p0, p1, p2, p3, p4, p5, p12, p13, p14, p15, p16, p17, p30, p31, pn, nd, e1, e2, e3, e4, e5, e6, e7, e8⟩ := defaultU_places
  refine ⟨?_, uHas_not nd pn, ?_⟩
  · obtain ⟨a, ha⟩ := uGet_total (vs := xs) nd p0 (by omega)
    obtain ⟨b, hb⟩ := uGet_total (vs := xs) nd p1 (by omega)
    obtain ⟨c, hc⟩ := uGet_total (vs := xs) nd p2 (by omega)
    obtain ⟨al, hal⟩ := uGet_total (vs := xs) nd p3 (by omega)
    obtain ⟨be, hbe⟩ := uGet_total (vs := xs) nd p4 (by omega)
    obtain ⟨ga, hga⟩ := uGet_total (vs := xs) nd p5 (by omega)
    unfold latticeOf
    rw [uHas (vs := xs) nd p2 (by omega), uHas (vs := xs) nd p3 (by omega), uHas (vs := xs) nd p4 (by omega)]
    simp only [Bool.and_self, if_true, ha, hb, hc, hal, hbe, hga]
    exact ⟨_, rfl⟩
  · intro a
    obtain ⟨h0, q1⟩ := uGet_total (vs := xs) nd p12 (by omega)
    obtain ⟨k0, q2⟩ := uGet_total (vs := xs) nd p13 (by omega)
    obtain ⟨l0, q3⟩ := uGet_total (vs := xs) nd p14 (by omega)
    obtain ⟨h1, q4⟩ := uGet_total (vs := xs) nd p15 (by omega)
    obtain ⟨k1, q5⟩ := uGet_total (vs := xs) nd p16 (by omega)
    obtain ⟨l1, q6⟩ := uGet_total (vs := xs) nd p17 (by omega)
    obtain ⟨w0, q7⟩ := uGet_total (vs := xs) nd p30 (by omega)
    obtain ⟨w1, q8⟩ := uGet_total (vs := xs) nd p31 (by omega)
    unfold refl3
    rw [e1, e2, e3, e4, e5, e6, e7, e8, q1, q2, q3, q4, q5, q6, q7, q8]
    exact ⟨⟨_, rfl⟩, _, rfl⟩

theorem twoc_places : geo13.U = some (geo13.U.getD []) ∧ (geo13.U.getD []).Nodup ∧ p!"g_cc" ∉ geo13.U.getD [] ∧
    (∃ i < 11, (geo13.U.getD [])[i]? = some p!"g_aa") ∧ (∃ i < 11, (geo13.U.getD [])[i]? = some p!"g_bb") ∧
    (∃ i < 11, (geo13.U.getD [])[i]? = some p!"g_ga") ∧ (∃ i < 11, (geo13.U.getD [])[i]? = some p!"g_h0") ∧
    (∃ i < 11, (geo13.U.getD [])[i]? = some p!"g_k0") ∧ (∃ i < 11, (geo13.U.getD [])[i]? = some p!"g_lambda") := by decide +kernel

theorem unit2_total {xs : List PyFloat} (h : 11 ≤ xs.length) : (∃ l, latticeOf (zipDict (geo13.U.getD []) xs) = .ok l) ∧
    (zipDict (geo13.U.getD []) xs).has p!"g_lambda" = true ∧
    ∀ a, ∃ r, refl2 (zipDict (geo13.U.getD []) xs) a = .ok r := by
  obtain ⟨-, nd, hc, ⟨i1, j1, p1⟩, ⟨i2, j2, p2⟩, ⟨i3, j3, p3⟩, ⟨i4, j4, p4⟩, ⟨i5, j5, p5⟩, ⟨i6, j6, p6⟩⟩ := twoc_places
  refine ⟨?_, uHas nd p6 (by omega), ?_⟩
  · obtain ⟨a, ha⟩ := uGet_total (vs := xs) nd p1 (by omega)
    obtain ⟨b, hb⟩ := uGet_total (vs := xs) nd p2 (by omega)
    obtain ⟨ga, hga⟩ := uGet_total (vs := xs) nd p3 (by omega)
    unfold latticeOf
    rw [uHas_not (vs := xs) nd hc]
    simp only [Bool.false_and, Bool.false_eq_true, if_false, ha, hb, hga]
    exact ⟨_, rfl⟩
  · intro a
    obtain ⟨h0, q1⟩ := uGet_total (vs := xs) nd p4 (by omega)
    obtain ⟨k0, q2⟩ := uGet_total (vs := xs) nd p5 (by omega)
    obtain ⟨w0, q7⟩ := uGet_total (vs := xs) nd p6 (by omega)
    unfold refl2
    rw [q1, q2, q7]
    exact ⟨_, rfl⟩

theorem parseG1_total {g : Geometry} (hg : g ∈ geoDb) {G : Dict Str} {d : Diff} (h : ∀ row, G.get? p!"G1" = some row → ∀ w ∈ splitWs row, Finite w)
    (hc : ∀ row, G.get? p!"G1" = some row → (splitWs row).length ≤ 1 ∨ 32 ≤ (splitWs row).length ∨ (11 ≤ (splitWs row).length ∧ g = geo13)) :
    (parseG1 g G d).2 = none := by
  unfold parseG1
  cases hG : G.get? p!"G1" with
  | none => rfl
  | some row =>
    obtain ⟨xs, h1, h2, h3⟩ := floats_total (h row hG)
    simp only [h1, Res.eval]
    by_cases hl : xs.length > 1
    · rw [if_pos hl]
      obtain ⟨v, hv⟩ := getVariant_total hg d.variant
      have hc' : 32 ≤ xs.length ∨ 11 ≤ xs.length ∧ g = geo13 := by
        rcases hc row hG with h | h | ⟨h, e⟩
        · omega
        · exact .inl (by omega)
        · exact .inr ⟨by omega, e⟩
      obtain ⟨-, -, -, -, -, -, -, hU⟩ := geoDb_facts g hg
      have twoc : g = geo13 → 11 ≤ xs.length → ((Res.eval (latticeOf (zipDict (g.U.getD defaultU) xs)) d fun l =>
          (reflections g d.variant (zipDict (g.U.getD defaultU) xs) { d with lattice := some l }).andThen fun d =>
            .ok { d with gpar := updNum d.gpar (zipDict (g.U.getD defaultU) xs)
                         gdesc := updDesc d.gdesc (g.U.getD defaultU) (g.Ud.getD defaultUd) xs.length })).2 = none := by
        intro e hlen
        have eU : g.U.getD defaultU = geo13.U.getD [] := by rw [e, twoc_places.1]; rfl
        obtain ⟨⟨l, q1⟩, q2, q3⟩ := unit2_total (xs := xs) hlen
        obtain ⟨r, q4⟩ := q3 (anglesOf (zipDict (geo13.U.getD []) xs) 0 v.motors)
        rw [eU]
        unfold reflections
        simp only [q1, Res.eval, hv, q2, if_true, q4]
        rfl
      by_cases e : g = geo13
      · exact twoc e (by rcases hc' with h | ⟨h, -⟩ <;> omega)
      · have hlen : 32 ≤ xs.length := by
          rcases hc' with h | ⟨-, h⟩
          · exact h
          · exact absurd h e
        have eU : g.U.getD defaultU = defaultU := by
          rcases hU with h | h
          · rw [h]; rfl
          · exact absurd h e
        obtain ⟨⟨l, q1⟩, q2, q3⟩ := unit_total hlen
        obtain ⟨⟨r0, q4⟩, -⟩ := q3 (anglesOf (zipDict defaultU xs) 0 v.motors)
        obtain ⟨-, ⟨r1, q5⟩⟩ := q3 (anglesOf (zipDict defaultU xs) 1 v.motors)
        rw [eU]
        unfold reflections
        simp only [q1, Res.eval, hv, q2, Bool.false_eq_true, if_false, q4, q5]
        rfl
    · rw [if_neg hl]; rfl

theorem parseG3_total {G : Dict Str} {d : Diff} (h : ∀ row, G.get? p!"G3" = some row → ∀ w ∈ splitWs row, Finite w) : (parseG3 G d).2 = none := by
  unfold parseG3
  cases hG : G.get? p!"G3" with
  | none => rfl
  | some row =>
    obtain ⟨xs, h1, h2, h3⟩ := floats_total (h row hG)
    simp only [h1, Res.eval]
    split <;> rfl

theorem parseG4_total {g : Geometry} {G : Dict Str} {d : Diff} (h : ∀ row, G.get? p!"G4" = some row → ∀ w ∈ splitWs row, Finite w) : (parseG4 g G d).2 = none := by
  unfold parseG4
  cases hG : G.get? p!"G4" with
  | none => rfl
  | some row =>
    obtain ⟨xs, h1, h2, h3⟩ := floats_total (h row hG)
    simp only [h1, Res.eval]
    split <;> rfl

theorem twoc_get : hasGeometry p!"twoc" = true ∧ geoGet (p!"twoc" ++ p!".default") = some geo13 := by decide +kernel

theorem geoPost_total {s : DScan} {G : Dict Str} (hG : s.G = some G) (hd : NoDottedUser s) (hf : ∀ k row, G.get? k = some row → ∀ w ∈ splitWs row, Finite w)
    (hc : ∀ row, G.get? p!"G1" = some row → (splitWs row).length ≤ 1 ∨ 32 ≤ (splitWs row).length ∨
      (11 ≤ (splitWs row).length ∧ ∃ c cs x y, s.comments = c :: cs ∧ splitWs c = [p!"twoc", p!"User", x, y])) :
    ∃ d, geoPost s = .ok d := by
  obtain ⟨n, h1, -, g, hg, h2, -⟩ := C63_partial s G hG hd
  have hp : ((Diff.new n).parse (s.G.getD [])).2 = none := by
    unfold Diff.parse
    have e : (Diff.new n).full = n := rfl
    rw [e, h2, hG, Option.getD_some]
    simp only
    obtain ⟨p1, -⟩ := parseG0_total (d := Diff.new n) hg (hf p!"G0")
    rw [Res.andThen_of_none p1, Res.andThen_of_none (parseG1_total hg (hf p!"G1") ?_), Res.andThen_of_none (parseG3_total (hf p!"G3"))]
    · exact parseG4_total (hf p!"G4")
    · intro row hr
      rcases hc row hr with h | h | ⟨h, c, cs, x, y, q1, q2⟩
      · exact .inl h
      · exact .inr (.inl h)
      · refine .inr (.inr ⟨h, ?_⟩)
        have := C63_stated s G hG p!"twoc" x y c cs q1 q2 twoc_get.1
        rw [h1] at this
        cases this
        rw [twoc_get.2] at h2
        exact (Option.some.inj h2).symm
  unfold geoPost
  rw [h1]
  simp only
  split
  · next d e => exact ⟨d, rfl⟩
  · next e => rw [e] at hp; cases hp

end S2N.Props
