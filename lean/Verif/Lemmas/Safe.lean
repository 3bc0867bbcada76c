import Verif.Spec.Save
import Verif.Props.Columns
import Verif.Props.Registry
import Verif.Lemmas.H5
/-
Interpretation of a scan keeps its names safe.
-/
namespace S2N
open S2N.Py S2N.Spec S2N.Props

/-! ## Geometry -/

/-- all keys of a dictionary are relative names -/
def RelKeys {α : Type} (d : Dict α) : Prop := ∀ k ∈ d.keys, Relative k

theorem RelKeys.set {α : Type} {d : Dict α} (h : RelKeys d) {k : Str} (hk : Relative k) (v : α) :
    RelKeys (d.set k v) := by
  intro k' hk'
  rw [Dict.keys_set] at hk'
  split at hk'
  · exact h k' hk'
  · rcases List.mem_append.1 hk' with e | e
    · exact h k' e
    · rw [List.mem_singleton.1 e]; exact hk

theorem RelKeys.nil {α : Type} : RelKeys ([] : Dict α) := by intro k hk; simp [Dict.keys] at hk

theorem RelKeys.foldl {α β : Type} (f : Dict α → β → Dict α) : ∀ (l : List β) (d : Dict α), RelKeys d →
    (∀ b ∈ l, ∀ d, RelKeys d → RelKeys (f d b)) → RelKeys (l.foldl f d)
  | [], d, h, _ => h
  | b :: l, d, h, hf => RelKeys.foldl f l _ (hf b (by simp) d h) (fun b hb => hf b (by simp [hb]))

theorem relKeys_zip {ks : List Str} (h : ∀ k ∈ ks, Relative k) (vs : List PyFloat) :
    RelKeys (zipDict ks vs) := by
  unfold zipDict
  refine RelKeys.foldl _ _ _ RelKeys.nil ?_
  rintro ⟨k, v⟩ hb d hd
  exact hd.set (h k (List.of_mem_zip hb).1) v

theorem relKeys_updNum {d : Dict GVal} (h : RelKeys d) {e : Dict PyFloat} (he : RelKeys e) :
    RelKeys (updNum d e) := by
  unfold updNum
  refine RelKeys.foldl _ _ _ h ?_
  rintro ⟨k, v⟩ hb d hd
  exact hd.set (he k (List.mem_map.2 ⟨_, hb, rfl⟩)) _

theorem relative_append {a : Str} (h : Relative a) (hne : a ≠ []) (b : Str) : Relative (a ++ b) := by
  cases a with
  | nil => exact absurd rfl hne
  | cons c cs => simpa [Relative, startsWith, List.isPrefixOf] using h

theorem g0Loop_rel (modes : List Str) : ∀ (l : List (Str × PyFloat)) (sec : Option Int)
    (adds : List (Str × Str)), (∀ p ∈ l, Relative p.1) → (∀ p ∈ adds, Relative p.1) →
    ∀ r, (g0Loop modes l sec adds).2 = .ok r → ∀ p ∈ r, Relative p.1
  | [], sec, adds, _, h2, r, hr => by
    simp only [g0Loop, Except.ok.injEq] at hr
    rw [← hr]; exact h2
  | (k, v) :: l, sec, adds, h1, h2, r, hr => by
    have h1' : ∀ p ∈ l, Relative p.1 := fun p hp => h1 p (by simp [hp])
    unfold g0Loop at hr
    split at hr
    · split at hr
      · cases hr
      · exact g0Loop_rel modes l _ _ h1' h2 r hr
    · split at hr
      · next hm =>
        split at hr
        · cases hr
        · split at hr
          · refine g0Loop_rel modes l _ _ h1' ?_ r hr
            intro p hp
            rcases List.mem_append.1 hp with e | e
            · exact h2 p e
            · rw [List.mem_singleton.1 e]
              refine relative_append (h1 (k, v) (by simp)) ?_ _
              rintro rfl
              simp [startsWith] at hm
          · exact g0Loop_rel modes l _ _ h1' h2 r hr
      · exact g0Loop_rel modes l _ _ h1' h2 r hr

/-- the names of a geometry of the catalog -/
def geoNames (g : Geometry) : List Str :=
  g.G ++ g.Q ++ g.U.getD defaultU ++ g.variations.flatMap (·.motors)

theorem geoDb_rel : ∀ g ∈ geoDb, ∀ k ∈ geoNames g, Relative k := by
  decide +kernel

/-- what is to be shown of a diffractometer object -/
def DiffRel (d : Diff) : Prop :=
  RelKeys d.gpar ∧ ∀ r ∈ d.reflections, RelKeys (angles r)

theorem relKeys_angles {motors : List Str} (h : ∀ m ∈ motors, Relative m) (U : Dict PyFloat) (ref : Nat) :
    RelKeys (anglesOf U ref motors) := by
  unfold anglesOf
  refine RelKeys.foldl _ _ _ RelKeys.nil ?_
  rintro ⟨m, i⟩ hb d hd
  simp only
  split
  · exact hd.set (h m (List.fst_mem_of_mem_zipIdx hb)) _
  · exact hd

theorem eval_inv {α σ : Type} {P : σ → Prop} {e : Except PyErr α} {s : σ} {f : α → Res σ} (h : P s)
    (hf : ∀ a, e = .ok a → P (f a).1) : P (Res.eval e s f).1 := by
  unfold Res.eval
  split
  · exact hf _ rfl
  · exact h

theorem andThen_inv' {σ : Type} {P : σ → Prop} {r : Res σ} {f : σ → Res σ} (h : P r.1)
    (hf : ∀ s, P s → P (f s).1) : P (r.andThen f).1 := by
  unfold Res.andThen
  split
  · exact hf _ h
  · exact h

theorem diffRel_G0 (g : Geometry) (hg : ∀ k ∈ geoNames g, Relative k) (G : Dict Str) (d : Diff) (h : DiffRel d) :
    DiffRel (parseG0 g G d).1 := by
  unfold parseG0
  split
  · exact h
  · refine eval_inv h fun g0 _ => ?_
    · split
      · simp only
        have hz := relKeys_zip (ks := g.G) (fun k hk => hg k (by simp [geoNames, hk]))
        split
        · exact h
        · next sec adds e =>
          refine ⟨?_, h.2⟩
          have ha := g0Loop_rel g.modes (zipDict g.G g0) d.sector []
            (fun p hp => hz g0 p.1 (List.mem_map.2 ⟨p, hp, rfl⟩)) (by simp) adds (by rw [e])
          refine RelKeys.foldl _ _ _ (relKeys_updNum h.1 (hz _)) ?_
          rintro ⟨k, v⟩ hb d hd
          exact hd.set (ha _ hb) _
      · exact h

theorem refl3_angles {U : Dict PyFloat} {ref : Nat} {a : Dict PyFloat} {r : Reflection}
    (h : refl3 U ref a = .ok r) : angles r = a := by
  unfold refl3 at h
  simp only [bind, Except.bind, pure, Except.pure] at h
  repeat' split at h
  all_goals first | cases h; rfl | cases h

theorem refl2_angles {U : Dict PyFloat} {a : Dict PyFloat} {r : Reflection}
    (h : refl2 U a = .ok r) : angles r = a := by
  unfold refl2 at h
  simp only [bind, Except.bind, pure, Except.pure] at h
  repeat' split at h
  all_goals first | cases h; rfl | cases h

theorem diffRel_G1 (g : Geometry) (hg : ∀ k ∈ geoNames g, Relative k) (G : Dict Str) (d : Diff) (h : DiffRel d) :
    DiffRel (parseG1 g G d).1 := by
  have hm : ∀ v, getVariant g d.variant = some v → ∀ m ∈ v.motors, Relative m := by
    intro v hv m hm
    refine hg m ?_
    have : v ∈ g.variations := by
      unfold getVariant at hv
      split at hv
      · next e => cases hv; exact List.mem_of_find?_eq_some e
      · exact List.mem_of_mem_head? hv
    simp only [geoNames, List.mem_append, List.mem_flatMap]
    exact .inr ⟨v, this, hm⟩
  have hz := relKeys_zip (ks := g.U.getD defaultU) (fun k hk => hg k (by simp [geoNames, hk]))
  have hadd : ∀ {d : Diff} {r : Reflection}, DiffRel d → RelKeys (angles r) →
      DiffRel { d with reflections := d.reflections ++ [r] } := by
    intro d r h hr
    refine ⟨h.1, ?_⟩
    intro r' hr'
    rcases List.mem_append.1 hr' with e | e
    · exact h.2 r' e
    · rw [List.mem_singleton.1 e]; exact hr
  have hrefl : ∀ U (d' : Diff), DiffRel d' → DiffRel (reflections g d.variant U d').1 := by
    intro U d' h
    unfold reflections
    split
    · exact h
    · next v hv =>
      have ha := fun ref => relKeys_angles (hm v hv) U ref
      split
      · exact eval_inv h fun r hr => hadd h (by rw [refl2_angles hr]; exact ha 0)
      · refine eval_inv h fun r hr => ?_
        have h1 : DiffRel { d' with reflections := d'.reflections ++ [r] } :=
          hadd h (by rw [refl3_angles hr]; exact ha 0)
        exact eval_inv h1 fun r' hr' => hadd h1 (by rw [refl3_angles hr']; exact ha 1)
  unfold parseG1
  split
  · exact h
  · refine eval_inv h fun g1 _ => ?_
    · split
      · simp only
        refine eval_inv h fun l _ => ?_
        · have h1 := hrefl (zipDict (g.U.getD defaultU) g1) { d with lattice := some l } h
          simp only [Res.andThen]
          split
          · exact ⟨relKeys_updNum h1.1 (hz _), h1.2⟩
          · exact h1
      · exact h

theorem diffRel_G3 (G : Dict Str) (d : Diff) (h : DiffRel d) : DiffRel (parseG3 G d).1 := by
  unfold parseG3
  split
  · exact h
  · refine eval_inv h fun g1 _ => ?_
    · split
      · exact ⟨h.1.set (by decide) _, h.2⟩
      · exact h

theorem diffRel_G4 (g : Geometry) (hg : ∀ k ∈ geoNames g, Relative k) (G : Dict Str) (d : Diff) (h : DiffRel d) :
    DiffRel (parseG4 g G d).1 := by
  have hz := relKeys_zip (ks := g.Q) (fun k hk => hg k (by simp [geoNames, hk]))
  unfold parseG4
  split
  · exact h
  · refine eval_inv h fun g1 _ => ?_
    · split
      · exact ⟨relKeys_updNum h.1 (hz _), h.2⟩
      · exact h

theorem diffRel_andThen {r : Res Diff} {f : Diff → Res Diff} (h : DiffRel r.1)
    (hf : ∀ d, DiffRel d → DiffRel (f d).1) : DiffRel (r.andThen f).1 := by
  unfold Res.andThen
  split
  · exact hf _ h
  · exact h

theorem diffRel_parse (G : Dict Str) (d : Diff) (h : DiffRel d) : DiffRel (d.parse G).1 := by
  unfold Diff.parse
  split
  · exact h
  · next g hg =>
    have hmem : g ∈ geoDb := by
      unfold geoGet at hg
      exact List.mem_of_find?_eq_some hg
    have hg := geoDb_rel g hmem
    refine diffRel_andThen (diffRel_G0 g hg G d h) fun d h => ?_
    refine diffRel_andThen (diffRel_G1 g hg G d h) fun d h => ?_
    exact diffRel_andThen (diffRel_G3 G d h) fun d h => diffRel_G4 g hg G d h

theorem diffRel_new (n : Str) : DiffRel (Diff.new n) := by
  refine ⟨?_, by simp [Diff.new]⟩
  exact ((RelKeys.nil.set (by decide) _).set (by decide) _).set (by decide) _

theorem diffRel_post {s : DScan} {d : Diff} (h : geoPost s = .ok d) : DiffRel d := by
  unfold geoPost at h
  split at h
  · cases h
  · next n _ =>
    have := diffRel_parse (s.G.getD []) (Diff.new n) (diffRel_new n)
    split at h
    · next e => rw [e] at this; cases h; exact this
    · cases h

/-! ### the names of the parameters and of the angles -/

/-- the keys are different and have the property `P` -/
def KeysOk {α : Type} (P : Str → Prop) (d : Dict α) : Prop := d.keys.Nodup ∧ ∀ k ∈ d.keys, P k

theorem KeysOk.set {α : Type} {P : Str → Prop} {d : Dict α} (h : KeysOk P d) {k : Str} (hk : P k) (v : α) : KeysOk P (d.set k v) := by
  refine ⟨Dict.nodup_keys_set _ _ _ h.1, fun k' hk' => ?_⟩
  rw [Dict.keys_set] at hk'
  split at hk'
  · exact h.2 k' hk'
  · rcases List.mem_append.1 hk' with e | e
    · exact h.2 k' e
    · rw [List.mem_singleton.1 e]; exact hk

theorem KeysOk.nil {α : Type} {P : Str → Prop} : KeysOk P ([] : Dict α) := ⟨List.nodup_nil, by intro k hk; simp [Dict.keys] at hk⟩

theorem KeysOk.foldl {α β : Type} {P : Str → Prop} (f : Dict α → β → Dict α) : ∀ (l : List β) (d : Dict α), KeysOk P d →
    (∀ b ∈ l, ∀ d, KeysOk P d → KeysOk P (f d b)) → KeysOk P (l.foldl f d)
  | [], d, h, _ => h
  | b :: l, d, h, hf => KeysOk.foldl f l _ (hf b (by simp) d h) (fun b hb => hf b (by simp [hb]))

theorem keysOk_zip {P : Str → Prop} {ks : List Str} (h : ∀ k ∈ ks, P k) (vs : List PyFloat) : KeysOk P (zipDict ks vs) := by
  unfold zipDict
  refine KeysOk.foldl _ _ _ KeysOk.nil ?_
  rintro ⟨k, v⟩ hb d hd
  exact hd.set (h k (List.of_mem_zip hb).1) v

theorem keysOk_updNum {P : Str → Prop} {d : Dict GVal} (h : KeysOk P d) {e : Dict PyFloat} (he : KeysOk P e) :
    KeysOk P (updNum d e) := by
  unfold updNum
  refine KeysOk.foldl _ _ _ h ?_
  rintro ⟨k, v⟩ hb d hd
  exact hd.set (he.2 k (List.mem_map.2 ⟨_, hb, rfl⟩)) _

theorem oneName_append {a b : Str} (h : NoSlash a) (hb : '/' ∉ b) (hd : b ≠ []) : NoSlash (a ++ b) := by
  obtain ⟨h1, h2, h3⟩ := h
  refine ⟨by simp [h1], ?_, ?_⟩
  · intro e
    cases a with
    | nil => exact h1 rfl
    | cons x xs =>
      simp only [List.cons_append, List.cons.injEq, List.append_eq_nil_iff] at e
      exact hd e.2.2
  · intro hm
    rcases List.mem_append.1 hm with q | q
    · exact h3 q
    · exact hb q

theorem g0Loop_names (modes : List Str) : ∀ (l : List (Str × PyFloat)) (sec : Option Int)
    (adds : List (Str × Str)), (∀ p ∈ l, NoSlash p.1) → (∀ p ∈ adds, NoSlash p.1) →
    ∀ r, (g0Loop modes l sec adds).2 = .ok r → ∀ p ∈ r, NoSlash p.1
  | [], sec, adds, _, h2, r, hr => by
    simp only [g0Loop, Except.ok.injEq] at hr
    rw [← hr]; exact h2
  | (k, v) :: l, sec, adds, h1, h2, r, hr => by
    have h1' : ∀ p ∈ l, NoSlash p.1 := fun p hp => h1 p (by simp [hp])
    unfold g0Loop at hr
    split at hr
    · split at hr
      · cases hr
      · exact g0Loop_names modes l _ _ h1' h2 r hr
    · split at hr
      · split at hr
        · cases hr
        · split at hr
          · refine g0Loop_names modes l _ _ h1' ?_ r hr
            intro p hp
            rcases List.mem_append.1 hp with e | e
            · exact h2 p e
            · rw [List.mem_singleton.1 e]
              exact oneName_append (h1 (k, v) (by simp)) (by decide) (by decide)
          · exact g0Loop_names modes l _ _ h1' h2 r hr
      · exact g0Loop_names modes l _ _ h1' h2 r hr

theorem geoDb_names : ∀ g ∈ geoDb, (∀ k ∈ geoNames g, NoSlash k) ∧ ∀ v ∈ g.variations, ∀ m ∈ v.motors, m ∉ reflNames := by
  decide +kernel

/-- a name of an angle -/
def AngleName (k : Str) : Prop := NoSlash k ∧ k ∉ reflNames

def DiffNames (d : Diff) : Prop := KeysOk NoSlash d.gpar ∧ ∀ r ∈ d.reflections, KeysOk AngleName (angles r)

theorem keysOk_angles {P : Str → Prop} {motors : List Str} (h : ∀ m ∈ motors, P m) (U : Dict PyFloat) (ref : Nat) :
    KeysOk P (anglesOf U ref motors) := by
  unfold anglesOf
  refine KeysOk.foldl _ _ _ KeysOk.nil ?_
  rintro ⟨m, i⟩ hb d hd
  simp only
  split
  · exact hd.set (h m (List.fst_mem_of_mem_zipIdx hb)) _
  · exact hd

theorem diffNames_G0 (g : Geometry) (hg : ∀ k ∈ geoNames g, NoSlash k) (G : Dict Str) (d : Diff) (h : DiffNames d) :
    DiffNames (parseG0 g G d).1 := by
  unfold parseG0
  split
  · exact h
  · refine eval_inv h fun g0 _ => ?_
    · split
      · simp only
        have hz := keysOk_zip (P := NoSlash) (ks := g.G) (fun k hk => hg k (by simp [geoNames, hk]))
        split
        · exact h
        · next sec adds e =>
          refine ⟨?_, h.2⟩
          have ha := g0Loop_names g.modes (zipDict g.G g0) d.sector []
            (fun p hp => (hz g0).2 p.1 (List.mem_map.2 ⟨p, hp, rfl⟩)) (by simp) adds (by rw [e])
          refine KeysOk.foldl _ _ _ (keysOk_updNum h.1 (hz _)) ?_
          rintro ⟨k, v⟩ hb d hd
          exact hd.set (ha _ hb) _
      · exact h

theorem diffNames_G1 (g : Geometry) (hg : ∀ k ∈ geoNames g, NoSlash k) (hv' : ∀ v ∈ g.variations, ∀ m ∈ v.motors, m ∉ reflNames)
    (G : Dict Str) (d : Diff) (h : DiffNames d) : DiffNames (parseG1 g G d).1 := by
  have hm : ∀ v, getVariant g d.variant = some v → ∀ m ∈ v.motors, AngleName m := by
    intro v hv m hm
    have : v ∈ g.variations := by
      unfold getVariant at hv
      split at hv
      · next e => cases hv; exact List.mem_of_find?_eq_some e
      · exact List.mem_of_mem_head? hv
    refine ⟨hg m ?_, hv' v this m hm⟩
    simp only [geoNames, List.mem_append, List.mem_flatMap]
    exact .inr ⟨v, this, hm⟩
  have hz := keysOk_zip (P := NoSlash) (ks := g.U.getD defaultU) (fun k hk => hg k (by simp [geoNames, hk]))
  have hadd : ∀ {d : Diff} {r : Reflection}, DiffNames d → KeysOk AngleName (angles r) →
      DiffNames { d with reflections := d.reflections ++ [r] } := by
    intro d r h hr
    refine ⟨h.1, ?_⟩
    intro r' hr'
    rcases List.mem_append.1 hr' with e | e
    · exact h.2 r' e
    · rw [List.mem_singleton.1 e]; exact hr
  have hrefl : ∀ U (d' : Diff), DiffNames d' → DiffNames (reflections g d.variant U d').1 := by
    intro U d' h
    unfold reflections
    split
    · exact h
    · next v hv =>
      have ha := fun ref => keysOk_angles (hm v hv) U ref
      split
      · exact eval_inv h fun r hr => hadd h (by rw [refl2_angles hr]; exact ha 0)
      · refine eval_inv h fun r hr => ?_
        have h1 : DiffNames { d' with reflections := d'.reflections ++ [r] } :=
          hadd h (by rw [refl3_angles hr]; exact ha 0)
        exact eval_inv h1 fun r' hr' => hadd h1 (by rw [refl3_angles hr']; exact ha 1)
  unfold parseG1
  split
  · exact h
  · refine eval_inv h fun g1 _ => ?_
    · split
      · simp only
        refine eval_inv h fun l _ => ?_
        · have h1 := hrefl (zipDict (g.U.getD defaultU) g1) { d with lattice := some l } h
          simp only [Res.andThen]
          split
          · exact ⟨keysOk_updNum h1.1 (hz _), h1.2⟩
          · exact h1
      · exact h

theorem diffNames_G3 (G : Dict Str) (d : Diff) (h : DiffNames d) : DiffNames (parseG3 G d).1 := by
  unfold parseG3
  split
  · exact h
  · refine eval_inv h fun g1 _ => ?_
    · split
      · exact ⟨h.1.set (by decide) _, h.2⟩
      · exact h

theorem diffNames_G4 (g : Geometry) (hg : ∀ k ∈ geoNames g, NoSlash k) (G : Dict Str) (d : Diff) (h : DiffNames d) :
    DiffNames (parseG4 g G d).1 := by
  have hz := keysOk_zip (P := NoSlash) (ks := g.Q) (fun k hk => hg k (by simp [geoNames, hk]))
  unfold parseG4
  split
  · exact h
  · refine eval_inv h fun g1 _ => ?_
    · split
      · exact ⟨keysOk_updNum h.1 (hz _), h.2⟩
      · exact h

theorem diffNames_parse (G : Dict Str) (d : Diff) (h : DiffNames d) : DiffNames (d.parse G).1 := by
  unfold Diff.parse
  split
  · exact h
  · next g hg =>
    have hmem : g ∈ geoDb := by
      unfold geoGet at hg
      exact List.mem_of_find?_eq_some hg
    obtain ⟨hg, hv⟩ := geoDb_names g hmem
    refine andThen_inv' (diffNames_G0 g hg G d h) fun d h => ?_
    refine andThen_inv' (diffNames_G1 g hg hv G d h) fun d h => ?_
    exact andThen_inv' (diffNames_G3 G d h) fun d h => diffNames_G4 g hg G d h

theorem diffNames_new (n : Str) : DiffNames (Diff.new n) := by
  refine ⟨?_, by simp [Diff.new]⟩
  exact ((KeysOk.nil.set (by decide) _).set (by decide) _).set (by decide) _

/-! the parameters are never empty -/

theorem set_nonempty {α : Type} (d : Dict α) (k : Str) (v : α) : d.set k v ≠ [] := by
  intro h
  have := Dict.get?_set_self d k v
  rw [h] at this
  cases this

/-- the values that are set: the rows of matrices have three numbers -/
def ThreeCols (v : GVal) : Prop := ∀ rows, v = .mat rows → ∀ r ∈ rows, r.length = 3

theorem foldl_gpar {β : Type} {P : Dict GVal → Prop} {f : Dict GVal → β → Dict GVal} (hf : ∀ d b, P d → P (f d b)) : ∀ (l : List β) (d : Dict GVal), P d →
    P (l.foldl f d)
  | [], _, h => h
  | b :: l, d, h => foldl_gpar hf l (f d b) (hf d b h)

/-- what is kept whenever a parameter is set -/
theorem gpar_parse {P : Dict GVal → Prop} (hP : ∀ d k v, ThreeCols v → P d → P (d.set k v)) (G : Dict Str) (d : Diff) (h : P d.gpar) :
    P (d.parse G).1.gpar := by
  have hnum : ∀ (d : Dict GVal) (e : Dict PyFloat), P d → P (updNum d e) := by
    intro d e h
    unfold updNum
    exact foldl_gpar (P := P) (fun d b h => hP _ _ _ (by intro rows e; cases e) h) _ _ h
  have hrefl : ∀ (g : Geometry) v U (d' : Diff), P d'.gpar → P (reflections g v U d').1.gpar := by
    intro g v U d' h
    unfold reflections
    split
    · exact h
    · split
      · exact eval_inv (P := fun d : Diff => P d.gpar) h fun r hr => h
      · exact eval_inv (P := fun d : Diff => P d.gpar) h fun r hr => eval_inv (P := fun d : Diff => P d.gpar) h fun r' hr' => h
  unfold Diff.parse
  split
  · exact h
  · refine andThen_inv' (P := fun d : Diff => P d.gpar) ?_ fun d h => andThen_inv' (P := fun d : Diff => P d.gpar) ?_ fun d h =>
      andThen_inv' (P := fun d : Diff => P d.gpar) ?_ fun d h => ?_
    · unfold parseG0
      split
      · exact h
      · refine eval_inv (P := fun d : Diff => P d.gpar) h fun g0 _ => ?_
        split
        · simp only
          split
          · exact h
          · exact foldl_gpar (P := P) (fun d b h => hP _ _ _ (by intro rows e; cases e) h) _ _ (hnum _ _ h)
        · exact h
    · unfold parseG1
      split
      · exact h
      · refine eval_inv (P := fun d : Diff => P d.gpar) h fun g1 _ => ?_
        split
        · simp only
          refine eval_inv (P := fun d : Diff => P d.gpar) h fun l _ => ?_
          simp only [Res.andThen]
          split
          · exact hnum _ _ (hrefl _ _ _ _ h)
          · exact hrefl _ _ _ _ h
        · exact h
    · unfold parseG3
      split
      · exact h
      · refine eval_inv (P := fun d : Diff => P d.gpar) h fun g1 _ => ?_
        split
        · refine hP _ _ _ ?_ h
          intro rows e
          injection e with e
          subst e
          intro r hr
          simp only [List.mem_cons, List.not_mem_nil, or_false] at hr
          rcases hr with rfl | rfl | rfl <;> rfl
        · exact h
    · unfold parseG4
      split
      · exact h
      · refine eval_inv (P := fun d : Diff => P d.gpar) h fun g1 _ => ?_
        split
        · exact hnum _ _ h
        · exact h

theorem diffNames_post {s : DScan} {d : Diff} (h : geoPost s = .ok d) : GeoNames d := by
  unfold geoPost at h
  split at h
  · cases h
  · next n _ =>
    have := diffNames_parse (s.G.getD []) (Diff.new n) (diffNames_new n)
    split at h
    · next e =>
      rw [e] at this
      cases h
      refine ⟨this.1.2, this.1.1, fun r hr => this.2 r hr, ?_, ?_⟩
      · have := gpar_parse (P := fun d => d ≠ []) (fun d k v _ _ => set_nonempty d k v) (s.G.getD []) (Diff.new n) (set_nonempty _ _ _)
        rw [e] at this
        exact this
      · have := gpar_parse (P := fun d => ∀ q ∈ d, ThreeCols q.2) (fun d k v hv hd q hq => by
          rcases Dict.mem_set hq with r | r
          · rw [r]; exact hv
          · exact hd q r) (s.G.getD []) (Diff.new n) (by
            intro q hq rows e
            revert hq
            rw [show q = (q.1, GVal.mat rows) from by rw [← e]]
            intro hq
            rcases Dict.mem_set hq with r | hq
            · cases congrArg Prod.snd r
            rcases Dict.mem_set hq with r | hq
            · cases congrArg Prod.snd r
            rcases Dict.mem_set hq with r | hq
            · cases congrArg Prod.snd r
            cases hq)
        rw [e] at this
        exact fun k rows hm => this (k, .mat rows) hm rows rfl
    · cases h

/-! ## Interpretation -/

theorem xrefRow_rel : ∀ (ms ns : List Str) (d : Dict Str), RelKeys d → (∀ m ∈ ms, Relative m) →
    RelKeys (xrefRow ms ns d).1
  | [], _, _, h, _ => h
  | _ :: _, [], _, h, _ => h
  | m :: ms, n :: ns, d, h, hm =>
    xrefRow_rel ms ns _ (h.set (hm m (by simp)) n) (fun m' h' => hm m' (by simp [h']))

theorem xrefRows_rel : ∀ (ms ns : List (List Str)) (d : Dict Str), RelKeys d →
    (∀ row ∈ ms, ∀ m ∈ row, Relative m) → RelKeys (xrefRows ms ns d).1
  | [], _, _, h, _ => h
  | _ :: _, [], _, h, _ => h
  | m :: ms, n :: ns, d, h, hm => by
    have h1 := xrefRow_rel m n d h (hm m (by simp))
    unfold xrefRows Res.andThen
    split
    · exact xrefRows_rel ms ns _ h1 (fun row hr => hm row (by simp [hr]))
    · exact h1

section
variable [UniDB] (env : Env) (reg : List HKey)

omit [UniDB] in
theorem relNames_of_eq {x y : Obj} (h : RelNames x) (h1 : y.counterXref = x.counterXref)
    (h2 : y.positionerXref = x.positionerXref) (h3 : y.diff = x.diff) (h4 : y.uxmlRoot = x.uxmlRoot) :
    RelNames y := ⟨by rw [h1]; exact h.counters, by rw [h2]; exact h.positioners,
      by rw [h3]; exact h.geometry, by rw [h3]; exact h.fields, by rw [h4]; exact h.xml⟩

/-- the attributes of a scan that hold names -/
structure SafeAttrs (x : Obj) : Prop where
  names : RelNames x
  j : ∀ row ∈ x.j.getD [], ∀ w ∈ row, Relative w
  o : ∀ row ∈ x.o.getD [], ∀ w ∈ row, Relative w

theorem safe_line (k : HKey) (l : Str) (c : ScanCtx)
    (hl : isKind .j l = true ∨ isKind .o l = true → ∀ w ∈ splitWs (stripFirstWord l), Relative w)
    (hk : k ≠ .S → k ≠ .unrec → isKind k l = true) (h : SafeAttrs c.scan) :
    SafeAttrs (procScan env k l c).1.scan := by
  refine ⟨relNames_of_eq h.names (ps_counterXref ..) (ps_positionerXref ..) (ps_diff ..) (ps_uxmlRoot ..),
    ?_, ?_⟩
  · by_cases e : k = .j
    · subst e
      intro row hrow
      simp only [procScan, onScan, procObj, procj, Res.ok, Obj.addPost, Option.getD_some,
        List.mem_append, List.mem_singleton] at hrow
      rcases hrow with e | rfl
      · exact h.j row e
      · exact hl (.inl (hk (by simp) (by simp)))
    · rw [ps_j env k l c e]; exact h.j
  · by_cases e : k = .o
    · subst e
      intro row hrow
      simp only [procScan, onScan, procObj, proco, Res.ok, Obj.addPost, Option.getD_some,
        List.mem_append, List.mem_singleton] at hrow
      rcases hrow with e | rfl
      · exact h.o row e
      · rw [show strip (stripFirstWord l) = stripFirstWord l from strip_strip _]
        split
        · simp
        · exact hl (.inr (hk (by simp) (by simp)))
    · rw [ps_o env k l c e]; exact h.o

theorem lines_safe (hr : reg.Perm HKey.all) : ∀ (lines : List Str) (c : ScanCtx),
    (∀ l ∈ lines, (isKind .j l = true ∨ isKind .o l = true → ∀ w ∈ splitWs (stripFirstWord l), Relative w) ∧
      '\n' ∉ l) → SafeAttrs c.scan → (forEach (scanLine env reg) lines c).2 = none →
    SafeAttrs (forEach (scanLine env reg) lines c).1.scan
  | [], _, _, h, _ => h
  | l :: ls, c, hl, h, hok => by
    obtain ⟨h1, h2, h3⟩ := forEach_cons_ok hok
    rw [h2]
    refine lines_safe hr ls _ (fun l' h' => hl l' (by simp [h'])) ?_ h3
    rw [scanLine_eq]
    obtain ⟨a, b⟩ := hl l (by simp)
    cases hk : effKey reg l with
    | none => exact h
    | some k => exact safe_line env k l c a (fun h1 h2 => (effKey_iff reg hr l b k h1 h2).1 hk) h

omit [UniDB] in
theorem safe_post (hx : SchemaNames env) (f : PostFn) (c : ScanCtx) (h : SafeAttrs c.scan)
    (hok : (runPost env f c).2 = none) : SafeAttrs (runPost env f c).1.scan := by
  have hj := pp_j env f c
  have ho := pp_o env f c
  refine ⟨⟨?_, ?_, ?_, ?_, ?_⟩, by rw [hj]; exact h.j, by rw [ho]; exact h.o⟩
  · have hc : RelKeys ((counterXref c.scan).1.counterXref.getD []) := by
      unfold counterXref
      split
      · next j J ej eJ =>
        refine xrefRows_rel j J _ h.names.counters ?_
        have := h.j
        rw [ej] at this
        exact this
      · exact h.names.counters
    by_cases e1 : f = .counterJ
    · subst e1
      simp only [runPost, onScan, Res.andThen]
      split
      · exact hc
      · exact hc
    by_cases e2 : f = .counterj
    · subst e2
      simp only [runPost, onScan, Res.andThen]
      split
      · exact hc
      · exact hc
    rw [pp_counterXref env f c e1 e2]; exact h.names.counters
  · by_cases e1 : f = .positionerXref
    · have hc : RelKeys ((positionerXref c.scan).1.positionerXref.getD []) := by
        unfold positionerXref
        split
        · next j J ej eJ =>
          refine xrefRows_rel j J _ h.names.positioners ?_
          have := h.o
          rw [ej] at this
          exact this
        · exact h.names.positioners
      subst e1
      simp only [runPost, onScan, Res.andThen]
      split
      · exact hc
      · exact hc
    · rw [pp_positionerXref env f c e1]; exact h.names.positioners
  · by_cases e1 : f = .geometry
    · subst e1
      simp only [runPost, postGeometry]
      refine eval_inv (P := fun c : ScanCtx => ∀ d, c.scan.diff = some d → (∀ k ∈ d.gpar.keys, Relative k) ∧
        ∀ r ∈ d.reflections, ∀ k ∈ (angles r).keys, Relative k) ?_ ?_
      · simp only
        split
        · exact h.names.geometry
        · exact h.names.geometry
      · intro d hd d' hd'
        cases hd'
        exact diffRel_post hd
    · rw [pp_diff env f c e1]; exact h.names.geometry
  · by_cases e1 : f = .geometry
    · subst e1
      simp only [runPost, postGeometry]
      refine eval_inv (P := fun c : ScanCtx => ∀ d, c.scan.diff = some d → GeoNames d) ?_ ?_
      · simp only
        split
        · exact h.names.fields
        · exact h.names.fields
      · intro d hd d' hd'
        cases hd'
        exact diffNames_post hd
    · rw [pp_diff env f c e1]; exact h.names.fields
  · by_cases e1 : f = .uxml
    · subst e1
      simp only [runPost, onScan, postUXML, Res.eval] at hok ⊢
      split at hok
      · next r hr =>
        split at hok
        · next hv =>
          rw [if_pos hv]
          intro t a v ch e
          simp only [Res.ok, Obj.addH5, Option.some.injEq] at e
          subst e
          exact hx t a v ch hv
        · simp [Res.raise] at hok
      · simp [Res.raise] at hok
    · rw [pp_uxmlRoot env f c e1]; exact h.names.xml

omit [UniDB] in
theorem posts_safe (hx : SchemaNames env) : ∀ (fs : List PostFn) (c : ScanCtx), SafeAttrs c.scan →
    (forEach (runPost env) fs c).2 = none → SafeAttrs (forEach (runPost env) fs c).1.scan
  | [], c, h, _ => h
  | f :: fs, c, h, hok => by
    obtain ⟨h1, h2, h3⟩ := forEach_cons_ok hok
    rw [h2]
    exact posts_safe hx fs _ (safe_post env hx f c h h1) h3

theorem interp_raw (c : ScanCtx) : (interpretScan env reg c).1.scan.raw = c.scan.raw := by
  unfold interpretScan
  split
  · rfl
  · refine andThen_inv' (P := fun c' : ScanCtx => c'.scan.raw = c.scan.raw) ?_ fun c1 h1 => ?_
    · refine forEach_invariant (scanLine env reg) (fun c' : ScanCtx => c'.scan.raw = c.scan.raw) ?_ _ _ rfl
      intro a s h
      rw [scanLine_eq]
      cases effKey reg a with
      | none => exact h
      | some k => exact (ps_raw ..).trans h
    · refine andThen_inv' (P := fun c' : ScanCtx => c'.scan.raw = c.scan.raw) ?_ fun c2 h2 => h2
      exact forEach_invariant (runPost env) (fun c' : ScanCtx => c'.scan.raw = c.scan.raw) (fun f c h => (pp_raw env f c).trans h) _ _ h1

/-- the header keeps its names -/
theorem interp_hdr (c : ScanCtx) (h : RelNames c.hdr) : RelNames (interpretScan env reg c).1.hdr := by
  unfold interpretScan
  split
  · exact h
  · refine andThen_inv' (P := fun c : ScanCtx => RelNames c.hdr) ?_ fun c1 h1 => ?_
    · refine forEach_invariant (scanLine env reg) (fun c : ScanCtx => RelNames c.hdr) ?_ _ _ h
      intro a c h
      rw [scanLine_eq]
      cases effKey reg a with
      | none => exact h
      | some k =>
        by_cases hO : k = .O
        · subst hO
          exact relNames_of_eq h (po_counterXref env .O a c.hdr) (po_positionerXref env .O a c.hdr)
            (po_diff env .O a c.hdr) (po_uxmlRoot env .O a c.hdr)
        by_cases hD : k = .D
        · subst hD
          refine andThen_inv' (P := fun c : ScanCtx => RelNames c.hdr) h fun c1 h1 => ?_
          unfold dateHdr
          simp only
          split
          · exact relNames_of_eq h1 rfl rfl rfl rfl
          · split
            · refine eval_inv (P := fun c : ScanCtx => RelNames c.hdr) h1 fun _ _ => ?_
              refine eval_inv (P := fun c : ScanCtx => RelNames c.hdr) h1 fun _ _ => ?_
              split
              · refine eval_inv (P := fun c : ScanCtx => RelNames c.hdr) h1 fun _ _ => ?_
                exact eval_inv (P := fun c : ScanCtx => RelNames c.hdr) h1 fun _ _ => h1
              · exact h1
            · exact h1
        have e := ps_hdr env k a c hO hD
        show RelNames (procScan env k a c).1.hdr
        rw [e]
        exact h
    · refine andThen_inv' (P := fun c : ScanCtx => RelNames c.hdr) ?_ fun c2 h2 => h2
      exact forEach_invariant (runPost env) (fun c : ScanCtx => RelNames c.hdr)
        (fun f c h => by rw [pp_hdr env f c]; exact h) _ _ h1

/-- **interpretation keeps the names of a scan safe** -/
theorem interp_safe (hr : reg.Perm HKey.all) (hx : SchemaNames env) (c : ScanCtx) (h : SafeScan c.scan)
    (hok : (interpretScan env reg c).2 = none) : SafeScan (interpretScan env reg c).1.scan := by
  by_cases hi : c.scan.interpreted = true
  · rw [show interpretScan env reg c = (c, none) from by unfold interpretScan; rw [if_pos hi]; rfl]
    exact h
  rw [Bool.not_eq_true] at hi
  have hraw := interp_raw env reg c
  obtain ⟨c1, c2, e1, e2, e3⟩ := interpret_ok env reg c hi hok
  have h1 : SafeAttrs c1.scan := by
    have := lines_safe env reg hr (scanLines c.scan.raw) 
      { c with scan := { c.scan with lazy := false } } (fun l hl => ⟨h.lines l hl, scanLines_no_nl _ l hl⟩)
      ⟨relNames_of_eq h.names rfl rfl rfl rfl, h.counters, h.positioners⟩ (by rw [e1])
    rw [e1] at this; exact this
  have h2 : SafeAttrs c2.scan := by
    have := posts_safe env hx c1.scan.post.values c1 h1 (by rw [e2])
    rw [e2] at this; exact this
  rw [e3] at hraw ⊢
  exact ⟨relNames_of_eq h2.names rfl rfl rfl rfl, h2.j, h2.o, by rw [hraw]; exact h.lines⟩

end
end S2N
