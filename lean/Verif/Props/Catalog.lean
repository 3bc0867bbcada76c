import Verif.Model.Catalog
/-
C112: the catalog of diffractometer geometries: one object until it is reset, whose answers do not depend on what was done before.
-/
namespace S2N.Props
open S2N S2N.Py S2N.Catalog

namespace Cat

/-- the objects of `s` are objects of `s'`, with the same content -/
def Ext (s s' : St) : Prop := ∀ (i : Nat) (x : Catalog.Obj), s.objects[i]? = some x → ∃ x', s'.objects[i]? = some x' ∧ x'.db = x.db

/-- cached lists are the lists of the content -/
def Good (s : St) : Prop := ∀ (i : Nat) (x : Catalog.Obj), s.objects[i]? = some x → x.db ≠ [] ∧ (x.cache = none ∨ x.cache = some (lists x.db))

/-- what every use keeps; `P` holds of every content that was read -/
structure Step (P : List Geometry → Prop) (s s' : St) : Prop where
  ext : Ext s s'
  good : Good s → Good s'
  all : (∀ (i : Nat) x, s.objects[i]? = some x → P x.db) → ∀ (i : Nat) x, s'.objects[i]? = some x → P x.db

theorem Step.refl (P) (s : St) : Step P s s := ⟨fun _ x h => ⟨x, h, rfl⟩, id, id⟩

theorem Step.trans {P} {s t u : St} (h : Step P s t) (k : Step P t u) : Step P s u := by
  refine ⟨fun i x hx => ?_, k.good ∘ h.good, k.all ∘ h.all⟩
  obtain ⟨y, hy, e⟩ := h.ext i x hx
  obtain ⟨z, hz, e'⟩ := k.ext i y hy
  exact ⟨z, hz, e'.trans e⟩

theorem step_slot {P} {s s' : St} (h : s'.objects = s.objects) : Step P s s' := by
  refine ⟨fun i x hx => ⟨x, by rw [h]; exact hx, rfl⟩, fun g i x hx => g i x (by rw [← h]; exact hx), fun g i x hx => g i x (by rw [← h]; exact hx)⟩

theorem construct_step {P : List Geometry → Prop} {f : DictFile} (hf : ∀ db, f = .ok db → P db) (s : St) :
    Step P s (construct f s).2 ∧ (construct f s).2.slot = s.slot := by
  unfold construct
  cases hs : s.slot with
  | none => exact ⟨Step.refl P s, hs⟩
  | zero | object =>
    simp only
    cases f with
    | error e => exact ⟨Step.refl P s, hs⟩
    | ok db =>
      cases db with
      | nil => exact ⟨Step.refl P s, hs⟩
      | cons g db =>
        refine ⟨⟨fun i x hx => ⟨x, ?_, rfl⟩, fun hg i x hx => ?_, fun hg i x hx => ?_⟩, rfl⟩
        · show (s.objects ++ _)[i]? = _
          rw [List.getElem?_append_left (List.getElem?_eq_some_iff.1 hx).1]; exact hx
        · have hx : (s.objects ++ [⟨g :: db, none⟩])[i]? = some x := hx
          rw [List.getElem?_append] at hx
          split at hx
          · exact hg i x hx
          · have hm := List.mem_of_getElem? hx
            simp only [List.mem_singleton] at hm
            subst hm
            exact ⟨by simp, .inl rfl⟩
        · have hx : (s.objects ++ [⟨g :: db, none⟩])[i]? = some x := hx
          rw [List.getElem?_append] at hx
          split at hx
          · exact hg i x hx
          · have hm := List.mem_of_getElem? hx
            simp only [List.mem_singleton] at hm
            subst hm
            exact hf _ rfl

theorem get_step {P : List Geometry → Prop} {f : DictFile} (hf : ∀ db, f = .ok db → P db) (s : St) :
    Step P s (get f s).2 ∧ (s.slot ≠ .none → (get f s).2 = s ∧ (get f s).1 = .ok s.slot) := by
  unfold Catalog.get
  cases hs : s.slot with
  | zero | object => exact ⟨Step.refl P s, fun _ => ⟨rfl, rfl⟩⟩
  | none =>
    refine ⟨?_, fun h => absurd rfl h⟩
    simp only
    have h0 : Step P s { s with slot := .zero } := step_slot rfl
    obtain ⟨h1, h2⟩ := construct_step hf { s with slot := .zero }
    cases hc : construct f { s with slot := .zero } with
    | mk r s1 =>
      rw [hc] at h1
      cases r with
      | error e => exact h0.trans h1
      | ok i => exact (h0.trans h1).trans (step_slot rfl)

theorem cached_db (x : Catalog.Obj) : x.cached.2.db = x.db := by
  unfold Obj.cached
  split <;> rfl

theorem cached_good {x : Catalog.Obj} (h : x.cache = none ∨ x.cache = some (lists x.db)) :
    x.cached.1 = lists x.db ∧ x.cached.2.cache = some (lists x.db) := by
  unfold Obj.cached
  rcases h with h | h <;> rw [h] <;> simp [h]

theorem geometries_step {P : List Geometry → Prop} (i : Nat) (b : Bool) (s : St) :
    Step P s (geometries i b s).2 ∧ (geometries i b s).2.slot = s.slot := by
  unfold geometries
  cases hi : s.objects[i]? with
  | none => exact ⟨Step.refl P s, rfl⟩
  | some x =>
    have hlt := (List.getElem?_eq_some_iff.1 hi).1
    refine ⟨⟨fun j y hy => ?_, fun hg j y hy => ?_, fun hg j y hy => ?_⟩, rfl⟩
    · show ∃ x', (s.objects.set i x.cached.2)[j]? = some x' ∧ _
      by_cases e : i = j
      · subst e
        rw [hi] at hy
        cases hy
        exact ⟨_, List.getElem?_set_self hlt, cached_db x⟩
      · exact ⟨y, by rw [List.getElem?_set_ne e]; exact hy, rfl⟩
    · have hy : (s.objects.set i x.cached.2)[j]? = some y := hy
      by_cases e : i = j
      · subst e
        rw [List.getElem?_set_self hlt] at hy
        cases hy
        obtain ⟨q1, q2⟩ := hg i x hi
        refine ⟨by rw [cached_db]; exact q1, .inr ?_⟩
        rw [(cached_good q2).2, cached_db]
      · rw [List.getElem?_set_ne e] at hy
        exact hg j y hy
    · have hy : (s.objects.set i x.cached.2)[j]? = some y := hy
      by_cases e : i = j
      · subst e
        rw [List.getElem?_set_self hlt] at hy
        cases hy
        rw [cached_db]
        exact hg i x hi
      · rw [List.getElem?_set_ne e] at hy
        exact hg j y hy

theorem geometries_eq {s : St} (hg : Good s) {i : Nat} {x : Catalog.Obj} (hi : s.objects[i]? = some x) (b : Bool) :
    (geometries i b s).1 = if b then (lists x.db).2 else (lists x.db).1 := by
  unfold geometries
  rw [hi]
  simp only
  rw [(cached_good (hg i x hi).2).1]

theorem lookup_state (i : Nat) (n : Str) (s : St) : (lookup i n s).2 = (geometries i false s).2 := by
  unfold lookup
  simp only
  split <;> rfl

theorem has_step {P : List Geometry → Prop} (i : Nat) (n : Str) (s : St) : Step P s (has i n s).2 ∧ (has i n s).2.slot = s.slot := by
  unfold has
  split
  · exact geometries_step i false s
  · exact geometries_step i true s

theorem stated_step {P : List Geometry → Prop} {f : DictFile} (hf : ∀ db, f = .ok db → P db) (sc : DScan) (s : St) :
    Step P s (stated f sc s).2 ∧ (s.slot ≠ .none → (stated f sc s).2.slot = s.slot) := by
  unfold stated
  cases sc.comments with
  | nil => exact ⟨Step.refl P s, fun _ => rfl⟩
  | cons c cs =>
    simp only
    split
    · split
      · obtain ⟨h1, h2⟩ := get_step hf s
        cases hg : Catalog.get f s with
        | mk r s1 =>
          rw [hg] at h1 h2
          cases r with
          | error e => exact ⟨h1, fun hn => by rw [(h2 hn).1]⟩
          | ok x =>
            cases x with
            | none | zero => exact ⟨h1, fun hn => by rw [(h2 hn).1]⟩
            | object j =>
              simp only
              obtain ⟨k1, k2⟩ := has_step (P := P) j _ s1
              exact ⟨h1.trans k1, fun hn => by rw [k2]; exact congrArg St.slot (h2 hn).1⟩
      · exact ⟨Step.refl P s, fun _ => rfl⟩
    · exact ⟨Step.refl P s, fun _ => rfl⟩

theorem match_state (i : Nat) (f : DictFile) (sc : DScan) (s : St) : (Catalog.match i f sc s).2 = (stated f sc s).2 := by
  unfold Catalog.match
  cases h : stated f sc s with
  | mk r s1 =>
    cases r with
    | error e => rfl
    | ok l =>
      simp only
      split
      · rfl
      · split
        · rfl
        · split
          · rfl
          · split <;> rfl

theorem op_step {P : List Geometry → Prop} (o : Op) (hf : ∀ db, o.file = some (.ok db) → P db) (s : St) :
    Step P s (o.run s) ∧ (o ≠ .reset → s.slot ≠ .none → (o.run s).slot = s.slot) := by
  cases o with
  | get f =>
    obtain ⟨h1, h2⟩ := get_step (f := f) (fun db e => hf db (by rw [e]; rfl)) s
    exact ⟨h1, fun _ hn => by show (Catalog.get f s).2.slot = _; rw [(h2 hn).1]⟩
  | reset => exact ⟨step_slot rfl, fun h => absurd rfl h⟩
  | construct f =>
    obtain ⟨h1, h2⟩ := construct_step (f := f) (fun db e => hf db (by rw [e]; rfl)) s
    exact ⟨h1, fun _ _ => h2⟩
  | geometries i b => exact ⟨(geometries_step i b s).1, fun _ _ => (geometries_step (P := P) i b s).2⟩
  | lookup i n =>
    show Step P s (lookup i n s).2 ∧ (_ → _ → (lookup i n s).2.slot = s.slot)
    rw [lookup_state]
    exact ⟨(geometries_step i false s).1, fun _ _ => (geometries_step (P := P) i false s).2⟩
  | has i n => exact ⟨(has_step i n s).1, fun _ _ => (has_step (P := P) i n s).2⟩
  | «match» i f sc =>
    show Step P s (Catalog.match i f sc s).2 ∧ (_ → _ → (Catalog.match i f sc s).2.slot = s.slot)
    rw [match_state]
    obtain ⟨h1, h2⟩ := stated_step (f := f) (fun db e => hf db (by rw [e]; rfl)) sc s
    exact ⟨h1, fun _ => h2⟩

theorem run_step {P : List Geometry → Prop} : ∀ (ops : List Op) (s : St), (∀ o ∈ ops, ∀ db, o.file = some (.ok db) → P db) →
    Step P s (run ops s) ∧ (Op.reset ∉ ops → s.slot ≠ .none → (run ops s).slot = s.slot) := by
  intro ops
  induction ops with
  | nil => intro s _; exact ⟨Step.refl P s, fun _ _ => rfl⟩
  | cons o ops ih =>
    intro s hf
    obtain ⟨h1, h2⟩ := op_step o (hf o (by simp)) s
    obtain ⟨k1, k2⟩ := ih (o.run s) (fun o' ho' => hf o' (by simp [ho']))
    refine ⟨h1.trans k1, fun hr hn => ?_⟩
    simp only [List.mem_cons, not_or] at hr
    have e := h2 (fun e => hr.1 e.symm) hn
    show (run ops (o.run s)).slot = _
    rw [k2 hr.2 (by rw [e]; exact hn), e]

theorem good_start : Good start := by
  intro i x h
  simp [start] at h

theorem good_run (ops : List Op) : Good (run ops start) := (run_step (P := fun _ => True) ops start (fun _ _ _ _ => trivial)).1.good good_start

theorem get_slot {f : DictFile} {s : St} {x : Slot} (h : (get f s).1 = .ok x) : (get f s).2.slot = x ∧ x ≠ .none := by
  unfold Catalog.get at h ⊢
  cases hs : s.slot with
  | zero => rw [hs] at h; simp only at h; cases h; exact ⟨hs, by simp⟩
  | object => rw [hs] at h; simp only at h; cases h; exact ⟨hs, by simp⟩
  | none =>
    rw [hs] at h
    simp only at h ⊢
    cases hc : construct f { s with slot := .zero } with
    | mk r s1 =>
      rw [hc] at h
      cases r with
      | error e => cases h
      | ok i => cases h; exact ⟨rfl, by simp⟩

end Cat
open Cat

/-- **C112**: `get_geometry_catalog()` returns the object that it returned before, until `reset_geometry_catalog()` is called: whatever
was done before and is done between the two calls, and whatever the dictionary file contains by then; and nothing is changed by
the second call. -/
theorem C112_same {before between : List Op} {f f' : DictFile} {x : Slot} (h : (get f (run before start)).1 = .ok x)
    (hb : Op.reset ∉ between) :
    get f' (run between (get f (run before start)).2) = (.ok x, run between (get f (run before start)).2) := by
  obtain ⟨h1, h2⟩ := get_slot h
  have h3 := (run_step (P := fun _ => True) between (get f (run before start)).2 (fun _ _ _ _ => trivial)).2 hb (by rw [h1]; exact h2)
  rw [h1] at h3
  obtain ⟨k1, k2⟩ := (get_step (P := fun _ => True) (f := f') (fun _ _ => trivial) (run between (get f (run before start)).2)).2
    (by rw [h3]; exact h2)
  rw [h3] at k2
  exact Prod.ext k2 k1

/-- C112: after `reset_geometry_catalog()`, or at first, the next call makes a new object, other than all before, with the content that the
dictionary file has then. -/
theorem C112_new (before : List Op) {db : List Geometry} (hdb : db ≠ []) (hs : (run before start).slot = .none) :
    ∃ i s', get (.ok db) (run before start) = (.ok (.object i), s') ∧ (run before start).objects[i]? = none ∧
      ∃ x, s'.objects[i]? = some x ∧ x.db = db := by
  obtain ⟨g, db, rfl⟩ := List.exists_cons_of_ne_nil hdb
  unfold Catalog.get construct
  rw [hs]
  exact ⟨_, _, rfl, by simp, ⟨g :: db, none⟩, by simp, rfl⟩

/-- an object with content `db` is made, as number `i`, by `get_geometry_catalog()` or directly -/
inductive Made (db : List Geometry) (i : Nat) (s s' : St) : Prop
  | got (hs : s.slot = .none) (h : get (.ok db) s = (.ok (.object i), s'))
  | direct (h : construct (.ok db) s = (.ok i, s'))

theorem Made.here {db : List Geometry} {i : Nat} {s s' : St} (h : Made db i s s') :
    (∃ x, s'.objects[i]? = some x ∧ x.db = db) ∧ s.objects[i]? = none := by
  have hc : ∀ s0 s1, construct (.ok db) s0 = (.ok i, s1) → (∃ x, s1.objects[i]? = some x ∧ x.db = db) ∧ s0.objects[i]? = none := by
    intro s0 s1 h
    unfold construct at h
    cases hs : s0.slot with
    | none => rw [hs] at h; cases h
    | zero | object =>
      rw [hs] at h
      cases db with
      | nil => cases h
      | cons g db =>
        simp only [Prod.mk.injEq, Except.ok.injEq] at h
        obtain ⟨rfl, rfl⟩ := h
        exact ⟨⟨⟨g :: db, none⟩, by simp, rfl⟩, by simp⟩
  cases h with
  | direct h => exact hc _ _ h
  | got hs h =>
    unfold Catalog.get at h
    rw [hs] at h
    simp only at h
    cases hk : construct (.ok db) { s with slot := .zero } with
    | mk r s1 =>
      rw [hk] at h
      cases r with
      | error e => cases h
      | ok j =>
        simp only [Prod.mk.injEq, Except.ok.injEq, Slot.object.injEq] at h
        obtain ⟨rfl, rfl⟩ := h
        obtain ⟨q1, q2⟩ := hc _ _ hk
        exact ⟨q1, q2⟩

theorem place_find (n : Str) : ∀ db : List Geometry, (place n (db.map (·.name))).bind (fun j => db[j]?) = db.find? (fun g => g.name == n) := by
  intro db
  unfold place
  induction db with
  | nil => rfl
  | cons g db ih =>
    rw [List.map_cons, List.findIdx?_cons, List.find?_cons]
    by_cases e : (g.name == n) = true
    · rw [if_pos e, e]; rfl
    · have e' : (g.name == n) = false := by simpa using e
      rw [if_neg e, e', ← ih]
      simp only
      cases (db.map (·.name)).findIdx? (· == n) <;> rfl

/-- **C112**: what an object answers does not depend on what was done with it, or with the module, since it was made (the lists that it
keeps are not seen): it lists the names of its content, finds a geometry by its name and tells if a name is in its lists. -/
theorem C112_answers {before after : List Op} {db : List Geometry} {i : Nat} {s' : St} (h : Made db i (run before start) s') :
    (geometries i false (run after s')).1 = db.map (·.name) ∧
    (geometries i true (run after s')).1 = db.flatMap (fun g => g.variations.map (fun v => dotted g.name v.name)) ∧
    (∀ n, (lookup i n (run after s')).1 = db.find? (fun g => g.name == (splitNameVariation n).1)) ∧
    (∀ n, (has i n (run after s')).1 = true ↔
      ((splitNameVariation n).2 = none ∧ (splitNameVariation n).1 ∈ db.map (·.name)) ∨
      ((splitNameVariation n).2 ≠ none ∧ ∃ g ∈ db, ∃ v ∈ g.variations, n = dotted g.name v.name)) := by
  obtain ⟨⟨x, hx, rfl⟩, _⟩ := h.here
  have hg' : Good s' := by
    have hb := good_run before
    cases h with
    | direct h => have := (construct_step (P := fun _ => True) (f := .ok x.db) (fun _ _ => trivial) (run before start)).1.good hb; rw [h] at this; exact this
    | got hs h => have := (get_step (P := fun _ => True) (f := .ok x.db) (fun _ _ => trivial) (run before start)).1.good hb; rw [h] at this; exact this
  have hst := (run_step (P := fun _ => True) after s' (fun _ _ _ _ => trivial)).1
  have hg := hst.good hg'
  obtain ⟨y, hy, e⟩ := hst.ext i x hx
  have e1 := geometries_eq hg hy false
  have e2 := geometries_eq hg hy true
  rw [e] at e1 e2
  simp only [Bool.false_eq_true, if_false, if_true] at e1 e2
  refine ⟨e1, e2, fun n => ?_, fun n => ?_⟩
  · rw [← place_find]
    unfold lookup
    simp only
    rw [hy, e1]
    simp only [lists]
    cases place (splitNameVariation n).1 (x.db.map (·.name)) with
    | none => rfl
    | some j => simp only [Option.bind_some]; rw [e]
  · unfold has
    cases hn : splitNameVariation n with
    | mk nm v =>
      cases v with
      | none => simp only [e1, lists]; simp
      | some v =>
        simp only [e2, lists]
        simp only [List.contains_iff_mem, List.mem_flatMap, List.mem_map]
        constructor
        · rintro ⟨g, hg, w, hw, rfl⟩
          exact .inr ⟨by simp, g, hg, w, hw, rfl⟩
        · rintro (⟨h, _⟩ | ⟨_, g, hg, w, hw, rfl⟩)
          · cases h
          · exact ⟨g, hg, w, hw, rfl⟩

def statedOf : List Str → List Str
  | [g, u, _, _] => if u = p!"User" ∧ hasGeometry g = true then [dotted g p!"default"] else []
  | _ => []

theorem stated_geo {s : St} (hg : Good s) (ha : ∀ (i : Nat) x, s.objects[i]? = some x → x.db = geoDb)
    (hs : s.slot ≠ .zero ∧ ∀ j, s.slot = .object j → s.objects[j]? ≠ none) (sc : DScan) :
    (stated (.ok geoDb) sc s).1 = .ok (statedGeometry sc) := by
  have hrhs : statedGeometry sc = (match sc.comments with
    | [] => []
    | c :: _ => statedOf (splitWs c)) := by
    unfold statedGeometry statedOf
    cases sc.comments <;> rfl
  rw [hrhs]
  unfold stated
  cases sc.comments with
  | nil => rfl
  | cons c cs =>
    simp only
    split
    · next g u _ _ hw =>
      by_cases hu : u = p!"User"
      · rw [if_pos hu]
        have hgot : ∃ j s1 x, Catalog.get (.ok geoDb) s = (.ok (.object j), s1) ∧ s1.objects[j]? = some x ∧ x.db = geoDb ∧ Good s1 := by
          cases hsl : s.slot with
          | zero => exact absurd hsl hs.1
          | object j =>
            obtain ⟨k1, k2⟩ := (get_step (P := fun _ => True) (f := .ok geoDb) (fun _ _ => trivial) s).2 (by rw [hsl]; simp)
            cases hj : s.objects[j]? with
            | none => exact absurd hj (hs.2 j hsl)
            | some x => exact ⟨j, s, x, Prod.ext (k2.trans (by rw [hsl])) k1, hj, ha j x hj, hg⟩
          | none =>
            have hne : ∃ g db, geoDb = g :: db := ⟨_, _, rfl⟩
            obtain ⟨g0, db, e⟩ := hne
            have hgs := (get_step (P := fun _ => True) (f := .ok geoDb) (fun _ _ => trivial) s).1.good hg
            have hget : Catalog.get (.ok geoDb) s = (.ok (.object s.objects.length), ⟨.object s.objects.length, s.objects ++ [⟨geoDb, none⟩]⟩) := by
              unfold Catalog.get construct
              rw [hsl, e]
            rw [hget] at hgs
            exact ⟨_, _, ⟨geoDb, none⟩, hget, by simp, rfl, hgs⟩
        obtain ⟨j, s1, x, h1, h2, h3, h4⟩ := hgot
        rw [h1]
        simp only
        have e1 := geometries_eq h4 h2 false
        have e2 := geometries_eq h4 h2 true
        rw [h3] at e1 e2
        simp only [Bool.false_eq_true, if_false, if_true] at e1 e2
        have hh : (has j g s1).1 = hasGeometry g := by
          unfold has hasGeometry
          cases splitNameVariation g with
          | mk nm v =>
            cases v with
            | none => simp only; rw [e1]; rfl
            | some v => simp only; rw [e2]; rfl
        rw [hh, hw, statedOf]
        by_cases hb : hasGeometry g = true
        · rw [if_pos hb, if_pos ⟨hu, hb⟩]
        · rw [if_neg hb, if_neg (fun h => hb h.2)]
      · rw [if_neg hu, hw, statedOf, if_neg (fun h => hu h.1)]
    · next hw =>
      rw [statedOf.eq_2 _ hw]

/-- the module variable refers to an object that exists, or to None -/
def Sound (s : St) : Prop := s.slot ≠ .zero ∧ ∀ j, s.slot = .object j → s.objects[j]? ≠ none

theorem ext_ne_none {s s' : St} (h : Ext s s') {j : Nat} (hj : s.objects[j]? ≠ none) : s'.objects[j]? ≠ none := by
  cases e : s.objects[j]? with
  | none => exact absurd e hj
  | some x =>
    obtain ⟨y, hy, _⟩ := h j x e
    rw [hy]
    simp

theorem get_sound {db : List Geometry} (hdb : db ≠ []) {s : St} (h : Sound s) : Sound (get (.ok db) s).2 := by
  obtain ⟨g, db, rfl⟩ := List.exists_cons_of_ne_nil hdb
  unfold Catalog.get
  cases hs : s.slot with
  | zero => exact absurd hs h.1
  | object j => exact h
  | none =>
    unfold construct
    refine ⟨by simp, fun j hj => ?_⟩
    simp only [Slot.object.injEq] at hj
    subst hj
    simp

theorem sound_of {s s' : St} (he : Ext s s') (hs : s'.slot = s.slot) (h : Sound s) : Sound s' :=
  ⟨by rw [hs]; exact h.1, fun j hj => ext_ne_none he (h.2 j (by rw [← hs]; exact hj))⟩

theorem op_sound {o : Op} (hf : ∀ f, o.file = some f → f = .ok geoDb) {s : St} (h : Sound s) : Sound (o.run s) := by
  have hst := (op_step (P := fun _ => True) o (fun _ _ => trivial) s).1.ext
  have hne : geoDb ≠ [] := by decide
  by_cases hn : s.slot = .none
  · cases o with
    | get f => rw [hf f rfl]; exact get_sound hne h
    | reset => exact ⟨by simp [Op.run, Catalog.reset], fun j hj => by simp [Op.run, Catalog.reset] at hj⟩
    | construct f =>
      have : (construct f s).2.slot = s.slot := (construct_step (P := fun _ => True) (fun _ _ => trivial) s).2
      exact sound_of hst this h
    | geometries i b => exact sound_of hst (geometries_step (P := fun _ => True) i b s).2 h
    | lookup i n =>
      refine sound_of hst ?_ h
      show (lookup i n s).2.slot = _
      rw [lookup_state]
      exact (geometries_step (P := fun _ => True) i false s).2
    | has i n => exact sound_of hst (has_step (P := fun _ => True) i n s).2 h
    | «match» i f sc =>
      have hff : f = .ok geoDb := hf f rfl
      subst hff
      show Sound (Catalog.match i _ sc s).2
      rw [match_state]
      unfold stated
      cases sc.comments with
      | nil => exact h
      | cons c cs =>
        simp only
        split
        · split
          · have hgs := get_sound hne h
            cases hg : Catalog.get (.ok geoDb) s with
            | mk r s1 =>
              rw [hg] at hgs
              cases r with
              | error e => exact hgs
              | ok x =>
                cases x with
                | none | zero => exact hgs
                | object j =>
                  obtain ⟨k1, k2⟩ := has_step (P := fun _ => True) j _ s1
                  exact sound_of k1.ext k2 hgs
          · exact h
        · exact h
  · by_cases hr : o = .reset
    · subst hr
      exact ⟨by simp [Op.run, Catalog.reset], fun j hj => by simp [Op.run, Catalog.reset] at hj⟩
    · exact sound_of hst ((op_step (P := fun _ => True) o (fun _ _ => trivial) s).2 hr hn) h

theorem run_sound : ∀ (ops : List Op) (s : St), (∀ o ∈ ops, ∀ f, o.file = some f → f = .ok geoDb) → Sound s → Sound (run ops s) := by
  intro ops
  induction ops with
  | nil => intro s _ h; exact h
  | cons o ops ih =>
    intro s hf h
    exact ih (o.run s) (fun o' h' => hf o' (by simp [h'])) (op_sound (hf o (by simp)) h)

/-- **C112**: if the dictionary file, whenever it is read, is the one of the package, then `match(scan)` of any catalog object, after any
sequence of uses of the module, is a function of the scan alone (`geoMatch`, about which C64 and C98 are). -/
theorem C112_match {ops : List Op} (hf : ∀ o ∈ ops, ∀ f, o.file = some f → f = .ok geoDb) {i : Nat}
    (hi : (run ops start).objects[i]? ≠ none) (sc : DScan) :
    (Catalog.match i (.ok geoDb) sc (run ops start)).1 = geoMatch sc := by
  have hg := good_run ops
  have hst := (run_step (P := fun db => db = geoDb) ops start (fun o ho db e => by
    have := hf o ho _ e
    injection this)).1
  have ha := hst.all (by intro i x h; simp [start] at h)
  have hs : Sound (run ops start) := run_sound ops start hf ⟨by simp [start], fun j hj => by simp [start] at hj⟩
  generalize run ops start = s at *
  have h1 := stated_geo hg ha hs sc
  obtain ⟨h2, _⟩ := stated_step (P := fun _ => True) (f := .ok geoDb) (fun _ _ => trivial) sc s
  unfold Catalog.match geoMatch
  cases hst' : stated (.ok geoDb) sc s with
  | mk r s1 =>
    rw [hst'] at h1 h2
    simp only at h1 h2
    subst h1
    simp only
    cases e : s.objects[i]? with
    | none => exact absurd e hi
    | some x =>
      obtain ⟨y, hy, ey⟩ := h2.ext i x e
      rw [hy]
      simp only
      cases sc.G with
      | none => rfl
      | some G =>
        have hdb : y.db = geoDb := ey.trans (ha i x e)
        have hm : dbMatches y.db sc G = catalogMatches sc G := by rw [hdb]; rfl
        simp only [hm]
        cases statedGeometry sc ++ catalogMatches sc G with
        | cons m l => rfl
        | nil => rw [hdb]; rfl

/-- C112: a catalog cannot be made directly at first or after a reset … -/
theorem C112_direct (f : DictFile) (s : St) :
    (construct f start).1 = .error .RuntimeError ∧ (construct f (reset s)).1 = .error .RuntimeError := ⟨rfl, rfl⟩

/-- C112 (the code does not keep what its message says): … but once `get_geometry_catalog()` has returned, it can: a second object is
made, and `get_geometry_catalog()` goes on returning the first one. -/
theorem C112_second {before : List Op} {f : DictFile} {x : Slot} (h : (get f (run before start)).1 = .ok x) {db : List Geometry}
    (hdb : db ≠ []) (f' : DictFile) :
    ∃ j s', construct (.ok db) (get f (run before start)).2 = (.ok j, s') ∧ (get f (run before start)).2.objects[j]? = none ∧
      (get f' s').1 = .ok x := by
  obtain ⟨g, db, rfl⟩ := List.exists_cons_of_ne_nil hdb
  obtain ⟨h1, h2⟩ := get_slot h
  have h3 := C112_same (f' := f') h (between := [.construct (.ok (g :: db))]) (by simp)
  have h3 : get f' (construct (.ok (g :: db)) (get f (run before start)).2).2 = _ := h3
  generalize (get f (run before start)).2 = s at *
  have hc : construct (.ok (g :: db)) s = (.ok s.objects.length, { s with objects := s.objects ++ [⟨g :: db, none⟩] }) := by
    unfold construct
    cases hs : s.slot with
    | none => rw [hs] at h1; exact absurd h1.symm h2
    | zero | object => rfl
  rw [hc] at h3
  exact ⟨_, _, hc, by simp, by rw [h3]⟩

/-- C112 (a defect): if the dictionary file cannot be read at the first call, the exception is raised, and from then on, until a reset,
`get_geometry_catalog()` returns the number 0 without an exception, even if the file can be read again; -/
theorem C112_failed {before between : List Op} (hs : (run before start).slot = .none) {e : PyErr} {f : DictFile}
    (hb : Op.reset ∉ between) :
    (get (.error e) (run before start)).1 = .error e ∧
    (get f (run between (get (.error e) (run before start)).2)).1 = .ok .zero := by
  generalize run before start = s at *
  have hg : get (.error e) s = (.error e, { s with slot := .zero }) := by
    unfold Catalog.get
    rw [hs]
    rfl
  rw [hg]
  refine ⟨rfl, ?_⟩
  have h3 := (run_step (P := fun _ => True) between { s with slot := .zero } (fun _ _ _ _ => trivial)).2 hb (by simp)
  have h4 := ((get_step (P := fun _ => True) (f := f) (fun _ _ => trivial) (run between { s with slot := .zero })).2 (by rw [h3]; simp)).2
  rw [h4, h3]

/-- and matching a scan whose header states its geometry raises AttributeError, on catalogs that were made before, too. -/
theorem C112_failed_match {before between : List Op} (hs : (run before start).slot = .none) {e : PyErr} {f : DictFile}
    (hb : Op.reset ∉ between) {i : Nat} {sc : DScan} {c : Str} {cs : List Str} (hc : sc.comments = c :: cs) {g a b : Str}
    (hw : splitWs c = [g, p!"User", a, b]) :
    (Catalog.match i f sc (run between (get (.error e) (run before start)).2)).1 = .error .AttributeError := by
  have h := (C112_failed hs (e := e) (f := f) hb).2
  generalize run between (get (.error e) (run before start)).2 = s at *
  cases hg : get f s with
  | mk r s1 =>
    rw [hg] at h
    simp only at h
    subst h
    have hst : stated f sc s = (.error .AttributeError, s1) := by
      unfold stated
      rw [hc]
      simp only
      rw [hw]
      simp only [if_true]
      rw [hg]
    unfold Catalog.match
    rw [hst]

/-- C112: after a reset, however, a file that can be read gives a catalog again. -/
theorem C112_reset (before : List Op) {db : List Geometry} (hdb : db ≠ []) :
    ∃ i s', get (.ok db) (reset (run before start)) = (.ok (.object i), s') ∧ (run before start).objects[i]? = none ∧
      Made db i (reset (run before start)) s' := by
  have e : reset (run before start) = run (before ++ [.reset]) start := by
    unfold run
    rw [List.foldl_append]
    rfl
  obtain ⟨i, s', h1, h2, _⟩ := C112_new (before ++ [.reset]) hdb (by rw [← e]; rfl)
  rw [← e] at h1 h2
  exact ⟨i, s', h1, h2, .got rfl h1⟩

/-- C112: an example of the histories: the first catalog is asked, a second one is made after a reset, and a third one directly; the first one
matches a scan of a header that states "fourc". -/
theorem C112_nonvacuous :
    let sc : DScan := ⟨[p!"fourc  User = me"], none, none, [], some []⟩
    let ops : List Op := [.get (.ok geoDb), .has 0 p!"fourc", .reset, .match 0 (.ok geoDb) sc, .lookup 1 p!"psic.s2d2", .construct (.ok geoDb)]
    (∀ o ∈ ops, ∀ f, o.file = some f → f = .ok geoDb) ∧ (run ops start).objects.length = 3 ∧ (run ops start).slot = .object 1 ∧
      (run ops start).objects.map (fun x => x.cache.isSome) = [true, true, false] ∧
      Made geoDb 0 (run [] start) (get (.ok geoDb) start).2 ∧
      (match (Catalog.match 0 (.ok geoDb) sc (run ops start)).1 with
        | .ok n => decide (n = p!"fourc.default")
        | .error _ => false) = true := by
  refine ⟨?_, by decide +kernel, by decide +kernel, by decide +kernel, .got rfl rfl, by decide +kernel⟩
  intro o ho f hf
  simp only [List.mem_cons, List.not_mem_nil, or_false] at ho
  rcases ho with rfl | rfl | rfl | rfl | rfl | rfl <;> simp [Op.file] at hf <;> exact hf.symm

end S2N.Props
