import Verif.Spec.Plot
import Verif.Props.Lines
/-
C54: the choice of an image maker.
-/
namespace S2N.Props
open S2N S2N.Py S2N.Spec S2N.Plot

theorem get_store (s : Selector) (key : Str) (v : Maker) (d : Bool) (k : Str) :
    (s.store key v d).get k = if d = true ∧ k = defaultKey then some v else if k = key then some v else s.get k := by
  unfold Selector.store Selector.get
  cases d with
  | true =>
    simp only [if_true, true_and]
    by_cases h : k = defaultKey
    · subst h; rw [if_pos rfl, Dict.get?_set_self]
    · rw [if_neg h, Dict.get?_set_ne _ _ (Ne.symm h)]
      by_cases h2 : k = key
      · subst h2; rw [if_pos rfl, Dict.get?_set_self]
      · rw [if_neg h2, Dict.get?_set_ne _ _ (Ne.symm h2)]
  | false =>
    simp only [Bool.false_eq_true, if_false, false_and]
    by_cases h2 : k = key
    · subst h2; rw [if_pos rfl, Dict.get?_set_self]
    · rw [if_neg h2, Dict.get?_set_ne _ _ (Ne.symm h2)]

theorem exists_iff (s : Selector) (k : Str) : s.exists? k = (s.get k).isSome := by
  unfold Selector.exists? Selector.get
  cases h : s.db.get? k with
  | none => rw [(Dict.not_has_iff _ _).2 ((Dict.get?_eq_none_iff _ _).1 h)]; rfl
  | some v =>
    cases hh : s.db.has k with
    | true => rfl
    | false => rw [(Dict.get?_eq_none_iff _ _).2 ((Dict.not_has_iff _ _).1 hh)] at h; cases h

/-- everything registered is an image maker, and there is a default -/
structure SelOk (s : Selector) : Prop where
  default : ∃ d, s.get defaultKey = some d
  makers : ∀ k v, s.get k = some v → v.isImageMaker = true

theorem selOk_store {s : Selector} (h : SelOk s) (key : Str) (v : Maker) (d : Bool) (hv : v.isImageMaker = true) :
    SelOk (s.store key v d) := by
  refine ⟨?_, fun k w hw => ?_⟩
  · rw [get_store]
    split
    · exact ⟨_, rfl⟩
    · split
      · exact ⟨_, rfl⟩
      · exact h.default
  · rw [get_store] at hw
    split at hw
    · cases hw; exact hv
    · split at hw
      · cases hw; exact hv
      · exact h.makers k w hw

theorem selOk_new : SelOk Selector.new := by
  have e : Selector.new = Selector.store {} defaultKey .line true := rfl
  rw [e]
  refine ⟨⟨.line, by rw [get_store, if_pos ⟨rfl, rfl⟩]⟩, fun k v h => ?_⟩
  rw [get_store] at h
  split at h
  · cases h; rfl
  · split at h
    · cases h; rfl
    · cases h

theorem add_ok {s : Selector} (h : SelOk s) (k : Str) (v : Maker) (d : Bool) : SelOk (Selector.add k v d s).1 := by
  unfold Selector.add
  split
  · exact h
  · split
    · exact h
    · next hv => exact selOk_store h _ _ _ (by simpa using hv)

theorem update_ok {s : Selector} (h : SelOk s) (k : Str) (v : Maker) (d : Bool) : SelOk (Selector.update k v d s).1 := by
  unfold Selector.update
  split
  · exact h
  · split
    · exact h
    · next hv => exact selOk_store h _ _ _ (by simpa using hv)

theorem endsWith_iff (s t : Str) : endsWith s t = true ↔ ∃ a, s = a ++ t := by
  unfold endsWith
  rw [List.isSuffixOf_iff_suffix]
  constructor
  · rintro ⟨a, rfl⟩; exact ⟨a, rfl⟩
  · rintro ⟨a, rfl⟩; exact ⟨a, rfl⟩

theorem choice_ruled {s : Selector} (h : SelOk s) (m : Str) :
    ∃ d v, s.get defaultKey = some d ∧ s.choice m = some v ∧ Ruled m d v ∧ v.isImageMaker = true := by
  obtain ⟨d, hd⟩ := h.default
  have scanMesh : ¬ ((∃ a, lower m = a ++ p!"scan") ∧ ∃ a, lower m = a ++ p!"mesh") := by
    rintro ⟨⟨a, h1⟩, b, h2⟩
    rw [h1] at h2
    have := (List.append_inj' h2 rfl).2
    simp at this
  have hscan : m = p!"hklscan" → ∃ a, lower m = a ++ p!"scan" := by
    rintro rfl
    exact ⟨p!"hkl", by decide⟩
  unfold Selector.choice
  by_cases h1 : m = p!"hklscan"
  · rw [if_pos h1]
    refine ⟨d, .hkl, hd, rfl, ⟨fun _ => rfl, fun h => absurd h1 h, fun h => absurd ⟨hscan h1, h⟩ scanMesh, fun h => absurd (hscan h1) h⟩, rfl⟩
  rw [if_neg h1]
  by_cases h2 : endsWith (lower m) p!"scan" = true
  · rw [if_pos h2]
    have h2' := (endsWith_iff _ _).1 h2
    exact ⟨d, .line, hd, rfl, ⟨fun h => absurd h h1, fun _ _ => rfl, fun h => absurd ⟨h2', h⟩ scanMesh, fun h => absurd h2' h⟩, rfl⟩
  rw [if_neg h2]
  have h2' := mt (endsWith_iff _ _).2 h2
  by_cases h3 : endsWith (lower m) p!"mesh" = true
  · rw [if_pos h3]
    have h3' := (endsWith_iff _ _).1 h3
    exact ⟨d, .mesh, hd, rfl, ⟨fun h => absurd h h1, fun _ h => absurd h h2', fun _ => rfl, fun _ h => absurd h3' h⟩, rfl⟩
  rw [if_neg h3]
  have h3' := mt (endsWith_iff _ _).2 h3
  exact ⟨d, d, hd, hd, ⟨fun h => absurd h h1, fun _ h => absurd h h2', fun h => absurd h h3', fun _ _ => rfl⟩, h.makers _ _ hd⟩

theorem auto_nil (s : Selector) (x : Obj) (hm : macroOf x = none) : s.auto (some x) = (s, .error .IndexError) := by
  unfold macroOf at hm
  unfold Selector.auto
  cases hw : splitWs x.scanCmd with
  | nil => simp only [hw]
  | cons w ws => rw [hw] at hm; cases hm

/-- what `auto` does -/
theorem auto_eq {s : Selector} (h : SelOk s) (x : Obj) (m : Str) (hm : macroOf x = some m) :
    (∃ v, s.get m = some v ∧ s.auto (some x) = (s, .ok v)) ∨
    (∃ d v, s.get m = none ∧ s.get defaultKey = some d ∧ Ruled m d v ∧ v.isImageMaker = true ∧
      s.auto (some x) = (s.store m v false, .ok v)) := by
  unfold macroOf at hm
  unfold Selector.auto
  cases hw : splitWs x.scanCmd with
  | nil => rw [hw] at hm; cases hm
  | cons w ws =>
    rw [hw] at hm
    obtain rfl : w = m := by simpa using hm
    cases hg : s.get w with
    | some v => exact .inl ⟨v, rfl, by simp only [hw, hg]⟩
    | none =>
      obtain ⟨d, v, h1, h2, h3, h4⟩ := choice_ruled h w
      refine .inr ⟨d, v, rfl, h1, h3, h4, ?_⟩
      simp only [hw, hg, h2]
      unfold Selector.add
      rw [exists_iff, hg, if_neg (by simp), if_neg (by simp [h4])]
      rfl

theorem auto_ok {s : Selector} (h : SelOk s) (x : Option Obj) : SelOk (s.auto x).1 := by
  cases x with
  | none => exact h
  | some x =>
    cases hm : macroOf x with
    | none => rw [auto_nil s x hm]; exact h
    | some m =>
      rcases auto_eq h x m hm with ⟨v, _, e⟩ | ⟨d, v, _, _, _, hv, e⟩
      · rw [e]; exact h
      · rw [e]; exact selOk_store h _ _ _ hv

theorem selOk_run {w : Option Selector} (h : SelOk (instanceOf w)) (u : Use) : SelOk (instanceOf (u.run w)) := by
  cases u with
  | call => exact h
  | add k v d => exact add_ok h k v d
  | update k v d => exact update_ok h k v d
  | auto x => exact auto_ok h x

theorem selOk_after (uses : List Use) : SelOk (selectorAfter uses) := by
  unfold selectorAfter after
  have : ∀ (w : Option Selector), SelOk (instanceOf w) → SelOk (instanceOf (uses.foldl Use.run w)) := by
    induction uses with
    | nil => intro w h; exact h
    | cons u us ih => intro w h; exact ih _ (selOk_run h u)
  exact this none selOk_new

/-- **C54**: whatever a program did with the selector before, `auto(scan)` gives the image maker
registered for the macro of the scan, and otherwise the one of the rule, which is then registered for
the macro; nothing else changes. -/
theorem C54_auto (uses : List Use) (x : Obj) (m : Str) (hm : macroOf x = some m) :
    ∃ v, ((selectorAfter uses).auto (some x)).2 = .ok v ∧
      ((selectorAfter uses).get m = some v ∨
        ((selectorAfter uses).get m = none ∧
          ∃ d, (selectorAfter uses).get p!"__default__" = some d ∧ Ruled m d v)) ∧
      ∀ k, ((selectorAfter uses).auto (some x)).1.get k = if k = m then some v else (selectorAfter uses).get k := by
  rcases auto_eq (selOk_after uses) x m hm with ⟨v, h1, e⟩ | ⟨d, v, h1, h2, h3, _, e⟩
  · refine ⟨v, by rw [e], .inl h1, fun k => ?_⟩
    rw [e]
    by_cases hk : k = m
    · rw [if_pos hk, hk, h1]
    · rw [if_neg hk]
  · refine ⟨v, by rw [e], .inr ⟨h1, d, h2, h3⟩, fun k => ?_⟩
    rw [e, get_store, if_neg (by simp)]

/-- **C54**: an argument that is not a scan is refused, and so is a scan without a command; the
selector stays as it is. -/
theorem C54_auto_refused (uses : List Use) :
    (selectorAfter uses).auto none = (selectorAfter uses, .error .UnexpectedObjectTypeError) ∧
    ∀ x, macroOf x = none → (selectorAfter uses).auto (some x) = (selectorAfter uses, .error .IndexError) := by
  exact ⟨rfl, fun x hx => auto_nil _ x hx⟩

/-- **C54**: after every history there is a default image maker, and only image makers are
registered. -/
theorem C54_default (uses : List Use) :
    (∃ d, (selectorAfter uses).get p!"__default__" = some d) ∧
    ∀ k n, (selectorAfter uses).get k ≠ some (.alien n) :=
  ⟨(selOk_after uses).default, fun k n h => by have := (selOk_after uses).makers k _ h; cases this⟩

theorem run_kept {w : Option Selector} (h : SelOk (instanceOf w)) (u : Use) (k : Str) (v : Maker)
    (hg : (instanceOf w).get k = some v) (hu : ¬ Changes k u) : (instanceOf (u.run w)).get k = some v := by
  cases u with
  | call => exact hg
  | add key v' d =>
    show (Selector.add key v' d (instanceOf w)).1.get k = some v
    unfold Selector.add
    split
    · exact hg
    · next hx =>
      split
      · exact hg
      · show (Selector.store _ key v' d).get k = some v
        rw [get_store, if_neg (show ¬ (d = true ∧ k = defaultKey) from hu)]
        split
        · next e => subst e; rw [exists_iff, hg] at hx; exact absurd rfl hx
        · exact hg
  | update key v' d =>
    show (Selector.update key v' d (instanceOf w)).1.get k = some v
    unfold Selector.update
    split
    · exact hg
    · split
      · exact hg
      · show (Selector.store _ key v' d).get k = some v
        rw [get_store, if_neg (show ¬ (d = true ∧ k = defaultKey) from fun e => hu (.inr e)), if_neg (fun e => hu (.inl e.symm))]
        exact hg
  | auto x =>
    show ((instanceOf w).auto x).1.get k = some v
    cases x with
    | none => exact hg
    | some x =>
      cases hm : macroOf x with
      | none => rw [auto_nil _ x hm]; exact hg
      | some m =>
        rcases auto_eq h x m hm with ⟨_, _, e⟩ | ⟨d, v', hn, _, _, _, e⟩
        · rw [e]; exact hg
        · rw [e, get_store, if_neg (by simp)]
          split
          · next e => subst e; rw [hg] at hn; cases hn
          · exact hg

/-- **C54**: what is registered under a name stays until that name is updated (or, for the default
image maker, until another one is made the default), whatever else the program does: an automatic
choice is made once. -/
theorem C54_kept (uses more : List Use) (k : Str) (v : Maker) (h : (selectorAfter uses).get k = some v)
    (hm : ∀ u ∈ more, ¬ Changes k u) : (selectorAfter (uses ++ more)).get k = some v := by
  unfold selectorAfter after at *
  rw [List.foldl_append]
  have hok := selOk_after uses
  unfold selectorAfter after at hok
  revert h hok
  generalize uses.foldl Use.run none = w
  intro h hok
  induction more generalizing w with
  | nil => exact h
  | cons u us ih =>
    exact ih (fun u' hu' => hm u' (by simp [hu'])) _ (run_kept hok u k v h (hm u (by simp))) (selOk_run hok u)

/-- **C54**: `add` refuses a known name with KeyError, `update` an unknown one, and both refuse what
is not an image maker; then nothing changes. -/
theorem C54_refused (uses : List Use) (key : Str) (v : Maker) (d : Bool) :
    ((selectorAfter uses).get key ≠ none →
      Selector.add key v d (selectorAfter uses) = (selectorAfter uses, some .KeyError)) ∧
    ((selectorAfter uses).get key = none →
      Selector.update key v d (selectorAfter uses) = (selectorAfter uses, some .KeyError)) ∧
    (∀ n, v = .alien n →
      ((selectorAfter uses).get key = none →
        Selector.add key v d (selectorAfter uses) = (selectorAfter uses, some .UnexpectedObjectTypeError)) ∧
      ((selectorAfter uses).get key ≠ none →
        Selector.update key v d (selectorAfter uses) = (selectorAfter uses, some .UnexpectedObjectTypeError))) := by
  have hs : ∀ k, (selectorAfter uses).get k ≠ none ↔ (selectorAfter uses).exists? k = true := by
    intro k
    rw [exists_iff]
    cases (selectorAfter uses).get k <;> simp
  have hn : ∀ k, (selectorAfter uses).get k = none ↔ (selectorAfter uses).exists? k = false := by
    intro k
    rw [exists_iff]
    cases (selectorAfter uses).get k <;> simp
  refine ⟨fun h => ?_, fun h => ?_, fun n he => ?_⟩
  · unfold Selector.add; rw [if_pos ((hs _).1 h)]; rfl
  · unfold Selector.update; rw [if_pos ((hn _).1 h)]; rfl
  · have hv : v.isImageMaker = false := by rw [he]; rfl
    refine ⟨fun h => ?_, fun h => ?_⟩
    · unfold Selector.add; rw [(hn _).1 h, if_neg (by simp), if_pos hv]; rfl
    · unfold Selector.update; rw [(hs _).1 h, if_neg (by simp), if_pos hv]; rfl

/-- **C54**: in all other cases `add` and `update` register the image maker, as the default too if
asked, and change nothing else. -/
theorem C54_registered (uses : List Use) (key : Str) (v : Maker) (d : Bool) (hal : ∀ n, v ≠ .alien n) :
    ∃ s', (∀ k, s'.get k = if (d = true ∧ k = p!"__default__") ∨ k = key then some v else (selectorAfter uses).get k) ∧
      ((selectorAfter uses).get key = none → Selector.add key v d (selectorAfter uses) = (s', none)) ∧
      ((selectorAfter uses).get key ≠ none → Selector.update key v d (selectorAfter uses) = (s', none)) := by
  have hv : v.isImageMaker = true := by cases v <;> first | rfl | exact absurd rfl (hal _)
  refine ⟨(selectorAfter uses).store key v d, fun k => ?_, fun h => ?_, fun h => ?_⟩
  · rw [get_store]
    by_cases h1 : d = true ∧ k = defaultKey
    · rw [if_pos h1, if_pos (.inl h1)]
    · rw [if_neg h1]
      by_cases h2 : k = key
      · rw [if_pos h2, if_pos (.inr h2)]
      · rw [if_neg h2, if_neg (by rintro (h | h); exacts [h1 h, h2 h])]
  · unfold Selector.add
    rw [exists_iff, h, if_neg (by simp), if_neg (by simp [hv])]; rfl
  · unfold Selector.update
    rw [exists_iff, if_neg (by cases hg : (selectorAfter uses).get key <;> simp_all), if_neg (by simp [hv])]; rfl

/-- **C54**: the selector is a singleton: calling the class again gives the same object, with all that
was registered. -/
theorem C54_singleton (uses : List Use) : selectorAfter (uses ++ [.call]) = selectorAfter uses := by
  unfold selectorAfter after
  rw [List.foldl_append]
  rfl

/-- C54: a scan by the macro `logxscan` -/
def selectDemo : Obj := { Obj.newScan p!"f" 0 [] with scanCmd := p!"logxscan  a 1 2 3" }

/-- C54: a program that registers its own image maker for a macro and makes another the default -/
def selectUses : List Use := [.auto (some selectDemo), .update p!"logxscan" (.custom 1) false,
  .add p!"loopscan" (.custom 2) true, .add p!"loopscan" .line false]

theorem C54_nonvacuous : macroOf selectDemo = some p!"logxscan" ∧
    (selectorAfter []).get p!"logxscan" = none ∧
    (selectorAfter [.auto (some selectDemo)]).get p!"logxscan" = some .line ∧
    (selectorAfter selectUses).get p!"logxscan" = some (.custom 1) ∧
    (selectorAfter selectUses).get p!"__default__" = some (.custom 2) ∧
    (selectorAfter selectUses).get p!"loopscan" = some (.custom 2) := by decide +kernel

end S2N.Props
