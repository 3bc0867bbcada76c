import Verif.Py.Num
/-
A small backtracking regular-expression engine with the matching order of
Python's `re` (list of successes, first alternative first, greedy repetition
longest first), enough for the expressions used in /repo.  `Lang` is the
declarative language; `run` is proved sound and complete for it.
-/
namespace S2N
namespace Py

/-- Regular expressions: character class, sequence, ordered alternative,
greedy `p*` on a character class, capturing group. -/
inductive Re
  | eps
  | cls (p : Char → Bool)
  | seq (a b : Re)
  | alt (a b : Re)
  | star (p : Char → Bool)
  | grp (r : Re)

namespace Re

/-- the text `s` taken literally -/
def lit : Str → Re
  | [] => eps
  | c :: cs => seq (cls (· == c)) (lit cs)

/-- `p+` -/
def plus (p : Char → Bool) : Re := seq (cls p) (star p)

/-- `r?` -/
def opt (r : Re) : Re := alt r eps

/-- concatenation of a list -/
def cat : List Re → Re
  | [] => eps
  | [r] => r
  | r :: rs => seq r (cat rs)

/-- `(a|b|...)` of a list (the empty list never matches) -/
def alts : List Re → Re
  | [] => cls (fun _ => false)
  | [r] => r
  | r :: rs => alt r (alts rs)

/-- remaining texts after `p*`, longest match first -/
def runStar (p : Char → Bool) : Str → List Str
  | [] => [[]]
  | c :: cs => if p c then runStar p cs ++ [c :: cs] else [c :: cs]

/-- all successes in the order in which Python's engine finds them:
captured groups and remaining text. -/
def run : Re → Str → List (List Str × Str)
  | eps, s => [([], s)]
  | cls _, [] => []
  | cls p, c :: cs => if p c then [([], cs)] else []
  | seq a b, s => (run a s).flatMap (fun x => (run b x.2).map (fun y => (x.1 ++ y.1, y.2)))
  | alt a b, s => run a s ++ run b s
  | star p, s => (runStar p s).map (fun r => ([], r))
  | grp r, s => (run r s).map (fun x => (s.take (s.length - x.2.length) :: x.1, x.2))

/-- `re.match(r, s)`: groups and remaining text of the first success. -/
def first (r : Re) (s : Str) : Option (List Str × Str) := (run r s).head?

/-- `re.match(r + "$", s)`: the first success that ends at the end of the text
or before a final newline. -/
def firstEnd (r : Re) (s : Str) : Option (List Str × Str) :=
  (run r s).find? (fun x => x.2 == [] || x.2 == ['\n'])

/-- Declarative language with captures. -/
inductive Lang : Re → Str → List Str → Prop
  | eps : Lang eps [] []
  | cls {p c} : p c = true → Lang (cls p) [c] []
  | seq {a b s t g h} : Lang a s g → Lang b t h → Lang (seq a b) (s ++ t) (g ++ h)
  | altL {a b s g} : Lang a s g → Lang (alt a b) s g
  | altR {a b s g} : Lang b s g → Lang (alt a b) s g
  | star {p s} : (∀ c ∈ s, p c = true) → Lang (star p) s []
  | grp {r s g} : Lang r s g → Lang (grp r) s (s :: g)

theorem runStar_sound (p : Char → Bool) (s r : Str) (h : r ∈ runStar p s) :
    ∃ w, s = w ++ r ∧ ∀ c ∈ w, p c = true := by
  induction s with
  | nil => simp only [runStar, List.mem_singleton] at h; exact ⟨[], by simp [h], by simp⟩
  | cons c cs ih =>
    unfold runStar at h
    split at h
    · next hp =>
      rcases List.mem_append.1 h with h | h
      · obtain ⟨w, e, hw⟩ := ih h
        exact ⟨c :: w, by simp [e], by simpa [hp] using hw⟩
      · simp only [List.mem_singleton] at h
        exact ⟨[], by simp [h], by simp⟩
    · simp only [List.mem_singleton] at h
      exact ⟨[], by simp [h], by simp⟩

theorem runStar_complete (p : Char → Bool) (w r : Str) (hw : ∀ c ∈ w, p c = true) :
    r ∈ runStar p (w ++ r) := by
  induction w with
  | nil =>
    cases r with
    | nil => simp [runStar]
    | cons c cs => simp only [List.nil_append, runStar]; split <;> simp
  | cons c cs ih =>
    have h1 : p c = true := hw c (by simp)
    simp only [List.cons_append, runStar, h1, if_true, List.mem_append]
    exact Or.inl (ih fun d hd => hw d (by simp [hd]))

theorem run_sound (r : Re) : ∀ (s : Str) (g : List Str) (t : Str), (g, t) ∈ run r s →
    ∃ w, s = w ++ t ∧ Lang r w g := by
  induction r with
  | eps => intro s g t h; simp only [run, List.mem_singleton, Prod.mk.injEq] at h
           exact ⟨[], by simp [h.2], by rw [h.1]; exact .eps⟩
  | cls p =>
    intro s g t h
    cases s with
    | nil => simp [run] at h
    | cons c cs =>
      unfold run at h
      split at h
      · next hp =>
        simp only [List.mem_singleton, Prod.mk.injEq] at h
        exact ⟨[c], by simp [h.2], by rw [h.1]; exact .cls hp⟩
      · simp at h
  | seq a b iha ihb =>
    intro s g t h
    simp only [run, List.mem_flatMap, List.mem_map, Prod.exists, Prod.mk.injEq] at h
    obtain ⟨g1, t1, h1, g2, t2, h2, e1, e2⟩ := h
    obtain ⟨w1, ew1, l1⟩ := iha _ _ _ h1
    obtain ⟨w2, ew2, l2⟩ := ihb _ _ _ h2
    subst e1 e2
    exact ⟨w1 ++ w2, by rw [ew1, ew2, List.append_assoc], .seq l1 l2⟩
  | alt a b iha ihb =>
    intro s g t h
    simp only [run, List.mem_append] at h
    rcases h with h | h
    · obtain ⟨w, e, l⟩ := iha _ _ _ h; exact ⟨w, e, .altL l⟩
    · obtain ⟨w, e, l⟩ := ihb _ _ _ h; exact ⟨w, e, .altR l⟩
  | star p =>
    intro s g t h
    simp only [run, List.mem_map, Prod.mk.injEq] at h
    obtain ⟨r, hr, e1, e2⟩ := h
    subst e1 e2
    obtain ⟨w, e, hw⟩ := runStar_sound _ _ _ hr
    exact ⟨w, e, .star hw⟩
  | grp r ih =>
    intro s g t h
    simp only [run, List.mem_map, Prod.exists, Prod.mk.injEq] at h
    obtain ⟨g1, t1, h1, e1, e2⟩ := h
    obtain ⟨w, e, l⟩ := ih _ _ _ h1
    subst e2 e1
    refine ⟨w, e, ?_⟩
    have : s.take (s.length - t1.length) = w := by subst e; simp
    rw [this]; exact .grp l

theorem run_complete {r : Re} {w : Str} {g : List Str} (h : Lang r w g) :
    ∀ t, (g, t) ∈ run r (w ++ t) := by
  induction h with
  | eps => intro t; simp [run]
  | cls hp => intro t; simp [run, hp]
  | @seq a b s t' g1 g2 _ _ ih1 ih2 =>
    intro t
    simp only [run, List.mem_flatMap, List.mem_map, Prod.exists, Prod.mk.injEq]
    exact ⟨g1, t' ++ t, by rw [List.append_assoc]; exact ih1 _, g2, t, ih2 t, rfl, rfl⟩
  | altL _ ih => intro t; simp only [run, List.mem_append]; exact Or.inl (ih t)
  | altR _ ih => intro t; simp only [run, List.mem_append]; exact Or.inr (ih t)
  | star hs =>
    intro t
    simp only [run, List.mem_map, Prod.mk.injEq]
    exact ⟨t, runStar_complete _ _ _ hs, by simp⟩
  | @grp r s g _ ih =>
    intro t
    simp only [run, List.mem_map, Prod.exists, Prod.mk.injEq]
    exact ⟨g, t, ih t, by simp, rfl⟩

/-- `r` matches some prefix of `s` exactly when `first` finds a success. -/
theorem first_isSome (r : Re) (s : Str) :
    (first r s).isSome = true ↔ ∃ w t g, s = w ++ t ∧ Lang r w g := by
  unfold first
  constructor
  · intro h
    obtain ⟨x, hx⟩ := Option.isSome_iff_exists.1 h
    have hm := List.mem_of_head? hx
    obtain ⟨w, e, l⟩ := run_sound r s x.1 x.2 hm
    exact ⟨w, x.2, x.1, e, l⟩
  · rintro ⟨w, t, g, rfl, l⟩
    have := run_complete l t
    cases h : run r (w ++ t) with
    | nil => simp [h] at this
    | cons a as => simp

theorem first_sound {r : Re} {s : Str} {g : List Str} {t : Str} (h : first r s = some (g, t)) :
    ∃ w, s = w ++ t ∧ Lang r w g := run_sound r s g t (List.mem_of_head? h)

theorem firstEnd_isSome (r : Re) (s : Str) :
    (firstEnd r s).isSome = true ↔ ∃ w g, (s = w ∨ s = w ++ ['\n']) ∧ Lang r w g := by
  unfold firstEnd
  rw [List.find?_isSome]
  constructor
  · rintro ⟨⟨g, t⟩, hm, ht⟩
    obtain ⟨w, e, l⟩ := run_sound r s g t hm
    refine ⟨w, g, ?_, l⟩
    simp only [Bool.or_eq_true, beq_iff_eq] at ht
    rcases ht with ht | ht <;> subst ht <;> simp_all
  · rintro ⟨w, g, e, l⟩
    rcases e with rfl | rfl
    · exact ⟨(g, []), by simpa using run_complete l [], by simp⟩
    · exact ⟨(g, ['\n']), run_complete l _, by simp⟩

/-! heads of successes, for symbolic evaluation -/

theorem first_seq {a b : Re} {s : Str} {g t h u} (ha : first a s = some (g, t))
    (hb : first b t = some (h, u)) : first (seq a b) s = some (g ++ h, u) := by
  unfold first at *
  cases e : run a s with
  | nil => simp [e] at ha
  | cons x xs =>
    simp only [e, List.head?_cons, Option.some.injEq] at ha
    subst ha
    cases e2 : run b t with
    | nil => simp [e2] at hb
    | cons y ys =>
      simp only [e2, List.head?_cons, Option.some.injEq] at hb
      subst hb
      simp [run, e, e2]

theorem first_altL {a b : Re} {s : Str} {x} (ha : first a s = some x) :
    first (alt a b) s = some x := by
  unfold first at *
  simp only [run, List.head?_append, ha, Option.some_or]

theorem first_altR {a b : Re} {s : Str} (ha : first a s = none) :
    first (alt a b) s = first b s := by
  unfold first at *
  simp only [run, List.head?_append, ha, Option.none_or]

theorem first_grp {a : Re} {w : Str} {g t} (ha : first a (w ++ t) = some (g, t)) :
    first (grp a) (w ++ t) = some (w :: g, t) := by
  unfold first at *
  simp only [run, List.head?_map, ha, Option.map_some]
  simp

theorem first_cls {p : Char → Bool} {c : Char} {t : Str} (h : p c = true) :
    first (cls p) (c :: t) = some ([], t) := by simp [first, run, h]

theorem runStar_append (p : Char → Bool) (w t : Str) (hw : ∀ c ∈ w, p c = true)
    (ht : ∀ c, t.head? = some c → p c = false) : (runStar p (w ++ t)).head? = some t := by
  induction w with
  | nil =>
    cases t with
    | nil => rfl
    | cons c cs => simp [runStar, ht c rfl]
  | cons c cs ih =>
    have h1 : p c = true := hw c (by simp)
    simp only [List.cons_append, runStar, h1, if_true]
    rw [List.head?_append, ih fun d hd => hw d (by simp [hd])]
    rfl

theorem first_star {p : Char → Bool} {w t : Str} (hw : ∀ c ∈ w, p c = true)
    (ht : ∀ c, t.head? = some c → p c = false) : first (star p) (w ++ t) = some ([], t) := by
  unfold first
  simp only [run, List.head?_map, runStar_append p w t hw ht, Option.map_some]

theorem first_plus {p : Char → Bool} {w t : Str} (hne : w ≠ []) (hw : ∀ c ∈ w, p c = true)
    (ht : ∀ c, t.head? = some c → p c = false) : first (plus p) (w ++ t) = some ([], t) := by
  cases w with
  | nil => exact absurd rfl hne
  | cons c cs =>
    have h1 := first_cls (p := p) (t := cs ++ t) (hw c (by simp))
    have h2 := first_star (p := p) (w := cs) (t := t) (fun d hd => hw d (by simp [hd])) ht
    exact first_seq h1 h2

theorem first_lit (w t : Str) : first (lit w) (w ++ t) = some ([], t) := by
  induction w with
  | nil => rfl
  | cons c cs ih => exact first_seq (first_cls (by simp)) ih

theorem lang_lit {w s : Str} {g : List Str} : Lang (lit w) s g ↔ s = w ∧ g = [] := by
  induction w generalizing s g with
  | nil =>
    constructor
    · intro h; cases h; exact ⟨rfl, rfl⟩
    · rintro ⟨rfl, rfl⟩; exact .eps
  | cons c cs ih =>
    constructor
    · intro h
      cases h with
      | seq h1 h2 =>
        cases h1 with
        | cls hc =>
          have := ih.1 h2
          simp only [beq_iff_eq] at hc
          simp [hc, this]
    · rintro ⟨rfl, rfl⟩
      have h1 : Lang (cls (· == c)) [c] [] := .cls (by simp)
      exact Lang.seq h1 (ih.2 ⟨rfl, rfl⟩)

theorem lang_plus {p : Char → Bool} {s : Str} {g : List Str} :
    Lang (plus p) s g ↔ s ≠ [] ∧ (∀ c ∈ s, p c = true) ∧ g = [] := by
  constructor
  · intro h
    cases h with
    | seq h1 h2 =>
      cases h1 with
      | cls hc =>
        cases h2 with
        | star hs => refine ⟨by simp, ?_, rfl⟩
                     intro d hd
                     rcases List.mem_cons.1 (by simpa using hd) with e | e
                     · exact e ▸ hc
                     · exact hs d e
  · rintro ⟨hne, hs, rfl⟩
    cases s with
    | nil => exact absurd rfl hne
    | cons c cs =>
      have h1 : Lang (cls p) [c] [] := .cls (hs c (by simp))
      exact Lang.seq h1 (.star fun d hd => hs d (by simp [hd]))

theorem lang_star {p : Char → Bool} {s : Str} {g : List Str} :
    Lang (star p) s g ↔ (∀ c ∈ s, p c = true) ∧ g = [] := by
  constructor
  · intro h; cases h with | star hs => exact ⟨hs, rfl⟩
  · rintro ⟨h, rfl⟩; exact .star h

theorem lang_cls {p : Char → Bool} {s : Str} {g : List Str} :
    Lang (cls p) s g ↔ (∃ c, s = [c] ∧ p c = true) ∧ g = [] := by
  constructor
  · intro h; cases h with | cls hs => exact ⟨⟨_, rfl, hs⟩, rfl⟩
  · rintro ⟨⟨c, rfl, h⟩, rfl⟩; exact .cls h

theorem lang_seq {a b : Re} {s : Str} {g : List Str} :
    Lang (seq a b) s g ↔ ∃ s1 s2 g1 g2, s = s1 ++ s2 ∧ g = g1 ++ g2 ∧ Lang a s1 g1 ∧ Lang b s2 g2 := by
  constructor
  · intro h; cases h with | seq h1 h2 => exact ⟨_, _, _, _, rfl, rfl, h1, h2⟩
  · rintro ⟨s1, s2, g1, g2, rfl, rfl, h1, h2⟩; exact .seq h1 h2

theorem lang_alt {a b : Re} {s : Str} {g : List Str} :
    Lang (alt a b) s g ↔ Lang a s g ∨ Lang b s g := by
  constructor
  · intro h; cases h with
    | altL h => exact .inl h
    | altR h => exact .inr h
  · rintro (h | h)
    · exact .altL h
    · exact .altR h

theorem lang_grp {a : Re} {s : Str} {g : List Str} :
    Lang (grp a) s g ↔ ∃ g', g = s :: g' ∧ Lang a s g' := by
  constructor
  · intro h; cases h with | grp h => exact ⟨_, rfl, h⟩
  · rintro ⟨g', rfl, h⟩; exact .grp h

theorem lang_eps {s : Str} {g : List Str} : Lang eps s g ↔ s = [] ∧ g = [] := by
  constructor
  · intro h; cases h; exact ⟨rfl, rfl⟩
  · rintro ⟨rfl, rfl⟩; exact .eps

end Re
end Py
end S2N
