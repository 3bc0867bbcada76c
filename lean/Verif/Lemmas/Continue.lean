import Verif.Lemmas.Interp
/-
Lines continued by a backslash.
-/
namespace S2N.Props
open S2N S2N.Py S2N.Spec

theorem replace2_cont (rest : Str) : ∀ (p : Str), '\n' ∉ p →
    replace2 '\\' '\n' [' '] (p ++ '\\' :: '\n' :: rest) = p ++ ' ' :: replace2 '\\' '\n' [' '] rest
  | [], _ => by simp [replace2]
  | c :: p, h => by
    have hp : '\n' ∉ p := fun hc => h (by simp [hc])
    have ih := replace2_cont rest p hp
    cases p with
    | nil =>
      simp only [List.cons_append, List.nil_append] at ih ⊢
      rw [replace2, if_neg (by simp), ih]
    | cons d p =>
      simp only [List.cons_append] at ih ⊢
      rw [replace2, if_neg (by rintro ⟨_, e⟩; exact hp (by simp [e])), ih]

theorem replace2_nl (rest : Str) : ∀ (p : Str), '\n' ∉ p → p.getLast? ≠ some '\\' →
    replace2 '\\' '\n' [' '] (p ++ '\n' :: rest) = p ++ '\n' :: replace2 '\\' '\n' [' '] rest
  | [], _, _ => by
    cases rest with
    | nil => rfl
    | cons d ds => rw [List.nil_append, replace2, if_neg (by simp)]; rfl
  | c :: p, h, hl => by
    have hp : '\n' ∉ p := fun hc => h (by simp [hc])
    cases p with
    | nil =>
      have hc : c ≠ '\\' := by rintro rfl; exact hl rfl
      have ih := replace2_nl rest [] hp (by simp)
      simp only [List.cons_append, List.nil_append] at ih ⊢
      rw [replace2, if_neg (by rintro ⟨e, _⟩; exact hc e), ih]
    | cons d p =>
      have ih := replace2_nl rest (d :: p) hp (by simpa using hl)
      simp only [List.cons_append] at ih ⊢
      rw [replace2, if_neg (by rintro ⟨_, e⟩; exact hp (by simp [e])), ih]

theorem replace2_id : ∀ (p : Str), '\n' ∉ p → replace2 '\\' '\n' [' '] p = p
  | [], _ => rfl
  | [c], _ => rfl
  | c :: d :: p, h => by
    rw [replace2, if_neg (by rintro ⟨_, e⟩; exact h (by simp [e])),
      replace2_id (d :: p) (fun hc => h (by simp [List.mem_cons] at hc ⊢; tauto))]

theorem no_nl {p : Str} (h : ∀ c ∈ p, isLineBreak c = false) : '\n' ∉ p := fun hc => by
  have := h _ hc; exact absurd this (by decide)

theorem replace2_group (rest : Str) : ∀ (ps : List Str), Parts ps →
    replace2 '\\' '\n' [' '] (continued ps ++ '\n' :: rest) =
      join [' '] ps ++ '\n' :: replace2 '\\' '\n' [' '] rest
  | [], h => absurd rfl h.1
  | [p], h => replace2_nl rest p (no_nl (h.2.1 p (by simp))) (h.2.2 p rfl)
  | p :: q :: ps, h => by
    have h' : Parts (q :: ps) := ⟨by simp, fun x hx => h.2.1 x (by simp [hx]), fun x hx => h.2.2 x (by simpa using hx)⟩
    have ih := replace2_group rest (q :: ps) h'
    unfold continued at ih ⊢
    rw [join_cons ['\\', '\n'] p (q :: ps) (by simp), join_cons [' '] p (q :: ps) (by simp), List.append_assoc, List.append_assoc,
      List.cons_append, List.cons_append, List.nil_append, replace2_cont _ _ (no_nl (h.2.1 p (by simp))), ih]
    simp

theorem replace2_group_last : ∀ (ps : List Str), Parts ps →
    replace2 '\\' '\n' [' '] (continued ps) = join [' '] ps
  | [], h => absurd rfl h.1
  | [p], h => replace2_id p (no_nl (h.2.1 p (by simp)))
  | p :: q :: ps, h => by
    have h' : Parts (q :: ps) := ⟨by simp, fun x hx => h.2.1 x (by simp [hx]), fun x hx => h.2.2 x (by simpa using hx)⟩
    have ih := replace2_group_last (q :: ps) h'
    unfold continued at ih ⊢
    rw [join_cons ['\\', '\n'] p (q :: ps) (by simp), join_cons [' '] p (q :: ps) (by simp), List.append_assoc,
      List.cons_append, List.cons_append, List.nil_append, replace2_cont _ _ (no_nl (h.2.1 p (by simp))), ih]
    simp

theorem replace2_groups : ∀ (gs : List (List Str)), (∀ g ∈ gs, Parts g) →
    replace2 '\\' '\n' [' '] (join ['\n'] (gs.map continued)) = join ['\n'] (gs.map (join [' ']))
  | [], _ => rfl
  | [g], h => replace2_group_last g (h g (by simp))
  | g :: g2 :: gs, h => by
    rw [List.map_cons, List.map_cons, join_cons _ _ _ (by simp), List.append_assoc, List.singleton_append,
      ← List.map_cons, replace2_group _ g (h g (by simp)),
      replace2_groups (g2 :: gs) (fun x hx => h x (by simp [hx])), List.map_cons (l := g2 :: gs),
      join_cons _ _ _ (by simp), List.append_assoc, List.singleton_append]

theorem join_nobreak : ∀ (ps : List Str), (∀ p ∈ ps, ∀ c ∈ p, isLineBreak c = false) →
    ∀ c ∈ join [' '] ps, isLineBreak c = false
  | [], _ => by simp [join]
  | [p], h => h p (by simp)
  | p :: q :: ps, h => by
    intro c hc
    rw [join_cons _ _ _ (by simp)] at hc
    simp only [List.mem_append, List.mem_singleton] at hc
    rcases hc with (hc | hc) | hc
    · exact h p (by simp) c hc
    · subst hc; decide
    · exact join_nobreak (q :: ps) (fun x hx => h x (by simp [hx])) c hc

/-- the lines of a scan whose text has continued lines -/
theorem scanLines_groups (gs : List (List Str)) (h : ∀ g ∈ gs, Parts g)
    (hl : ∀ g, gs.getLast? = some g → join [' '] g ≠ []) :
    scanLines (join ['\n'] (gs.map continued)) = gs.map (join [' ']) := by
  unfold scanLines
  rw [replace2_groups gs h]
  apply splitlines_join
  · intro l hl'
    obtain ⟨g, h1, rfl⟩ := List.mem_map.1 hl'
    exact join_nobreak g (h g h1).2.1
  · intro hc
    rw [List.getLast?_map] at hc
    cases hg : gs.getLast? with
    | none => rw [hg] at hc; cases hc
    | some g =>
      rw [hg] at hc
      simp only [Option.map_some, Option.some.injEq] at hc
      exact hl g hg hc

/-- the lines of a scan whose text has no continued lines -/
theorem scanLines_join (ls : List Str) (h : ∀ l ∈ ls, (∀ c ∈ l, isLineBreak c = false) ∧ l.getLast? ≠ some '\\')
    (hl : ls.getLast? ≠ some []) : scanLines (join ['\n'] ls) = ls := by
  have := scanLines_groups (ls.map (fun l => [l])) (by
    intro g hg
    obtain ⟨l, h1, rfl⟩ := List.mem_map.1 hg
    refine ⟨by simp, ?_, ?_⟩
    · intro p hp; rw [List.mem_singleton.1 hp]; exact (h l h1).1
    · intro p hp; simp at hp; subst hp; exact (h l h1).2) (by
    intro g hg
    rw [List.getLast?_map] at hg
    cases hx : ls.getLast? with
    | none => rw [hx] at hg; cases hg
    | some l =>
      rw [hx] at hg; cases hg
      show l ≠ []
      rintro rfl
      exact hl hx)
  rw [List.map_map, List.map_map] at this
  have e1 : (continued ∘ fun l => [l]) = id := by funext l; rfl
  have e2 : (join [' '] ∘ fun l => [l]) = id := by funext l; rfl
  rw [e1, e2, List.map_id] at this
  exact this

end S2N.Props
