import Verif.Model.H5
import Verif.Py.StrLemmas
import Mathlib.Data.List.Induction
/-
Lemmas about the HDF5 model: paths, and which nodes an operation can change.
-/
namespace S2N
open Py

namespace Dict
variable {α : Type}

theorem mem_set {d : Dict α} {k : Str} {v : α} {p : Str × α} (h : p ∈ d.set k v) :
    p = (k, v) ∨ p ∈ d := by
  induction d with
  | nil => simpa [set] using h
  | cons a d ih =>
    obtain ⟨k', v'⟩ := a
    unfold set at h
    by_cases hk : k' = k
    · rw [if_pos hk] at h
      rcases List.mem_cons.mp h with h | h
      · left; rw [h, hk]
      · right; exact List.mem_cons_of_mem _ h
    · rw [if_neg hk] at h
      rcases List.mem_cons.mp h with h | h
      · right; rw [h]; exact List.mem_cons_self ..
      · rcases ih h with h | h
        · exact Or.inl h
        · exact Or.inr (List.mem_cons_of_mem _ h)

theorem mem_del {d : Dict α} {k : Str} {p : Str × α} (h : p ∈ d.del k) : p ∈ d := by
  induction d with
  | nil => simpa [del] using h
  | cons a d ih =>
    obtain ⟨k', v'⟩ := a
    unfold del at h
    by_cases hk : k' = k
    · rw [if_pos hk] at h; exact List.mem_cons_of_mem _ h
    · rw [if_neg hk] at h
      rcases List.mem_cons.mp h with h | h
      · rw [h]; exact List.mem_cons_self ..
      · exact List.mem_cons_of_mem _ (ih h)

theorem mem_of_get? {d : Dict α} {k : Str} {v : α} (h : d.get? k = some v) : (k, v) ∈ d := by
  induction d with
  | nil => simp [get?] at h
  | cons a d ih =>
    obtain ⟨k', v'⟩ := a
    rw [get?_cons] at h
    by_cases hk : k' = k
    · rw [if_pos hk] at h
      injection h with h
      rw [hk, h]; exact List.mem_cons_self ..
    · rw [if_neg hk] at h; exact List.mem_cons_of_mem _ (ih h)

theorem get?_del_ne (d : Dict α) {k k2 : Str} (h : k2 ≠ k) : (d.del k).get? k2 = d.get? k2 := by
  induction d with
  | nil => rfl
  | cons a d ih =>
    obtain ⟨k', v'⟩ := a
    unfold del
    by_cases hk : k' = k
    · rw [if_pos hk, get?_cons, if_neg (fun e => h (e.symm.trans hk))]
    · rw [if_neg hk, get?_cons, get?_cons, ih]

theorem has_del_self (d : Dict α) (k : Str) (h : (keys d).Nodup) : (d.del k).has k = false := by
  rw [not_has_iff, keys_del]
  intro hm
  exact absurd hm (List.Nodup.not_mem_erase h)

theorem del_of_not_has (d : Dict α) (k : Str) (h : d.has k = false) : d.del k = d := by
  induction d with
  | nil => rfl
  | cons a d ih =>
    obtain ⟨k', v'⟩ := a
    have hk : k' ≠ k := by
      intro e
      rw [has, get?_cons, if_pos e] at h
      cases h
    unfold del
    rw [if_neg hk, ih]
    rw [has, get?_cons, if_neg hk] at h
    exact h

end Dict

namespace H5

/-! ### paths -/

/-- an ASCII name without "/" -/
structure Plain (c : Str) : Prop where
  ne : c ≠ []
  dot : c ≠ ['.']
  chars : ∀ x ∈ c, x ≠ '/' ∧ x.toNat < 128

instance (c : Str) : Decidable (Plain c) :=
  decidable_of_iff (c ≠ [] ∧ c ≠ ['.'] ∧ ∀ x ∈ c, x ≠ '/' ∧ x.toNat < 128)
    ⟨fun h => ⟨h.1, h.2.1, h.2.2⟩, fun h => ⟨h.1, h.2, h.3⟩⟩

/-- a name without "/", which is one component -/
structure Single (c : Str) : Prop where
  ne : c ≠ []
  dot : c ≠ ['.']
  chars : '/' ∉ c

theorem Plain.single {c : Str} (h : Plain c) : Single c :=
  ⟨h.ne, h.dot, fun hm => (h.chars _ hm).1 rfl⟩

theorem comps_single {c : Str} (h : Single c) : comps c = [c] := by
  unfold comps splitC
  rw [splitP_of_none _ _ (by intro x hx; simp; intro e; exact h.chars (e ▸ hx))]
  have h1 : (c == ([] : Str)) = false := beq_eq_false_iff_ne.mpr h.ne
  have h2 : (c == ['.']) = false := beq_eq_false_iff_ne.mpr h.dot
  rw [List.filter_cons, h1, h2]
  rfl

theorem absolute_single {c : Str} (h : Single c) : absolute c = false := by
  cases c with
  | nil => exact absurd rfl h.ne
  | cons x xs =>
    have : x ≠ '/' := by
      intro e; exact h.chars (by rw [e]; exact List.mem_cons_self ..)
    show ('/' == x && _) = false
    rw [beq_eq_false_iff_ne.mpr (Ne.symm this)]
    rfl

theorem comps_cons_slash (t : Str) : comps ('/' :: t) = comps t := by
  unfold comps splitC
  rw [splitP_cons_true (by decide)]
  rfl

theorem comps_append_slash {c : Str} (h : Single c) (t : Str) :
    comps (c ++ '/' :: t) = c :: comps t := by
  unfold comps splitC
  rw [splitP_append_sep _ _ _ _ (by intro x hx; simp; intro e; exact h.chars (e ▸ hx)) (by decide)]
  have h1 : (c == ([] : Str)) = false := beq_eq_false_iff_ne.mpr h.ne
  have h2 : (c == ['.']) = false := beq_eq_false_iff_ne.mpr h.dot
  rw [List.filter_cons, h1, h2]
  rfl

theorem ascii_plain {c : Str} (h : Plain c) : ascii c = c := by
  unfold ascii
  rw [List.filter_eq_self]
  intro x hx
  simpa using (h.chars x hx).2

theorem ascii_append (a b : Str) : ascii (a ++ b) = ascii a ++ ascii b := by
  simp [ascii]

theorem ascii_slash (b : Str) : ascii ('/' :: b) = '/' :: ascii b := rfl

/-- the ASCII form of the name of an object below `/E/c` leads to `/E/c` first -/
theorem comps_nameOf {E c : Str} (hE : Plain E) (hc : Plain c) (p : List Str) (i : Nat) (t : Str)
    (ht : t = [] ∨ ∃ u, t = '/' :: u) :
    ∃ q, comps (ascii (nameOf ⟨i, E :: c :: p⟩ ++ t)) = E :: c :: q := by
  have hn : nameOf ⟨i, E :: c :: p⟩ = '/' :: (E ++ '/' :: join ['/'] (c :: p)) := by
    unfold nameOf
    rw [join_cons _ _ _ (by simp)]
    simp
  have hj : join ['/'] (c :: p) ++ t = c ∨ ∃ u, join ['/'] (c :: p) ++ t = c ++ '/' :: u := by
    cases p with
    | nil =>
      rw [join_singleton]
      rcases ht with rfl | ⟨u, rfl⟩
      · left; simp
      · right; exact ⟨u, rfl⟩
    | cons d p =>
      right
      rw [join_cons _ _ _ (by simp)]
      exact ⟨join ['/'] (d :: p) ++ t, by simp⟩
  have e : ascii (nameOf ⟨i, E :: c :: p⟩ ++ t) =
      '/' :: (E ++ '/' :: ascii (join ['/'] (c :: p) ++ t)) := by
    rw [hn]
    simp only [List.cons_append, List.append_assoc, ascii_slash, ascii_append, ascii_plain hE]
  rw [e, comps_cons_slash, comps_append_slash hE.single]
  rcases hj with h | ⟨u, h⟩
  · rw [h, ascii_plain hc, comps_single hc.single]
    exact ⟨[], rfl⟩
  · rw [h, ascii_append, ascii_slash, ascii_plain hc, comps_append_slash hc.single]
    exact ⟨_, rfl⟩

theorem absolute_nameOf (h : HRef) (t : Str) : absolute (ascii (nameOf h ++ t)) = true := by
  show ['/'].isPrefixOf _ = true
  rw [show ascii (nameOf h ++ t) = '/' :: ascii (join ['/'] h.path ++ t) from rfl]
  rfl

/-! ### well-formed heaps and protected nodes -/

/-- the names of the children of a group differ, and the children exist -/
def WF (s : H5) : Prop :=
  ∀ (i : Nat) (ch : Dict Nat) (a : Dict AVal), s[i]? = some (HNode.group ch a) → (Dict.keys ch).Nodup ∧ ∀ n j, (n, j) ∈ ch → j < s.length

/-- Nodes `D` are protected; work is done at and below the node `e`, which is `/E`; at `e` the
names `X` are not to be used. -/
structure Scope where
  e : Nat
  E : Str
  D : Nat → Prop
  X : Str → Prop

/-- the state of the file during the work in a scope -/
structure Inv (c : Scope) (s : H5) : Prop where
  wf : WF s
  rootD : c.D 0
  notD : ¬ c.D c.e
  plain : Plain c.E
  entry : ∃ ch a, s[0]? = some (.group ch a) ∧ ch.get? c.E = some c.e
  lt : ∀ i, c.D i → i < s.length
  elt : c.e < s.length
  closed : ∀ i, ¬ c.D i → ∀ ch a, s[i]? = some (.group ch a) →
    ∀ n j, (n, j) ∈ ch → j ≠ c.e ∧ (c.D j → i = c.e ∧ c.X n)

/-- the first name of a path may be used at node `i` -/
def Head (c : Scope) (i : Nat) (cs : List Str) : Prop :=
  i = c.e → ∀ n, cs.head? = some n → ¬ c.X n

theorem Inv.step {c : Scope} {s : H5} (h : Inv c s) {i : Nat} (hi : ¬ c.D i) {ch : Dict Nat}
    {a : Dict AVal} (hs : s[i]? = some (.group ch a)) {n : Str} {j : Nat} (hn : ch.get? n = some j)
    (hd : i = c.e → ¬ c.X n) : ¬ c.D j ∧ j ≠ c.e ∧ j < s.length := by
  have hm := Dict.mem_of_get? hn
  obtain ⟨h1, h2⟩ := h.closed i hi ch a hs n j hm
  exact ⟨fun hj => hd (h2 hj).1 (h2 hj).2, h1, (h.wf i ch a hs).2 n j hm⟩

theorem walk_scope {c : Scope} {s : H5} (h : Inv c s) (cs : List Str) :
    ∀ {i j : Nat}, ¬ c.D i → Head c i cs → walk s i cs = some j →
      ¬ c.D j ∧ (cs = [] → j = i) ∧ (cs ≠ [] → j ≠ c.e ∧ j < s.length) := by
  induction cs with
  | nil =>
    intro i j hi _ hw
    simp only [walk, Option.some.injEq] at hw
    subst hw
    exact ⟨hi, fun _ => rfl, fun h => absurd rfl h⟩
  | cons n cs ih =>
    intro i j hi hh hw
    unfold walk at hw
    cases hs : s[i]? with
    | none => simp [hs] at hw
    | some node =>
      cases node with
      | dset d a => simp [hs] at hw
      | group ch a =>
        simp only [hs] at hw
        cases hn : ch.get? n with
        | none => simp [hn] at hw
        | some k =>
          simp only [hn] at hw
          obtain ⟨k1, k2, k3⟩ := h.step hi hs hn (fun e => hh e n rfl)
          obtain ⟨a1, a2, a3⟩ := ih k1 (fun e => absurd e k2) hw
          refine ⟨a1, fun h => by simp at h, fun _ => ?_⟩
          by_cases hcs : cs = []
          · rw [a2 hcs]; exact ⟨k2, k3⟩
          · exact a3 hcs

/-- the nodes of `D` are the same in both states, no node disappears, and the entry is a group with
the same attributes and the same objects under the names of `X` -/
structure Same (c : Scope) (s s' : H5) : Prop where
  eq : ∀ i, c.D i → s'[i]? = s[i]?
  le : s.length ≤ s'.length
  keep : ∀ ch a, s[c.e]? = some (.group ch a) → ∃ ch', s'[c.e]? = some (.group ch' a) ∧
    ∀ n, c.X n → ch'.get? n = ch.get? n

theorem Same.refl (c : Scope) (s : H5) : Same c s s :=
  ⟨fun _ _ => rfl, Nat.le_refl _, fun ch a h => ⟨ch, h, fun _ _ => rfl⟩⟩

theorem Same.trans {c : Scope} {s t u : H5} (h : Same c s t) (k : Same c t u) : Same c s u :=
  ⟨fun i hi => (k.eq i hi).trans (h.eq i hi), Nat.le_trans h.le k.le, fun ch a hs => by
    obtain ⟨ch', h1, h2⟩ := h.keep ch a hs
    obtain ⟨ch2, k1, k2⟩ := k.keep ch' a h1
    exact ⟨ch2, k1, fun n hn => (k2 n hn).trans (h2 n hn)⟩⟩

theorem set_get? (s : H5) (i j : Nat) (n : HNode) (hi : i < s.length) :
    (s.set i n)[j]? = if j = i then some n else s[j]? := by
  rw [List.getElem?_set]
  by_cases h : i = j
  · subst h; simp [hi]
  · rw [if_neg h, if_neg (fun e => h e.symm)]

theorem lt_of_get? {s : H5} {i : Nat} {n : HNode} (h : s[i]? = some n) : i < s.length := by
  rcases Nat.lt_or_ge i s.length with hl | hl
  · exact hl
  · rw [List.getElem?_eq_none hl] at h; cases h

/-- changing a node outside `D` -/
theorem Inv.set {c : Scope} {s : H5} (h : Inv c s) {i : Nat} (hi : ¬ c.D i) (n : HNode)
    (hil : i < s.length)
    (hn : ∀ ch a, n = .group ch a → (Dict.keys ch).Nodup ∧ ∀ m j, (m, j) ∈ ch →
      j < s.length ∧ j ≠ c.e ∧ (c.D j → i = c.e ∧ c.X m))
    (hk : i = c.e → ∀ ch a, s[i]? = some (.group ch a) → ∃ ch', n = .group ch' a ∧
      ∀ m, c.X m → ch'.get? m = ch.get? m) :
    Inv c (s.set i n) ∧ Same c s (s.set i n) := by
  have hsame : ∀ k, c.D k → (s.set i n)[k]? = s[k]? := by
    intro k hk
    rw [set_get? _ _ _ _ hil, if_neg (fun e : k = i => hi (e ▸ hk))]
  refine ⟨⟨?_, h.rootD, h.notD, h.plain, ?_, ?_, ?_, ?_⟩, hsame, by simp, ?_⟩
  · intro k ch a hk
    rw [set_get? _ _ _ _ hil] at hk
    by_cases e : k = i
    · rw [if_pos e] at hk
      injection hk with hk
      refine ⟨(hn ch a hk).1, fun m j hm => ?_⟩
      rw [List.length_set]
      exact ((hn ch a hk).2 m j hm).1
    · rw [if_neg e] at hk
      refine ⟨(h.wf k ch a hk).1, fun m j hm => ?_⟩
      rw [List.length_set]
      exact (h.wf k ch a hk).2 m j hm
  · rw [hsame 0 h.rootD]; exact h.entry
  · intro k hk; rw [List.length_set]; exact h.lt k hk
  · rw [List.length_set]; exact h.elt
  · intro k hk ch a hg m j hm
    rw [set_get? _ _ _ _ hil] at hg
    by_cases e : k = i
    · rw [if_pos e] at hg
      injection hg with hg
      have := (hn ch a hg).2 m j hm
      rw [e]
      exact this.2
    · rw [if_neg e] at hg
      exact h.closed k hk ch a hg m j hm
  · intro ch a he
    rw [set_get? _ _ _ _ hil]
    by_cases e : c.e = i
    · obtain ⟨ch', h1, h2⟩ := hk e.symm ch a (e ▸ he)
      exact ⟨ch', by rw [if_pos e, h1], h2⟩
    · exact ⟨ch, by rw [if_neg e, he], fun _ _ => rfl⟩

/-- adding a node without children -/
theorem Inv.append {c : Scope} {s : H5} (h : Inv c s) (n : HNode)
    (hn : ∀ ch a, n = .group ch a → ch = []) :
    Inv c (s ++ [n]) ∧ Same c s (s ++ [n]) := by
  have hsame : ∀ k, k < s.length → (s ++ [n])[k]? = s[k]? := by
    intro k hk
    rw [List.getElem?_append_left hk]
  have hcase : ∀ k m, (s ++ [n])[k]? = some m → s[k]? = some m ∨ (k = s.length ∧ m = n) := by
    intro k m hk
    rcases Nat.lt_trichotomy k s.length with hl | hl | hl
    · left; rw [← hsame k hl]; exact hk
    · right; subst hl; simp at hk; exact ⟨rfl, hk.symm⟩
    · rw [List.getElem?_eq_none (by simp; omega)] at hk; cases hk
  refine ⟨⟨?_, h.rootD, h.notD, h.plain, ?_, ?_, ?_, ?_⟩, fun k hk => hsame k (h.lt k hk), by simp,
    fun ch a he => ⟨ch, by rw [hsame _ h.elt, he], fun _ _ => rfl⟩⟩
  · intro k ch a hk
    rcases hcase k _ hk with hk | ⟨_, hk⟩
    · refine ⟨(h.wf k ch a hk).1, fun m j hm => ?_⟩
      have := (h.wf k ch a hk).2 m j hm
      simp; omega
    · have := hn ch a hk.symm
      subst this
      exact ⟨List.nodup_nil, fun m j hm => by simp at hm⟩
  · rw [hsame 0 (h.lt 0 h.rootD)]; exact h.entry
  · intro k hk; have := h.lt k hk; simp; omega
  · have := h.elt; simp; omega
  · intro k hk ch a hg m j hm
    rcases hcase k _ hg with hg | ⟨_, hg⟩
    · exact h.closed k hk ch a hg m j hm
    · rw [hn ch a hg.symm] at hm
      simp at hm

theorem link_scope {c : Scope} {t : Nat} (ht : ¬ c.D t) (hte : t ≠ c.e) (cs : List Str) :
    ∀ {s s' : H5} {i : Nat}, Inv c s → t < s.length → ¬ c.D i → Head c i cs →
      link t s i cs = .ok s' → Inv c s' ∧ Same c s s' := by
  induction cs with
  | nil => intro s s' i _ _ _ _ hl; simp [link] at hl
  | cons n cs ih =>
    intro s s' i h htl hi hh hl
    cases cs with
    | nil =>
      unfold link at hl
      cases hs : s[i]? with
      | none => simp [hs] at hl
      | some node =>
        cases node with
        | dset d a => simp [hs] at hl
        | group ch a =>
          simp only [hs] at hl
          by_cases hc : ch.has n = true
          · rw [if_pos hc] at hl; cases hl
          · rw [if_neg hc] at hl
            injection hl with hl
            subst hl
            refine h.set hi _ (lt_of_get? hs) ?_ (fun e ch' a' hs' => by
              rw [hs] at hs'
              injection hs' with hs'
              injection hs' with e1 e2
              subst e2
              refine ⟨_, rfl, fun m hm => ?_⟩
              rw [Dict.get?_set_ne _ _ (fun em : n = m => hh e n rfl (em ▸ hm)), e1])
            intro ch' a' e
            injection e with e1 _
            subst e1
            refine ⟨Dict.nodup_keys_set _ _ _ (h.wf i ch a hs).1, fun m j hm => ?_⟩
            rcases Dict.mem_set hm with e | hm
            · injection e with _ e2
              subst e2
              exact ⟨htl, hte, fun hd => absurd hd ht⟩
            · exact ⟨(h.wf i ch a hs).2 m j hm, h.closed i hi ch a hs m j hm⟩
    | cons d cs =>
      unfold link at hl
      cases hs : s[i]? with
      | none => simp [hs] at hl
      | some node =>
        cases node with
        | dset d a => simp [hs] at hl
        | group ch a =>
          simp only [hs] at hl
          cases hn : ch.get? n with
          | some k =>
            simp only [hn] at hl
            obtain ⟨k1, k2, _⟩ := h.step hi hs hn (fun e => hh e n rfl)
            exact ih h htl k1 (fun e => absurd e k2) hl
          | none =>
            simp only [hn] at hl
            have hsl : ¬ c.D s.length := fun hd => absurd (h.lt _ hd) (Nat.lt_irrefl _)
            have hse : s.length ≠ c.e := fun e => absurd h.elt (by omega)
            obtain ⟨h1, s1⟩ := h.append (.group [] []) (by intro ch a e; injection e with e _; exact e.symm)
            have hil := lt_of_get? hs
            obtain ⟨h2, s2⟩ := h1.set (i := i) hi (.group (ch.set n s.length) a) (by simp; omega) (by
              intro ch' a' e
              injection e with e1 _
              subst e1
              refine ⟨Dict.nodup_keys_set _ _ _ (h.wf i ch a hs).1, fun m j hm => ?_⟩
              rcases Dict.mem_set hm with e | hm
              · injection e with _ e2
                subst e2
                exact ⟨by simp, hse, fun hd => absurd hd hsl⟩
              · have := (h.wf i ch a hs).2 m j hm
                exact ⟨by simp; omega, h.closed i hi ch a hs m j hm⟩)
              (fun e ch' a' hs' => by
                rw [List.getElem?_append_left hil, hs] at hs'
                injection hs' with hs'
                injection hs' with e1 e2
                subst e2
                refine ⟨_, rfl, fun m hm => ?_⟩
                rw [Dict.get?_set_ne _ _ (fun em : n = m => hh e n rfl (em ▸ hm)), e1])
            have hcomm : (s ++ [HNode.group [] []]).set i (.group (ch.set n s.length) a) =
                (s.set i (.group (ch.set n s.length) a)) ++ [.group [] []] := by
              rw [List.set_append_left _ _ hil]
            rw [hcomm] at h2 s2
            obtain ⟨h3, s3⟩ := ih h2 (by simp; omega) hsl (fun e => absurd e hse) hl
            exact ⟨h3, (s1.trans s2).trans s3⟩

theorem unlink_scope {c : Scope} (cs : List Str) :
    ∀ {s s' : H5} {i : Nat}, Inv c s → ¬ c.D i → Head c i cs →
      unlink s i cs = .ok s' → Inv c s' ∧ Same c s s' := by
  induction cs with
  | nil => intro s s' i _ _ _ hl; simp [unlink] at hl
  | cons n cs ih =>
    intro s s' i h hi hh hl
    cases cs with
    | nil =>
      unfold unlink at hl
      cases hs : s[i]? with
      | none => simp [hs] at hl
      | some node =>
        cases node with
        | dset d a => simp [hs] at hl
        | group ch a =>
          simp only [hs] at hl
          by_cases hc : ch.has n = true
          · rw [if_pos hc] at hl
            injection hl with hl
            subst hl
            refine h.set hi _ (lt_of_get? hs) ?_ (fun e ch' a' hs' => by
              rw [hs] at hs'
              injection hs' with hs'
              injection hs' with e1 e2
              subst e2
              refine ⟨_, rfl, fun m hm => ?_⟩
              rw [Dict.get?_del_ne _ (fun em : m = n => hh e n rfl (em ▸ hm)), e1])
            intro ch' a' e
            injection e with e1 _
            subst e1
            refine ⟨Dict.nodup_keys_del _ _ (h.wf i ch a hs).1, fun m j hm => ?_⟩
            have hm := Dict.mem_del hm
            exact ⟨(h.wf i ch a hs).2 m j hm, h.closed i hi ch a hs m j hm⟩
          · rw [if_neg hc] at hl; cases hl
    | cons d cs =>
      unfold unlink at hl
      cases hs : s[i]? with
      | none => simp [hs] at hl
      | some node =>
        cases node with
        | dset d a => simp [hs] at hl
        | group ch a =>
          simp only [hs] at hl
          cases hn : ch.get? n with
          | some k =>
            simp only [hn] at hl
            obtain ⟨k1, k2, _⟩ := h.step hi hs hn (fun e => hh e n rfl)
            exact ih h k1 (fun e => absurd e k2) hl
          | none => simp [hn] at hl

/-! ### computations in a scope -/

/-- `m` works in the scope: whatever happens, the protected nodes stay as they are and a returned
value satisfies `Q` -/
def Conf (c : Scope) {α : Type} (m : HM α) (Q : α → Prop) : Prop :=
  ∀ s, Inv c s → Inv c (m s).1 ∧ Same c s (m s).1 ∧ ∀ a, (m s).2 = .ok a → Q a

/-- a handle of the scope -/
def Ok (c : Scope) (h : HRef) : Prop :=
  ¬ c.D h.id ∧ ((h.id = c.e ∧ h.path = [c.E]) ∨
    (h.id ≠ c.e ∧ ∃ n p, h.path = c.E :: n :: p ∧ ¬ c.X n ∧ Plain n))

/-- a relative name that may be used at the handle -/
def Rel (c : Scope) (h : HRef) (name : Str) : Prop :=
  absolute name = false ∧ (h.id = c.e → ∀ n, (comps name).head? = some n → ¬ c.X n ∧ Plain n)

namespace Conf
variable {c : Scope} {α β : Type}

theorem ret {a : α} {Q : α → Prop} (h : Q a) : Conf c (HM.ret a) Q := fun s hs =>
  ⟨hs, Same.refl c s, fun b hb => by
    have : Except.ok a = Except.ok b := hb
    injection this with e; rw [← e]; exact h⟩

theorem pure' {a : α} {Q : α → Prop} (h : Q a) : Conf c (pure a : HM α) Q := ret h

theorem mono {m : HM α} {Q R : α → Prop} (h : Conf c m Q) (hq : ∀ a, Q a → R a) : Conf c m R :=
  fun s hs => ⟨(h s hs).1, (h s hs).2.1, fun a ha => hq a ((h s hs).2.2 a ha)⟩

theorem triv {m : HM α} {Q : α → Prop} (h : Conf c m Q) : Conf c m (fun _ => True) :=
  h.mono fun _ _ => trivial

theorem andThen {m : HM α} {f : α → HM β} {Q : α → Prop} {R : β → Prop} (h : Conf c m Q)
    (k : ∀ a, Q a → Conf c (f a) R) : Conf c (HM.andThen m f) R := by
  intro s hs
  obtain ⟨h1, h2, h3⟩ := h s hs
  unfold HM.andThen
  cases hm : m s with
  | mk s' r =>
    rw [hm] at h1 h2 h3
    cases r with
    | error e => exact ⟨h1, h2, fun a ha => by cases ha⟩
    | ok a =>
      obtain ⟨k1, k2, k3⟩ := k a (h3 a rfl) s' h1
      exact ⟨k1, h2.trans k2, k3⟩

theorem bind' {m : HM α} {f : α → HM β} {Q : α → Prop} {R : β → Prop} (h : Conf c m Q)
    (k : ∀ a, Q a → Conf c (f a) R) : Conf c (m >>= f) R := andThen h k

theorem raise {e : PyErr} {Q : α → Prop} : Conf c (HM.raise e : HM α) Q := fun s hs =>
  ⟨hs, Same.refl c s, fun a ha => by cases ha⟩

theorem lift {x : Except PyErr α} {Q : α → Prop} (h : ∀ a, x = .ok a → Q a) :
    Conf c (HM.lift x) Q := fun s hs => ⟨hs, Same.refl c s, h⟩

theorem look {f : H5 → α} : Conf c (HM.look f) (fun _ => True) := fun s hs =>
  ⟨hs, Same.refl c s, fun _ _ => trivial⟩

theorem lookE {f : H5 → Except PyErr α} {Q : α → Prop}
    (h : ∀ s, Inv c s → ∀ a, f s = .ok a → Q a) : Conf c (HM.lookE f) Q := fun s hs =>
  ⟨hs, Same.refl c s, h s hs⟩

theorem change {f : H5 → Except PyErr H5}
    (h : ∀ s s', Inv c s → f s = .ok s' → Inv c s' ∧ Same c s s') :
    Conf c (HM.change f) (fun _ => True) := by
  intro s hs
  unfold HM.change
  cases hf : f s with
  | error e => exact ⟨hs, Same.refl c s, fun _ _ => trivial⟩
  | ok s' => exact ⟨(h s s' hs hf).1, (h s s' hs hf).2, fun _ _ => trivial⟩

theorem each {f : α → HM Unit} (l : List α) (h : ∀ a ∈ l, Conf c (f a) (fun _ => True)) :
    Conf c (HM.each f l) (fun _ => True) := by
  induction l with
  | nil => exact ret trivial
  | cons a l ih =>
    exact andThen (h a (List.mem_cons_self ..)) fun _ _ => ih fun b hb => h b (List.mem_cons_of_mem _ hb)

theorem onlyIf {b : Bool} {m : HM Unit} (h : b = true → Conf c m (fun _ => True)) :
    Conf c (HM.onlyIf b m) (fun _ => True) := by
  unfold HM.onlyIf
  cases b with
  | false => exact ret trivial
  | true => exact h rfl

theorem ifSome {o : Option α} {f : α → HM Unit} (h : ∀ a, o = some a → Conf c (f a) (fun _ => True)) :
    Conf c (HM.ifSome o f) (fun _ => True) := by
  unfold HM.ifSome
  cases o with
  | none => exact ret trivial
  | some a => exact h a rfl

end Conf

theorem Rel.base {c : Scope} {h : HRef} {name : Str} (hr : Rel c h name) : base h name = h := by
  simp [H5.base, hr.1]

theorem Rel.head {c : Scope} {h : HRef} {name : Str} (hr : Rel c h name) :
    Head c h.id (comps name) := fun e n hn => (hr.2 e n hn).1

/-- a name without "/" at a handle that is not the entry -/
theorem Rel.of_ne {c : Scope} {h : HRef} {name : Str} (hne : h.id ≠ c.e)
    (ha : absolute name = false) : Rel c h name := ⟨ha, fun e => absurd e hne⟩

theorem Ok.path {c : Scope} {h : HRef} (ho : Ok c h) {name : Str} (hr : Rel c h name)
    {j : Nat} (hj : ¬ c.D j) (h0 : comps name = [] → j = h.id) (h1 : comps name ≠ [] → j ≠ c.e) :
    Ok c ⟨j, h.path ++ comps name⟩ := by
  refine ⟨hj, ?_⟩
  cases hcs : comps name with
  | nil =>
    have := h0 hcs
    subst this
    rw [List.append_nil]
    exact ho.2
  | cons n cs =>
    right
    refine ⟨h1 (by simp [hcs]), ?_⟩
    rcases ho.2 with ⟨e1, e2⟩ | ⟨_, n', p, e2, e3, e4⟩
    · refine ⟨n, cs, by simp [e2], ?_⟩
      exact hr.2 e1 n (by simp [hcs])
    · exact ⟨n', p ++ n :: cs, by simp [e2], e3, e4⟩

theorem conf_contains (c : Scope) (h : HRef) (name : Str) :
    Conf c (contains h name) (fun _ => True) := Conf.look

theorem conf_hasAttr (c : Scope) (h : HRef) (k : Str) :
    Conf c (hasAttr h k) (fun _ => True) := Conf.look

theorem conf_get {c : Scope} {h : HRef} (ho : Ok c h) {name : Str} (hr : Rel c h name) :
    Conf c (get h name) (Ok c) := by
  apply Conf.lookE
  intro s hs a ha
  rw [hr.base] at ha
  cases hw : walk s h.id (comps name) with
  | none => simp [hw] at ha
  | some j =>
    simp only [hw] at ha
    injection ha with ha
    subst ha
    obtain ⟨w1, w2, w3⟩ := walk_scope hs _ ho.1 hr.head hw
    exact ho.path hr w1 w2 (fun hne => (w3 hne).1)

theorem conf_get_ne {c : Scope} {h : HRef} (ho : Ok c h) {name : Str} (hr : Rel c h name)
    (hn : comps name ≠ []) : Conf c (get h name) (fun r => Ok c r ∧ r.id ≠ c.e) := by
  apply Conf.lookE
  intro s hs a ha
  rw [hr.base] at ha
  cases hw : walk s h.id (comps name) with
  | none => simp [hw] at ha
  | some j =>
    simp only [hw] at ha
    injection ha with ha
    subst ha
    obtain ⟨w1, w2, w3⟩ := walk_scope hs _ ho.1 hr.head hw
    exact ⟨ho.path hr w1 w2 (fun hne => (w3 hne).1), (w3 hn).1⟩

theorem conf_create {c : Scope} {h : HRef} (ho : Ok c h) {name : Str} (hr : Rel c h name)
    (node : HNode) (hn : ∀ ch a, node = .group ch a → ch = []) :
    Conf c (create h name node) (fun r => Ok c r ∧ r.id ≠ c.e) := by
  intro s hs
  unfold create
  rw [hr.base]
  have hsl : ¬ c.D s.length := fun hd => absurd (hs.lt _ hd) (Nat.lt_irrefl _)
  have hse : s.length ≠ c.e := fun e => absurd hs.elt (by omega)
  cases hl : link s.length (s ++ [node]) h.id (comps name) with
  | error e => exact ⟨hs, Same.refl c s, fun a ha => by cases ha⟩
  | ok s' =>
    obtain ⟨h1, s1⟩ := hs.append node hn
    obtain ⟨h2, s2⟩ := link_scope hsl hse _ h1 (by simp) ho.1 hr.head hl
    refine ⟨h2, s1.trans s2, fun a ha => ?_⟩
    injection ha with ha
    subst ha
    refine ⟨ho.path hr hsl ?_ (fun _ => hse), hse⟩
    intro hcs
    rw [hcs] at hl
    simp [link] at hl

theorem conf_del {c : Scope} {h : HRef} (ho : Ok c h) {name : Str} (hr : Rel c h name) :
    Conf c (del h name) (fun _ => True) := by
  apply Conf.change
  intro s s' hs hl
  rw [hr.base] at hl
  exact unlink_scope _ hs ho.1 hr.head hl

theorem conf_setLink {c : Scope} {h : HRef} (ho : Ok c h) {name : Str} (hr : Rel c h name)
    {obj : HRef} (hob : ¬ c.D obj.id) (hne : obj.id ≠ c.e) :
    Conf c (setLink h name obj) (fun _ => True) := by
  apply Conf.change
  intro s s' hs hl
  rw [hr.base] at hl
  cases hx : s[obj.id]? with
  | none => simp [hx] at hl
  | some n =>
    simp only [hx] at hl
    exact link_scope hob hne _ hs (lt_of_get? hx) ho.1 hr.head hl

theorem conf_setAttr {c : Scope} {h : HRef} (hd : ¬ c.D h.id) (he : h.id ≠ c.e) (k : Str) (v : AVal) :
    Conf c (setAttr h k v) (fun _ => True) := by
  apply Conf.change
  intro s s' hs hl
  cases hx : s[h.id]? with
  | none => simp [hx] at hl
  | some n =>
    simp only [hx] at hl
    injection hl with hl
    subst hl
    refine hs.set hd _ (lt_of_get? hx) ?_ (fun e => absurd e he)
    intro ch a e
    cases n with
    | dset d a' => simp [HNode.withAttrs] at e
    | group ch' a' =>
      simp only [HNode.withAttrs, HNode.group.injEq] at e
      obtain ⟨e, _⟩ := e
      subst e
      refine ⟨(hs.wf _ _ _ hx).1, fun m j hm => ⟨(hs.wf _ _ _ hx).2 m j hm, ?_⟩⟩
      exact hs.closed _ hd _ _ hx m j hm

end H5

namespace Eznx
open H5

theorem conf_addAttributes {c : Scope} {h : HRef} (hd : ¬ c.D h.id) (he : h.id ≠ c.e) (a : Dict AVal) :
    Conf c (addAttributes h a) (fun _ => True) :=
  Conf.each _ fun kv _ => conf_setAttr hd he kv.1 kv.2

theorem conf_makeGroup {c : Scope} {h : HRef} (ho : Ok c h) {name : Str} (hr : Rel c h name)
    (cls : Str) (a : Dict AVal) :
    Conf c (makeGroup h name cls a) (fun r => Ok c r ∧ r.id ≠ c.e) := by
  unfold makeGroup
  refine Conf.bind' (conf_create ho hr _ (by intro ch a e; injection e with e _; exact e.symm)) ?_
  intro g hg
  refine Conf.bind' (conf_setAttr hg.1.1 hg.2 _ _) fun _ _ => ?_
  refine Conf.bind' (conf_addAttributes hg.1.1 hg.2 _) fun _ _ => ?_
  exact Conf.pure' hg

/-- opening a child of a handle by one name -/
theorem conf_openGroup {c : Scope} {h : HRef} (ho : Ok c h) {name : Str} (hr : Rel c h name)
    (hn : comps name ≠ []) (cls : Str) (a : Dict AVal) :
    Conf c (openGroup h name cls a) (fun r => Ok c r ∧ r.id ≠ c.e) := by
  unfold openGroup
  refine Conf.bind' (conf_contains c h name) fun b _ => ?_
  cases b with
  | false => exact conf_makeGroup ho hr cls a
  | true =>
    have hg : Conf c (get h name) (fun r => Ok c r ∧ r.id ≠ c.e) := by
      apply Conf.lookE
      intro s hs x hx
      rw [hr.base] at hx
      cases hw : walk s h.id (comps name) with
      | none => simp [hw] at hx
      | some j =>
        simp only [hw] at hx
        injection hx with hx
        subst hx
        obtain ⟨w1, w2, w3⟩ := walk_scope hs _ ho.1 hr.head hw
        exact ⟨ho.path hr w1 w2 (fun hne => (w3 hne).1), (w3 hn).1⟩
    refine Conf.bind' hg fun g hg => ?_
    refine Conf.bind' (conf_addAttributes hg.1.1 hg.2 _) fun _ _ => ?_
    exact Conf.pure' hg

theorem conf_makeDataset {c : Scope} {h : HRef} (ho : Ok c h) {name : Str} (hr : Rel c h name)
    (d : PData) (a : Dict AVal) :
    Conf c (makeDataset h name d a) (fun r => Ok c r ∧ r.id ≠ c.e) := by
  unfold makeDataset
  refine Conf.bind' (Conf.lift (Q := fun _ => True) fun _ _ => trivial) fun d _ => ?_
  refine Conf.bind' (conf_create ho hr _ (by intro ch a e; cases e)) fun g hg => ?_
  refine Conf.bind' (conf_addAttributes hg.1.1 hg.2 _) fun _ _ => ?_
  exact Conf.pure' hg

theorem conf_writeDataset {c : Scope} {h : HRef} (ho : Ok c h) {name : Str} (hr : Rel c h name)
    (d : PData) (a : Dict AVal) :
    Conf c (writeDataset h name d a) (fun r => Ok c r ∧ r.id ≠ c.e) := by
  unfold writeDataset
  refine Conf.bind' (Q := fun _ => True) ?_ fun _ _ => conf_makeDataset ho hr d a
  refine Conf.andThen (conf_contains c h name) fun b _ => ?_
  exact Conf.onlyIf fun _ => conf_del ho hr

end Eznx
end S2N
