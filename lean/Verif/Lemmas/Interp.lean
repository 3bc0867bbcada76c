import Verif.Lemmas.Frames
import Verif.Props.LineKind
/-
How attributes evolve while a scan is interpreted.
-/
namespace S2N.Props
open S2N S2N.Py S2N.HKey S2N.Spec

theorem forEach_append {α σ : Type} (f : α → σ → Res σ) : ∀ (as bs : List α) (s : σ),
    forEach f (as ++ bs) s = (forEach f as s).andThen (forEach f bs)
  | [], bs, s => rfl
  | a :: as, bs, s => by
    simp only [List.cons_append, forEach]
    cases h : (f a s).2 with
    | none => rw [Res.andThen_of_none h, Res.andThen_of_none h]; exact forEach_append f as bs _
    | some e => rw [Res.andThen_of_some h, Res.andThen_of_some h, Res.andThen_of_some h]

theorem andThen_none {σ : Type} {r : Res σ} {f : σ → Res σ} (h : (r.andThen f).2 = none) :
    r.2 = none ∧ r.andThen f = f r.1 ∧ (f r.1).2 = none := by
  cases hr : r.2 with
  | none => rw [Res.andThen_of_none hr] at h ⊢; exact ⟨rfl, rfl, h⟩
  | some e => rw [Res.andThen_of_some hr, hr] at h; cases h

theorem forEach_cons_ok {α σ : Type} {f : α → σ → Res σ} {a : α} {as : List α} {s : σ}
    (h : (forEach f (a :: as) s).2 = none) :
    (f a s).2 = none ∧ forEach f (a :: as) s = forEach f as (f a s).1 ∧
      (forEach f as (f a s).1).2 = none := andThen_none h

/-- fold of a projection along a successful loop -/
theorem forEach_fold {α σ β : Type} (f : α → σ → Res σ) (π : σ → β) (g : α → β → β)
    (h : ∀ a s, (f a s).2 = none → π (f a s).1 = g a (π s)) : ∀ (as : List α) (s : σ),
    (forEach f as s).2 = none → π (forEach f as s).1 = as.foldl (fun b a => g a b) (π s)
  | [], s, _ => rfl
  | a :: as, s, hs => by
    obtain ⟨h1, h2, h3⟩ := forEach_cons_ok hs
    rw [h2, List.foldl_cons, ← h a s h1]
    exact forEach_fold f π g h as _ h3

/-- a projection that every step preserves, even when it raises -/
theorem forEach_pres {α σ β : Type} (f : α → σ → Res σ) (π : σ → β)
    : ∀ (as : List α) (h : ∀ a ∈ as, ∀ s, π (f a s).1 = π s) (s : σ), π (forEach f as s).1 = π s
  | [], _, s => rfl
  | a :: as, h, s => by
    simp only [forEach, Res.andThen]
    split
    · rw [forEach_pres f π as (fun b hb => h b (by simp [hb]))]; exact h a (by simp) s
    · exact h a (by simp) s

/-- an invariant that every successful step keeps -/
theorem forEach_invariant {α σ : Type} (f : α → σ → Res σ) (P : σ → Prop)
    (h : ∀ a s, P s → P (f a s).1) : ∀ (as : List α) (s : σ), P s → P (forEach f as s).1
  | [], s, hs => hs
  | a :: as, s, hs => by
    simp only [forEach, Res.andThen]
    split
    · exact forEach_invariant f P h as _ (h a s hs)
    · exact h a s hs

section
variable [UniDB]

/-- the handler that gets a line of a scan, if any -/
def effKey (reg : List HKey) (line : Str) : Option HKey :=
  if line = [] then none
  else match getControlKey reg (lstrip line) with
    | .ok (some .S) => none
    | .ok (some k) => some k
    | .ok none => some .unrec
    | .error _ => none

theorem scanLine_eq (env : Env) (reg : List HKey) (line : Str) (c : ScanCtx) :
    scanLine env reg line c =
      match effKey reg line with
      | none => Res.ok c
      | some k => procScan env k line c := by
  unfold scanLine effKey
  split
  · rfl
  · cases hk : getControlKey reg (lstrip line) with
    | error e => exact (key_error reg line e hk).elim
    | ok o =>
      cases o with
      | none => rfl
      | some k => cases k <;> rfl

theorem effKey_ne_S (reg : List HKey) (line : Str) : effKey reg line ≠ some .S := by
  unfold effKey
  split
  · simp
  · split <;> simp_all

theorem isKind_nil (k : HKey) : isKind k [] = false := rfl

/-- lines of a kind other than `#S` and the fallback -/
theorem effKey_iff (reg : List HKey) (hr : reg.Perm HKey.all) (line : Str) (hn : '\n' ∉ line)
    (k : HKey) (hS : k ≠ .S) (hU : k ≠ .unrec) :
    effKey reg line = some k ↔ isKind k line = true := by
  unfold effKey
  split
  · next h => simp [h, isKind_nil]
  · rw [← key_isKind reg hr line hn]
    cases getControlKey reg (lstrip line) with
    | error e => simp
    | ok o =>
      cases o with
      | none => simp [Ne.symm hU]
      | some q =>
        by_cases hq : q = .S
        · subst hq; simp [Ne.symm hS]
        · cases q <;> simp_all

/-- lines that go to the fallback handler -/
theorem effKey_unrec (reg : List HKey) (hr : reg.Perm HKey.all) (line : Str) (hn : '\n' ∉ line) :
    effKey reg line = some .unrec ↔ (isUnknown line || isKind .unrec line) = true := by
  unfold effKey
  by_cases he : line = []
  · subst he; simp [isUnknown, isKind_nil]
  · rw [if_neg he, Bool.or_eq_true, ← key_none reg hr line hn he, ← key_isKind reg hr line hn]
    cases getControlKey reg (lstrip line) with
    | error e => simp
    | ok o => cases o with
      | none => simp
      | some q => cases q <;> simp

theorem effKey_none (reg : List HKey) (hr : reg.Perm HKey.all) (line : Str) (hn : '\n' ∉ line) :
    effKey reg line = none ↔ (line = [] ∨ isKind .S line = true) := by
  unfold effKey
  by_cases he : line = []
  · simp [he]
  · rw [if_neg he, ← key_isKind reg hr line hn]
    simp only [he, false_or]
    cases hk : getControlKey reg (lstrip line) with
    | error e => exact (key_error reg line e hk).elim
    | ok o => cases o with
      | none => simp
      | some q => cases q <;> simp

/-- lines of a scan have no line breaks -/
theorem scanLines_no_nl (raw : Str) : ∀ l ∈ scanLines raw, '\n' ∉ l := by
  intro l hl hn
  have := splitlines_no_break _ l hl '\n' hn
  exact absurd this (by decide)

variable (env : Env) (reg : List HKey)

/-- a projection of the scan along the lines -/
theorem lines_fold {β : Type} (π : Obj → β) (upd : HKey → Str → β → β)
    (h : ∀ k text c, (procScan env k text c).2 = none →
      π (procScan env k text c).1.scan = upd k text (π c.scan)) (lines : List Str) (c : ScanCtx)
    (hok : (forEach (scanLine env reg) lines c).2 = none) :
    π (forEach (scanLine env reg) lines c).1.scan =
      lines.foldl (fun b l => match effKey reg l with | none => b | some k => upd k l b) (π c.scan) := by
  refine forEach_fold (scanLine env reg) (fun c => π c.scan)
    (fun l b => match effKey reg l with | none => b | some k => upd k l b) ?_ lines c hok
  intro l c hl
  rw [scanLine_eq] at hl ⊢
  cases hk : effKey reg l with
  | none => rfl
  | some k => rw [hk] at hl; exact h k l c hl

omit [UniDB] in
theorem foldl_filter_eq {α β : Type} (p : α → Bool) (g : β → α → β) (f : β → α → β) (as : List α) (b : β)
    (h : ∀ a ∈ as, ∀ b, g b a = if p a = true then f b a else b) :
    as.foldl g b = (as.filter p).foldl f b := by
  induction as generalizing b with
  | nil => rfl
  | cons a as ih =>
    rw [List.foldl_cons, h a (by simp) b, List.filter_cons]
    split
    · rw [List.foldl_cons]; exact ih _ (fun a ha => h a (by simp [ha]))
    · exact ih _ (fun a ha => h a (by simp [ha]))

/-- a projection that only lines of kind `K` change -/
theorem lines_kind {β : Type} (hr : reg.Perm HKey.all) (K : HKey) (hS : K ≠ .S) (hU : K ≠ .unrec)
    (π : Obj → β) (upd : Str → β → β)
    (hK : ∀ text c, (procScan env K text c).2 = none →
      π (procScan env K text c).1.scan = upd text (π c.scan))
    (hne : ∀ k text c, k ≠ K → π (procScan env k text c).1.scan = π c.scan)
    (lines : List Str) (hn : ∀ l ∈ lines, '\n' ∉ l) (c : ScanCtx)
    (hok : (forEach (scanLine env reg) lines c).2 = none) :
    π (forEach (scanLine env reg) lines c).1.scan =
      (ofKind K lines).foldl (fun b l => upd l b) (π c.scan) := by
  rw [lines_fold env reg π (fun k l b => if k = K then upd l b else b) _ lines c hok]
  · refine foldl_filter_eq (isKind K) _ _ _ _ ?_
    intro l hl b
    cases hk : effKey reg l with
    | none =>
      have : isKind K l = false := by
        rw [← Bool.not_eq_true, ← effKey_iff reg hr l (hn l hl) K hS hU, hk]; simp
      simp [this]
    | some k =>
      by_cases e : k = K
      · have : isKind K l = true := by
          rw [← effKey_iff reg hr l (hn l hl) K hS hU, hk, e]
        simp [this, e]
      · have : isKind K l = false := by
          rw [← Bool.not_eq_true, ← effKey_iff reg hr l (hn l hl) K hS hU, hk]; simpa using e
        simp [this, e]
  · intro k text c hc
    by_cases e : k = K
    · subst e; simp only [if_true]; exact hK text c hc
    · simp only [e, if_false]; exact hne k text c e

/-- interpretation of a scan, taken apart -/
theorem interpret_ok (c : ScanCtx) (hi : c.scan.interpreted = false)
    (hok : (interpretScan env reg c).2 = none) :
    ∃ c1 c2 : ScanCtx,
      forEach (scanLine env reg) (scanLines c.scan.raw) { c with scan := { c.scan with lazy := false } } = (c1, none) ∧
      forEach (runPost env) c1.scan.post.values c1 = (c2, none) ∧
      (interpretScan env reg c).1 = { c2 with scan := { c2.scan with interpreted := true } } := by
  unfold interpretScan at hok ⊢
  rw [hi] at hok ⊢
  simp only [Bool.false_eq_true, if_false] at hok ⊢
  obtain ⟨h1, h2, h3⟩ := andThen_none hok
  obtain ⟨h4, h5, h6⟩ := andThen_none h3
  refine ⟨_, _, Prod.ext rfl h1, Prod.ext rfl h4, ?_⟩
  rw [h2, h5]; rfl

/-- an attribute that only lines of kind `K`, and no post-processor, change -/
theorem interp_kind {β : Type} (hr : reg.Perm HKey.all) (K : HKey) (hS : K ≠ .S) (hU : K ≠ .unrec)
    (π : Obj → β) (upd : Str → β → β)
    (hK : ∀ text c, (procScan env K text c).2 = none →
      π (procScan env K text c).1.scan = upd text (π c.scan))
    (hne : ∀ k text c, k ≠ K → π (procScan env k text c).1.scan = π c.scan)
    (hp : ∀ f c, π (runPost env f c).1.scan = π c.scan)
    (hl : ∀ x b, π { x with lazy := b } = π x) (hin : ∀ x b, π { x with interpreted := b } = π x)
    (c : ScanCtx) (hi : c.scan.interpreted = false) (hok : (interpretScan env reg c).2 = none) :
    π (interpretScan env reg c).1.scan =
      (ofKind K (scanLines c.scan.raw)).foldl (fun b l => upd l b) (π c.scan) := by
  obtain ⟨c1, c2, e1, e2, e3⟩ := interpret_ok env reg c hi hok
  rw [e3]
  show π { c2.scan with interpreted := true } = _
  rw [hin]
  have h2 := forEach_pres (runPost env) (fun c => π c.scan) c1.scan.post.values (fun f _ c => hp f c) c1
  rw [e2] at h2
  rw [h2]
  have h1 := lines_kind env reg hr K hS hU π upd hK hne (scanLines c.scan.raw) (scanLines_no_nl _)
    { c with scan := { c.scan with lazy := false } } (by rw [e1])
  rw [e1] at h1
  rw [h1]
  show List.foldl _ (π { c.scan with lazy := false }) _ = _
  rw [hl]

omit [UniDB] in
theorem foldl_append_map {α β : Type} (f : α → β) : ∀ (as : List α) (b : List β),
    as.foldl (fun b a => b ++ [f a]) b = b ++ as.map f
  | [], b => by simp
  | a :: as, b => by
    rw [List.foldl_cons, foldl_append_map f as, List.map_cons, List.append_assoc]; rfl

end
end S2N.Props
