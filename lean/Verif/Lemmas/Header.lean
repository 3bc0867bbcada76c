import Verif.Lemmas.Post
/-
How attributes evolve while a header is interpreted.
-/
namespace S2N.Spec
open S2N S2N.Py

/-- A line of a header is of kind `h`: the text before its first space is a word of that kind. -/
def hKind [UniDB] (h : HKey) (line : Str) : Bool :=
  match leadWord line with
  | some w => wordIs h w
  | none => false

/-- lines of kind `h` of a header -/
def hOfKind [UniDB] (h : HKey) (lines : List Str) : List Str := lines.filter (hKind h)

end S2N.Spec

namespace S2N.Props
open S2N S2N.Py S2N.Spec

section
variable [UniDB]

theorem hkey_iff (reg : List HKey) (hr : reg.Perm HKey.all) (line : Str) (hn : '\n' ∉ line) (h : HKey) :
    getControlKey reg line = .ok (some h) ↔ hKind h line = true := by
  unfold hKind leadWord
  cases hf : findC ' ' line with
  | none => simp [getControlKey, hf]
  | some p =>
    obtain ⟨a, b, e, ha, hp⟩ : ∃ a b, line = a ++ ' ' :: b ∧ ' ' ∉ a ∧ p = a.length := by
      obtain ⟨a, b, h1, h2, h3⟩ := findC_some _ _ _ hf
      exact ⟨a, b, h1, h2, h3.symm⟩
    have ht : line.take p = a := by rw [e, hp]; simp
    simp only [Option.map_some, ht]
    exact C16_kind reg hr line a b ha (fun h => hn (e ▸ by simp [h])) e h

/-- the handler that gets a line of a header, if any -/
def hEff (reg : List HKey) (line : Str) : Option HKey :=
  if line = [] then none
  else match getControlKey reg line with
    | .ok (some .E) => none
    | .ok (some k) => some k
    | .ok none => some .unrec
    | .error _ => none

theorem hdrLine_eq (env : Env) (reg : List HKey) (line : Str) (c : HCtx)
    (hok : (hdrLine env reg line c).2 = none) :
    hdrLine env reg line c =
      match hEff reg line with
      | none => Res.ok c
      | some k => procHdr env reg k line c := by
  unfold hdrLine hEff at *
  split
  · rfl
  · next hl =>
    rw [if_neg hl] at hok
    cases hk : getControlKey reg line with
    | error e => rw [hk] at hok; simp [Res.eval, Res.raise] at hok
    | ok o =>
      cases o with
      | none => rfl
      | some k => cases k <;> rfl

theorem hEff_iff (reg : List HKey) (hr : reg.Perm HKey.all) (line : Str) (hn : '\n' ∉ line)
    (k : HKey) (hE : k ≠ .E) (hU : k ≠ .unrec) :
    hEff reg line = some k ↔ hKind k line = true := by
  unfold hEff
  split
  · next h => subst h; simp [hKind, leadWord, findC]
  · rw [← hkey_iff reg hr line hn]
    cases getControlKey reg line with
    | error e => simp
    | ok o =>
      cases o with
      | none => simp [Ne.symm hU]
      | some q =>
        by_cases hq : q = .E
        · subst hq; simp [Ne.symm hE]
        · cases q <;> simp_all

variable (env : Env) (reg : List HKey)

/-- effect of a handler on the header itself -/
theorem procHdr_hdr (k : HKey) (text : Str) (c : HCtx) :
    (procHdr env reg k text c).1.hdr = if k = .P then c.hdr else (procObj env k text c.hdr).1 := by
  cases k <;> first | rfl | (simp only [procHdr, if_true]; split <;> rfl)

theorem procHdr_ok (k : HKey) (text : Str) (c : HCtx) (hk : k ≠ .P)
    (h : (procHdr env reg k text c).2 = none) : (procObj env k text c.hdr).2 = none := by
  cases k <;> first | exact h | exact absurd rfl hk

/-- a projection of the header along its lines -/
theorem hlines_fold {β : Type} (π : Obj → β) (upd : HKey → Str → β → β)
    (h : ∀ k text x, k ≠ .P → (procObj env k text x).2 = none →
      π (procObj env k text x).1 = upd k text (π x))
    (hP : ∀ text b, upd .P text b = b) (lines : List Str) (c : HCtx)
    (hok : (forEach (hdrLine env reg) lines c).2 = none) :
    π (forEach (hdrLine env reg) lines c).1.hdr =
      lines.foldl (fun b l => match hEff reg l with | none => b | some k => upd k l b) (π c.hdr) := by
  refine forEach_fold (hdrLine env reg) (fun c => π c.hdr)
    (fun l b => match hEff reg l with | none => b | some k => upd k l b) ?_ lines c hok
  intro l c hl
  have e := hdrLine_eq env reg l c hl
  rw [e] at hl ⊢
  cases hk : hEff reg l with
  | none => rfl
  | some k =>
    rw [hk] at hl
    simp only at hl ⊢
    rw [procHdr_hdr]
    by_cases hp : k = .P
    · subst hp; simp only [if_true]; exact (hP l _).symm
    · rw [if_neg hp]; exact h k l _ hp (procHdr_ok env reg k l c hp hl)

/-- a projection of the header that only lines of kind `K` change -/
theorem hlines_kind {β : Type} (hr : reg.Perm HKey.all) (K : HKey) (hE : K ≠ .E) (hU : K ≠ .unrec)
    (hKP : K ≠ .P) (π : Obj → β) (upd : Str → β → β)
    (hK : ∀ text x, (procObj env K text x).2 = none → π (procObj env K text x).1 = upd text (π x))
    (hne : ∀ k text x, k ≠ K → π (procObj env k text x).1 = π x)
    (lines : List Str) (hn : ∀ l ∈ lines, '\n' ∉ l) (c : HCtx)
    (hok : (forEach (hdrLine env reg) lines c).2 = none) :
    π (forEach (hdrLine env reg) lines c).1.hdr =
      (hOfKind K lines).foldl (fun b l => upd l b) (π c.hdr) := by
  rw [hlines_fold env reg π (fun k l b => if k = K then upd l b else b) _ _ lines c hok]
  · refine foldl_filter_eq (hKind K) _ _ _ _ ?_
    intro l hl b
    cases hk : hEff reg l with
    | none =>
      have : hKind K l = false := by
        rw [← Bool.not_eq_true, ← hEff_iff reg hr l (hn l hl) K hE hU, hk]; simp
      simp [this]
    | some k =>
      by_cases e : k = K
      · have : hKind K l = true := by rw [← hEff_iff reg hr l (hn l hl) K hE hU, hk, e]
        simp [this, e]
      · have : hKind K l = false := by
          rw [← Bool.not_eq_true, ← hEff_iff reg hr l (hn l hl) K hE hU, hk]; simpa using e
        simp [this, e]
  · intro k text x _ hc
    by_cases e : k = K
    · subst e; simp only [if_true]; exact hK text x hc
    · simp only [e, if_false]; exact hne k text x e
  · intro t b; rw [if_neg (Ne.symm hKP)]

theorem po_post_eq (k : HKey) (text : Str) (x : Obj) (hP : k ≠ .P)
    (h : (procObj env k text x).2 = none) :
    (procObj env k text x).1.post = addPostOf k x.post := by
  cases k
  case G | J | j | o | P | data | A | V | UXML =>
    revert h
    simp only [procObj, procG, procJ, procj, proco, procP, procData, procUXML,
      Res.eval, Res.ok, Res.raise, Obj.addPost]
    (repeat' split) <;> first | (intro _; rfl) | (intro h; cases h) | exact absurd rfl hP
  all_goals (apply po_post <;> simp)

theorem hlines_post (lines : List Str) (c : HCtx)
    (hok : (forEach (hdrLine env reg) lines c).2 = none) :
    (forEach (hdrLine env reg) lines c).1.hdr.post =
      postFold ((lines.filterMap (hEff reg)).filter (· ≠ .P)) c.hdr.post := by
  rw [hlines_fold env reg (·.post) (fun k _ d => if k = .P then d else addPostOf k d)
    (fun k t x hp h => by rw [if_neg hp]; exact po_post_eq env k t x hp h)
    (fun _ _ => by simp) lines c hok]
  generalize c.hdr.post = d
  clear hok
  induction lines generalizing d with
  | nil => rfl
  | cons l ls ih =>
    rw [List.foldl_cons, ih]
    cases hk : hEff reg l with
    | none => rw [List.filterMap_cons_none hk]
    | some k =>
      rw [List.filterMap_cons_some hk, List.filter_cons]
      by_cases hp : k = .P
      · subst hp; simp
      · simp [hp, postFold]

/-- interpretation of a header, taken apart -/
theorem hinterpret_ok (c : HCtx) (hok : (interpretHeader env reg c).2 = none) :
    ∃ c1 c2 : HCtx,
      forEach (hdrLine env reg) (splitlines c.hdr.raw) c = (c1, none) ∧
      forEach (fun f => HCtx.onHdr (runPostHdr env f)) c1.hdr.post.values c1 = (c2, none) ∧
      (interpretHeader env reg c).1 = c2 := by
  unfold interpretHeader at hok ⊢
  obtain ⟨h1, h2, h3⟩ := andThen_none hok
  exact ⟨_, _, Prod.ext rfl h1, Prod.ext rfl h3, by rw [h2]⟩

omit [UniDB] in
/-- a step that occurs once in a loop, up to steps of its own class -/
theorem ran_once {α σ β γ : Type} (step : α → σ → Res σ) (p : α → Bool) (f0 : α) (π : σ → β) (ins : σ → γ)
    (h1 : ∀ f c, p f = false → π (step f c).1 = π c)
    (h2 : ∀ f c, p f = false → ins (step f c).1 = ins c) :
    ∀ (vs : List α) (c c2 : σ), forEach step vs c = (c2, none) → vs.filter p = [f0] →
      ∃ c', ins c' = ins c ∧ (step f0 c').2 = none ∧ π c2 = π (step f0 c').1
  | [], c, c2, _, h => by simp at h
  | v :: vs, c, c2, he, h => by
    have hok : (forEach step (v :: vs) c).2 = none := by rw [he]
    obtain ⟨g1, g2, g3⟩ := forEach_cons_ok hok
    rw [g2] at he
    cases hv : p v with
    | true =>
      rw [List.filter_cons_of_pos hv] at h
      injection h with h3 h4
      subst h3
      refine ⟨c, rfl, g1, ?_⟩
      have := forEach_pres step π vs (fun f hf s => h1 f s (by
        have := List.filter_eq_nil_iff.1 h4 f hf
        simpa using this)) (step v c).1
      rw [he] at this
      exact this
    | false =>
      rw [List.filter_cons_of_neg (by simp [hv])] at h
      obtain ⟨c', a1, a2, a3⟩ := ran_once step p f0 π ins h1 h2 vs _ c2 he h
      exact ⟨c', by rw [a1, h2 v c hv], a2, a3⟩

omit [UniDB] in
theorem postFold_keys (ks : List HKey) : ∀ (d : Dict PostFn) (L : Str),
    L ∈ (postFold ks d).keys ↔ L ∈ d.keys ∨ ∃ k ∈ ks, (postOf k).map postLabel = some L := by
  induction ks with
  | nil => intro d L; simp [postFold]
  | cons k ks ih =>
    intro d L
    show L ∈ (postFold ks (addPostOf k d)).keys ↔ _
    rw [ih]
    have : L ∈ (addPostOf k d).keys ↔ L ∈ d.keys ∨ (postOf k).map postLabel = some L := by
      unfold addPostOf
      cases hk : postOf k with
      | none => simp
      | some f =>
        simp only [Option.map_some, Option.some.injEq]
        cases hh : d.has (postLabel f) with
        | true =>
          rw [Dict.setDefault_of_has _ _ _ hh]
          refine ⟨Or.inl, ?_⟩
          rintro (h | h)
          · exact h
          · rw [← h]; exact (Dict.has_iff_mem _ _).1 hh
        | false =>
          rw [setDefault_of_not_has _ _ _ hh]
          simp only [Dict.keys, List.map_append, List.mem_append, List.map_cons, List.map_nil,
            List.mem_singleton]
          exact Iff.or Iff.rfl eq_comm
    rw [this]
    simp only [List.mem_cons, or_assoc, exists_eq_or_imp]

omit [UniDB] in
theorem filter_label {d : Dict PostFn} (h : PostInv d) (L : Str) (hL : L ∈ d.keys) :
    ∃ f, postLabel f = L ∧ d.values.filter (fun g => postLabel g == L) = [f] := by
  obtain ⟨hn, hl⟩ := h
  induction d with
  | nil => simp [Dict.keys] at hL
  | cons p d ih =>
    have hp : p.1 = postLabel p.2 := hl p (by simp)
    have hn' : p.1 ∉ Dict.keys d ∧ (Dict.keys d).Nodup := by
      simpa [Dict.keys] using hn
    have hl' : ∀ q ∈ d, q.1 = postLabel q.2 := fun q hq => hl q (by simp [hq])
    have e : Dict.values (p :: d) = p.2 :: Dict.values d := rfl
    rw [e]
    by_cases hpl : postLabel p.2 = L
    · refine ⟨p.2, hpl, ?_⟩
      rw [List.filter_cons_of_pos (by simp [hpl])]
      congr 1
      apply List.filter_eq_nil_iff.2
      intro g hg
      obtain ⟨q, hq, e2⟩ := List.mem_map.1 (show g ∈ d.map Prod.snd from hg)
      intro hgl
      apply hn'.1
      have : postLabel g = L := by simpa using hgl
      rw [hp, hpl, ← this, ← e2, ← hl' q hq]
      exact List.mem_map.2 ⟨q, hq, rfl⟩
    · rw [List.filter_cons_of_neg (by simp [hpl])]
      have hLd : L ∈ Dict.keys d := by
        have : L ∈ p.1 :: Dict.keys d := hL
        rcases List.mem_cons.1 this with h | h
        · exact absurd (by rw [h, hp]) hpl
        · exact h
      exact ih hLd hn'.2 hl'

end
end S2N.Props
