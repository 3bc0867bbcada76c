import Verif.Lemmas.Interp
import Mathlib.Data.List.Nodup
/-
Which post-processors run at the end of the interpretation of a scan, and what they see.
-/
namespace S2N.Props
open S2N S2N.Py S2N.HKey S2N.Spec

/-- the label under which a post-processor is registered -/
def postLabel : PostFn → Str
  | .counterJ => p!"counter cross-referencing"
  | .counterj => p!"counter cross-referencing"
  | .positionerXref => p!"positioner cross-referencing"
  | .geometry => p!"diffractometer geometry"
  | .positions => p!"motor_positions"
  | .scanData => p!"scan_data"
  | .unicat => p!"unicat_metadata"
  | .uxml => p!"UXML_metadata"

/-- the post-processor that a handler registers -/
def postOf : HKey → Option PostFn
  | .G => some .geometry
  | .J => some .counterJ
  | .j => some .counterj
  | .o => some .positionerXref
  | .P => some .positions
  | .data => some .scanData
  | .A => some .scanData
  | .V => some .unicat
  | .UXML => some .uxml
  | _ => none

/-- effect of a handler on the registered post-processors -/
def addPostOf (k : HKey) (d : Dict PostFn) : Dict PostFn :=
  match postOf k with
  | none => d
  | some f => d.setDefault (postLabel f) f

theorem ps_post_eq (env : Env) (k : HKey) (text : Str) (c : ScanCtx)
    (h : (procScan env k text c).2 = none) :
    (procScan env k text c).1.scan.post = addPostOf k c.scan.post := by
  cases k
  case G | J | j | o | P | data | A | V | UXML =>
    revert h
    simp only [procScan, onScan, procObj, procG, procJ, procj, proco, procP, procData, procV, procUXML,
      Res.eval, Res.ok, Res.raise, Obj.addPost]
    (repeat' split) <;> first | (intro _; rfl) | (intro h; cases h)
  all_goals (apply ps_post <;> simp)

/-- every registered function is registered under its own label, labels are distinct -/
def PostInv (d : Dict PostFn) : Prop := d.keys.Nodup ∧ ∀ p ∈ d, p.1 = postLabel p.2

theorem setDefault_of_not_has {α : Type} (d : Dict α) (k : Str) (v : α) (h : d.has k = false) :
    d.setDefault k v = d ++ [(k, v)] := by
  unfold Dict.setDefault
  rw [h]
  simp only [Bool.false_eq_true, if_false]
  exact Dict.set_of_not_mem d k v ((Dict.not_has_iff d k).1 h)

theorem PostInv.add {d : Dict PostFn} (h : PostInv d) (f : PostFn) :
    PostInv (d.setDefault (postLabel f) f) := by
  refine ⟨Dict.nodup_keys_setDefault _ _ _ h.1, ?_⟩
  cases hh : d.has (postLabel f) with
  | true => rw [Dict.setDefault_of_has _ _ _ hh]; exact h.2
  | false =>
    rw [setDefault_of_not_has _ _ _ hh]
    intro p hp
    rcases List.mem_append.1 hp with hp | hp
    · exact h.2 p hp
    · simp at hp; subst hp; rfl

theorem PostInv.addOf {d : Dict PostFn} (h : PostInv d) (k : HKey) : PostInv (addPostOf k d) := by
  unfold addPostOf
  split
  · exact h
  · exact h.add _

theorem PostInv.nodup {d : Dict PostFn} (h : PostInv d) : d.values.Nodup := by
  have e : d.values.map postLabel = d.keys := by
    simp only [Dict.values, Dict.keys, List.map_map]
    apply List.map_congr_left
    intro p hp; exact (h.2 p hp).symm
  exact List.Nodup.of_map postLabel (e ▸ h.1)

theorem mem_values {α : Type} (d : Dict α) (v : α) : v ∈ d.values ↔ ∃ k, (k, v) ∈ d := by
  simp [Dict.values]

/-- the function is not one of the two that share a label -/
def soleLabel (f : PostFn) : Prop := f ≠ .counterJ ∧ f ≠ .counterj

theorem soleLabel.eq {f g : PostFn} (h : soleLabel f) (e : postLabel g = postLabel f) : g = f := by
  obtain ⟨h1, h2⟩ := h
  cases f <;> cases g <;> first | rfl | (exfalso; first | exact h1 rfl | exact h2 rfl | (revert e; decide))

theorem mem_add {d : Dict PostFn} (hd : PostInv d) {f0 : PostFn} (h0 : soleLabel f0) (f : PostFn) :
    f0 ∈ (d.setDefault (postLabel f) f).values ↔ f0 ∈ d.values ∨ f = f0 := by
  cases hh : d.has (postLabel f) with
  | true =>
    rw [Dict.setDefault_of_has _ _ _ hh]
    refine ⟨Or.inl, ?_⟩
    rintro (h | h)
    · exact h
    · subst h
      rw [Dict.has_iff_mem] at hh
      obtain ⟨p, hp, e⟩ := List.mem_map.1 hh
      have := h0.eq (by rw [← hd.2 p hp, e] : postLabel p.2 = postLabel f)
      rw [mem_values]
      exact ⟨p.1, by rw [← this]; exact hp⟩
  | false =>
    rw [setDefault_of_not_has _ _ _ hh]
    simp only [Dict.values, List.map_append, List.mem_append, List.map_cons, List.map_nil,
      List.mem_singleton]
    exact Iff.or Iff.rfl eq_comm

/-- fold of the registrations over the keys of lines -/
def postFold (ks : List HKey) (d : Dict PostFn) : Dict PostFn := ks.foldl (fun d k => addPostOf k d) d

theorem postFold_inv (ks : List HKey) : ∀ d, PostInv d → PostInv (postFold ks d) := by
  induction ks with
  | nil => intro d h; exact h
  | cons k ks ih => intro d h; exact ih _ (h.addOf k)

theorem postFold_mem {f0 : PostFn} (h0 : soleLabel f0) (ks : List HKey) : ∀ d, PostInv d →
    (f0 ∈ (postFold ks d).values ↔ f0 ∈ d.values ∨ ∃ k ∈ ks, postOf k = some f0) := by
  induction ks with
  | nil => intro d _; simp [postFold]
  | cons k ks ih =>
    intro d h
    show f0 ∈ (postFold ks (addPostOf k d)).values ↔ _
    rw [ih _ (h.addOf k)]
    have : f0 ∈ (addPostOf k d).values ↔ f0 ∈ d.values ∨ postOf k = some f0 := by
      unfold addPostOf
      cases hk : postOf k with
      | none => simp
      | some f => simp only [mem_add h h0 f, Option.some.injEq]
    rw [this]
    simp only [List.mem_cons, or_assoc, exists_eq_or_imp]

/-- a post-processor that runs sees the inputs as the lines left them, and what it leaves is not
changed afterwards -/
theorem post_ran {β γ : Type} (env : Env) (f0 : PostFn) (π : ScanCtx → β) (ins : ScanCtx → γ)
    (h1 : ∀ f c, f ≠ f0 → π (runPost env f c).1 = π c)
    (h2 : ∀ f c, f ≠ f0 → ins (runPost env f c).1 = ins c) :
    ∀ (vs : List PostFn) (c c2 : ScanCtx), forEach (runPost env) vs c = (c2, none) → vs.Nodup →
      f0 ∈ vs → ∃ c', ins c' = ins c ∧ (runPost env f0 c').2 = none ∧
        π c2 = π (runPost env f0 c').1
  | [], c, c2, _, _, h => by simp at h
  | v :: vs, c, c2, he, hn, h => by
    have hok : (forEach (runPost env) (v :: vs) c).2 = none := by rw [he]
    obtain ⟨g1, g2, g3⟩ := forEach_cons_ok hok
    rw [g2] at he
    rw [List.nodup_cons] at hn
    by_cases hv : v = f0
    · subst hv
      refine ⟨c, rfl, g1, ?_⟩
      have := forEach_pres (runPost env) π vs (fun f hf s => h1 f s (fun e => hn.1 (e ▸ hf)))
        (runPost env v c).1
      rw [he] at this
      exact this
    · obtain ⟨c', a1, a2, a3⟩ := post_ran env f0 π ins h1 h2 vs _ c2 he hn.2 (by
        rcases List.mem_cons.1 h with e | h
        · exact absurd e.symm hv
        · exact h)
      exact ⟨c', by rw [a1, h2 v c hv], a2, a3⟩

theorem post_not_ran {β : Type} (env : Env) (f0 : PostFn) (π : ScanCtx → β)
    (h1 : ∀ f c, f ≠ f0 → π (runPost env f c).1 = π c) (vs : List PostFn) (c c2 : ScanCtx)
    (he : forEach (runPost env) vs c = (c2, none)) (h : f0 ∉ vs) : π c2 = π c := by
  have := forEach_pres (runPost env) π vs (fun f hf s => h1 f s (fun e => h (e ▸ hf))) c
  rw [he] at this
  exact this

section
variable [UniDB]
variable (env : Env) (reg : List HKey)

theorem lines_post (lines : List Str) (c : ScanCtx)
    (hok : (forEach (scanLine env reg) lines c).2 = none) :
    (forEach (scanLine env reg) lines c).1.scan.post =
      postFold (lines.filterMap (effKey reg)) c.scan.post := by
  rw [lines_fold env reg (·.post) (fun k _ d => addPostOf k d) (fun k t c h => ps_post_eq env k t c h) lines c hok]
  show _ = postFold (lines.filterMap (effKey reg)) c.scan.post
  generalize c.scan.post = d
  induction lines generalizing c d with
  | nil => rfl
  | cons l ls ih =>
    obtain ⟨g1, g2, g3⟩ := forEach_cons_ok hok
    rw [List.foldl_cons, ih _ g3]
    cases hk : effKey reg l with
    | none => rw [List.filterMap_cons_none hk]
    | some k => rw [List.filterMap_cons_some hk]; rfl

/-- a post-processor with a label of its own is registered iff some line of the right kind exists -/
theorem lines_post_mem (hr : reg.Perm HKey.all) (lines : List Str) (hn : ∀ l ∈ lines, '\n' ∉ l)
    (c : ScanCtx) (hp : c.scan.post = []) (hok : (forEach (scanLine env reg) lines c).2 = none)
    {f0 : PostFn} (h0 : soleLabel f0) :
    f0 ∈ (forEach (scanLine env reg) lines c).1.scan.post.values ↔
      ∃ l ∈ lines, ∃ k, postOf k = some f0 ∧ isKind k l = true := by
  rw [lines_post env reg lines c hok, hp, postFold_mem h0 _ _ ⟨by simp [Dict.keys], by simp⟩]
  simp only [Dict.values, List.map_nil, List.not_mem_nil, false_or, List.mem_filterMap]
  constructor
  · rintro ⟨k, ⟨l, hl, hk⟩, e⟩
    refine ⟨l, hl, k, e, (effKey_iff reg hr l (hn l hl) k ?_ ?_).1 hk⟩ <;>
      (rintro rfl; simp [postOf] at e)
  · rintro ⟨l, hl, k, e, hk⟩
    refine ⟨k, ⟨l, hl, (effKey_iff reg hr l (hn l hl) k ?_ ?_).2 hk⟩, e⟩ <;>
      (rintro rfl; simp [postOf] at e)

theorem lines_post_nodup (lines : List Str) (c : ScanCtx) (hp : c.scan.post = [])
    (hok : (forEach (scanLine env reg) lines c).2 = none) :
    (forEach (scanLine env reg) lines c).1.scan.post.values.Nodup := by
  rw [lines_post env reg lines c hok, hp]
  exact (postFold_inv _ _ ⟨by simp [Dict.keys], by simp⟩).nodup

end
end S2N.Props
