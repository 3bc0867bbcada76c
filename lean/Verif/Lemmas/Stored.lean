import Verif.Lemmas.Regs
import Verif.Spec.Saves
import Verif.Props.Read
import Verif.Props.Untouched
import Verif.Lemmas.Opens
/-
What the lines of a header or a scan leave for the writers.
-/
namespace S2N.Props
open S2N S2N.Py S2N.Spec

/-- What is registered for writing is there, and has proper names. -/
structure Stored (x : Obj) : Prop where
  mon : .monitor ∈ x.h5.values → ∃ t, x.M = some t ∧ Numeric t
  time : .countTime ∈ x.h5.values → ∃ t, x.T = some t ∧ Numeric t
  md : ∀ k ∈ (x.MD.getD []).keys, k ≠ []
  va : ∀ k ∈ (x.VA.getD []).keys, k ≠ []
  vd : ∀ k ∈ (x.VD.getD []).keys, k ≠ []
  ve : ∀ k ∈ (x.VE.getD []).keys, k ≠ []
  j : ∀ row ∈ x.j.getD [], ∀ w ∈ row, NoSlash w
  jx : ∀ m ∈ (x.counterXref.getD []).keys, NoSlash m
  o : ∀ row ∈ x.o.getD [], ∀ w ∈ row, NoSlash w
  ox : ∀ m ∈ (x.positionerXref.getD []).keys, NoSlash m

/-- the line is as `Stored` demands, if it is processed as of kind `k` -/
structure LineStored (k : HKey) (l : Str) : Prop where
  monitor : k = .M → Numeric (tmValue l)
  time : k = .T → Numeric (tmValue l)
  names : k = .j ∨ k = .o → ∀ w ∈ splitWs (stripFirstWord l), NoSlash w
  va : k = .VA ∨ k = .VD ∨ k = .VE → ∀ w, firstWord l = .ok w → lstripC '#' w ≠ []

theorem keys_set_ne {α : Type} {d : Dict α} {k0 : Str} (v : α) (h : ∀ k ∈ d.keys, k ≠ []) (h0 : k0 ≠ []) : ∀ k ∈ (d.set k0 v).keys, k ≠ [] := by
  intro k hk
  rw [Dict.keys_set] at hk
  split at hk
  · exact h k hk
  · rcases List.mem_append.1 hk with hk | hk
    · exact h k hk
    · rw [List.mem_singleton.1 hk]; exact h0

theorem mdItem_key {n : Nat} {l : Str} {kv : Str × Str} (h : mdItem n l = .ok kv) : kv.1 ≠ [] := by
  unfold mdItem at h
  split at h
  · split at h
    · split at h
      · next e => cases h; exact (splitWs_word l _ (by rw [e]; simp)).1
      · cases h
    · cases h; simp
  · cases h; simp

theorem po_stored (env : Env) (k : HKey) (l : Str) (x : Obj) (hl : LineStored k l) (h : Stored x) : Stored (procObj env k l x).1 where
  mon := by
    intro hm
    by_cases hk : k = .M
    · subst hk
      exact ⟨_, rfl, hl.monitor rfl⟩
    · rw [po_M env k l x hk]
      rcases po_reg env k l x _ hm with h1 | h1
      · exact h.mon h1
      · cases k <;> simp [lineFn] at h1 hk
  time := by
    intro hm
    by_cases hk : k = .T
    · subst hk
      exact ⟨_, rfl, hl.time rfl⟩
    · rw [po_T env k l x hk]
      rcases po_reg env k l x _ hm with h1 | h1
      · exact h.time h1
      · cases k <;> simp [lineFn] at h1 hk
  md := by
    by_cases hk : k = .MD
    · subst hk
      simp only [procObj, procMD]
      cases e : mdItem (x.MD.getD []).length l with
      | error er => simp only [Res.eval]; exact h.md
      | ok kv => simp only [Res.eval]; exact keys_set_ne _ h.md (mdItem_key e)
    · rw [po_MD env k l x hk]; exact h.md
  va := by
    by_cases hk : k = .VA
    · subst hk
      simp only [procObj, procVA]
      cases e : firstWord l with
      | error er => simp only [Res.eval]; exact h.va
      | ok w =>
        simp only [Res.eval]
        split <;> exact keys_set_ne _ h.va (hl.va (.inl rfl) w e)
    · rw [po_VA env k l x hk]; exact h.va
  vd := by
    by_cases hk : k = .VD
    · subst hk
      simp only [procObj, procVD]
      cases e : firstWord l with
      | error er => simp only [Res.eval]; exact h.vd
      | ok w =>
        simp only [Res.eval]
        split <;> exact keys_set_ne _ h.vd (hl.va (.inr (.inl rfl)) w e)
    · rw [po_VD env k l x hk]; exact h.vd
  ve := by
    by_cases hk : k = .VE
    · subst hk
      simp only [procObj, procVE]
      cases e : firstWord l with
      | error er => simp only [Res.eval]; exact h.ve
      | ok w =>
        simp only [Res.eval]
        split <;> exact keys_set_ne _ h.ve (hl.va (.inr (.inr rfl)) w e)
    · rw [po_VE env k l x hk]; exact h.ve
  j := by
    by_cases hk : k = .j
    · subst hk
      intro row hrow
      have hrow : row ∈ x.j.getD [] ++ [splitWs (stripFirstWord l)] := hrow
      rcases List.mem_append.1 hrow with hrow | hrow
      · exact h.j row hrow
      · rw [List.mem_singleton.1 hrow]; exact hl.names (.inl rfl)
    · rw [po_j env k l x hk]; exact h.j
  jx := by rw [po_counterXref env k l x]; exact h.jx
  o := by
    by_cases hk : k = .o
    · subst hk
      intro row hrow
      have hrow : row ∈ x.o.getD [] ++ [if strip (stripFirstWord l) = [] then [] else splitWs (strip (stripFirstWord l))] := hrow
      rcases List.mem_append.1 hrow with hrow | hrow
      · exact h.o row hrow
      · rw [List.mem_singleton.1 hrow]
        split
        · intro w hw; cases hw
        · rw [splitWs_strip]; exact hl.names (.inr rfl)
    · rw [po_o env k l x hk]; exact h.o
  ox := by rw [po_positionerXref env k l x]; exact h.ox

theorem xrefRow_keys {P : Str → Prop} : ∀ (ms ns : List Str) (d : Dict Str), (∀ m ∈ ms, P m) → (∀ m ∈ d.keys, P m) → ∀ m ∈ (xrefRow ms ns d).1.keys, P m
  | [], _, _, _, h => h
  | _ :: _, [], _, _, h => h
  | m :: ms, n :: ns, d, h1, h => by
    unfold xrefRow
    refine xrefRow_keys ms ns _ (fun a ha => h1 a (by simp [ha])) ?_
    intro a ha
    rw [Dict.keys_set] at ha
    split at ha
    · exact h a ha
    · rcases List.mem_append.1 ha with ha | ha
      · exact h a ha
      · rw [List.mem_singleton.1 ha]; exact h1 m (by simp)

theorem xrefRows_keys {P : Str → Prop} : ∀ (ms ns : List (List Str)) (d : Dict Str), (∀ row ∈ ms, ∀ m ∈ row, P m) → (∀ m ∈ d.keys, P m) →
    ∀ m ∈ (xrefRows ms ns d).1.keys, P m
  | [], _, _, _, h => h
  | _ :: _, [], _, _, h => h
  | m :: ms, n :: ns, d, h1, h => by
    unfold xrefRows
    have h2 := xrefRow_keys m n d (h1 m (by simp)) h
    unfold Res.andThen
    split
    · exact xrefRows_keys ms ns _ (fun a ha => h1 a (by simp [ha])) h2
    · exact h2

/-- what the post-processors need not touch -/
theorem Stored.of {x y : Obj} (h : Stored x) (e0 : .monitor ∈ y.h5.values → .monitor ∈ x.h5.values) (e1 : .countTime ∈ y.h5.values → .countTime ∈ x.h5.values)
    (hM : y.M = x.M) (hT : y.T = x.T) (hMD : y.MD = x.MD) (hVA : y.VA = x.VA) (hVD : y.VD = x.VD) (hVE : y.VE = x.VE) (hj : y.j = x.j)
    (hjx : ∀ m ∈ (y.counterXref.getD []).keys, NoSlash m) (ho : y.o = x.o) (hox : ∀ m ∈ (y.positionerXref.getD []).keys, NoSlash m) : Stored y where
  mon := fun hm => by rw [hM]; exact h.mon (e0 hm)
  time := fun hm => by rw [hT]; exact h.time (e1 hm)
  md := by rw [hMD]; exact h.md
  va := by rw [hVA]; exact h.va
  vd := by rw [hVD]; exact h.vd
  ve := by rw [hVE]; exact h.ve
  j := by rw [hj]; exact h.j
  jx := hjx
  o := by rw [ho]; exact h.o
  ox := hox

theorem counterXref_keys {x : Obj} (h : Stored x) : ∀ m ∈ ((counterXref x).1.counterXref.getD []).keys, NoSlash m := by
  unfold counterXref
  split
  · next j J e1 e2 =>
    exact xrefRows_keys j J _ (by have := h.j; rw [e1] at this; exact this) h.jx
  · exact h.jx

theorem positionerXref_keys {x : Obj} (h : Stored x) : ∀ m ∈ ((positionerXref x).1.positionerXref.getD []).keys, NoSlash m := by
  unfold positionerXref
  split
  · next o O e1 e2 =>
    exact xrefRows_keys o O _ (by have := h.o; rw [e1] at this; exact this) h.ox
  · exact h.ox

theorem pp_xkeys (env : Env) (f : PostFn) (c : ScanCtx) (h : Stored c.scan) :
    (∀ m ∈ ((runPost env f c).1.scan.counterXref.getD []).keys, NoSlash m) ∧ (∀ m ∈ ((runPost env f c).1.scan.positionerXref.getD []).keys, NoSlash m) := by
  have h1 := counterXref_keys h
  have h2 := positionerXref_keys h
  constructor
  · by_cases hf : f = .counterJ ∨ f = .counterj
    · have e : (runPost env f c).1.scan.counterXref = (counterXref c.scan).1.counterXref := by
        rcases hf with rfl | rfl <;> simp only [runPost, onScan, Res.andThen] <;> split <;> rfl
      rw [e]; exact h1
    · have e : (runPost env f c).1.scan.counterXref = c.scan.counterXref := pp_counterXref env f c (fun e => hf (.inl e)) (fun e => hf (.inr e))
      rw [e]; exact h.jx
  · by_cases hf : f = .positionerXref
    · have e : (runPost env f c).1.scan.positionerXref = (positionerXref c.scan).1.positionerXref := by
        subst hf; simp only [runPost, onScan, Res.andThen]; split <;> rfl
      rw [e]; exact h2
    · have e : (runPost env f c).1.scan.positionerXref = c.scan.positionerXref := pp_positionerXref env f c hf
      rw [e]; exact h.ox

theorem pp_stored (env : Env) (f : PostFn) (c : ScanCtx) (h : Stored c.scan) : Stored (runPost env f c).1.scan := by
  obtain ⟨h1, h2⟩ := pp_xkeys env f c h
  refine h.of ?_ ?_ (pp_M env f c) (pp_T env f c) (pp_MD env f c) (pp_VA env f c) (pp_VD env f c) (pp_VE env f c) (pp_j env f c) h1 (pp_o env f c) h2
  · intro hm
    rcases pp_reg env f c _ hm with h3 | h3
    · exact h3
    · cases f <;> simp [postFn] at h3
  · intro hm
    rcases pp_reg env f c _ hm with h3 | h3
    · exact h3
    · cases f <;> simp [postFn] at h3

theorem ph_frames (env : Env) (f : PostFn) (x : Obj) :
    (runPostHdr env f x).1.M = x.M ∧ (runPostHdr env f x).1.T = x.T ∧ (runPostHdr env f x).1.MD = x.MD ∧ (runPostHdr env f x).1.VA = x.VA ∧
      (runPostHdr env f x).1.VD = x.VD ∧ (runPostHdr env f x).1.VE = x.VE ∧ (runPostHdr env f x).1.j = x.j ∧ (runPostHdr env f x).1.o = x.o := by
  cases f
  all_goals
    simp only [runPostHdr, counterXref, positionerXref, postUXML, Res.andThen, Res.ok, Res.raise, Res.eval,
      Obj.addH5]
    (repeat' split) <;> simp

theorem ph_stored (env : Env) (f : PostFn) (x : Obj) (h : Stored x) : Stored (runPostHdr env f x).1 := by
  obtain ⟨g1, g2, g3, g4, g5, g6, g7, g8⟩ := ph_frames env f x
  have h1 := counterXref_keys h
  have h2 := positionerXref_keys h
  refine h.of ?_ ?_ g1 g2 g3 g4 g5 g6 g7 ?_ g8 ?_
  · intro hm
    rcases ph_reg env f x _ hm with h3 | h3
    · exact h3
    · cases f <;> simp [postFn] at h3
  · intro hm
    rcases ph_reg env f x _ hm with h3 | h3
    · exact h3
    · cases f <;> simp [postFn] at h3
  · by_cases hf : f = .counterJ ∨ f = .counterj
    · have e : (runPostHdr env f x).1.counterXref = (counterXref x).1.counterXref := by
        rcases hf with rfl | rfl <;> simp only [runPostHdr, Res.andThen] <;> split <;> rfl
      rw [e]; exact h1
    · rw [ph_counter env f x (by cases f <;> simp [postLabel] at hf ⊢)]; exact h.jx
  · by_cases hf : f = .positionerXref
    · have e : (runPostHdr env f x).1.positionerXref = (positionerXref x).1.positionerXref := by
        subst hf; simp only [runPostHdr, Res.andThen]; split <;> rfl
      rw [e]; exact h2
    · rw [ph_positioner env f x hf]; exact h.ox

/-- a record that differs only in what the writers do not read -/
theorem Stored.same {x y : Obj} (h : Stored x) (e0 : RegMore x.h5 y.h5 (some .date)) (hM : y.M = x.M) (hT : y.T = x.T) (hMD : y.MD = x.MD) (hVA : y.VA = x.VA)
    (hVD : y.VD = x.VD) (hVE : y.VE = x.VE) (hj : y.j = x.j) (hjx : y.counterXref = x.counterXref) (ho : y.o = x.o)
    (hox : y.positionerXref = x.positionerXref) : Stored y := by
  refine h.of ?_ ?_ hM hT hMD hVA hVD hVE hj (by rw [hjx]; exact h.jx) ho (by rw [hox]; exact h.ox)
  · intro hm
    rcases e0 _ hm with h3 | h3
    · exact h3
    · cases h3
  · intro hm
    rcases e0 _ hm with h3 | h3
    · exact h3
    · cases h3

theorem ps_stored (env : Env) (k : HKey) (l : Str) (c : ScanCtx) (hl : LineStored k l) (h : Stored c.scan) : Stored (procScan env k l c).1.scan := by
  by_cases hD : k = .D
  · subst hD
    have h0 := ps_reg env .D l c
    exact h.same h0 (ps_M env .D l c (by simp)) (ps_T env .D l c (by simp)) (ps_MD env .D l c (by simp)) (ps_VA env .D l c (by simp))
      (ps_VD env .D l c (by simp)) (ps_VE env .D l c (by simp)) (ps_j env .D l c (by simp)) (ps_counterXref env .D l c) (ps_o env .D l c (by simp))
      (ps_positionerXref env .D l c)
  · by_cases hV : k = .V
    · subst hV
      exact h.same (fun f hf => by
        rcases ps_reg env .V l c f hf with h1 | h1
        · exact .inl h1
        · cases h1) (ps_M env .V l c (by simp)) (ps_T env .V l c (by simp)) (ps_MD env .V l c (by simp)) (ps_VA env .V l c (by simp))
        (ps_VD env .V l c (by simp)) (ps_VE env .V l c (by simp)) (ps_j env .V l c (by simp)) (ps_counterXref env .V l c) (ps_o env .V l c (by simp))
        (ps_positionerXref env .V l c)
    · by_cases hO : k = .O
      · subst hO; exact h
      · have := po_stored env k l c.scan hl h
        cases k <;> first | exact this | exact absurd rfl hD | exact absurd rfl hV | exact absurd rfl hO

section
variable [UniDB] (env : Env) (reg : List HKey) (hr : reg.Perm HKey.all)

omit [UniDB] in
theorem stored_fresh {x : Obj} (h : Calm x) : Stored x := by
  obtain ⟨⟨_, _, _, _, _, _, _, _, _, rfl⟩, h5⟩ := h
  refine ⟨?_, ?_, ?_, ?_, ?_, ?_, ?_, ?_, ?_, ?_⟩
  · intro hm
    rcases h5 with h5 | h5 <;> (simp only at h5 hm; rw [h5] at hm; simp [Dict.values] at hm)
  · intro hm
    rcases h5 with h5 | h5 <;> (simp only at h5 hm; rw [h5] at hm; simp [Dict.values] at hm)
  all_goals intro m hm; cases hm

/-- the key of a line for variables of an array is not only `#` -/
theorem va_key {k : HKey} {l : Str} (h : isKind k l = true) (hk : k = .VA ∨ k = .VD ∨ k = .VE) : ∀ w, firstWord l = .ok w → lstripC '#' w ≠ [] := by
  intro w hw
  obtain ⟨w0, rest, e, -, -, h1⟩ := isKind_lead h
  have h2 : ∃ r, w0 = '#' :: 'V' :: r := by
    rcases hk with rfl | rfl | rfl
    all_goals
      simp only [wordIs, numbered, Bool.or_eq_true, Bool.and_eq_true, beq_iff_eq] at h1
      rcases h1 with h1 | ⟨⟨h1, -⟩, -⟩
      · rw [h1]; exact ⟨_, rfl⟩
      · rw [startsWith_iff] at h1
        obtain ⟨r, rfl⟩ := h1
        exact ⟨_, rfl⟩
  obtain ⟨r, rfl⟩ := h2
  obtain ⟨u, ws, h3⟩ := splitWs_two '#' 'V' (r ++ ' ' :: rest) (lstrip_head (l := l) e) (by decide)
  unfold firstWord at hw
  rw [← splitWs_lstrip, e] at hw
  have h4 : splitWs (('#' :: 'V' :: r) ++ ' ' :: rest) = ('#' :: 'V' :: u) :: ws := h3
  rw [h4] at hw
  cases hw
  simp [lstripC]

end

end S2N.Props
