import Verif.Lemmas.Header
import Verif.Lemmas.Writers
import Verif.Props.Xref
/-
Which lines of a scan or a header register which writers.
-/
namespace S2N.Props
open S2N S2N.Py S2N.Spec

/-- the writer that is registered when a line of this kind is processed -/
def lineFn : HKey → Option H5Fn
  | .C => some .comments
  | .D => some .date
  | .M => some .monitor
  | .Q => some .hkl
  | .R => some .userResults
  | .T => some .countTime
  | .U => some .userReserved
  | .X => some .temperature
  | .CALIB => some .calib
  | .CHANN => some .chann
  | .CTIME => some .ctime
  | .unrec => some .unrec
  | .MD => some .MD
  | .VA => some .VA
  | .VD => some .VD
  | .VE => some .VE
  | .XPCS => some .XPCS
  | .CCD => some .CCD
  | _ => none

/-- the writer that is registered by a post-processor -/
def postFn : PostFn → H5Fn
  | .counterJ => .counterJ
  | .counterj => .counterj
  | .positionerXref => .positionerXref
  | .geometry => .geometry
  | .positions => .positioners
  | .scanData => .scanData
  | .unicat => .metadata
  | .uxml => .uxml

/-- what is registered is what was, and at most one more -/
def RegMore (d e : Dict H5Fn) (g : Option H5Fn) : Prop := ∀ f ∈ e.values, f ∈ d.values ∨ g = some f

theorem RegMore.refl (d : Dict H5Fn) (g : Option H5Fn) : RegMore d d g := fun _ h => .inl h

theorem RegMore.put (d : Dict H5Fn) (l : Str) (g : H5Fn) : RegMore d (d.setDefault l g) (some g) := by
  intro f hf
  obtain ⟨k, hk⟩ := (mem_values _ f).1 hf
  unfold Dict.setDefault at hk
  split at hk
  · exact .inl ((mem_values _ f).2 ⟨k, hk⟩)
  · rcases Dict.mem_set hk with h | h
    · cases h; exact .inr rfl
    · exact .inl ((mem_values _ f).2 ⟨k, h⟩)

macro "reg_obj" k:term : tactic => `(tactic| (
  cases $k:term <;> simp only [procObj, procDate, procC, procG, procI, procJ, procj, procL, procM,
    procN, procO, proco, procP, procQ, procR, procT, procU, procX, procData, procCalib, procChann,
    procCtime, procRoi, procUnrec, procMD, procUIM, procH, procVA, procVD, procVE, procXPCS,
    procCCD, procUXML, Res.eval, Res.ok, Res.raise, Obj.addH5, Obj.addPost] <;>
    (repeat' split) <;> first | exact RegMore.refl _ _ | exact RegMore.put _ _ _ ))

theorem po_reg (env : Env) (k : HKey) (text : Str) (x : Obj) : RegMore x.h5 (procObj env k text x).1.h5 (lineFn k) := by
  reg_obj k

theorem ps_reg (env : Env) (k : HKey) (text : Str) (c : ScanCtx) : RegMore c.scan.h5 (procScan env k text c).1.scan.h5 (lineFn k) := by
  cases k
  case D =>
    have h : (procDate env text c.scan).1.h5 = c.scan.h5 := by
      simp only [procDate, Res.eval, Res.ok, Res.raise]
      (repeat' split) <;> rfl
    simp only [procScan, Res.andThen]
    split
    · rw [dateHdr_scan]
      show RegMore _ ((procDate env text c.scan).1.h5.setDefault _ _) _
      rw [h]
      exact RegMore.put _ _ _
    · show RegMore _ (procDate env text c.scan).1.h5 _
      rw [h]; exact RegMore.refl _ _
  case O => exact RegMore.refl _ _
  case V =>
    simp only [procScan, procV]
    repeat' split
    all_goals exact RegMore.refl _ _
  all_goals exact po_reg env _ text c.scan

theorem pp_reg (env : Env) (f : PostFn) (c : ScanCtx) : RegMore c.scan.h5 (runPost env f c).1.scan.h5 (some (postFn f)) := by
  cases f <;> simp only [runPost, onScan, postGeometry, postPositions, postData, postUnicat,
    postUXML, counterXref, positionerXref, Res.eval, Res.ok, Res.raise, Res.andThen, Obj.addH5,
    Obj.addPost] <;>
    (repeat' split) <;> first | exact RegMore.refl _ _ | exact RegMore.put _ _ _

theorem ph_reg (env : Env) (f : PostFn) (x : Obj) : RegMore x.h5 (runPostHdr env f x).1.h5 (some (postFn f)) := by
  cases f <;> simp only [runPostHdr, postUXML, counterXref, positionerXref, Res.eval, Res.ok, Res.raise, Res.andThen, Obj.addH5,
    Obj.addPost] <;>
    (repeat' split) <;> first | exact RegMore.refl _ _ | exact RegMore.put _ _ _

theorem forEach_reg {α σ : Type} (step : α → σ → Res σ) (π : σ → Dict H5Fn) (g : α → Option H5Fn) (as : List α)
    (h : ∀ a ∈ as, ∀ s, (step a s).2 = none → RegMore (π s) (π (step a s).1) (g a)) (s : σ) (hok : (forEach step as s).2 = none) :
    ∀ f ∈ (π (forEach step as s).1).values, f ∈ (π s).values ∨ ∃ a ∈ as, g a = some f := by
  induction as generalizing s with
  | nil => exact fun f hf => .inl hf
  | cons a as ih =>
    obtain ⟨h1, h2, h3⟩ := forEach_cons_ok hok
    rw [h2]
    intro f hf
    rcases ih (fun b hb => h b (by simp [hb])) _ h3 f hf with h4 | ⟨b, hb, e⟩
    · rcases h a (by simp) s h1 f h4 with h5 | h5
      · exact .inl h5
      · exact .inr ⟨a, by simp, h5⟩
    · exact .inr ⟨b, by simp [hb], e⟩

theorem postFold_values (ks : List HKey) : ∀ (d : Dict PostFn), ∀ p ∈ (postFold ks d).values, p ∈ d.values ∨ ∃ k ∈ ks, postOf k = some p := by
  induction ks with
  | nil => intro d p hp; exact .inl hp
  | cons k ks ih =>
    intro d p hp
    rcases ih (addPostOf k d) p hp with h | ⟨k2, h1, h2⟩
    · unfold addPostOf at h
      cases hk : postOf k with
      | none => rw [hk] at h; exact .inl h
      | some g =>
        rw [hk] at h
        simp only [Dict.setDefault] at h
        split at h
        · exact .inl h
        · obtain ⟨l, hl⟩ := (mem_values _ p).1 h
          rcases Dict.mem_set hl with e | e
          · cases e; exact .inr ⟨k, by simp, hk⟩
          · exact .inl ((mem_values _ p).2 ⟨l, e⟩)
    · exact .inr ⟨k2, by simp [h1], h2⟩

section
variable [UniDB] (env : Env) (reg : List HKey) (hr : reg.Perm HKey.all)

include hr in
/-- each writer of an interpreted scan was there, or was registered for a line of the scan -/
theorem regs_scan (c : ScanCtx) (hf : Fresh c.scan) (hok : (interpretScan env reg c).2 = none) (f : H5Fn) (hu : f ≠ .unrec)
    (h : f ∈ (interpretScan env reg c).1.scan.h5.values) :
    f ∈ c.scan.h5.values ∨ ∃ l ∈ scanLines c.scan.raw, ∃ k, isKind k l = true ∧ (lineFn k = some f ∨ (postOf k).map postFn = some f) := by
  obtain ⟨c1, c2, e1, e2, e3⟩ := interpret_ok env reg c (by obtain ⟨_, _, _, _, _, _, _, _, _, e⟩ := hf; rw [e]; rfl) hok
  rw [e3] at h
  have h : f ∈ c2.scan.h5.values := h
  have key : ∀ l ∈ scanLines c.scan.raw, ∀ k, effKey reg l = some k → (lineFn k = some f ∨ (postOf k).map postFn = some f) → isKind k l = true := by
    intro l hl k hk he
    refine (effKey_iff reg hr l (scanLines_no_nl _ l hl) k ?_ ?_).1 hk
    · rintro rfl; simp [lineFn, postOf] at he
    · rintro rfl; simp [lineFn, postOf] at he; exact hu he.symm
  have h2 := forEach_reg (runPost env) (fun d : ScanCtx => d.scan.h5) (fun p => some (postFn p)) c1.scan.post.values (fun p _ d _ => pp_reg env p d) c1
    (by rw [e2]) f (by rw [e2]; exact h)
  rcases h2 with h2 | ⟨p, hp, e⟩
  · have h3 := forEach_reg (scanLine env reg) (fun d : ScanCtx => d.scan.h5) (fun l => (effKey reg l).bind lineFn) (scanLines c.scan.raw) (by
      intro l _ d _
      rw [scanLine_eq]
      cases effKey reg l with
      | none => exact RegMore.refl _ _
      | some k => exact ps_reg env k l d) { c with scan := { c.scan with lazy := false } } (by rw [e1]) f (by rw [e1]; exact h2)
    rcases h3 with h3 | ⟨l, hl, e⟩
    · exact .inl h3
    · cases hk : effKey reg l with
      | none => rw [hk] at e; cases e
      | some k =>
        rw [hk] at e
        exact .inr ⟨l, hl, k, key l hl k hk (.inl e), .inl e⟩
  · have h3 := lines_post env reg (scanLines c.scan.raw) { c with scan := { c.scan with lazy := false } } (by rw [e1])
    rw [e1] at h3
    have h3 : c1.scan.post = _ := h3
    rw [h3] at hp
    rcases postFold_values _ _ p hp with h4 | ⟨k, h4, h5⟩
    · have : c.scan.post = [] := by obtain ⟨_, _, _, _, _, _, _, _, _, e⟩ := hf; rw [e]; rfl
      rw [show ({ c with scan := { c.scan with lazy := false } } : ScanCtx).scan.post = [] from this] at h4
      cases h4
    · obtain ⟨l, hl, hk⟩ := List.mem_filterMap.1 h4
      have h6 : (postOf k).map postFn = some f := by rw [h5]; exact e
      exact .inr ⟨l, hl, k, key l hl k hk (.inr h6), .inr h6⟩

include hr in
/-- each writer of an interpreted header was registered for a line of the header -/
theorem regs_header (c : HCtx) (hf : FreshHeader c.hdr) (hok : (interpretHeader env reg c).2 = none) (f : H5Fn) (hu : f ≠ .unrec)
    (h : f ∈ (interpretHeader env reg c).1.hdr.h5.values) :
    ∃ l ∈ splitlines c.hdr.raw, ∃ k, hKind k l = true ∧ (lineFn k = some f ∨ (postOf k).map postFn = some f) := by
  obtain ⟨c1, c2, e1, e2, e3⟩ := hinterpret_ok env reg c hok
  rw [e3] at h
  have key : ∀ l ∈ splitlines c.hdr.raw, ∀ k, hEff reg l = some k → (lineFn k = some f ∨ (postOf k).map postFn = some f) → hKind k l = true := by
    intro l hl k hk he
    refine (hEff_iff reg hr l (splitlines_no_nl _ l hl) k ?_ ?_).1 hk
    · rintro rfl; simp [lineFn, postOf] at he
    · rintro rfl; simp [lineFn, postOf] at he; exact hu he.symm
  have h2 := forEach_reg (fun f => HCtx.onHdr (runPostHdr env f)) (fun d : HCtx => d.hdr.h5) (fun p => some (postFn p)) c1.hdr.post.values
    (fun p _ d _ => ph_reg env p d.hdr) c1 (by rw [e2]) f (by rw [e2]; exact h)
  rcases h2 with h2 | ⟨p, hp, e⟩
  · have h3 := forEach_reg (hdrLine env reg) (fun d : HCtx => d.hdr.h5) (fun l => (hEff reg l).bind lineFn) (splitlines c.hdr.raw) (by
      intro l _ d hk
      rw [hdrLine_eq env reg l d hk]
      cases hEff reg l with
      | none => exact RegMore.refl _ _
      | some k =>
        simp only [procHdr]
        split
        · split
          · exact RegMore.refl _ _
          · exact RegMore.refl _ _
        · exact po_reg env _ l d.hdr) c (by rw [e1]) f (by rw [e1]; exact h2)
    rcases h3 with h3 | ⟨l, hl, e⟩
    · obtain ⟨_, _, _, e⟩ := hf
      rw [e] at h3; cases h3
    · cases hk : hEff reg l with
      | none => rw [hk] at e; cases e
      | some k =>
        rw [hk] at e
        exact ⟨l, hl, k, key l hl k hk (.inl e), .inl e⟩
  · have h3 := hlines_post env reg (splitlines c.hdr.raw) c (by rw [e1])
    rw [e1] at h3
    have h3 : c1.hdr.post = _ := h3
    rw [h3] at hp
    rcases postFold_values _ _ p hp with h4 | ⟨k, h4, h5⟩
    · obtain ⟨_, _, _, e⟩ := hf
      rw [e] at h4; cases h4
    · obtain ⟨l, hl, hk⟩ := List.mem_filterMap.1 (List.mem_filter.1 h4).1
      have h6 : (postOf k).map postFn = some f := by rw [h5]; exact e
      exact ⟨l, hl, k, key l hl k hk (.inr h6), .inr h6⟩

end

end S2N.Props
