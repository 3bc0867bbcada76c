import Verif.Spec.Headers
import Verif.Props.ArriveMore
import Verif.Props.Opens
import Verif.Props.Xref
import Verif.Props.FileAttrs
/-
C97: the lines of a header, from the text of a SPEC data file to the entries of its scans.
-/
namespace S2N.Props
open S2N S2N.Py S2N.Spec S2N.H5 S2N.Writer

section
variable [UniDB]

theorem hEff_unrec (reg : List HKey) (hr : reg.Perm HKey.all) (line : Str) (hn : '\n' ∉ line)
    (hne : ∀ e, getControlKey reg line ≠ .error e) :
    hEff reg line = some .unrec ↔ (hUnknown line || hKind .unrec line) = true := by
  unfold hEff
  by_cases he : line = []
  · subst he; simp [hUnknown, hKind, leadWord, findC]
  · rw [if_neg he, Bool.or_eq_true]
    have hi : ∀ k, getControlKey reg line = .ok (some k) ↔ hKind k line = true := fun k => hkey_iff reg hr line hn k
    have hu : hUnknown line = true ↔ ∀ k, getControlKey reg line ≠ .ok (some k) := by
      unfold hUnknown
      simp only [Bool.and_eq_true, Bool.not_eq_true', List.isEmpty_eq_false_iff, List.all_eq_true]
      constructor
      · rintro ⟨_, h⟩ k hk
        have := h k (all_mem k)
        rw [(hi k).1 hk] at this
        cases this
      · intro h
        refine ⟨he, fun k _ => ?_⟩
        cases hq : hKind k line with
        | false => rfl
        | true => exact absurd ((hi k).2 hq) (h k)
    rw [hu, ← hi]
    cases hk : getControlKey reg line with
    | error e => exact absurd hk (hne e)
    | ok o => cases o with
      | none => simp
      | some q => cases q <;> simp

/-- a header that was read has no line whose key raises -/
theorem hdrLines_key (env : Env) (reg : List HKey) : ∀ (ls : List Str) (c : HCtx), (forEach (hdrLine env reg) ls c).2 = none →
    ∀ l ∈ ls, ∀ e, getControlKey reg l ≠ .error e
  | [], _, _, l, hl, _ => by cases hl
  | l :: ls, c, h, l', hl, e => by
    obtain ⟨h1, _, h3⟩ := andThen_none (show ((hdrLine env reg l c).andThen (forEach (hdrLine env reg) ls)).2 = none from h)
    rcases List.mem_cons.1 hl with rfl | hl
    · intro he
      unfold hdrLine at h1
      by_cases hz : l' = []
      · subst hz; cases he
      · rw [if_neg hz, he] at h1; cases h1
    · exact hdrLines_key env reg ls _ h3 l' hl e

theorem ph_more (env : Env) (f : PostFn) (x : Obj) :
    (runPostHdr env f x).1.R = x.R ∧ (runPostHdr env f x).1.U = x.U ∧ (runPostHdr env f x).1.unrecognized = x.unrecognized ∧
    (x.j = none ∨ x.J = none → (runPostHdr env f x).1.counterXref = x.counterXref) ∧
    (x.o = none → (runPostHdr env f x).1.positionerXref = x.positionerXref) := by
  cases f
  all_goals
    simp only [runPostHdr, counterXref, positionerXref, postUXML, Res.andThen, Res.ok, Res.raise, Res.eval,
      Obj.addH5]
    (repeat' split) <;> simp_all

theorem header_states (env : Env) (reg : List HKey) (hr : reg.Perm HKey.all) (c : HCtx) (hfr : FreshHeader c.hdr)
    (hok : (interpretHeader env reg c).2 = none) : HeaderStates (interpretHeader env reg c).1.hdr := by
  have hraw : (interpretHeader env reg c).1.hdr.raw = c.hdr.raw := by
    have := interpretHeader_ident env reg c
    simp only [hctxIdent, Prod.mk.injEq] at this
    exact congrArg Ident.raw this.1
  have hsays := header_says env reg hr c hfr hok
  have hcnt := C31_counters env reg hr c hfr hok
  have hpos := C31_positioners env reg hr c hfr hok
  obtain ⟨c1, c2, e1, e2, e3⟩ := hinterpret_ok env reg c hok
  obtain ⟨t1, t2, t3, t4⟩ := hdr_tables env reg hr c c1 hfr e1
  have hok1 : (forEach (hdrLine env reg) (splitlines c.hdr.raw) c).2 = none := by rw [e1]
  have hR := hlines_kind env reg hr .R (by simp) (by simp) (by simp) (·.R)
    (fun l b => some (b.getD [] ++ [stripFirstWord l])) (by
      intro t x hx
      simp only [procObj, procR, Res.ok, Obj.addH5]
      rw [show strip (stripFirstWord t) = stripFirstWord t from strip_strip _])
    (fun k t x hk => po_R env k t x hk) (splitlines c.hdr.raw) (splitlines_no_nl _) c hok1
  have hU := hlines_kind env reg hr .U (by simp) (by simp) (by simp) (·.U)
    (fun l b => some (b.getD [] ++ [stripFirstWord l])) (by
      intro t x hx
      simp only [procObj, procU, Res.ok, Obj.addH5]
      rw [show strip (stripFirstWord t) = stripFirstWord t from strip_strip _])
    (fun k t x hk => po_U env k t x hk) (splitlines c.hdr.raw) (splitlines_no_nl _) c hok1
  have hun := hlines_fold env reg (·.unrecognized) (fun k l b => if k = .unrec then some (b.getD [] ++ [id l]) else b)
    (by
      intro k t x _ _
      by_cases hk : k = .unrec
      · subst hk; rfl
      · simp only [hk, if_false]; exact po_unrecognized env k t x hk)
    (fun _ _ => by simp) (splitlines c.hdr.raw) c hok1
  have h0 : c.hdr.R = none ∧ c.hdr.U = none ∧ c.hdr.unrecognized = none ∧ c.hdr.counterXref = none ∧ c.hdr.positionerXref = none := by
    obtain ⟨_, _, _, e⟩ := hfr; rw [e]; exact ⟨rfl, rfl, rfl, rfl, rfl⟩
  rw [foldl_filter_eq (fun l => hUnknown l || hKind .unrec l) _ (fun b l => some (b.getD [] ++ [id l])), foldl_opt_append] at hun
  · rw [foldl_opt_append] at hR hU
    rw [e1] at hR hU hun
    simp only [h0.1, h0.2.1, h0.2.2.1, Option.getD_none, List.nil_append] at hR hU hun
    have key : ∀ {β : Type} (π : Obj → β), (∀ f x, π (runPostHdr env f x).1 = π x) → π (interpretHeader env reg c).1.hdr = π c1.hdr := by
      intro β π hπ
      have := forEach_pres (fun f => HCtx.onHdr (runPostHdr env f)) (fun c : HCtx => π c.hdr) c1.hdr.post.values
        (fun f _ c => hπ f c.hdr) c1
      rw [e2] at this
      rw [e3]
      exact this
    have hcx : c1.hdr.counterXref = none := by
      have := hlines_fold env reg (·.counterXref) (fun _ _ b => b)
        (fun k t x _ _ => po_counterXref env k t x) (fun _ _ => rfl) (splitlines c.hdr.raw) c hok1
      rw [e1, h0.2.2.2.1] at this
      rw [this]
      clear * -
      induction splitlines c.hdr.raw with
      | nil => rfl
      | cons l ls ih => rw [List.foldl_cons]; split <;> exact ih
    have hpx : c1.hdr.positionerXref = none := by
      have := hlines_fold env reg (·.positionerXref) (fun _ _ b => b)
        (fun k t x _ _ => po_positionerXref env k t x) (fun _ _ => rfl) (splitlines c.hdr.raw) c hok1
      rw [e1, h0.2.2.2.2] at this
      rw [this]
      clear * -
      induction splitlines c.hdr.raw with
      | nil => rfl
      | cons l ls ih => rw [List.foldl_cons]; split <;> exact ih
    have keep : ∀ (P : Obj → Prop), (∀ f x, P x → P (runPostHdr env f x).1) → P c1.hdr → P (interpretHeader env reg c).1.hdr := by
      intro P hP h1
      have := forEach_invariant (fun f => HCtx.onHdr (runPostHdr env f)) (fun c : HCtx => P c.hdr) (fun f c h => hP f c.hdr h) c1.hdr.post.values c1 h1
      rw [e2] at this
      rw [e3]
      exact this
    refine ⟨hsays, ?_, ?_, ?_, ?_, ?_, ?_, ?_⟩
    · rw [key (·.R) (fun f x => (ph_more env f x).1), hR, hraw]
      unfold textsOrNone hTexts
      simp
    · rw [key (·.U) (fun f x => (ph_more env f x).2.1), hU, hraw]
      unfold textsOrNone hTexts
      simp
    · rw [key (·.unrecognized) (fun f x => (ph_more env f x).2.2.1), hun, hraw]
      unfold textsOrNone hUnrecognized
      simp
    · intro h1 h2
      rw [hraw] at h1 h2 ⊢
      exact (hcnt h1 h2).2
    · intro h
      rw [hraw] at h
      refine (keep (fun x => (x.j = none ∨ x.J = none) ∧ x.counterXref = none) (fun f x hx => ?_) ⟨?_, hcx⟩).2
      · obtain ⟨a, b, _, _⟩ := ph_names env f x
        exact ⟨by rw [a, b]; exact hx.1, ((ph_more env f x).2.2.2.1 hx.1).trans hx.2⟩
      · rcases h with h | h
        · exact .inl (by rw [t1, if_pos h])
        · exact .inr (by rw [t2, if_pos h])
    · intro h1
      rw [hraw] at h1 ⊢
      exact (hpos h1).2
    · intro h
      rw [hraw] at h
      refine (keep (fun x => x.o = none ∧ x.positionerXref = none) (fun f x hx => ?_) ⟨?_, hpx⟩).2
      · obtain ⟨_, _, a, _⟩ := ph_names env f x
        exact ⟨by rw [a]; exact hx.1, ((ph_more env f x).2.2.2.2 hx.1).trans hx.2⟩
      · rw [t3, if_pos h]
  · intro l hl b
    have hn := splitlines_no_nl _ l hl
    have hi := hEff_unrec reg hr l hn (hdrLines_key env reg _ c hok1 l hl)
    cases hk : hEff reg l with
    | none =>
      rw [hk] at hi
      rw [if_neg (fun h => by have := hi.2 h; cases this)]
    | some k =>
      rw [hk] at hi
      by_cases e : k = .unrec
      · subst e
        rw [if_pos (hi.1 rfl)]; simp
      · rw [if_neg (fun h => e (by have := hi.2 h; injection this))]
        simp [e]

theorem newHeader_states (name : Str) : HeaderStates (Obj.newHeader name []) :=
  ⟨newHeader_says name, rfl, rfl, rfl, fun h => absurd rfl h, fun _ => rfl, fun h => absurd rfl h, fun _ => rfl⟩

theorem _root_.S2N.Spec.HeaderStates.dated {x : Obj} (h : HeaderStates x) (d : Str) (e : Option Num) :
    HeaderStates { x with date := d, epoch := e } :=
  ⟨h.tables.dated d e, h.R, h.U, h.unrecognized, h.counters, h.noCounters, h.positioners, h.noPositioners⟩

/-- C97: when a file without #P lines in its headers has been opened, the attributes of each header are what its text says. -/
theorem C97_headers {env : Env} {reg : List HKey} (hr : reg.Perm HKey.all) {name : Str} {f stat : FileSt} {s : Sdf}
    (h : Sdf.openFile env reg name f stat = .ok s) {texts : List Str} (ht : dissectFile f.node = .ok texts)
    (hP : ∀ t ∈ texts, isHeaderText t = true → ∀ l ∈ splitlines t, hKind .P l = false) :
    ∀ x ∈ s.headers, HeaderStates x :=
  (calm_open env reg hr (Q := HeaderStates) ⟨newHeader_states, fun _ d e h => h.dated d e⟩ name f stat s h
    texts ht hP (fun _ _ _ c _ _ hf hok => header_states env reg hr c hf hok)).headers

/-- a scan without #j lines has no table of counters -/
theorem scan_noCounters (env : Env) (reg : List HKey) (hr : reg.Perm HKey.all) (c : ScanCtx) (hf : Fresh c.scan)
    (hok : (interpretScan env reg c).2 = none) (hj : ofKind .j (scanLines c.scan.raw) = []) :
    (interpretScan env reg c).1.scan.counterXref = none := by
  obtain ⟨c1, c2, e1, e2, e3⟩ := interpret_ok env reg c (fresh_interpreted hf) hok
  have hok1 : (forEach (scanLine env reg) (scanLines c.scan.raw) { c with scan := { c.scan with lazy := false } }).2 = none := by rw [e1]
  have h0 : c.scan.j = none ∧ c.scan.counterXref = none := by
    obtain ⟨_, _, _, _, _, _, _, _, _, e⟩ := hf; rw [e]; exact ⟨rfl, rfl⟩
  have a1 := lines_kind env reg hr .j (by simp) (by simp) (·.j) (fun t b => some (b.getD [] ++ [splitWs (stripFirstWord t)]))
    (fun t c _ => rfl) (fun k t c hk => ps_j env k t c hk) (scanLines c.scan.raw) (scanLines_no_nl _) _ hok1
  have a2 := lines_fold env reg (·.counterXref) (fun _ _ b => b) (fun k t c _ => ps_counterXref env k t c) (scanLines c.scan.raw) _ hok1
  rw [e1, hj] at a1
  rw [e1] at a2
  have a2 : c1.scan.counterXref = none := by
    rw [a2]
    show List.foldl _ c.scan.counterXref _ = none
    rw [h0.2]
    clear * -
    induction scanLines c.scan.raw with
    | nil => rfl
    | cons l ls ih => rw [List.foldl_cons]; split <;> exact ih
  have := forEach_invariant (runPost env) (fun c : ScanCtx => c.scan.j = none ∧ c.scan.counterXref = none) (fun f c h => by
    refine ⟨by rw [pp_j]; exact h.1, ?_⟩
    by_cases hf : f = .counterJ ∨ f = .counterj
    · have : (runPost env f c).1.scan.counterXref = c.scan.counterXref := by
        rcases hf with rfl | rfl <;> simp [runPost, counterXref, onScan, h.1, Res.ok, Res.andThen, Obj.addH5]
      rw [this]; exact h.2
    · rw [pp_counterXref env f c (fun e => hf (.inl e)) (fun e => hf (.inr e))]; exact h.2) c1.scan.post.values c1
    ⟨a1.trans h0.1, a2⟩
  rw [e2] at this
  rw [e3]
  exact this.2

/-- a scan has no table of positioners, as it has no names of its own -/
theorem scan_noPositioners (env : Env) (reg : List HKey) (hr : reg.Perm HKey.all) (c : ScanCtx) (hf : Fresh c.scan)
    (hok : (interpretScan env reg c).2 = none) (hj : ofKind .o (scanLines c.scan.raw) = []) :
    (interpretScan env reg c).1.scan.positionerXref = none := by
  obtain ⟨c1, c2, e1, e2, e3⟩ := interpret_ok env reg c (fresh_interpreted hf) hok
  have hok1 : (forEach (scanLine env reg) (scanLines c.scan.raw) { c with scan := { c.scan with lazy := false } }).2 = none := by rw [e1]
  have h0 : c.scan.o = none ∧ c.scan.positionerXref = none := by
    obtain ⟨_, _, _, _, _, _, _, _, _, e⟩ := hf; rw [e]; exact ⟨rfl, rfl⟩
  have a1 := lines_kind env reg hr .o (by simp) (by simp) (·.o)
    (fun t b => some (b.getD [] ++ [if strip (stripFirstWord t) = [] then [] else splitWs (strip (stripFirstWord t))]))
    (fun t c _ => rfl) (fun k t c hk => ps_o env k t c hk) (scanLines c.scan.raw) (scanLines_no_nl _) _ hok1
  have a2 := lines_fold env reg (·.positionerXref) (fun _ _ b => b) (fun k t c _ => ps_positionerXref env k t c) (scanLines c.scan.raw) _ hok1
  rw [e1, hj] at a1
  rw [e1] at a2
  have a2 : c1.scan.positionerXref = none := by
    rw [a2]
    show List.foldl _ c.scan.positionerXref _ = none
    rw [h0.2]
    clear * -
    induction scanLines c.scan.raw with
    | nil => rfl
    | cons l ls ih => rw [List.foldl_cons]; split <;> exact ih
  have := forEach_invariant (runPost env) (fun c : ScanCtx => c.scan.o = none ∧ c.scan.positionerXref = none) (fun f c h => by
    refine ⟨by rw [pp_o]; exact h.1, ?_⟩
    by_cases hf : f = .positionerXref
    · have : (runPost env f c).1.scan.positionerXref = c.scan.positionerXref := by
        subst hf; simp [runPost, positionerXref, onScan, h.1, Res.ok, Res.andThen, Obj.addH5]
      rw [this]; exact h.2
    · rw [pp_positionerXref env f c hf]; exact h.2) c1.scan.post.values c1
    ⟨a1.trans h0.1, a2⟩
  rw [e2] at this
  rw [e3]
  exact this.2

theorem states_of {env : Env} {reg : List HKey} (hr : reg.Perm HKey.all) {texts : List Str} {s : Sdf}
    {ks : List Ref} {r : SState} (hc : Conversion env reg texts s ks r) (x : Obj) : HeaderStates (s.headerOf x) := by
  obtain ⟨name, f, stat, ho, ht⟩ := hc.opened
  have h := C97_headers hr ho ht hc.plain.noP
  unfold Sdf.headerOf
  rw [List.getD_eq_getElem?_getD]
  cases hi : s.headers[x.hdrIdx]? with
  | none => exact newHeader_states _
  | some y => exact h y (List.mem_of_getElem? hi)

theorem textsOrNone_getD (l : List Str) : (textsOrNone l).getD [] = l := by
  unfold textsOrNone; split
  · next h => rw [h]; rfl
  · rfl

theorem textsOrNone_none (l : List Str) : textsOrNone l = none ↔ l = [] := by
  unfold textsOrNone; split <;> simp_all

section
variable {env : Env} {reg : List HKey} (hr : reg.Perm HKey.all) (hx : SchemaNames env) {texts : List Str} {s : Sdf}
  {ks : List Ref} {r : SState} (hc : Conversion env reg texts s ks r) {k : Ref} (hm : k ∈ ks) {x : Obj}
  (hk : s.getScan k = .ok (some x)) {head : Str} (hh : head = (s.headerOf x).raw)
include hr hx hc hm hk hh

/-- C97: the #R lines of the text of a header, then those of the scan, are the texts of `UserResults` of the entry. -/
theorem C97_results {ls : List Str} (hls : ls = (ofKind .R (scanLines x.raw)).map stripFirstWord) :
    (hTexts .R head = [] → ls = [] → objAt r.h5 [entryName k, p!"UserResults"] = none) ∧
    (hTexts .R head ≠ [] ∨ ls ≠ [] → Noted r.h5 (entryName k) p!"UserResults"
      p!"SPEC control line \"#R: Reserved for user results\"" p!"R" (hTexts .R head) ls) := by
  have := C91_results hr hx hc hm hk hls
  rw [(states_of hr hc x).R, ← hh, textsOrNone_getD] at this
  simpa only [textsOrNone_none, ne_eq] using this

/-- C97: likewise the #U lines and `UserReserved`. -/
theorem C97_reserved {ls : List Str} (hls : ls = (ofKind .U (scanLines x.raw)).map stripFirstWord) :
    (hTexts .U head = [] → ls = [] → objAt r.h5 [entryName k, p!"UserReserved"] = none) ∧
    (hTexts .U head ≠ [] ∨ ls ≠ [] → Noted r.h5 (entryName k) p!"UserReserved"
      p!"SPEC control line \"#U: Reserved for user\"" p!"U" (hTexts .U head) ls) := by
  have := C91_reserved hr hx hc hm hk hls
  rw [(states_of hr hc x).U, ← hh, textsOrNone_getD] at this
  simpa only [textsOrNone_none, ne_eq] using this

/-- C97: the lines of the text of a header that nothing recognizes are in the first group of such lines of the entry, word for
word; those of the scan are in the next one, or in the first if the header has none. -/
theorem C97_unrecognized {ls : List Str} (hls : ls = (scanLines x.raw).filter (fun l => isUnknown l || isKind .unrec l)) :
    (hUnrecognized head ≠ [] → UnrecAt r.h5 (entryName k) 1 (hUnrecognized head) ∧ (ls ≠ [] → UnrecAt r.h5 (entryName k) 2 ls)) ∧
    (hUnrecognized head = [] → ls ≠ [] → UnrecAt r.h5 (entryName k) 1 ls) ∧
    (hUnrecognized head = [] → ls = [] → objAt r.h5 [entryName k, p!"unrecognized_1"] = none) := by
  obtain ⟨a1, a2⟩ := C91_unrecognized hr hx hc hm hk hls
  have e := (states_of hr hc x).unrecognized
  rw [← hh] at e
  rw [e] at a1 a2
  obtain ⟨z, hdr, ar⟩ := arrived hr hx hc hm hk
  obtain ⟨v, hsv⟩ := hc.saved
  obtain ⟨h1, h2⟩ := C44_unrecognized hr hx ar.savable hc.keys hsv hm ar.now
  have eh : (r.sdf.headerOf z).unrecognized = (s.headerOf x).unrecognized := by obtain ⟨O, d, e, e1⟩ := ar.after; rw [e1]
  rw [eh, e] at h1
  refine ⟨fun hne => ?_, fun he hn => ?_, fun he hn => ?_⟩
  · have et : textsOrNone (hUnrecognized head) = some (hUnrecognized head) := by unfold textsOrNone; rw [if_neg hne]
    rw [et] at a1 h1
    exact ⟨h1 0 _ rfl, a1⟩
  · rw [he] at a1
    exact a1 hn
  · rw [he] at a2
    exact a2 hn

/-- C97: the counters named by the #J and #j lines of a header are the table `counter_cross_reference` of the entry of each of
its scans: for each mnemonic the name at the same place (the last one, if it is there twice). -/
theorem C97_counters (hj : hOfKind .j (splitlines head) ≠ []) (hJ : hOfKind .J (splitlines head) ≠ [])
    {pairs : List (Str × Str)} (hp : pairs = pairTables (wordTable .j (splitlines head)) (wordTable .J (splitlines head)))
    (h0 : pairs ≠ []) (h1 : ∀ p ∈ pairs, p.1 ≠ [] ∧ p.1 ≠ p!"." ∧ '/' ∉ p.1) (h2 : ofKind .j (scanLines x.raw) = []) :
    ∃ d, LastWins d pairs ∧ TableAt r.h5 (entryName k) p!"counter_cross_reference" [(p!"NX_class", .str p!"NXnote"),
      (p!"description", .str p!"cross-reference SPEC counter mnemonics and names"),
      (p!"comment", .str p!"keys are SPEC counter mnemonics, values are SPEC counter names")] d := by
  obtain ⟨z, hdr, ar⟩ := arrived hr hx hc hm hk
  obtain ⟨v, hsv⟩ := hc.saved
  obtain ⟨d, d1, d2⟩ := (states_of hr hc x).counters (by rw [← hh]; exact hj) (by rw [← hh]; exact hJ)
  rw [← hh, ← hp] at d2
  have eh : (r.sdf.headerOf z).counterXref = some d := by obtain ⟨O, d', e, e1⟩ := ar.after; rw [e1]; exact d1
  have ez : z.counterXref = none := by
    obtain ⟨L, hL⟩ := ar.labels
    rw [hL]
    exact scan_noCounters env reg hr ⟨x, hdr⟩ ar.fresh ar.done h2
  have o1 : OneName d := by
    intro q hq
    rw [d2.order, firstOcc_mem] at hq
    obtain ⟨p, hp, rfl⟩ := List.mem_map.1 hq
    exact h1 p hp
  obtain ⟨_, g, _⟩ := C75_counters hr hx ar.savable hc.keys hsv hm ar.now (hd := d) (sd := []) (by rw [eh]; rfl) (by rw [ez]; rfl)
    o1 (by intro q hq; cases hq)
  rw [List.append_nil] at g
  exact ⟨d, d2, g (lastWins_ne d2 h0)⟩

/-- C97: the positioners named by the #O and #o lines of a header are the table `positioner_cross_reference` of the entry of
each of its scans. -/
theorem C97_positioners (ho : hOfKind .o (splitlines head) ≠ [])
    {pairs : List (Str × Str)} (hp : pairs = pairTables (wordTable .o (splitlines head)) (namesTable (hOfKind .O (splitlines head))))
    (h0 : pairs ≠ []) (h1 : ∀ p ∈ pairs, p.1 ≠ [] ∧ p.1 ≠ p!"." ∧ '/' ∉ p.1) (h2 : ofKind .o (scanLines x.raw) = []) :
    ∃ d, LastWins d pairs ∧ TableAt r.h5 (entryName k) p!"positioner_cross_reference" [(p!"NX_class", .str p!"NXnote"),
      (p!"description", .str p!"cross-reference SPEC positioner mnemonics and names"),
      (p!"comment", .str p!"keys are SPEC positioner mnemonics, values are SPEC positioner names")] d := by
  obtain ⟨z, hdr, ar⟩ := arrived hr hx hc hm hk
  obtain ⟨v, hsv⟩ := hc.saved
  obtain ⟨d, d1, d2⟩ := (states_of hr hc x).positioners (by rw [← hh]; exact ho)
  rw [← hh, ← hp] at d2
  have eh : (r.sdf.headerOf z).positionerXref = some d := by obtain ⟨O, d', e, e1⟩ := ar.after; rw [e1]; exact d1
  have ez : z.positionerXref = none := by
    obtain ⟨L, hL⟩ := ar.labels
    rw [hL]
    exact scan_noPositioners env reg hr ⟨x, hdr⟩ ar.fresh ar.done h2
  have o1 : OneName d := by
    intro q hq
    rw [d2.order, firstOcc_mem] at hq
    obtain ⟨p, hp, rfl⟩ := List.mem_map.1 hq
    exact h1 p hp
  obtain ⟨_, g, _⟩ := C75_positioners hr hx ar.savable hc.keys hsv hm ar.now (hd := d) (sd := []) (by rw [eh]; rfl) (by rw [ez]; rfl)
    o1 (by intro q hq; cases hq)
  rw [List.append_nil] at g
  exact ⟨d, d2, g (lastWins_ne d2 h0)⟩

/-- C97: the numbers of the #P lines of a scan are the positioners of its entry, each under the name at the same place of the #O
lines of the text of its header; provided that no scan of the file has #O lines.  If the header has #o lines, the datasets
have the mnemonics of the table they state. -/
theorem C97_positions (hO : ∀ t ∈ texts, isScanText t = true → ofKind .O (scanLines t) = [])
    {pairs : List (Str × Str)} (hp : pairs = pairTables (namesTable (hOfKind .O (splitlines head)))
      ((ofKind .P (scanLines x.raw)).map (fun l => splitWs (stripFirstWord l)))) (h0 : pairs ≠ []) :
    ∃ ps d xref, List.Forall₂ (fun (p : Str × Str) (q : Str × PyFloat) => p.1 = q.1 ∧ parseFloat p.2 = some q.2) pairs ps ∧
      LastWins d ps ∧ PositionersAt r.h5 (entryName k) xref d ∧
      (hOfKind .o (splitlines head) = [] → xref = none) ∧
      (hOfKind .o (splitlines head) ≠ [] → ∃ m, xref = some m ∧
        LastWins m (pairTables (wordTable .o (splitlines head)) (namesTable (hOfKind .O (splitlines head))))) := by
  have st := states_of hr hc x
  rw [hh] at hp ⊢
  obtain ⟨ps, d, p1, p2, p3⟩ := C91_positions hr hx hc hm hk hO (by rw [st.tables.O, Option.getD_some]; exact hp) h0
  exact ⟨ps, d, _, p1, p2, p3, st.noPositioners, st.positioners⟩

/-- C97: the values of the #V lines of a scan are in its entry, each under the label at the same place of the #H lines of the
text of its header, as numbers where possible. -/
theorem C97_values {H : List (List Str)} (hH : H = (hOfKind .H (splitlines head)).map (fun l => splitDbl false (stripFirstWord l)))
    {pairs : List (Str × Str)}
    (hp : pairs = pairTables H ((ofKind .V (scanLines x.raw)).mapIdx (fun i l => valuesV (H.getD i []) l))) (h0 : pairs ≠ []) :
    ∃ d, LastWins d (pairs.map (fun p => (p.1, metaVal p.2))) ∧ ValuesAt r.h5 (entryName k) d :=
  C96_values hr hx hc hm hk (by rw [(states_of hr hc x).tables.H, hH, hh]) hp h0

end

theorem steps_first (sh : Shape) (ts : List Str) (h0 : Ident) (h : sh.headers.head? = some h0) : (ts.foldl absStep sh).headers.head? = some h0 := by
  induction ts generalizing sh with
  | nil => exact h
  | cons t ts ih =>
    refine ih _ ?_
    have hne : sh.headers ≠ [] := by intro e; rw [e] at h; cases h
    unfold absStep
    split
    · split
      · exact h
      · rw [List.head?_append, h]; rfl
    · split
      · simp only [if_neg hne]; exact h
      · exact h

theorem steps_idle (sh : Shape) (ts : List Str) (h : ∀ u ∈ ts, isHeaderText u = false ∧ isScanText u = false) : ts.foldl absStep sh = sh := by
  induction ts with
  | nil => rfl
  | cons t ts ih =>
    have : absStep sh t = sh := by
      unfold absStep
      obtain ⟨h1, h2⟩ := h t (by simp)
      rw [h1, h2]; rfl
    rw [List.foldl_cons, this]
    exact ih (fun u hu => h u (by simp [hu]))

/-- C97: the comments of the text of the first header are an attribute of the file, with the user they name. -/
theorem C97_file {env : Env} {reg : List HKey} (hr : reg.Perm HKey.all) (hx : SchemaNames env) {pre : List Str} {t : Str} {rest : List Str} {s : Sdf}
    {ks : List Ref} {r : SState} (hc : Conversion env reg (pre ++ t :: rest) s ks r)
    (hpre : ∀ u ∈ pre, isHeaderText u = false ∧ isScanText u = false) (ht : isHeaderText t = true)
    {cs : List Str} (hcs : cs = (hOfKind .C (splitlines t)).map stripFirstWord) :
    attrAt r.h5 [] p!"SPEC_comments" = some (.str (join p!"\n" cs)) ∧
    (∀ c more u, cs = c :: more → UserIn c u → attrAt r.h5 [] p!"SPEC_user" = some (.str u)) ∧
    ((∀ c more, cs = c :: more → (∀ a b, c ≠ a ++ p!"User = " ++ b) ∧ c.getLast? ≠ some '=') →
      attrAt r.h5 [] p!"SPEC_user" = none) := by
  obtain ⟨name, f, stat, ho, hd⟩ := hc.opened
  obtain ⟨v, hsv⟩ := hc.saved
  have hs : Savable s := C70_savable env reg hr hx name f stat s ho _ hd hc.plain.noP hc.plain.headers hc.plain.scans
  obtain ⟨h0, hs', _, _, _, e1, _, _, _, _, _, _, _, g, _⟩ := C82_attributes hr hx hs hc.keys hsv
  have hst := C97_headers hr ho hd hc.plain.noP h0 (by rw [e1]; simp)
  have hraw : h0.raw = t := by
    obtain ⟨texts, h1, h3, _, _⟩ := open_shape env reg hr name f stat s ho
    obtain rfl : pre ++ t :: rest = texts := by rw [hd] at h1; simpa using h1
    have : (shape s).headers.head? = some (Obj.newHeader name t).ident := by
      rw [h3, List.foldl_append, steps_idle _ _ hpre, List.foldl_cons]
      refine steps_first _ _ _ ?_
      unfold absStep
      rw [if_pos ht]
      rfl
    rw [show (shape s).headers = s.headers.map Obj.ident from rfl, e1] at this
    simp only [List.map_cons, List.head?_cons] at this
    injection this with this
    exact congrArg Ident.raw this
  have hcm : h0.comments = cs := by rw [hcs, ← hraw]; exact hst.tables.comments
  rw [← hcm]
  exact ⟨g, fun c more u e hu => C82_user hr hx hs hc.keys hsv e1 e hu, fun h => C82_no_user hr hx hs hc.keys hsv e1 h⟩

end
end S2N.Props
