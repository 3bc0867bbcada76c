import Verif.Lemmas.Latest
import Verif.Spec.Opens
import Verif.Props.Fits
import Verif.Props.Read
/-
A file whose sections are well formed can be opened.
-/
namespace S2N.Props
open S2N S2N.Py S2N.Spec

section
variable [UniDB]

theorem lstrip_flush {l : Str} (h : ∀ c, l.head? = some c → isSpace c = false) : lstrip l = l := by
  cases l with
  | nil => rfl
  | cons c cs =>
    unfold lstrip
    rw [List.dropWhile_cons, if_neg (by rw [h c rfl]; simp)]

theorem hKind_flush {l : Str} (h : ∀ c, l.head? = some c → isSpace c = false) (k : HKey) : hKind k l = isKind k l := by
  unfold hKind isKind
  rw [lstrip_flush h]
  rfl

variable (env : Env) (reg : List HKey) (hr : reg.Perm HKey.all)

/-- what is known while the lines of a header are interpreted -/
structure HdrInv (latest : Option ScanCtx) (c : HCtx) : Prop where
  H : ∃ rows, c.hdr.H = some rows
  O : ∃ rows, c.hdr.O = some rows
  epoch : ∃ e, c.hdr.epoch = some e ∧ TimeFits env e
  latest : c.latest = latest

theorem hdr_step {text : Str} (hf : HeaderFits env text) {l : Str} (hl : l ∈ splitlines text) {k : HKey} (hE : k ≠ .E)
    (hK : k = .unrec ∨ hKind k l = true) {latest : Option ScanCtx} {c : HCtx} (h : HdrInv env latest c) :
    (procHdr env reg k l c).2 = none ∧ HdrInv env latest (procHdr env reg k l c).1 := by
  have hfl := hf.flush l hl
  obtain ⟨rh, hH⟩ := h.H
  obtain ⟨ro, hO⟩ := h.O
  obtain ⟨ep, hep, htf⟩ := h.epoch
  have hlat := h.latest
  have no : k ∉ scanOnly ∨ k = .unrec := by
    rcases hK with h | h
    · exact .inr h
    · refine .inl (fun hm => ?_)
      rw [hf.kinds l hl k hm] at h; cases h
  have words : ∀ k, hKind k l = true → ∃ w ws, splitWs l = w :: ws := by
    intro k h
    rw [hKind_flush hfl] at h
    exact isKind_words h
  cases k
  case E => exact absurd rfl hE
  case D =>
    obtain ⟨e, d, h1, h2⟩ := procDate_total (x := c.hdr) (t := l) (hf.dates l hl (by simpa using hK)) (by
      intro e he; rw [hep] at he; cases he; exact htf)
    simp only [procHdr, HCtx.onHdr, procObj, h1]
    exact ⟨rfl, ⟨rh, hH⟩, ⟨ro, hO⟩, ⟨e, rfl, h2⟩, hlat⟩
  case H =>
    simp only [procHdr, HCtx.onHdr, procObj, procH, hH]
    exact ⟨rfl, ⟨_, rfl⟩, ⟨ro, hO⟩, ⟨ep, hep, htf⟩, hlat⟩
  case O =>
    obtain ⟨w, ws, hw⟩ := words .O (by simpa using hK)
    simp only [procHdr, HCtx.onHdr, procObj, procO, firstWord, hw, Res.eval]
    by_cases h0 : w = p!"#O0"
    · simp only [h0, if_true]
      exact ⟨rfl, ⟨rh, hH⟩, ⟨_, rfl⟩, ⟨ep, hep, htf⟩, hlat⟩
    · simp only [h0, if_false, hO]
      exact ⟨rfl, ⟨rh, hH⟩, ⟨_, rfl⟩, ⟨ep, hep, htf⟩, hlat⟩
  case X =>
    rcases tempScan_total l with h1 | ⟨a, b, h1⟩
    · simp only [procHdr, HCtx.onHdr, procObj, procX, h1, Res.eval]
      exact ⟨rfl, ⟨rh, hH⟩, ⟨ro, hO⟩, ⟨ep, hep, htf⟩, hlat⟩
    · simp only [procHdr, HCtx.onHdr, procObj, procX, h1, Res.eval]
      exact ⟨rfl, ⟨rh, hH⟩, ⟨ro, hO⟩, ⟨ep, hep, htf⟩, hlat⟩
  case MD =>
    have hk : hKind .MD l = true := by simpa using hK
    rw [hKind_flush hfl] at hk
    obtain ⟨kv, h1⟩ := mdItem_total (n := (c.hdr.MD.getD []).length) hk
    simp only [procHdr, HCtx.onHdr, procObj, procMD, h1, Res.eval]
    exact ⟨rfl, ⟨rh, hH⟩, ⟨ro, hO⟩, ⟨ep, hep, htf⟩, hlat⟩
  case VA =>
    obtain ⟨w, ws, hw⟩ := words .VA (by simpa using hK)
    simp only [procHdr, HCtx.onHdr, procObj, procVA, firstWord, hw, Res.eval]
    split <;> exact ⟨rfl, ⟨rh, hH⟩, ⟨ro, hO⟩, ⟨ep, hep, htf⟩, hlat⟩
  case VD =>
    obtain ⟨w, ws, hw⟩ := words .VD (by simpa using hK)
    simp only [procHdr, HCtx.onHdr, procObj, procVD, firstWord, hw, Res.eval]
    split <;> exact ⟨rfl, ⟨rh, hH⟩, ⟨ro, hO⟩, ⟨ep, hep, htf⟩, hlat⟩
  case VE =>
    obtain ⟨w, ws, hw⟩ := words .VE (by simpa using hK)
    simp only [procHdr, HCtx.onHdr, procObj, procVE, firstWord, hw, Res.eval]
    split <;> exact ⟨rfl, ⟨rh, hH⟩, ⟨ro, hO⟩, ⟨ep, hep, htf⟩, hlat⟩
  all_goals first
    | (exfalso; revert no; decide)
    | exact ⟨rfl, ⟨rh, hH⟩, ⟨ro, hO⟩, ⟨ep, hep, htf⟩, hlat⟩
    | (simp only [procHdr, HCtx.onHdr, procObj, procC, procM, procR, procT, procU, procUnrec, Obj.addH5]
       (repeat' split) <;> exact ⟨rfl, ⟨rh, hH⟩, ⟨ro, hO⟩, ⟨ep, hep, htf⟩, hlat⟩)

theorem hkey_error (l : Str) (hfl : ∀ c, l.head? = some c → isSpace c = false) (e : PyErr)
    (he : getControlKey reg l = .error e) : False := by
  rw [← lstrip_flush hfl] at he
  exact key_error reg l e he

include hr in
theorem hdrLines_total {text : Str} (hf : HeaderFits env text) {latest : Option ScanCtx} (c : HCtx) (h : HdrInv env latest c) :
    (forEach (hdrLine env reg) (splitlines text) c).2 = none ∧ HdrInv env latest (forEach (hdrLine env reg) (splitlines text) c).1 := by
  refine forEach_total (hdrLine env reg) (splitlines text) (fun _ c => HdrInv env latest c) ?_ (splitlines text) [] c rfl h
  intro pre l post c e h
  have hl : l ∈ splitlines text := by rw [e]; simp
  have hn := splitlines_no_nl text l hl
  unfold hdrLine
  by_cases hz : l = []
  · rw [if_pos hz]; exact ⟨rfl, h⟩
  rw [if_neg hz]
  cases hk : getControlKey reg l with
  | error er => exact (hkey_error reg l (hf.flush l hl) er hk).elim
  | ok o =>
    simp only [Res.eval_ok]
    cases o with
    | none => exact hdr_step env reg hf hl (by simp) (.inl rfl) h
    | some k =>
      have hK := (hkey_iff reg hr l hn k).1 hk
      by_cases hE : k = .E
      · subst hE; exact ⟨rfl, h⟩
      · have := hdr_step env reg hf hl hE (.inr hK) h
        cases k <;> first | exact this | exact absurd rfl hE

/-- The step `f` after the lines of a header can be done. -/
def HdrReady (f : PostFn) (x : Obj) : Prop :=
  match f with
  | .counterJ | .counterj => ∀ j J, x.j = some j → x.J = some J → Covers j J
  | .positionerXref => ∀ o O, x.o = some o → x.O = some O → Covers o O
  | .uxml => ∃ root, env.xmlParse (join ['\n'] (x.UXML.getD [])) = .ok root ∧ env.xmlValid root = true
  | _ => False

omit [UniDB] in
theorem ph_rest (f : PostFn) (x : Obj) :
    (runPostHdr env f x).1.UXML = x.UXML ∧ (runPostHdr env f x).1.H = x.H ∧ (runPostHdr env f x).1.comments = x.comments ∧
      (runPostHdr env f x).1.epoch = x.epoch ∧ (runPostHdr env f x).1.date = x.date := by
  cases f
  all_goals
    simp only [runPostHdr, counterXref, positionerXref, postUXML, Res.andThen, Res.ok, Res.raise, Res.eval,
      Obj.addH5]
    (repeat' split) <;> simp

omit [UniDB] in
theorem hready_total {f : PostFn} {x : Obj} (h : HdrReady env f x) : (runPostHdr env f x).2 = none := by
  cases f
  case counterJ =>
    simp only [runPostHdr]
    rw [Res.andThen_of_none (counterXref_total (x := x) (fun j J h1 h2 i m hm => h j J h1 h2 i m hm))]; rfl
  case counterj =>
    simp only [runPostHdr]
    rw [Res.andThen_of_none (counterXref_total (x := x) (fun j J h1 h2 i m hm => h j J h1 h2 i m hm))]; rfl
  case positionerXref =>
    simp only [runPostHdr]
    rw [Res.andThen_of_none]
    · rfl
    · unfold positionerXref
      split
      · next o O h1 h2 => exact xrefRows_total _ _ _ (h o O h1 h2)
      · rfl
  case uxml =>
    obtain ⟨root, h1, h2⟩ := h
    simp only [runPostHdr, postUXML, h1, Res.eval, h2, if_true]
    rfl
  all_goals exact h.elim

omit [UniDB] in
theorem hready_keep {f g : PostFn} {x : Obj} (h : HdrReady env f x) : HdrReady env f (runPostHdr env g x).1 := by
  obtain ⟨a, b, c, d⟩ := ph_names env g x
  obtain ⟨e, -⟩ := ph_rest env g x
  cases f <;> simp only [HdrReady] at h ⊢
  all_goals first | exact h.elim | (rw [e]; exact h) | (rw [a, b]; exact h) | (rw [c, d]; exact h)

include hr in
/-- A header with a proper text can be interpreted. -/
theorem header_total (c : HCtx) (hfr : FreshHeader c.hdr) (hf : HeaderFits env c.hdr.raw)
    (he : ∃ e, c.hdr.epoch = some e ∧ TimeFits env e) :
    (interpretHeader env reg c).2 = none ∧ HdrInv env c.latest (interpretHeader env reg c).1 := by
  have h0 : HdrInv env c.latest c := by
    obtain ⟨_, _, _, e⟩ := hfr
    exact ⟨⟨[], by rw [e]; rfl⟩, ⟨[], by rw [e]; rfl⟩, he, rfl⟩
  obtain ⟨hok, hinv⟩ := hdrLines_total env reg hr hf c h0
  generalize hc1 : (forEach (hdrLine env reg) (splitlines c.hdr.raw) c).1 = c1 at hinv
  have e1 : forEach (hdrLine env reg) (splitlines c.hdr.raw) c = (c1, none) := Prod.ext hc1 hok
  obtain ⟨t1, t2, t3, t4⟩ := hdr_tables env reg hr c c1 hfr e1
  have hux : c1.hdr.UXML = if hOfKind .UXML (splitlines c.hdr.raw) = [] then none else some ((hOfKind .UXML (splitlines c.hdr.raw)).map stripFirstWord) := by
    have h := hlines_kind env reg hr .UXML (by simp) (by simp) (by simp) (·.UXML)
      (fun l b => some (b.getD [] ++ [stripFirstWord l])) (fun _ _ _ => rfl)
      (fun k t x hk => po_UXML env k t x hk) (splitlines c.hdr.raw) (splitlines_no_nl _) c hok
    rw [foldl_getD_append, e1] at h
    have h00 : c.hdr.UXML = none := by obtain ⟨_, _, _, e⟩ := hfr; rw [e]; rfl
    rw [h00] at h
    simpa using h
  have hp := hlines_post env reg (splitlines c.hdr.raw) c hok
  have hp0 : c.hdr.post = [] := by obtain ⟨_, _, _, e⟩ := hfr; rw [e]; rfl
  rw [hp0, e1] at hp
  have mem : ∀ {f0 : PostFn}, soleLabel f0 → f0 ∈ c1.hdr.post.values → ∃ l ∈ splitlines c.hdr.raw, ∃ k, postOf k = some f0 ∧ hKind k l = true := by
    intro f0 h0 hm
    have hm' : f0 ∈ (c1, (none : Option PyErr)).1.hdr.post.values := hm
    rw [hp, postFold_mem h0 _ _ ⟨by simp [Dict.keys], by simp⟩] at hm'
    rcases hm' with hm' | ⟨k, hk, hk2⟩
    · simp [Dict.values] at hm'
    · obtain ⟨l, hl, hl2⟩ := List.mem_filterMap.1 (List.mem_filter.1 hk).1
      refine ⟨l, hl, k, hk2, (hEff_iff reg hr l (splitlines_no_nl _ l hl) k ?_ ?_).1 hl2⟩ <;>
        (rintro rfl; simp [postOf] at hk2)
  have count : ∀ j J, c1.hdr.j = some j → c1.hdr.J = some J → Covers j J := by
    intro j J q1 q2
    rw [t1] at q1
    rw [t2] at q2
    split at q1
    · cases q1
    split at q2
    · cases q2
    next hJ =>
    cases q1; cases q2
    exact hf.counters hJ
  have hready : ∀ f ∈ c1.hdr.post.values, HdrReady env f c1.hdr := by
    intro f hfm
    cases f
    case counterJ => exact count
    case counterj => exact count
    case positionerXref =>
      intro o O q1 q2
      rw [t3] at q1
      rw [t4] at q2
      split at q1
      · cases q1
      cases q1; cases q2
      exact hf.positioners
    case uxml =>
      obtain ⟨l, hl, k, hk, hkl⟩ := mem (by simp [soleLabel]) hfm
      have hkG : k = .UXML := by cases k <;> simp [postOf] at hk <;> rfl
      subst hkG
      have hne : hOfKind .UXML (splitlines c.hdr.raw) ≠ [] := by
        intro e
        have : l ∈ hOfKind .UXML (splitlines c.hdr.raw) := List.mem_filter.2 ⟨hl, hkl⟩
        rw [e] at this; cases this
      show ∃ root, _
      rw [hux, if_neg hne]
      exact hf.uxml hne
    all_goals
      obtain ⟨l, hl, k, hk, hkl⟩ := mem (by simp [soleLabel]) hfm
      have hmem : k ∈ scanOnly := by cases k <;> simp [postOf] at hk <;> decide
      rw [hf.kinds l hl k hmem] at hkl
      cases hkl
  unfold interpretHeader
  rw [e1, Res.andThen_of_none rfl]
  have := forEach_total (fun f => HCtx.onHdr (runPostHdr env f)) c1.hdr.post.values
    (fun _ d => (∀ f ∈ c1.hdr.post.values, HdrReady env f d.hdr) ∧ HdrInv env c.latest d) (by
      intro pre f post d e h
      obtain ⟨h1, h2⟩ := h
      have hm : f ∈ c1.hdr.post.values := by rw [e]; simp
      refine ⟨hready_total env (h1 f hm), fun g hg => hready_keep env (h1 g hg), ?_⟩
      obtain ⟨_, _, _, q4⟩ := ph_names env f d.hdr
      obtain ⟨q1, q2, q3, q5, q6⟩ := ph_rest env f d.hdr
      obtain ⟨rh, hH⟩ := h2.H
      obtain ⟨ro, hO⟩ := h2.O
      obtain ⟨ep, hep, htf⟩ := h2.epoch
      exact ⟨⟨rh, q2.trans hH⟩, ⟨ro, q4.trans hO⟩, ⟨ep, q5.trans hep, htf⟩, h2.latest⟩) c1.hdr.post.values [] c1 rfl ⟨hready, hinv⟩
  exact ⟨this.1, this.2.2⟩

include hr in
theorem header_says (c : HCtx) (hfr : FreshHeader c.hdr) (hok : (interpretHeader env reg c).2 = none) :
    HeaderSays (interpretHeader env reg c).1.hdr := by
  have hraw : (interpretHeader env reg c).1.hdr.raw = c.hdr.raw := by
    have := interpretHeader_ident env reg c
    simp only [hctxIdent, Prod.mk.injEq] at this
    exact congrArg Ident.raw this.1
  obtain ⟨c1, c2, e1, e2, e3⟩ := hinterpret_ok env reg c hok
  obtain ⟨t1, t2, t3, t4⟩ := hdr_tables env reg hr c c1 hfr e1
  have hok1 : (forEach (hdrLine env reg) (splitlines c.hdr.raw) c).2 = none := by rw [e1]
  have hH := hlines_kind env reg hr .H (by simp) (by simp) (by simp) (·.H)
    (fun l b => b.map (· ++ [splitDbl false (stripFirstWord l)])) (by
      intro t x hx
      simp only [procObj, procH] at hx ⊢
      cases hh : x.H with
      | none => rw [hh] at hx; simp [Res.raise] at hx
      | some r => rfl)
    (fun k t x hk => po_H env k t x hk) (splitlines c.hdr.raw) (splitlines_no_nl _) c hok1
  have hC := hlines_kind env reg hr .C (by simp) (by simp) (by simp) (·.comments)
    (fun l b => b ++ [stripFirstWord l]) (by
      intro t x hx
      simp only [procObj, procC, Res.ok, Obj.addH5]
      (repeat' split) <;> rfl)
    (fun k t x hk => po_comments env k t x hk) (splitlines c.hdr.raw) (splitlines_no_nl _) c hok1
  have h00 : c.hdr.H = some [] ∧ c.hdr.comments = [] := by obtain ⟨_, _, _, e⟩ := hfr; rw [e]; exact ⟨rfl, rfl⟩
  rw [e1, h00.1] at hH
  rw [e1, h00.2] at hC
  have f1 : ∀ (ls : List Str) (b : List (List Str)), ls.foldl (fun b l => b.map (· ++ [splitDbl false (stripFirstWord l)])) (some b) =
      some (b ++ ls.map (fun l => splitDbl false (stripFirstWord l))) := by
    intro ls
    induction ls with
    | nil => intro b; simp
    | cons l ls ih => intro b; rw [List.foldl_cons, Option.map_some, ih]; simp
  have f2 : ∀ (ls : List Str) (b : List Str), ls.foldl (fun b l => b ++ [stripFirstWord l]) b = b ++ ls.map stripFirstWord := by
    intro ls
    induction ls with
    | nil => intro b; simp
    | cons l ls ih => intro b; rw [List.foldl_cons, ih]; simp
  rw [f1] at hH
  rw [f2] at hC
  have keep := forEach_pres (fun f => HCtx.onHdr (runPostHdr env f)) (fun d : HCtx => (d.hdr.O, d.hdr.H, d.hdr.comments, d.hdr.o)) c1.hdr.post.values
    (fun f _ d => by
      obtain ⟨_, _, q3, q4⟩ := ph_names env f d.hdr
      obtain ⟨_, q2, q1, _⟩ := ph_rest env f d.hdr
      simp only [HCtx.onHdr, q1, q2, q3, q4]) c1
  rw [e2] at keep
  simp only [Prod.mk.injEq] at keep
  obtain ⟨k1, k2, k3, k4⟩ := keep
  rw [e3] at hraw ⊢
  refine ⟨?_, ?_, ?_, ?_⟩
  · rw [hraw, k1]; exact t4
  · rw [hraw, k2]; exact hH.trans (by simp)
  · rw [hraw, k3]; exact hC.trans (by simp)
  · rw [hraw, k4]; exact t3

/-- the date a #D line of a header gives -/
def dateOfLine (l b : Str) : Str :=
  if (splitC ' ' (stripFirstWord l)).length = 1 then
    match Py.float (stripFirstWord l) with
    | .ok f => (match env.fromTimestamp f with | .ok s => s | .error _ => b)
    | .error _ => b
  else stripFirstWord l

theorem dateOfLine_read (hc : ClockReads env) {l : Str} (h : DateFits env (stripFirstWord l)) (b : Str) : ∃ tm, strptimeSpec (dateOfLine env l b) = some tm := by
  unfold dateOfLine
  rcases h with ⟨hs, f, n, h1, h2, ⟨s, h3⟩, h4⟩ | ⟨hs, tm, e, h1, h2, h3⟩
  · rw [if_pos ((splitC_length _).2 hs), h1]
    simp only [h3]
    exact hc f s h3
  · have hl : ¬ (splitC ' ' (stripFirstWord l)).length = 1 := fun h => (splitC_length _).1 h hs
    rw [if_neg hl]
    exact ⟨tm, h1⟩

/-- the header has a date that can be read and an epoch, or it has no date, and its text has none -/
def HeaderDated (h : Obj) : Prop :=
  (strip h.date = [] ∧ hOfKind .D (splitlines h.raw) = []) ∨ ((∃ tm, strptimeSpec h.date = some tm) ∧ ∃ e, h.epoch = some e)

include hr in
theorem header_date (hc : ClockReads env) (c : HCtx) (hfr : FreshHeader c.hdr) (hf : HeaderFits env c.hdr.raw) (hd : c.hdr.date = [])
    (hok : (interpretHeader env reg c).2 = none) :
    (strip (interpretHeader env reg c).1.hdr.date = [] ∧ hOfKind .D (splitlines (interpretHeader env reg c).1.hdr.raw) = []) ∨
      ∃ tm, strptimeSpec (interpretHeader env reg c).1.hdr.date = some tm := by
  have hraw : (interpretHeader env reg c).1.hdr.raw = c.hdr.raw := by
    have := interpretHeader_ident env reg c
    simp only [hctxIdent, Prod.mk.injEq] at this
    exact congrArg Ident.raw this.1
  rw [hraw]
  obtain ⟨c1, c2, e1, e2, e3⟩ := hinterpret_ok env reg c hok
  have hok1 : (forEach (hdrLine env reg) (splitlines c.hdr.raw) c).2 = none := by rw [e1]
  have hD := hlines_kind env reg hr .D (by simp) (by simp) (by simp) (·.date)
    (fun l b => dateOfLine env l b) (by
      intro t x hx
      simp only [procObj, procDate] at hx ⊢
      unfold dateOfLine
      split
      · rename_i hl
        rw [if_pos hl] at hx
        cases hf : Py.float (stripFirstWord t) with
        | error e => rw [hf] at hx; simp [Res.eval, Res.raise] at hx
        | ok f =>
          rw [hf] at hx
          cases hn : f.toInt with
          | error e => simp [Res.eval, Res.raise, hn] at hx
          | ok n =>
            cases hs : env.fromTimestamp f with
            | error e => simp [Res.eval, Res.raise, hn, hs] at hx
            | ok s => simp [Res.eval, Res.ok, hn, hs]
      · rename_i hl
        rw [if_neg hl] at hx
        cases he : x.epoch with
        | some e => rfl
        | none =>
          cases hs : strptimeSpec (stripFirstWord t) with
          | none => simp [he, hs, Res.raise] at hx
          | some tm =>
            cases hm : env.mktime tm with
            | error e => simp [he, hs, hm, Res.eval, Res.raise] at hx
            | ok e => simp [he, hs, hm, Res.eval, Res.ok])
    (fun k t x hk => po_date env k t x hk) (splitlines c.hdr.raw) (splitlines_no_nl _) c hok1
  rw [e1, hd] at hD
  have hD : c1.hdr.date = _ := hD
  have keep := forEach_pres (fun f => HCtx.onHdr (runPostHdr env f)) (fun d : HCtx => d.hdr.date) c1.hdr.post.values
    (fun f _ d => (ph_rest env f d.hdr).2.2.2.2) c1
  rw [e2] at keep
  have keep : c2.hdr.date = c1.hdr.date := keep
  rw [e3, keep, hD]
  rcases List.eq_nil_or_concat (hOfKind .D (splitlines c.hdr.raw)) with h | ⟨ls, l, h⟩
  · rw [h]; exact .inl ⟨rfl, rfl⟩
  · refine .inr ?_
    rw [h, List.concat_eq_append, List.foldl_append]
    have hm : l ∈ hOfKind .D (splitlines c.hdr.raw) := by rw [h]; simp
    unfold hOfKind at hm
    obtain ⟨m1, m2⟩ := List.mem_filter.1 hm
    exact dateOfLine_read env hc (hf.dates l m1 m2) _

/-- what is known of a file that is being read -/
structure FileInv (s : Sdf) : Prop where
  last : s.lastScan = none
  hdrs : ∀ h ∈ s.headers, HeaderSays h ∧ (strip h.date = [] ∨ ∃ e, h.epoch = some e ∧ TimeFits env e)
  scans : ∀ p ∈ s.scans, Fresh p.2 ∧ HasDate p ∧ ∀ e, p.2.epoch = some e → TimeFits env e
  dated : ∀ h ∈ s.headers, HeaderDated h
  below : ∀ p ∈ s.scans, ∃ h tm, s.headers[p.2.hdrIdx]? = some h ∧ strptimeSpec h.date = some tm ∧ ∃ e, h.epoch = some e

include hr in
theorem procE_total (hc : ClockReads env) {part l : Str} (hl : Sdf.firstLine part = .ok l) (hf : HeaderFits env part) {s : Sdf} (h : FileInv env s) :
    (s.procE env reg part).2 = none ∧ FileInv env (s.procE env reg part).1 := by
  unfold Sdf.procE
  split
  · exact ⟨rfl, h⟩
  · have hhead : (splitlines part).head? = some l := by
      unfold Sdf.firstLine at hl
      split at hl
      · cases hl
      · next e => cases hl; rw [e]; rfl
    obtain ⟨e, he, hte⟩ : ∃ e, Sdf.epochOf (strip l) = .ok e ∧ TimeFits env e := by
      unfold Sdf.epochOf
      rcases hf.epoch l hhead with ⟨h1, f, h2, h3⟩ | ⟨h1, i, h2, h3⟩
      · rw [if_pos (by simpa using h1), h2]; exact ⟨_, rfl, h3⟩
      · rw [if_neg (by simpa using h1), h2]; exact ⟨_, rfl, h3⟩
    rw [hl]
    simp only [Res.eval_ok]
    rw [he]
    simp only [Res.eval_ok]
    have key : ∀ latest, let r := interpretHeader env reg ⟨{ Obj.newHeader s.fileName part with epoch := some e }, latest⟩
        r.2 = none ∧ r.1.latest = latest ∧ HeaderSays r.1.hdr ∧ (∃ e, r.1.hdr.epoch = some e ∧ TimeFits env e) ∧ HeaderDated r.1.hdr := by
      intro latest
      have hfr : FreshHeader { Obj.newHeader s.fileName part with epoch := some e } := ⟨_, _, _, rfl⟩
      obtain ⟨q1, q2⟩ := header_total env reg hr ⟨{ Obj.newHeader s.fileName part with epoch := some e }, latest⟩ hfr hf ⟨e, rfl, hte⟩
      refine ⟨q1, q2.latest, header_says env reg hr _ hfr q1, q2.epoch, ?_⟩
      obtain ⟨e2, he2, -⟩ := q2.epoch
      rcases header_date env reg hr hc ⟨{ Obj.newHeader s.fileName part with epoch := some e }, latest⟩ hfr hf rfl q1 with h | h
      · exact .inl h
      · exact .inr ⟨h, e2, he2⟩
    have done : ∀ (x : Obj), HeaderSays x → (∃ e, x.epoch = some e ∧ TimeFits env e) → HeaderDated x →
        FileInv env { s with headers := (s.headers ++ [{ Obj.newHeader s.fileName part with epoch := some e }]).set s.headers.length x } := by
      intro x h1 h2 h3
      have e0 : (s.headers ++ [{ Obj.newHeader s.fileName part with epoch := some e }]).set s.headers.length x = s.headers ++ [x] := by
        rw [List.set_append_right _ _ (Nat.le_refl _)]; simp
      rw [e0]
      refine ⟨h.last, ?_, h.scans, ?_, ?_⟩
      · intro y hy
        rcases List.mem_append.1 hy with hy | hy
        · exact h.hdrs y hy
        · rw [List.mem_singleton.1 hy]; exact ⟨h1, .inr h2⟩
      · intro y hy
        rcases List.mem_append.1 hy with hy | hy
        · exact h.dated y hy
        · rw [List.mem_singleton.1 hy]; exact h3
      · intro p hp
        obtain ⟨y, tm, b1, b2⟩ := h.below p hp
        refine ⟨y, tm, ?_, b2⟩
        rw [List.getElem?_append_left (by obtain ⟨b, -⟩ := List.getElem?_eq_some_iff.1 b1; exact b)]
        exact b1
    cases hlat : s.latest with
    | none =>
      have hlat' : Sdf.latest { s with headers := s.headers ++ [{ Obj.newHeader s.fileName part with epoch := some e }] } = none := hlat
      obtain ⟨q1, q2, q3, q4, q5⟩ := key none
      simp only [hlat']
      exact ⟨q1, done _ q3 q4 q5⟩
    | some p =>
      obtain ⟨name, x⟩ := p
      have hlat' : Sdf.latest { s with headers := s.headers ++ [{ Obj.newHeader s.fileName part with epoch := some e }] } = some (name, x) := hlat
      obtain ⟨q1, q2, q3, q4, q5⟩ := key (some ⟨x, Sdf.headerOf { s with headers := s.headers ++ [{ Obj.newHeader s.fileName part with epoch := some e }] } x⟩)
      simp only [hlat', q2, putLatest_self _ _ _ hlat']
      exact ⟨q1, done _ q3 q4 q5⟩

end
end S2N.Props
