import Verif.Lemmas.Latest
import Verif.Lemmas.SaveLoop
import Verif.Lemmas.Header
import Verif.Props.Save
import Verif.Props.Xref
/-
C70: opening a file does not interpret its scans; what an opened file needs to be saved.
-/
namespace S2N.Props
open S2N S2N.Py S2N.Spec

section
variable [UniDB] (env : Env) (reg : List HKey)

/-! ## Headers -/

/-- names in a header -/
structure HdrOk (x : Obj) : Prop where
  attrs : SafeAttrs x
  noData : .scanData ∉ x.h5.values
  writers : Writers .header x

omit [UniDB] in
theorem values_setDefault {α : Type} {d : Dict α} {k : Str} {v w : α} (h : w ∉ d.values) (hv : w ≠ v) :
    w ∉ (d.setDefault k v).values := by
  unfold Dict.setDefault
  split
  · exact h
  · intro hw
    obtain ⟨p, hp, e⟩ := List.mem_map.1 hw
    rcases Dict.mem_set hp with rfl | hp
    · exact hv e.symm
    · exact h (List.mem_map.2 ⟨p, hp, e⟩)

/-- case split of the effect of a handler on the writers -/
macro "obj_noData" k:term : tactic => `(tactic| (
  cases $k:term <;> simp only [procObj, procDate, procC, procG, procI, procJ, procj, procL, procM,
    procN, procO, proco, procP, procQ, procR, procT, procU, procX, procData, procCalib, procChann,
    procCtime, procRoi, procUnrec, procMD, procUIM, procH, procVA, procVD, procVE, procXPCS,
    procCCD, procUXML, Res.eval, Res.ok, Res.raise, Obj.addH5, Obj.addPost] <;>
    (repeat' split) <;> first | assumption | exact values_setDefault (by assumption) (by decide) | (exfalso; simp_all; done)))

omit [UniDB] in
theorem po_noData (k : HKey) (text : Str) (x : Obj) (h : .scanData ∉ x.h5.values) :
    .scanData ∉ (procObj env k text x).1.h5.values := by
  obj_noData k

theorem hdrOk_line (k : HKey) (l : Str) (x : Obj)
    (hl : hKind .j l = true ∨ hKind .o l = true → ∀ w ∈ splitWs (stripFirstWord l), Relative w)
    (hk : k ≠ .E → k ≠ .unrec → hKind k l = true) (h : HdrOk x) :
    HdrOk (procObj env k l x).1 := by
  refine ⟨⟨relNames_of_eq h.attrs.names (po_counterXref ..) (po_positionerXref ..) (po_diff ..) (po_uxmlRoot ..),
    ?_, ?_⟩, po_noData env k l x h.noData, h.writers.procObj env k l⟩
  · by_cases e : k = .j
    · subst e
      intro row hrow
      simp only [procObj, procj, Res.ok, Obj.addPost, Option.getD_some,
        List.mem_append, List.mem_singleton] at hrow
      rcases hrow with e | rfl
      · exact h.attrs.j row e
      · exact hl (.inl (hk (by simp) (by simp)))
    · rw [po_j env k l x e]; exact h.attrs.j
  · by_cases e : k = .o
    · subst e
      intro row hrow
      simp only [procObj, proco, Res.ok, Obj.addPost, Option.getD_some,
        List.mem_append, List.mem_singleton] at hrow
      rcases hrow with e | rfl
      · exact h.attrs.o row e
      · rw [show strip (stripFirstWord l) = stripFirstWord l from strip_strip _]
        split
        · simp
        · exact hl (.inr (hk (by simp) (by simp)))
    · rw [po_o env k l x e]; exact h.attrs.o

/-- names in a header, without the writers -/
structure HdrOk0 (x : Obj) : Prop where
  attrs : SafeAttrs x
  noData : .scanData ∉ x.h5.values

omit [UniDB] in
theorem hdrOk_post0 (hx : SchemaNames env) (f : PostFn) (x : Obj) (h : HdrOk0 x)
    (hok : (runPostHdr env f x).2 = none) : HdrOk0 (runPostHdr env f x).1 := by
  have hc : RelKeys ((counterXref x).1.counterXref.getD []) := by
    unfold counterXref
    split
    · next j J ej eJ =>
      refine xrefRows_rel j J _ h.attrs.names.counters ?_
      have := h.attrs.j
      rw [ej] at this
      exact this
    · exact h.attrs.names.counters
  have hp : RelKeys ((positionerXref x).1.positionerXref.getD []) := by
    unfold positionerXref
    split
    · next j J ej eJ =>
      refine xrefRows_rel j J _ h.attrs.names.positioners ?_
      have := h.attrs.o
      rw [ej] at this
      exact this
    · exact h.attrs.names.positioners
  have hc2 : HdrOk0 (counterXref x).1 := by
    refine ⟨⟨⟨hc, ?_, ?_, ?_, ?_⟩, ?_, ?_⟩, ?_⟩
    all_goals unfold counterXref; split
    · exact h.attrs.names.positioners
    · exact h.attrs.names.positioners
    · exact h.attrs.names.geometry
    · exact h.attrs.names.geometry
    · exact h.attrs.names.fields
    · exact h.attrs.names.fields
    · exact h.attrs.names.xml
    · exact h.attrs.names.xml
    · exact h.attrs.j
    · exact h.attrs.j
    · exact h.attrs.o
    · exact h.attrs.o
    · exact h.noData
    · exact h.noData
  have hp2 : HdrOk0 (positionerXref x).1 := by
    refine ⟨⟨⟨?_, hp, ?_, ?_, ?_⟩, ?_, ?_⟩, ?_⟩
    all_goals unfold positionerXref; split
    · exact h.attrs.names.counters
    · exact h.attrs.names.counters
    · exact h.attrs.names.geometry
    · exact h.attrs.names.geometry
    · exact h.attrs.names.fields
    · exact h.attrs.names.fields
    · exact h.attrs.names.xml
    · exact h.attrs.names.xml
    · exact h.attrs.j
    · exact h.attrs.j
    · exact h.attrs.o
    · exact h.attrs.o
    · exact h.noData
    · exact h.noData
  have add : ∀ (y : Obj) (l : Str) (w : H5Fn), w ≠ .scanData → HdrOk0 y → HdrOk0 (y.addH5 l w) := by
    intro y l w hw hy
    exact ⟨⟨relNames_of_eq hy.attrs.names rfl rfl rfl rfl, hy.attrs.j, hy.attrs.o⟩, values_setDefault hy.noData (Ne.symm hw)⟩
  cases f with
  | counterJ =>
    exact andThen_inv' (P := HdrOk0) hc2 (fun y hy => add y _ _ (by decide) hy)
  | counterj =>
    exact andThen_inv' (P := HdrOk0) hc2 (fun y hy => add y _ _ (by decide) hy)
  | positionerXref =>
    exact andThen_inv' (P := HdrOk0) hp2 (fun y hy => add y _ _ (by decide) hy)
  | uxml =>
    simp only [runPostHdr, postUXML, Res.eval] at hok ⊢
    split at hok
    · next r hr =>
      split at hok
      · next hv =>
        rw [if_pos hv]
        refine add _ _ _ (by decide) ⟨⟨⟨h.attrs.names.counters, h.attrs.names.positioners, h.attrs.names.geometry, h.attrs.names.fields, ?_⟩, h.attrs.j, h.attrs.o⟩, h.noData⟩
        intro t a v ch e
        simp only [Option.some.injEq] at e
        subst e
        exact hx t a v ch hv
      · simp [Res.raise] at hok
    · simp [Res.raise] at hok
  | _ => simp [runPostHdr, Res.raise] at hok

theorem hdrOk_post (hx : SchemaNames env) (f : PostFn) (x : Obj) (h : HdrOk x)
    (hok : (runPostHdr env f x).2 = none) : HdrOk (runPostHdr env f x).1 :=
  have h0 := hdrOk_post0 env hx f x ⟨h.attrs, h.noData⟩ hok
  ⟨h0.attrs, h0.noData, h.writers.postHdr env f hok⟩

/-- the header without #P lines: names, and the latest scan stays -/
theorem nop_lines (hr : reg.Perm HKey.all) : ∀ (lines : List Str) (c : HCtx),
    (∀ l ∈ lines, '\n' ∉ l ∧ hKind .P l = false) → (forEach (hdrLine env reg) lines c).2 = none →
    (forEach (hdrLine env reg) lines c).1.latest = c.latest ∧
    ((∀ l ∈ lines, hKind .j l = true ∨ hKind .o l = true → ∀ w ∈ splitWs (stripFirstWord l), Relative w) →
      HdrOk c.hdr → HdrOk (forEach (hdrLine env reg) lines c).1.hdr)
  | [], _, _, _ => ⟨rfl, fun _ h => h⟩
  | l :: ls, c, hl, hok => by
    obtain ⟨h1, h2, h3⟩ := forEach_cons_ok hok
    rw [h2]
    obtain ⟨i1, i2⟩ := nop_lines hr ls (hdrLine env reg l c).1 (fun l' h' => hl l' (by simp [h'])) h3
    have e := hdrLine_eq env reg l c h1
    cases hk : hEff reg l with
    | none =>
      rw [hk] at e
      rw [e] at i1 i2 ⊢
      exact ⟨i1, fun a b => i2 (fun l' h' => a l' (by simp [h'])) b⟩
    | some k =>
      rw [hk] at e
      have hP : k ≠ .P := by
        rintro rfl
        have := (hl l (by simp)).2
        rw [(hEff_iff reg hr l (hl l (by simp)).1 .P (by simp) (by simp)).1 hk] at this
        cases this
      have e2 : (hdrLine env reg l c).1 = { c with hdr := (procObj env k l c.hdr).1 } := by
        rw [e]
        cases k <;> first | rfl | exact absurd rfl hP
      rw [e2] at i1 i2 ⊢
      refine ⟨i1, fun a b => i2 (fun l' h' => a l' (by simp [h'])) ?_⟩
      refine hdrOk_line env k l c.hdr (a l (by simp)) (fun q1 q2 => ?_) b
      exact (hEff_iff reg hr l (hl l (by simp)).1 k q1 q2).1 hk

theorem nop_posts (hx : SchemaNames env) : ∀ (fs : List PostFn) (c : HCtx), HdrOk c.hdr →
    (forEach (fun f => HCtx.onHdr (runPostHdr env f)) fs c).2 = none →
    HdrOk (forEach (fun f => HCtx.onHdr (runPostHdr env f)) fs c).1.hdr
  | [], _, h, _ => h
  | f :: fs, c, h, hok => by
    obtain ⟨h1, h2, h3⟩ := forEach_cons_ok hok
    rw [h2]
    exact nop_posts hx fs _ (hdrOk_post env hx f c.hdr h h1) h3

omit [UniDB] in
theorem nop_posts_latest (fs : List PostFn) (c : HCtx) :
    (forEach (fun f => HCtx.onHdr (runPostHdr env f)) fs c).1.latest = c.latest :=
  forEach_pres _ HCtx.latest fs (fun _ _ _ => rfl) c

/-! ## The sections of a file -/

/-- a scan that nobody looked at, as `read()` leaves it -/
def Calm (x : Obj) : Prop := Fresh x ∧ (x.h5 = [] ∨ x.h5 = [(p!"#D", .date)])

omit [UniDB] in
theorem procDate_sets (text : Str) (x : Obj) : ∃ d e, (procDate env text x).1 = { x with date := d, epoch := e } := by
  unfold procDate
  simp only [Res.ok, Res.raise, Res.eval]
  repeat' split
  all_goals exact ⟨_, _, rfl⟩

omit [UniDB] in
theorem dateHdr_sets (c : ScanCtx) : (dateHdr env c).1.scan = c.scan.addH5 p!"#D" .date ∧
    ∃ d e, (dateHdr env c).1.hdr = { c.hdr with date := d, epoch := e } := by
  unfold dateHdr
  simp only [Res.ok, Res.raise, Res.eval]
  repeat' split
  all_goals exact ⟨rfl, _, _, rfl⟩

omit [UniDB] in
theorem calm_sets {x : Obj} (h : Calm x) (d : Str) (e : Option Num) : Calm { x with date := d, epoch := e } := by
  obtain ⟨⟨n, i, r, S, num, cmd, _, _, g, rfl⟩, h2⟩ := h
  exact ⟨⟨n, i, r, S, num, cmd, d, e, g, rfl⟩, h2⟩

omit [UniDB] in
theorem calm_h5 {x : Obj} (h : Calm x) : Calm (x.addH5 p!"#D" .date) := by
  obtain ⟨⟨n, i, r, S, num, cmd, d, e, g, rfl⟩, h2⟩ := h
  refine ⟨⟨n, i, r, S, num, cmd, d, e, _, rfl⟩, ?_⟩
  refine .inr ?_
  show Dict.setDefault g p!"#D" .date = _
  rcases h2 with h2 | h2
  · rw [show g = [] from h2]; rfl
  · rw [show g = [(p!"#D", .date)] from h2]; rfl

omit [UniDB] in
theorem calm_date (line : Str) (c : ScanCtx) (h : Calm c.scan) : Calm (procScan env .D line c).1.scan := by
  obtain ⟨d, e, hd⟩ := procDate_sets env line c.scan
  have hc : Calm (onScan (procDate env line) c).1.scan := by
    show Calm (procDate env line c.scan).1
    rw [hd]; exact calm_sets h d e
  show Calm ((onScan (procDate env line) c).andThen (dateHdr env)).1.scan
  unfold Res.andThen
  split
  · rw [(dateHdr_sets env _).1]; exact calm_h5 hc
  · exact hc

/-- a property of headers that a date or an epoch does not change -/
structure Lasting (Q : Obj → Prop) : Prop where
  new : ∀ n, Q (Obj.newHeader n [])
  date : ∀ x d e, Q x → Q { x with date := d, epoch := e }

omit [UniDB] in
theorem lasting_date {Q : Obj → Prop} (hQ : Lasting Q) (line : Str) (c : ScanCtx) (h : Q c.hdr) :
    Q (procScan env .D line c).1.hdr := by
  show Q ((onScan (procDate env line) c).andThen (dateHdr env)).1.hdr
  unfold Res.andThen
  split
  · obtain ⟨d, e, he⟩ := (dateHdr_sets env (onScan (procDate env line) c).1).2
    rw [he]; exact hQ.date _ _ _ h
  · exact h

/-- all headers have a property and all scans are as they were read -/
structure CalmFile (Q : Obj → Prop) (s : Sdf) : Prop where
  headers : ∀ h ∈ s.headers, Q h
  scans : ∀ p ∈ s.scans, Calm p.2

omit [UniDB] in
theorem CalmFile.headerOf {Q : Obj → Prop} (hQ : Lasting Q) {s : Sdf} (h : CalmFile Q s) (x : Obj) :
    Q (s.headerOf x) := by
  unfold Sdf.headerOf
  rw [List.getD_eq_getElem?_getD]
  cases e : s.headers[x.hdrIdx]? with
  | none => exact hQ.new _
  | some y => exact h.headers y (List.mem_of_getElem? e)

omit [UniDB] in
theorem CalmFile.put {Q : Obj → Prop} {s : Sdf} (h : CalmFile Q s) (name : Str) (c : ScanCtx)
    (h1 : Calm c.scan) (h2 : Q c.hdr) : CalmFile Q (s.putLatest name c) := by
  refine ⟨fun y hy => ?_, fun p hp => ?_⟩
  · rcases List.mem_or_eq_of_mem_set hy with hy | rfl
    · exact h.headers y hy
    · exact h2
  · rcases List.mem_append.1 hp with hp | hp
    · exact h.scans p (List.dropLast_subset _ hp)
    · rw [List.mem_singleton.1 hp]; exact h1

omit [UniDB] in
theorem CalmFile.add {Q : Obj → Prop} {s : Sdf} (h : CalmFile Q s) (part : Str) (idx : Nat) :
    CalmFile Q (Sdf.addScan part idx s).1 := by
  unfold Sdf.addScan
  cases Sdf.firstLine part with
  | error e => exact h
  | ok l =>
    simp only [Res.eval_ok]
    split
    · exact h
    · split
      · exact h
      · refine ⟨h.headers, fun p hp => ?_⟩
        rcases Dict.mem_set hp with rfl | hp
        · exact ⟨⟨_, _, _, _, _, _, _, _, _, rfl⟩, .inl rfl⟩
        · exact h.scans p hp

/-- the header is interpreted without touching the latest scan -/
theorem nop_interpret (hr : reg.Perm HKey.all) (c : HCtx) (hok : (interpretHeader env reg c).2 = none)
    (hP : ∀ l ∈ splitlines c.hdr.raw, hKind .P l = false) :
    (interpretHeader env reg c).1.latest = c.latest ∧
    (SchemaNames env → (∀ l ∈ splitlines c.hdr.raw, hKind .j l = true ∨ hKind .o l = true → ∀ w ∈ splitWs (stripFirstWord l), Relative w) →
      HdrOk c.hdr → HdrOk (interpretHeader env reg c).1.hdr) := by
  obtain ⟨c1, c2, h1, h2, h3⟩ := hinterpret_ok env reg c hok
  have hl : ∀ l ∈ splitlines c.hdr.raw, '\n' ∉ l ∧ hKind .P l = false := fun l hl =>
    ⟨fun hn => by have := splitlines_no_break _ l hl _ hn; simp [isLineBreak] at this, hP l hl⟩
  obtain ⟨a, b⟩ := nop_lines env reg hr _ c hl (by rw [h1])
  rw [h1] at a b
  rw [h3]
  refine ⟨?_, fun hx q1 q2 => ?_⟩
  · have := nop_posts_latest env c1.hdr.post.values c1
    rw [h2] at this
    exact this.trans a
  · have := nop_posts env hx c1.hdr.post.values c1 (b q1 q2) (by rw [h2])
    rw [h2] at this
    exact this

/-- one section of the file; `Q` is what is known of headers -/
theorem calm_block (hr : reg.Perm HKey.all) {Q : Obj → Prop} (hQ : Lasting Q) (t : Str) (ht : IsSectionText t)
    (s : Sdf) (hl : s.lastScan = none) (hok : (s.readBlock env reg t).2 = none) (h : CalmFile Q s)
    (hP : isHeaderText t = true → ∀ l ∈ splitlines t, hKind .P l = false)
    (hI : isHeaderText t = true → ∀ c : HCtx, c.hdr.raw = t → HdrOk c.hdr → FreshHeader c.hdr →
      (interpretHeader env reg c).2 = none → Q (interpretHeader env reg c).1.hdr) :
    CalmFile Q (s.readBlock env reg t).1 := by
  obtain ⟨first, rest, e, hst, hnb⟩ := ht
  have hfne := startsSection_ne_nil hst
  have hfl : Sdf.firstLine t = .ok first := by rw [e]; exact firstLine_section first rest hnb hfne
  have htne : t ≠ [] := by
    rintro rfl; simp [Sdf.firstLine, splitlines, splitlinesAux] at hfl
  have hnl : '\n' ∉ first := by
    intro h
    have := hnb first (by simp) '\n' h
    simp [isLineBreak] at this
  obtain ⟨x, hx, hw⟩ : ∃ x, (x = 'E' ∨ x = 'F' ∨ x = 'S') ∧ firstWordIs ['#', x] first := by
    rcases hst with h | h | h
    · exact ⟨'E', by simp, h⟩
    · exact ⟨'F', by simp, h⟩
    · exact ⟨'S', by simp, h⟩
  obtain ⟨hkE, hkS⟩ := section_kind t first rest e x hw
  unfold Sdf.readBlock at hok ⊢
  rw [if_neg (by simpa using htne), hfl] at hok ⊢
  simp only [Res.eval_ok] at hok ⊢
  cases hg : getControlKey reg first with
  | error er => rw [hg] at hok; simp at hok
  | ok o =>
    rw [hg] at hok
    simp only [Res.eval_ok] at hok ⊢
    cases o with
    | none => simp at hok
    | some k =>
      obtain ⟨hkt, _⟩ := block_key reg hr first hnl x hx hw k hg
      have hks := keyText_section k x hkt
      rcases hx with rfl | rfl | rfl
      · have hk := hks.1 rfl
        subst hk
        have hh : isHeaderText t = true := by rw [hkE]; rfl
        simp only at hok ⊢
        unfold Sdf.procE at hok ⊢
        split
        · exact h
        next hany =>
        rw [if_neg hany] at hok
        rw [hfl] at hok ⊢
        simp only [Res.eval_ok] at hok ⊢
        cases he : Sdf.epochOf (strip first) with
        | error er => rw [he] at hok; simp at hok
        | ok ep =>
        rw [he] at hok
        simp only [Res.eval_ok] at hok ⊢
        have hnew : HdrOk { Obj.newHeader s.fileName t with epoch := some ep } := by
          refine ⟨⟨relNames_of_eq (relNames_newHeader s.fileName) rfl rfl rfl rfl, ?_, ?_⟩, ?_,
            (writers_newHeader s.fileName t).same rfl rfl rfl rfl rfl rfl rfl rfl rfl rfl rfl rfl rfl rfl id⟩
          · intro row hrow; simp [Obj.newHeader] at hrow
          · intro row hrow; simp [Obj.newHeader] at hrow
          · simp [Obj.newHeader, Dict.values]
        have hset : ∀ (r z : Obj), Q r → z ∈ (s.headers ++ [{ Obj.newHeader s.fileName t with epoch := some ep }]).set s.headers.length r → Q z := by
          intro r z hr hz
          have e0 : (s.headers ++ [{ Obj.newHeader s.fileName t with epoch := some ep }]).set s.headers.length r = s.headers ++ [r] := by
            rw [List.set_append_right _ _ (Nat.le_refl _)]
            simp
          rw [e0] at hz
          rcases List.mem_append.1 hz with hz | hz
          · exact h.headers z hz
          · rw [List.mem_singleton.1 hz]; exact hr
        cases hlat : (Sdf.latest { s with headers := s.headers ++ [{ Obj.newHeader s.fileName t with epoch := some ep }] }) with
        | none =>
          rw [hlat] at hok
          simp only at hok ⊢
          exact ⟨fun y hy => hset _ y (hI hh _ rfl hnew ⟨_, _, _, rfl⟩ hok) hy, h.scans⟩
        | some q =>
          obtain ⟨nm, y⟩ := q
          rw [hlat] at hok
          simp only at hok ⊢
          have hl1 := (nop_interpret env reg hr _ hok (hP hh)).1
          rw [hl1]
          simp only
          rw [putLatest_self _ _ _ hlat]
          exact ⟨fun z hz => hset _ z (hI hh _ rfl hnew ⟨_, _, _, rfl⟩ hok) hz, h.scans⟩
      · have hk := hks.2.1 rfl
        subst hk
        simp only
        unfold Sdf.procF
        split <;> exact ⟨h.headers, h.scans⟩
      · have hk := hks.2.2 rfl
        subst hk
        simp only at hok ⊢
        refine andThen_inv' (P := CalmFile Q) ?_ (fun s2 h2 => ?_)
        · rw [procS_none t s hl]
          refine CalmFile.add ?_ _ _
          split
          · refine ⟨fun y hy => ?_, h.scans⟩
            rw [List.mem_singleton.1 hy]; exact hQ.new _
          · exact h
        · unfold Sdf.dateLatest
          cases hlat : s2.latest with
          | none => exact h2
          | some q =>
            obtain ⟨nm, y⟩ := q
            simp only
            cases Sdf.findDate (splitlines y.raw).tail with
            | error er => exact h2
            | ok d =>
              simp only [Res.eval_ok]
              cases d with
              | none => exact h2
              | some line =>
                have hmem : (nm, y) ∈ s2.scans := List.mem_of_getLast? hlat
                exact h2.put nm _ (calm_date env line ⟨y, s2.headerOf y⟩ (h2.scans _ hmem))
                  (lasting_date env hQ line ⟨y, s2.headerOf y⟩ (h2.headerOf hQ y))

/-- all sections of a file -/
theorem calm_open (hr : reg.Perm HKey.all) {Q : Obj → Prop} (hQ : Lasting Q) (name : Str) (f stat : FileSt) (s : Sdf)
    (h : Sdf.openFile env reg name f stat = .ok s) (texts : List Str) (ht : dissectFile f.node = .ok texts)
    (hP : ∀ t ∈ texts, isHeaderText t = true → ∀ l ∈ splitlines t, hKind .P l = false)
    (hI : ∀ t ∈ texts, isHeaderText t = true → ∀ c : HCtx, c.hdr.raw = t → HdrOk c.hdr → FreshHeader c.hdr →
      (interpretHeader env reg c).2 = none → Q (interpretHeader env reg c).1.hdr) :
    CalmFile Q s := by
  obtain ⟨texts', s1, h1, h2, _, h4⟩ := open_ok env reg hr name f stat s h
  obtain rfl : texts = texts' := by rw [ht] at h1; simpa using h1
  have hsec := sections_text f.node texts ht
  have key : ∀ (ts : List Str), (∀ t ∈ ts, t ∈ texts) → ∀ (s0 : Sdf), s0.lastScan = none → CalmFile Q s0 →
      (forEach (Sdf.readBlock env reg) ts s0).2 = none → CalmFile Q (forEach (Sdf.readBlock env reg) ts s0).1 := by
    intro ts
    induction ts with
    | nil => intro _ s0 _ h0 _; exact h0
    | cons t ts ih =>
      intro hsub s0 hl h0 hok
      obtain ⟨g1, g2, g3⟩ := forEach_cons_ok hok
      rw [g2]
      have hmem := hsub t (by simp)
      refine ih (fun u hu => hsub u (by simp [hu])) _ ?_ (calm_block env reg hr hQ t (hsec t hmem) s0 hl g1 h0 (hP t hmem) (hI t hmem)) g3
      have := congrArg Shape.lastScan (readBlock_abs env reg hr t (hsec t hmem) s0 hl g1)
      rw [absStep_last] at this
      exact this.trans hl
  have := key texts (fun _ h => h) { fileName := name } rfl ⟨by simp, by simp⟩ (by rw [h2])
  rw [h2] at this
  obtain ⟨e1, e2, _⟩ := finish_ok stat s1 s h4
  exact ⟨by rw [e2]; exact this.headers, by rw [e1]; exact this.scans⟩

/-- C70: After a file without #P lines in its headers was opened, no scan of it has been interpreted:
every scan is as it was created from its text, with its number, its command and possibly its date. -/
theorem C70_untouched (hr : reg.Perm HKey.all) (name : Str) (f stat : FileSt) (s : Sdf)
    (h : Sdf.openFile env reg name f stat = .ok s) (texts : List Str) (ht : dissectFile f.node = .ok texts)
    (hP : ∀ t ∈ texts, isHeaderText t = true → ∀ l ∈ splitlines t, hKind .P l = false) :
    ∀ p ∈ s.scans, Fresh p.2 :=
  fun p hp => ((calm_open env reg hr (Q := fun _ => True) ⟨fun _ => trivial, fun _ _ _ _ => trivial⟩ name f stat s h
    texts ht hP (fun _ _ _ _ _ _ _ _ => trivial)).scans p hp).1

/-- C70: A file without #P lines in its headers whose mnemonics (on the #j and #o lines of its headers
and scans) do not start with "/" can be saved as soon as it is opened: the properties of `Writer.save`
(C40 to C49) hold for it. -/
theorem C70_savable (hr : reg.Perm HKey.all) (hx : SchemaNames env) (name : Str) (f stat : FileSt) (s : Sdf)
    (h : Sdf.openFile env reg name f stat = .ok s) (texts : List Str) (ht : dissectFile f.node = .ok texts)
    (hP : ∀ t ∈ texts, isHeaderText t = true → ∀ l ∈ splitlines t, hKind .P l = false)
    (hH : ∀ t ∈ texts, isHeaderText t = true → ∀ l ∈ splitlines t, hKind .j l = true ∨ hKind .o l = true →
      ∀ w ∈ splitWs (stripFirstWord l), Relative w)
    (hS : ∀ t ∈ texts, isScanText t = true → ∀ l ∈ scanLines t, isKind .j l = true ∨ isKind .o l = true →
      ∀ w ∈ splitWs (stripFirstWord l), Relative w) :
    Savable s := by
  have hQ : Lasting HdrOk := by
    refine ⟨fun n => ?_, fun x d e h => ⟨⟨relNames_of_eq h.attrs.names rfl rfl rfl rfl, h.attrs.j, h.attrs.o⟩, h.noData,
      h.writers.same rfl rfl rfl rfl rfl rfl rfl rfl rfl rfl rfl rfl rfl rfl id⟩⟩
    refine ⟨⟨relNames_of_eq (relNames_newHeader n) rfl rfl rfl rfl, ?_, ?_⟩, ?_, writers_newHeader n []⟩
    · intro row hrow; simp [Obj.newHeader] at hrow
    · intro row hrow; simp [Obj.newHeader] at hrow
    · simp [Obj.newHeader, Dict.values]
  have hc := calm_open env reg hr hQ name f stat s h texts ht hP (fun t htm hh c e hok0 _ hok => by
    subst e
    exact (nop_interpret env reg hr c hok (hP _ htm hh)).2 hx (hH _ htm hh) hok0)
  have hraw : ∀ p ∈ s.scans, p.2.raw ∈ texts ∧ isScanText p.2.raw = true := by
    obtain ⟨texts', h1, _, h3, _⟩ := open_shape env reg hr name f stat s h
    obtain rfl : texts = texts' := by rw [ht] at h1; simpa using h1
    have hr := fold_raws texts ⟨name, [], [], none⟩
    rw [← h3] at hr
    simp only [shape, List.map_map, List.map_nil, List.nil_append] at hr
    intro p hp
    have : p.2.raw ∈ texts.filter isScanText := by
      rw [← hr]; exact List.mem_map.2 ⟨p, hp, rfl⟩
    exact List.mem_filter.1 this
  refine ⟨⟨fun x hx => (hc.headers x hx).attrs.names, fun x hx => (hc.headers x hx).noData, fun p hp => ?_, fun p hp => ?_,
      fun x hx => (hc.headers x hx).writers, fun p hp => ?_⟩,
    open_wellNamed env reg hr name f stat s h⟩
  · obtain ⟨⟨n, i, r, S, num, cmd, d, e, g, e1⟩, _⟩ := hc.scans p hp
    obtain ⟨m1, m2⟩ := hraw p hp
    refine ⟨?_, ?_, ?_, hS _ m1 m2⟩
    · rw [e1]; exact relNames_of_eq (relNames_newHeader n) rfl rfl rfl rfl
    · rw [e1]; intro row hrow; simp [Obj.newScan] at hrow
    · rw [e1]; intro row hrow; simp [Obj.newScan] at hrow
  · obtain ⟨⟨n, i, r, S, num, cmd, d, e, g, e1⟩, h2⟩ := hc.scans p hp
    have hf : p.2.h5.get? p!"scan_data" = none := by
      rcases h2 with h2 | h2 <;> rw [h2] <;> rfl
    have hf2 : p.2.h5.get? p!"diffractometer geometry" = none := by
      rcases h2 with h2 | h2 <;> rw [h2] <;> rfl
    refine ⟨(fun f hf' => by rw [hf] at hf'; cases hf'), fun hd => absurd ?_ hd, fun h => absurd hf h, fun hm => ?_,
      (fun f hf' => by rw [e1] at hf'; cases hf'), fun h => absurd hf2 h, fun h => absurd ?_ h, fun _ h => absurd ?_ h⟩
    · rw [e1]; rfl
    · rw [e1] at hm; simp [Obj.newScan, Dict.values] at hm
    · rw [e1]; rfl
    · rw [e1]; rfl
  · obtain ⟨⟨n, i, r, S, num, cmd, d, e, g, e1⟩, h2⟩ := hc.scans p hp
    refine writers_fresh (by rw [e1]; rfl) (h2.imp id (fun q => ⟨rfl, q⟩)) ?_ ?_ ?_ ?_ ?_ ?_ ?_ ?_ ?_ ?_ ?_ ?_ ?_ ?_ ?_ ?_ ?_ ?_ ?_ ?_ <;> rw [e1] <;> rfl

end
/-! ## A case -/

/-- a file with positioners and counters named in its header, and two scans -/
def calmText : Str := p!"#F demo\n#E 1276730676\n#D Wed Jun 16 18:24:36 2010\n#o0 mx my\n#O0 M X  M Y\n#j0 mon\n#J0 monitor\n\n#S 1 ascan mx 0 1 2 1\n#D Wed Jun 16 18:24:37 2010\n#N 2\n#L a  b\n1 2\n3 4\n\n#S 2 ascan mx 0 1 2 1\n#D Wed Jun 16 18:24:38 2010\n"

/-- decidable form of the conditions on the sections -/
def calmB (texts : List Str) : Bool :=
  texts.all (fun t => (!isHeaderText t || (splitlines t).all (fun l => !(@hKind asciiDB .P l) &&
      (!(@hKind asciiDB .j l || @hKind asciiDB .o l) || (splitWs (stripFirstWord l)).all (fun w => decide (Relative w))))) &&
    (!isScanText t || (scanLines t).all (fun l =>
      (!(@isKind asciiDB .j l || @isKind asciiDB .o l) || (splitWs (stripFirstWord l)).all (fun w => decide (Relative w))))))

theorem C70_nonvacuous : isOk (demoOpen calmText) = true ∧
    (match dissectFile (.file (some calmText)) with
      | .ok texts => calmB texts && texts.any isHeaderText && (texts.filter isScanText).length == 2
      | .error _ => false) = true := by decide +kernel

/-- C70: without the condition on the #P lines it does not hold: a #P line in a header has the last
scan before it interpreted. -/
theorem C70_positions_in_header : (match demoOpen
    p!"#E 1276730676\n#D Wed Jun 16 18:24:36 2010\n#O0 mx\n#S 1 a\n#D Wed Jun 16 18:24:37 2010\n#E 1276730677\n#P0 1\n" with
    | .ok s => s.scans.map (fun p => (p.1, p.2.interpreted))
    | .error _ => []) = [(p!"1", true)] := by decide +kernel

end S2N.Props
