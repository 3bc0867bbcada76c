import Verif.Props.Arrive
import Verif.Props.EntryTables
import Verif.Props.EntryFlat
import Verif.Props.EntryGeo
import Verif.Props.McaInfo
import Verif.Props.Lines
import Verif.Lemmas.Opens
/-
C96: further lines of a scan, from the text of a SPEC data file to the NeXus file.
-/
namespace S2N.Props
open S2N S2N.Py S2N.Spec S2N.H5 S2N.Writer

section
variable [UniDB]

theorem lastWins_ne {α : Type} {d : Dict α} {ps : List (Str × α)} (h : LastWins d ps) (hne : ps ≠ []) : d ≠ [] := by
  intro he
  have := h.order
  rw [he] at this
  cases ps with
  | nil => exact hne rfl
  | cons p rest =>
    have hm : p.1 ∈ firstOcc ((p :: rest).map (·.1)) := by rw [firstOcc_mem]; simp
    rw [← this] at hm
    cases hm

/-- the scans of a file that was opened have the title and the command of their first line -/
theorem open_titles {env : Env} {reg : List HKey} (hr : reg.Perm HKey.all) {name : Str} {f stat : FileSt} {s : Sdf}
    (h : Sdf.openFile env reg name f stat = .ok s) :
    ∀ p ∈ s.scans, p.2.S = stripFirstWord (strip (headline p.2.raw)) ∧ p.2.scanCmd = stripFirstWord p.2.S := by
  obtain ⟨texts, h1, _, h3, _⟩ := open_shape env reg hr name f stat s h
  have key : ∀ (ts : List Str) (sh : Shape), (∀ p ∈ sh.scans, p.2.S = stripFirstWord (strip (headline p.2.raw)) ∧
      p.2.scanCmd = stripFirstWord p.2.S) → ∀ p ∈ (ts.foldl absStep sh).scans,
      p.2.S = stripFirstWord (strip (headline p.2.raw)) ∧ p.2.scanCmd = stripFirstWord p.2.S := by
    intro ts
    induction ts with
    | nil => intro sh hs; exact hs
    | cons t ts ih =>
      intro sh hs
      refine ih _ ?_
      unfold absStep
      split
      · split <;> exact hs
      · split
        · intro p hp
          rcases List.mem_append.1 hp with hp | hp
          · exact hs p hp
          · simp only [List.mem_singleton] at hp
            subst hp
            exact ⟨rfl, rfl⟩
        · exact hs
  intro p hp
  have := key texts ⟨name, [], [], none⟩ (by simp) (p.1, p.2.ident) (by
    rw [← h3]
    exact List.mem_map.2 ⟨p, hp, rfl⟩)
  exact this

/-- what a #D line of a scan does to its date -/
theorem procDate_line (env : Env) (t : Str) (x : Obj) (h : (procDate env t x).2 = none) :
    (procDate env t x).1.date = dateOfLine env t x.date ∧
    ((splitC ' ' (stripFirstWord t)).length = 1 → ∃ f d, Py.float (stripFirstWord t) = .ok f ∧ env.fromTimestamp f = .ok d) := by
  unfold procDate at h ⊢
  unfold dateOfLine
  simp only at h ⊢
  by_cases hl : (splitC ' ' (stripFirstWord t)).length = 1
  · rw [if_pos hl] at h ⊢
    rw [if_pos hl]
    cases hf : Py.float (stripFirstWord t) with
    | error e => rw [hf] at h; simp [Res.eval] at h
    | ok f =>
      rw [hf] at h
      cases hn : f.toInt with
      | error e => simp [Res.eval, hn] at h
      | ok n =>
        cases hs : env.fromTimestamp f with
        | error e => simp [Res.eval, hn, hs] at h
        | ok s => exact ⟨by simp [Res.eval, Res.ok, hn, hs], fun _ => ⟨f, s, rfl, hs⟩⟩
  · rw [if_neg hl] at h ⊢
    rw [if_neg hl]
    refine ⟨?_, fun h => absurd h hl⟩
    cases he : x.epoch with
    | some e => rfl
    | none =>
      rw [he] at h
      simp only at h ⊢
      cases hs : strptimeSpec (stripFirstWord t) with
      | none => rfl
      | some tm =>
        rw [hs] at h
        simp only at h ⊢
        cases hm : env.mktime tm <;> simp [Res.eval]

theorem dateHdr_keeps (env : Env) (c : ScanCtx) : (dateHdr env c).1.scan.date = c.scan.date := by
  unfold dateHdr
  simp only [Res.eval]
  (repeat' split) <;> rfl

theorem procScan_date (env : Env) (t : Str) (c : ScanCtx) (h : (procScan env .D t c).2 = none) :
    (procScan env .D t c).1.scan.date = dateOfLine env t c.scan.date ∧
    ((splitC ' ' (stripFirstWord t)).length = 1 → ∃ f d, Py.float (stripFirstWord t) = .ok f ∧ env.fromTimestamp f = .ok d) := by
  have h : ((onScan (procDate env t) c).andThen (dateHdr env)).2 = none := h
  obtain ⟨h1, h2, _⟩ := andThen_none h
  show ((onScan (procDate env t) c).andThen (dateHdr env)).1.scan.date = _ ∧ _
  rw [h2, dateHdr_keeps]
  exact procDate_line env t c.scan h1

/-- the date of a scan whose text has #D lines is that of the last one -/
theorem interp_date (env : Env) (reg : List HKey) (hr : reg.Perm HKey.all) (c : ScanCtx) (hf : Fresh c.scan)
    (hok : (interpretScan env reg c).2 = none) {l : Str} (hl : (ofKind .D (scanLines c.scan.raw)).getLast? = some l) :
    ((splitC ' ' (stripFirstWord l)).length ≠ 1 → (interpretScan env reg c).1.scan.date = stripFirstWord l) ∧
    ((splitC ' ' (stripFirstWord l)).length = 1 → ∃ f, Py.float (stripFirstWord l) = .ok f ∧
      env.fromTimestamp f = .ok (interpretScan env reg c).1.scan.date) := by
  have h := interp_kind env reg hr .D (by simp) (by simp) (·.date) (fun l b => dateOfLine env l b)
    (fun t c h => (procScan_date env t c h).1) (fun k t c hk => ps_date env k t c hk) (pp_date env) (fun _ _ => rfl) (fun _ _ => rfl) c
    (fresh_interpreted hf) hok
  have ha := kind_ok env reg hr .D (by simp) (by simp) _ (fun t c h => (procScan_date env t c h).2) c hf hok l (List.mem_of_getLast? hl)
  obtain ⟨ls, hls⟩ : ∃ ls, ofKind .D (scanLines c.scan.raw) = ls ++ [l] := ⟨_, (List.dropLast_append_getLast? l hl).symm⟩
  rw [hls, List.foldl_append] at h
  simp only [List.foldl_cons, List.foldl_nil] at h
  rw [h]
  unfold dateOfLine
  refine ⟨fun hn => by rw [if_neg hn], fun hn => ?_⟩
  obtain ⟨f, d, h1, h2⟩ := ha hn
  rw [if_pos hn, h1]
  simp only [h2]
  exact ⟨f, rfl, h2⟩

section
variable {env : Env} {reg : List HKey} (hr : reg.Perm HKey.all) (hx : SchemaNames env) {texts : List Str} {s : Sdf}
  {ks : List Ref} {r : SState} (hc : Conversion env reg texts s ks r) {k : Ref} (hm : k ∈ ks) {x : Obj}
  (hk : s.getScan k = .ok (some x))
include hr hx hc hm hk

/-- C96: the entry of a scan has the text of its #S line as title, without the number as command, and its number. -/
theorem C96_identity {t : Str} (ht : t = stripFirstWord (strip ((splitlines x.raw).headD []))) :
    datasetAt r.h5 [entryName k, p!"title"] = some (.text [ascii t], []) ∧
    datasetAt r.h5 [entryName k, p!"command"] = some (.text [ascii (stripFirstWord t)], []) ∧
    (∀ n, x.scanNum = natStr n → datasetAt r.h5 [entryName k, p!"scan_number"] =
      some (.nums ⟨[.int n], [1]⟩, [(p!"spec_name", .str p!"SCAN_N")])) ∧
    (∀ n m, x.scanNum = natStr n ++ p!"." ++ natStr (m + 1) → datasetAt r.h5 [entryName k, p!"scan_number"] =
      some (.nums ⟨[.int n], [1]⟩, [(p!"spec_name", .str p!"SCAN_N"), (p!"repeat", .num (.int (m + 1)))])) := by
  obtain ⟨z, hdr, ar⟩ := arrived hr hx hc hm hk
  obtain ⟨v, hsv⟩ := hc.saved
  have := C74_identity hr hx ar.savable hc.keys hsv hm ar.now
  have hid := interp_ident env reg ⟨x, hdr⟩
  obtain ⟨L, hL⟩ := ar.labels
  have e1 : z.S = x.S := by rw [hL]; exact congrArg Ident.S hid
  have e2 : z.scanCmd = x.scanCmd := by rw [hL]; exact congrArg Ident.scanCmd hid
  have e3 : z.scanNum = x.scanNum := by rw [hL]; exact congrArg Ident.scanNum hid
  obtain ⟨name, f, stat, ho, _⟩ := hc.opened
  obtain ⟨n, hn⟩ := getScan_mem hk
  obtain ⟨t1, t2⟩ := open_titles hr ho _ (Dict.mem_of_get? hn)
  rw [e1, e2, e3, t2, t1] at this
  rw [ht]
  exact this

/-- C96: the last #D line of a scan is its date, in the form of ISO 8601.  (A single word is a number of seconds, whose
date the clock states.) -/
theorem C96_date {l : Str} (hl : (ofKind .D (scanLines x.raw)).getLast? = some l) :
    ∃ t d, iso8601 t = .ok d ∧ datasetAt r.h5 [entryName k, p!"date"] = some (.text [ascii d], []) ∧
      ((splitC ' ' (stripFirstWord l)).length ≠ 1 → t = stripFirstWord l) ∧
      ((splitC ' ' (stripFirstWord l)).length = 1 → ∃ f, Py.float (stripFirstWord l) = .ok f ∧ env.fromTimestamp f = .ok t) := by
  obtain ⟨z, hdr, ar⟩ := arrived hr hx hc hm hk
  obtain ⟨v, hsv⟩ := hc.saved
  have hmem : l ∈ ofKind .D (scanLines x.raw) := List.mem_of_getLast? hl
  obtain ⟨hl1, hl2⟩ := List.mem_filter.1 hmem
  have hid := interp_ident env reg ⟨x, hdr⟩
  obtain ⟨L, hL⟩ := ar.labels
  have eraw : z.raw = x.raw := by rw [hL]; exact congrArg Ident.raw hid
  obtain ⟨d, d1, d2⟩ := C74_date hr hx ar.savable hc.keys hsv hm ar.now (by rw [eraw]; exact ⟨l, hl1, hl2⟩)
  obtain ⟨g1, g2⟩ := interp_date env reg hr ⟨x, hdr⟩ ar.fresh ar.done hl
  have ed : z.date = (interpretScan env reg ⟨x, hdr⟩).1.scan.date := by rw [hL]
  rw [← ed] at g1 g2
  exact ⟨z.date, d, d1, d2, g1, g2⟩

/-- C96: the values of the #V lines of a scan are in its entry, each under the label at the same place of the #H lines of
its header, as numbers where possible. -/
theorem C96_values {H : List (List Str)} (hH : (s.headerOf x).H = some H) {pairs : List (Str × Str)}
    (hp : pairs = pairTables H ((ofKind .V (scanLines x.raw)).mapIdx (fun i l => valuesV (H.getD i []) l))) (h0 : pairs ≠ []) :
    ∃ d, LastWins d (pairs.map (fun p => (p.1, metaVal p.2))) ∧ ValuesAt r.h5 (entryName k) d := by
  obtain ⟨z, hdr, ar⟩ := arrived hr hx hc hm hk
  obtain ⟨v, hsv⟩ := hc.saved
  have eH : hdr.H = some H := by obtain ⟨O, d, e, e1⟩ := ar.header; rw [e1]; exact hH
  have hne : ofKind .V (scanLines x.raw) ≠ [] := by
    intro he
    rw [he] at hp
    exact h0 (hp.trans (by cases H <;> rfl))
  obtain ⟨_, _, d, d1, d2⟩ := C27_metadata env reg hr ⟨x, hdr⟩ ar.fresh ar.done H eH hne
  have d2 : LastWins d (pairs.map (fun p => (p.1, metaVal p.2))) := by rw [hp]; exact d2
  obtain ⟨L, hL⟩ := ar.labels
  have e : z.metadata = some d := by rw [hL]; exact d1
  obtain ⟨g1, g2, _⟩ := C80_values hr hx ar.savable hc.keys hsv hm ar.now rfl rfl
  have hd : d ≠ [] := lastWins_ne d2 (by simpa using h0)
  rw [e] at g1 g2
  have g3 := g1.resolve_right hd
  rw [g3] at g2
  exact ⟨d, d2, g2 hd⟩

/-- C96: the numbers of the last #@CALIB, #@CHANN and #@CTIME lines of a scan (where it has none, of its header) are in the
group `MCA` of its entry. -/
theorem C96_mca (h0 : ofKind .CALIB (scanLines x.raw) ≠ [] ∨ ofKind .CHANN (scanLines x.raw) ≠ [] ∨ ofKind .CTIME (scanLines x.raw) ≠ []) :
    ∃ calib chann ctime, McaAt r.h5 (entryName k) calib chann ctime ∧
      (∀ l, (ofKind .CALIB (scanLines x.raw)).getLast? = some l → ∃ v, calib = some v ∧ ThreeNumbers l v) ∧
      (∀ l, (ofKind .CHANN (scanLines x.raw)).getLast? = some l → ∃ v, chann = some v ∧ Channels l v) ∧
      (∀ l, (ofKind .CTIME (scanLines x.raw)).getLast? = some l → ∃ v, ctime = some v ∧ NumbersOf (stripFirstWord l) [v.1, v.2.1, v.2.2]) ∧
      (ofKind .CALIB (scanLines x.raw) = [] → calib = (s.headerOf x).mca.bind (·.calib)) ∧
      (ofKind .CHANN (scanLines x.raw) = [] → chann = (s.headerOf x).mca.bind (·.chann)) ∧
      (ofKind .CTIME (scanLines x.raw) = [] → ctime = (s.headerOf x).mca.bind (·.ctime)) := by
  obtain ⟨z, hdr, ar⟩ := arrived hr hx hc hm hk
  obtain ⟨v, hsv⟩ := hc.saved
  obtain ⟨L, hL⟩ := ar.labels
  have e : z.mca = (interpretScan env reg ⟨x, hdr⟩).1.scan.mca := by rw [hL]
  have eh : (r.sdf.headerOf z).mca = (s.headerOf x).mca := by obtain ⟨O, d, e, e1⟩ := ar.after; rw [e1]
  have a1 := C68_calib env reg hr ⟨x, hdr⟩ ar.fresh ar.done
  have a2 := C68_chann env reg hr ⟨x, hdr⟩ ar.fresh ar.done
  have a3 := C68_ctime env reg hr ⟨x, hdr⟩ ar.fresh ar.done
  rw [← e] at a1 a2 a3
  obtain ⟨g, _⟩ := C81_mca hr hx ar.savable hc.keys hsv hm ar.now rfl rfl rfl
  rw [eh] at g
  have hlast : ∀ {ls : List Str}, ls ≠ [] → ∃ l, ls.getLast? = some l := fun h => ⟨_, List.getLast?_eq_some_getLast h⟩
  refine ⟨_, _, _, g ?_, ?_, ?_, ?_, ?_, ?_, ?_⟩
  · rcases h0 with h | h | h <;> obtain ⟨l, hl⟩ := hlast h
    · simp only [hl] at a1
      obtain ⟨w, w1, _⟩ := a1
      exact .inl (by rw [w1]; simp)
    · simp only [hl] at a2
      obtain ⟨w, w1, _⟩ := a2
      exact .inr (.inl (by rw [w1]; simp))
    · simp only [hl] at a3
      obtain ⟨w, w1, _⟩ := a3
      exact .inr (.inr (by rw [w1]; simp))
  · intro l hl
    simp only [hl] at a1
    obtain ⟨w, w1, w2⟩ := a1
    exact ⟨w, by rw [w1]; rfl, w2⟩
  · intro l hl
    simp only [hl] at a2
    obtain ⟨w, w1, w2⟩ := a2
    exact ⟨w, by rw [w1]; rfl, w2⟩
  · intro l hl
    simp only [hl] at a3
    obtain ⟨w, w1, w2⟩ := a3
    exact ⟨w, by rw [w1]; rfl, w2⟩
  · intro hn
    simp only [hn, List.getLast?_nil] at a1
    rw [a1]; rfl
  · intro hn
    simp only [hn, List.getLast?_nil] at a2
    rw [a2]; rfl
  · intro hn
    simp only [hn, List.getLast?_nil] at a3
    rw [a3]; rfl

/-- C96: the numbers of each #G line of a scan (the last one of each number) are an array of the group `G` of its entry. -/
theorem C96_geometry {lines : List (Str × Str)}
    (hl : lines = (ofKind .G (scanLines x.raw)).map (fun l => (lstripC '#' ((splitWs l).headD []), stripFirstWord l))) :
    (lines = [] → objAt r.h5 [entryName k, p!"G"] = none) ∧
    (lines ≠ [] → ∃ G d, LastWins G lines ∧
      List.Forall₂ (fun (p : Str × Str) (q : Str × List PyFloat) => q.1 = p.1 ∧ NumbersOf p.2 q.2) G d ∧
      DictAt r.h5 (entryName k) p!"G" arraysAttrs numsData d) := by
  obtain ⟨z, hdr, ar⟩ := arrived hr hx hc hm hk
  obtain ⟨v, hsv⟩ := hc.saved
  obtain ⟨L, hL⟩ := ar.labels
  obtain ⟨G, g1, g2⟩ := C29_G env reg hr ⟨x, hdr⟩ ar.fresh ar.done
  have g2 : LastWins G lines := by rw [hl]; exact g2
  have e : z.G = some G := by rw [hL]; exact g1
  obtain ⟨c1, c2⟩ := C85_arrays hr hx ar.savable hc.keys hsv hm ar.now
  refine ⟨fun h0 => c2 ?_, fun h0 => ?_⟩
  · rw [e, Option.getD_some]
    have := g2.order
    rw [h0] at this
    cases G with
    | nil => rfl
    | cons p G => cases this
  · obtain ⟨d, d1, d2⟩ := c1 G e (lastWins_ne g2 h0)
    exact ⟨G, d, g2, d1, d2⟩

/-- C96: the keys and values of the `#MD key = value` lines of a scan are in the group `bluesky_metadata` of its entry. -/
theorem C96_metadata {items : List (Str × Str)} (hne : items ≠ [])
    (hkey : ∀ kv ∈ items, kv.1 ≠ [] ∧ ∀ ch ∈ kv.1, isSpace ch = false ∧ ch ≠ '=')
    (hl : ofKind .MD (scanLines x.raw) = items.map (fun kv => mdLine kv.1 kv.2)) :
    ∃ d, LastWins d (items.map (fun kv => (kv.1, strip kv.2))) ∧ MetaAt r.h5 (entryName k) d := by
  obtain ⟨z, hdr, ar⟩ := arrived hr hx hc hm hk
  obtain ⟨v, hsv⟩ := hc.saved
  obtain ⟨L, hL⟩ := ar.labels
  obtain ⟨d, d1, d2⟩ := C30_MD env reg hr ⟨x, hdr⟩ ar.fresh ar.done items hne hkey hl
  have e : z.MD = some d := by rw [hL]; exact d1
  obtain ⟨g1, g2, _⟩ := C75_metadata hr hx ar.savable hc.keys hsv hm ar.now rfl rfl
  have hd : d ≠ [] := lastWins_ne d2 (by simpa using hne)
  rw [e] at g1 g2
  have g3 := g1.resolve_right hd
  rw [g3] at g2
  exact ⟨d, d2, g2 hd⟩

end
end
end S2N.Props
