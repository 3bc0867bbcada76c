import Verif.Spec.Arrive
import Verif.Lemmas.SaveCame
import Verif.Props.Columns
import Verif.Props.Untouched
import Verif.Props.Entry
import Verif.Props.EntryLines
import Verif.Props.EntryPreset
import Verif.Props.EntryPos
import Verif.Props.Last
import Verif.Props.Tables
/-
C90, C91: from the text of a SPEC data file to the NeXus file.
-/
namespace S2N.Props
open S2N S2N.Py S2N.Spec S2N.H5 S2N.Writer

section
variable [UniDB]

omit [UniDB] in
theorem firstOcc_nodup (l : List Str) : (firstOcc l).Nodup := by
  induction l using List.reverseRecOn with
  | nil => simp [firstOcc]
  | append_singleton l k ih =>
    rw [firstOcc_snoc]
    split
    · exact ih
    · next h =>
      rw [List.nodup_append]
      refine ⟨ih, by simp, ?_⟩
      intro a ha b hb e
      simp at hb
      subst hb e
      exact h ha

omit [UniDB] in
theorem firstOcc_mem (l : List Str) : ∀ k : Str, k ∈ firstOcc l ↔ k ∈ l := by
  induction l using List.reverseRecOn with
  | nil => simp [firstOcc]
  | append_singleton l a ih =>
    intro k
    rw [firstOcc_snoc]
    split
    · next h =>
      rw [ih]
      rw [ih] at h
      constructor
      · intro hk; simp [hk]
      · intro hk
        rcases List.mem_append.1 hk with hk | hk
        · exact hk
        · simp at hk; rw [hk]; exact h
    · rw [List.mem_append, List.mem_append, ih]

/-- what is known of a scan that was converted -/
structure Arrived (env : Env) (reg : List HKey) (texts : List Str) (s : Sdf) (r : SState) (k : Ref) (x z hdr : Obj) : Prop where
  savable : Savable s
  now : r.sdf.getScan k = .ok (some z)
  fresh : Fresh x
  text : x.raw ∈ texts ∧ isScanText x.raw = true
  done : (interpretScan env reg ⟨x, hdr⟩).2 = none
  labels : ∃ L, z = { (interpretScan env reg ⟨x, hdr⟩).1.scan with L := L }
  same : NotBy x meshMacros → z = (interpretScan env reg ⟨x, hdr⟩).1.scan
  header : HdrLike (s.headerOf x) hdr
  after : HdrLike (s.headerOf x) (r.sdf.headerOf z)
  names : (∀ t ∈ texts, isScanText t = true → ofKind .O (scanLines t) = []) → hdr.O = (s.headerOf x).O

theorem open_raw {env : Env} {reg : List HKey} (hr : reg.Perm HKey.all) {name : Str} {f stat : FileSt} {s : Sdf}
    (h : Sdf.openFile env reg name f stat = .ok s) {texts : List Str} (ht : dissectFile f.node = .ok texts) :
    ∀ p ∈ s.scans, p.2.raw ∈ texts ∧ isScanText p.2.raw = true := by
  obtain ⟨texts', h1, _, h3, _⟩ := open_shape env reg hr name f stat s h
  obtain rfl : texts = texts' := by rw [ht] at h1; simpa using h1
  have hr := fold_raws texts ⟨name, [], [], none⟩
  rw [← h3] at hr
  simp only [shape, List.map_map, List.map_nil, List.nil_append] at hr
  intro p hp
  have : p.2.raw ∈ texts.filter isScanText := by
    rw [← hr]; exact List.mem_map.2 ⟨p, hp, rfl⟩
  exact List.mem_filter.1 this

theorem arrived {env : Env} {reg : List HKey} (hr : reg.Perm HKey.all) (hx : SchemaNames env) {texts : List Str} {s : Sdf}
    {ks : List Ref} {r : SState} (hc : Conversion env reg texts s ks r) {k : Ref} (hm : k ∈ ks) {x : Obj}
    (hk : s.getScan k = .ok (some x)) : ∃ z hdr, Arrived env reg texts s r k x z hdr := by
  obtain ⟨name, f, stat, ho, ht⟩ := hc.opened
  obtain ⟨v, hsv⟩ := hc.saved
  have hs : Savable s := C70_savable env reg hr hx name f stat s ho texts ht hc.plain.noP hc.plain.headers hc.plain.scans
  have hfr := C70_untouched env reg hr name f stat s ho texts ht hc.plain.noP
  have hpl : ∀ k ∈ ks, Plain (p!"S" ++ k.text) := fun k hk' => plain_entry (hc.keys k hk')
  obtain ⟨_, _, hkeys, _, h8⟩ := save_ok hr hx (Savable.ok hs) hpl hsv
  obtain ⟨n, x1, y, z, e, chE, en⟩ := h8 k hm
  have hnow : r.sdf.getScan k = .ok (some z) := by rw [en.key _ rfl, en.now]
  have hn : s.scans.get? n = some x := by
    have := en.key s hkeys.symm
    rw [hk] at this
    injection this with this
    exact this.symm
  have hmem := Dict.mem_of_get? hn
  have hall := save_came hr hx (Savable.ok hs) hpl hsv
  obtain ⟨z', hz', hor⟩ := hall.2.1 n x hn
  rw [en.now] at hz'
  injection hz' with hz'
  subst hz'
  have hzi : z.interpreted = true := by
    obtain ⟨L, hL⟩ := en.z_eq
    rw [hL]; exact en.done
  have hxf := hfr _ hmem
  have hraw := open_raw hr ho ht
  rcases hor with e0 | ⟨hdr, c1, c2, c3, c4⟩
  · rw [e0, fresh_interpreted hxf] at hzi
    cases hzi
  · have hid := interp_ident env reg ⟨x, hdr⟩
    have hz1 : z.hdrIdx = x.hdrIdx := by
      obtain ⟨L, hL⟩ := c3
      rw [hL]
      exact congrArg Ident.hdrIdx hid
    have hz2 : z.scanCmd = x.scanCmd := by
      obtain ⟨L, hL⟩ := c3
      rw [hL]
      exact congrArg Ident.scanCmd hid
    refine ⟨z, hdr, hs, hnow, hxf, hraw _ hmem, c2, c3, fun hnb => c4 (notMesh_of ?_), c1.1, ?_, fun hO => c1.2 ?_⟩
    · intro m hmm
      unfold macroOf
      rw [hz2]
      exact hnb m hmm
    · have := (hall.1 x).1
      unfold Sdf.headerOf at this ⊢
      rw [hz1]
      exact this
    · intro p hp
      exact hO _ (hraw p hp).1 (hraw p hp).2

/-- C90: the numbers on the data lines of a scan are in the NeXus file.  For every scan that was converted and is no
mesh: the labels are those of the text, made different; the rows are the complete lines of the data lines, put together
as #N says; and if the labels of all datasets have different cleaned names, then under the cleaned name of each column
is the dataset with the numbers of this column, in the order of the lines, and for each detector with @A lines the
dataset with the numbers of these lines, in order. -/
theorem C90_data {env : Env} {reg : List HKey} (hr : reg.Perm HKey.all) (hx : SchemaNames env) {texts : List Str} {s : Sdf}
    {ks : List Ref} {r : SState} (hc : Conversion env reg texts s ks r) {k : Ref} (hm : k ∈ ks) {x : Obj}
    (hk : s.getScan k = .ok (some x)) (hn : NotBy x meshMacros) (hl : dataLinesOf (scanLines x.raw) ≠ []) :
    x.raw ∈ texts ∧ ∃ labels names nm lines, StatedLabels (scanLines x.raw) labels ∧ Renamed labels names ∧
      ColumnNumbers (scanLines x.raw) nm ∧ CombinedBy nm (dataLinesOf (scanLines x.raw)) lines ∧
      (p!"_mca_" ∉ names → ((allLabels x.raw names).map cleanName).Nodup →
        (∃ rows, List.Forall₂ NumbersOf (lines.filter (isCompleteRow names.length)) rows ∧
          ∀ i label, names[i]? = some label → ∃ n a, cleanName label = .ok n ∧
            datasetAt r.h5 [entryName k, p!"data", n] = some (.nums ⟨rows.map (fun row => .flt (row.getD i .nan)), [rows.length]⟩, a) ∧
            a.get? p!"spec_name" = some (.str label)) ∧
        (names ≠ [] → ∀ det ∈ (mcaLines x.raw).map mcaName, ∃ n sp width vals a, cleanName (p!"_" ++ det ++ p!"_") = .ok n ∧
          List.Forall₂ SpectrumOf ((mcaLines x.raw).filter (fun l => mcaName l == det)) sp ∧
          datasetAt r.h5 [entryName k, p!"data", n] = some (.nums ⟨vals, [sp.length, width]⟩, a) ∧
          vals.map Num.toFlt = sp.flatten.map Num.toFlt)) := by
  obtain ⟨z, hdr, ar⟩ := arrived hr hx hc hm hk
  obtain ⟨v, hsv⟩ := hc.saved
  have hz := ar.same hn
  refine ⟨ar.text.1, ?_⟩
  obtain ⟨labels, names, nm, lines, h1, h2, h3, h4, h5, h6, h7, h8, h9⟩ :=
    interp_data env reg hr ⟨x, hdr⟩ ar.fresh ar.done hl
  refine ⟨labels, names, nm, lines, h1, h3, h6, h7, fun hmca hnd => ?_⟩
  obtain ⟨rows, sp, a1, a2, a3, a4, a5⟩ := h9 (.inl hmca)
  rw [← hz] at h2 a1
  have hid := interp_ident env reg ⟨x, hdr⟩
  have hz2 : z.scanCmd = x.scanCmd := by rw [hz]; exact congrArg Ident.scanCmd hid
  have hnz : NotBy z meshMacros := by
    intro m hmm
    unfold macroOf
    rw [hz2]
    exact hn m hmm
  have hL : z.L.getD [] = names := by rw [h2]; rfl
  have hmo : (mcaOf z).keys = firstOcc ((mcaLines x.raw).map mcaName) := by
    cases sp with
    | some m =>
      have : mcaOf z = m := by unfold mcaOf; rw [a1.mca m rfl]
      rw [this]
      exact (a5 m rfl).names
    | none =>
      have e1 : mcaLines x.raw = [] := by
        unfold mcaLines
        rw [List.filter_eq_nil_iff]
        intro l hl1 hl2
        have := a4 l hl1 hl2
        cases this
      have e2 : z.data.get? p!"_mca_" = none := by
        rw [Dict.get?_eq_none_iff, a1.keys]
        simpa using hmca
      unfold mcaOf
      rw [e2, e1]
      rfl
  unfold allLabels at hnd
  rw [← hmo, List.map_append, List.nodup_append] at hnd
  obtain ⟨n1, n2, n3⟩ := hnd
  have hkeys : (mcaOf z).keys.Nodup := by rw [hmo]; exact firstOcc_nodup _
  have hdata : names ≠ [] → z.data ≠ [] := by
    intro hne he
    have := a1.keys
    rw [he] at this
    cases names with
    | nil => exact hne rfl
    | cons a as => simp [Dict.keys] at this
  refine ⟨⟨rows, a2, ?_⟩, ?_⟩
  · intro i label hi
    have hmem : label ∈ names := List.mem_of_getElem? hi
    have hown : OwnName z label := by
      refine ⟨fun l hl he => ?_, fun key hkey l hl he => ?_⟩
      · rw [hL] at hl
        exact List.inj_on_of_nodup_map n1 hl hmem he
      · exact n3 _ (List.mem_map.2 ⟨label, hmem, rfl⟩) _
          (List.mem_map.2 ⟨l, List.mem_flatMap.2 ⟨key, hkey, hl⟩, rfl⟩) he.symm
    obtain ⟨n, xs, a, b1, b2, b3, b4⟩ := C41_columns hr hx ar.savable hc.keys hsv hm ar.now hnz
      (hdata (List.ne_nil_of_mem hmem)) (by rw [hL]; exact hmem) hown
    rw [a1.column i label hi] at b2
    injection b2 with b2
    injection b2 with b2
    subst b2
    refine ⟨n, a, b1, ?_, b4⟩
    rw [b3]
    simp
  · intro hne det hdet
    have hown : OwnSpectra z := by
      refine ⟨fun key hkey l hl l' hl' he => ?_, n2, hkeys⟩
      rw [hL] at hl'
      exact n3 _ (List.mem_map.2 ⟨l', hl', rfl⟩) _
        (List.mem_map.2 ⟨l, List.mem_flatMap.2 ⟨key, hkey, hl⟩, rfl⟩) he
    obtain ⟨l, hl1, hl2⟩ := List.mem_map.1 hdet
    obtain ⟨hl3, hl4⟩ := List.mem_filter.1 hl1
    have hso := a4 l hl3 hl4
    cases sp with
    | none => cases hso
    | some m =>
      have hmz : mcaOf z = m := by unfold mcaOf; rw [a1.mca m rfl]
      obtain ⟨spec, s1, s2⟩ := (a5 m rfl).spectra det hdet
      obtain ⟨e1, x1, y1, e, chE, en⟩ := entry_of hr hx ar.savable hc.keys hsv hm ar.now
      have hzx := entry_of_notMesh en hnz
      subst hzx
      obtain ⟨ax0, hops⟩ := spectrum_stored en hnz (hdata hne) hown (key := det) (rows := spec) (by rw [hmz]; exact s1)
      obtain ⟨n, d, a, c1, t1, g1⟩ := hops _ (List.mem_cons_self ..)
      cases spec with
      | nil =>
        cases s2' : (mcaLines x.raw).filter (fun l => mcaName l == det) with
        | nil =>
          rw [List.filter_eq_nil_iff] at s2'
          exact absurd (by rw [hl2]; simp) (s2' l hl1)
        | cons q qs =>
          unfold mcaLines at s2'
          rw [s2'] at s2
          cases s2
      | cons row rest =>
        refine ⟨n, row :: rest, row.length, unify (row :: rest).flatten, a, c1, s2, ?_, unify_toFlt _⟩
        rw [g1]
        simp only [PData.toH] at t1
        split at t1
        · injection t1 with t1
          rw [← t1]
          rfl
        · cases t1

/-- C91: the comments of a scan's text are in its entry, one in each line; without #C lines there is no `comments`. -/
theorem C91_comments {env : Env} {reg : List HKey} (hr : reg.Perm HKey.all) (hx : SchemaNames env) {texts : List Str} {s : Sdf}
    {ks : List Ref} {r : SState} (hc : Conversion env reg texts s ks r) {k : Ref} (hm : k ∈ ks) {x : Obj}
    (hk : s.getScan k = .ok (some x)) {cs : List Str} (hcs : cs = (ofKind .C (scanLines x.raw)).map stripFirstWord) :
    (cs ≠ [] → datasetAt r.h5 [entryName k, p!"comments"] = some (.text [ascii (join p!"\n" cs)], [])) ∧
    (cs = [] → objAt r.h5 [entryName k, p!"comments"] = none) := by
  obtain ⟨z, hdr, ar⟩ := arrived hr hx hc hm hk
  obtain ⟨v, hsv⟩ := hc.saved
  have := C74_comments hr hx ar.savable hc.keys hsv hm ar.now
  have e : z.comments = cs := by
    obtain ⟨L, hL⟩ := ar.labels
    rw [hL, hcs]
    exact C30_comments env reg hr ⟨x, hdr⟩ ar.fresh ar.done
  rwa [e] at this

/-- C91: the #R lines of a scan's text, after those of its header, are the texts of `UserResults` of its entry. -/
theorem C91_results {env : Env} {reg : List HKey} (hr : reg.Perm HKey.all) (hx : SchemaNames env) {texts : List Str} {s : Sdf}
    {ks : List Ref} {r : SState} (hc : Conversion env reg texts s ks r) {k : Ref} (hm : k ∈ ks) {x : Obj}
    (hk : s.getScan k = .ok (some x)) {ls : List Str} (hls : ls = (ofKind .R (scanLines x.raw)).map stripFirstWord) :
    ((s.headerOf x).R = none → ls = [] → objAt r.h5 [entryName k, p!"UserResults"] = none) ∧
    ((s.headerOf x).R ≠ none ∨ ls ≠ [] → Noted r.h5 (entryName k) p!"UserResults"
      p!"SPEC control line \"#R: Reserved for user results\"" p!"R" ((s.headerOf x).R.getD []) ls) := by
  obtain ⟨z, hdr, ar⟩ := arrived hr hx hc hm hk
  obtain ⟨v, hsv⟩ := hc.saved
  have := C44_results hr hx ar.savable hc.keys hsv hm ar.now
  have eh : (r.sdf.headerOf z).R = (s.headerOf x).R := by obtain ⟨O, d, e, e1⟩ := ar.after; rw [e1]
  have e : z.R = if ofKind .R (scanLines x.raw) = [] then none else some ls := by
    obtain ⟨L, hL⟩ := ar.labels
    rw [hL, hls]
    exact C30_R env reg hr ⟨x, hdr⟩ ar.fresh ar.done
  rw [eh, e] at this
  by_cases h0 : ofKind .R (scanLines x.raw) = []
  · have h1 : ls = [] := by rw [hls, h0]; rfl
    rw [if_pos h0] at this
    rw [h1]
    exact ⟨fun a _ => this.1 a rfl, fun h => this.2 (h.imp id (fun h => absurd rfl h))⟩
  · have h1 : ls ≠ [] := by rw [hls]; simpa using h0
    rw [if_neg h0] at this
    exact ⟨fun _ b => absurd b h1, fun _ => this.2 (.inr (by simp))⟩

/-- C91: the #U lines of a scan's text, after those of its header, are the texts of `UserReserved` of its entry. -/
theorem C91_reserved {env : Env} {reg : List HKey} (hr : reg.Perm HKey.all) (hx : SchemaNames env) {texts : List Str} {s : Sdf}
    {ks : List Ref} {r : SState} (hc : Conversion env reg texts s ks r) {k : Ref} (hm : k ∈ ks) {x : Obj}
    (hk : s.getScan k = .ok (some x)) {ls : List Str} (hls : ls = (ofKind .U (scanLines x.raw)).map stripFirstWord) :
    ((s.headerOf x).U = none → ls = [] → objAt r.h5 [entryName k, p!"UserReserved"] = none) ∧
    ((s.headerOf x).U ≠ none ∨ ls ≠ [] → Noted r.h5 (entryName k) p!"UserReserved"
      p!"SPEC control line \"#U: Reserved for user\"" p!"U" ((s.headerOf x).U.getD []) ls) := by
  obtain ⟨z, hdr, ar⟩ := arrived hr hx hc hm hk
  obtain ⟨v, hsv⟩ := hc.saved
  have := C44_reserved hr hx ar.savable hc.keys hsv hm ar.now
  have eh : (r.sdf.headerOf z).U = (s.headerOf x).U := by obtain ⟨O, d, e, e1⟩ := ar.after; rw [e1]
  have e : z.U = if ofKind .U (scanLines x.raw) = [] then none else some ls := by
    obtain ⟨L, hL⟩ := ar.labels
    rw [hL, hls]
    exact C30_U env reg hr ⟨x, hdr⟩ ar.fresh ar.done
  rw [eh, e] at this
  by_cases h0 : ofKind .U (scanLines x.raw) = []
  · have h1 : ls = [] := by rw [hls, h0]; rfl
    rw [if_pos h0] at this
    rw [h1]
    exact ⟨fun a _ => this.1 a rfl, fun h => this.2 (h.imp id (fun h => absurd rfl h))⟩
  · have h1 : ls ≠ [] := by rw [hls]; simpa using h0
    rw [if_neg h0] at this
    exact ⟨fun _ b => absurd b h1, fun _ => this.2 (.inr (by simp))⟩

/-- C91: the lines of a scan's text that nothing recognizes are in a group of its entry, word for word, after the group
of those of its header. -/
theorem C91_unrecognized {env : Env} {reg : List HKey} (hr : reg.Perm HKey.all) (hx : SchemaNames env) {texts : List Str} {s : Sdf}
    {ks : List Ref} {r : SState} (hc : Conversion env reg texts s ks r) {k : Ref} (hm : k ∈ ks) {x : Obj}
    (hk : s.getScan k = .ok (some x)) {ls : List Str}
    (hls : ls = (scanLines x.raw).filter (fun l => isUnknown l || isKind .unrec l)) :
    (ls ≠ [] → UnrecAt r.h5 (entryName k) ((s.headerOf x).unrecognized.toList.length + 1) ls) ∧
    (ls = [] → objAt r.h5 [entryName k, p!"unrecognized_" ++ natStr ((s.headerOf x).unrecognized.toList.length + 1)] = none) := by
  obtain ⟨z, hdr, ar⟩ := arrived hr hx hc hm hk
  obtain ⟨v, hsv⟩ := hc.saved
  obtain ⟨h1, h2⟩ := C44_unrecognized hr hx ar.savable hc.keys hsv hm ar.now
  have eh : (r.sdf.headerOf z).unrecognized = (s.headerOf x).unrecognized := by obtain ⟨O, d, e, e1⟩ := ar.after; rw [e1]
  have e : z.unrecognized = if ls = [] then none else some ls := by
    obtain ⟨L, hL⟩ := ar.labels
    rw [hL, hls]
    exact C17_unrecognized env reg hr ⟨x, hdr⟩ ar.fresh ar.done
  rw [eh, e] at h1 h2
  refine ⟨fun hne => h1 _ _ ?_, fun he => h2 _ (.inr ?_)⟩
  · rw [if_neg hne]; simp
  · rw [if_pos he]; simp

/-- C91: the numbers of the last #Q line of a scan's text that has any are `Q` of its entry. -/
theorem C91_hkl {env : Env} {reg : List HKey} (hr : reg.Perm HKey.all) (hx : SchemaNames env) {texts : List Str} {s : Sdf}
    {ks : List Ref} {r : SState} (hc : Conversion env reg texts s ks r) {k : Ref} (hm : k ∈ ks) {x : Obj}
    (hk : s.getScan k = .ok (some x)) {pre post : List Str} {l : Str} (hl : ofKind .Q (scanLines x.raw) = pre ++ l :: post)
    (h1 : stripFirstWord l ≠ []) (h2 : ∀ y ∈ post, stripFirstWord y = []) :
    ∃ q, NumbersOf (stripFirstWord l) q ∧ datasetAt r.h5 [entryName k, p!"Q"] = some (.nums ⟨q.map .flt, [q.length]⟩,
        [(p!"description", .str p!"hkl at start of scan")]) := by
  obtain ⟨z, hdr, ar⟩ := arrived hr hx hc hm hk
  obtain ⟨v, hsv⟩ := hc.saved
  obtain ⟨g, _⟩ := C74_hkl hr hx ar.savable hc.keys hsv hm ar.now
  obtain ⟨q, q1, q2⟩ := (C67_Q env reg hr ⟨x, hdr⟩ ar.fresh ar.done).1 pre l post hl h1 h2
  refine ⟨q, q2, g q (.inl ?_)⟩
  obtain ⟨L, hL⟩ := ar.labels
  rw [hL]
  exact q1

/-- C91: the value of the last #M line of a scan's text is `M` of its entry, and its monitor. -/
theorem C91_monitor {env : Env} {reg : List HKey} (hr : reg.Perm HKey.all) (hx : SchemaNames env) {texts : List Str} {s : Sdf}
    {ks : List Ref} {r : SState} (hc : Conversion env reg texts s ks r) {k : Ref} (hm : k ∈ ks) {x : Obj}
    (hk : s.getScan k = .ok (some x)) {l : Str} (hl : (ofKind .M (scanLines x.raw)).getLast? = some l) (h0 : tmValue l ≠ []) :
    PresetAt r.h5 (entryName k) p!"M" p!"counts" p!"SPEC scan with constant monitor count" (tmValue l) true ∧
    MonitorAt r.h5 (entryName k) p!"M" := by
  obtain ⟨z, hdr, ar⟩ := arrived hr hx hc hm hk
  obtain ⟨v, hsv⟩ := hc.saved
  have e : z.M = some (tmValue l) := by
    obtain ⟨L, hL⟩ := ar.labels
    rw [hL]
    exact (C28_M_last env reg hr ⟨x, hdr⟩ ar.fresh ar.done l hl).1
  obtain ⟨_, g1, _, _, _, g2, _⟩ := C76_preset hr hx ar.savable hc.keys hsv hm ar.now (M := tmValue l)
    (by unfold ownOr; rw [e]; simp [h0]) rfl
  exact ⟨g1 h0, g2 h0⟩

/-- C91: the value of the last #T line of a scan's text is `T` of its entry. -/
theorem C91_time {env : Env} {reg : List HKey} (hr : reg.Perm HKey.all) (hx : SchemaNames env) {texts : List Str} {s : Sdf}
    {ks : List Ref} {r : SState} (hc : Conversion env reg texts s ks r) {k : Ref} (hm : k ∈ ks) {x : Obj}
    (hk : s.getScan k = .ok (some x)) {l : Str} (hl : (ofKind .T (scanLines x.raw)).getLast? = some l) (h0 : tmValue l ≠ []) :
    ∃ v a, Py.float (tmValue l) = .ok v ∧ datasetAt r.h5 [entryName k, p!"T"] = some (.nums ⟨[.flt v], [1]⟩, a) ∧
      a.get? p!"units" = some (.str p!"s") := by
  obtain ⟨z, hdr, ar⟩ := arrived hr hx hc hm hk
  obtain ⟨v, hsv⟩ := hc.saved
  have e : z.T = some (tmValue l) := by
    obtain ⟨L, hL⟩ := ar.labels
    rw [hL]
    exact (C28_T_last env reg hr ⟨x, hdr⟩ ar.fresh ar.done l hl).1
  obtain ⟨_, _, _, g1, _⟩ := C76_preset hr hx ar.savable hc.keys hsv hm ar.now (T := tmValue l)
    rfl (by unfold ownOr; rw [e]; simp [h0])
  obtain ⟨v, g2, g3⟩ := g1 h0
  exact ⟨v, _, g2, g3, rfl⟩

/-- C91: the numbers of the #P lines of a scan's text are the positioners of its entry, each under the name at the same
place of the #O lines that the header had when the file was opened; provided that no scan of the file has #O lines. -/
theorem C91_positions {env : Env} {reg : List HKey} (hr : reg.Perm HKey.all) (hx : SchemaNames env) {texts : List Str} {s : Sdf}
    {ks : List Ref} {r : SState} (hc : Conversion env reg texts s ks r) {k : Ref} (hm : k ∈ ks) {x : Obj}
    (hk : s.getScan k = .ok (some x)) (hO : ∀ t ∈ texts, isScanText t = true → ofKind .O (scanLines t) = [])
    {pairs : List (Str × Str)} (hp : pairs = pairTables ((s.headerOf x).O.getD [])
      ((ofKind .P (scanLines x.raw)).map (fun l => splitWs (stripFirstWord l)))) (h0 : pairs ≠ []) :
    ∃ ps d, List.Forall₂ (fun (p : Str × Str) (q : Str × PyFloat) => p.1 = q.1 ∧ parseFloat p.2 = some q.2) pairs ps ∧
      LastWins d ps ∧ PositionersAt r.h5 (entryName k) (s.headerOf x).positionerXref d := by
  obtain ⟨z, hdr, ar⟩ := arrived hr hx hc hm hk
  obtain ⟨v, hsv⟩ := hc.saved
  obtain ⟨_, ⟨ps, p1, p2⟩, _⟩ := C26_positioners env reg hr ⟨x, hdr⟩ ar.fresh ar.done
  have eO : (interpretScan env reg ⟨x, hdr⟩).1.hdr.O = (s.headerOf x).O := by
    rw [interp_keepO env hr ⟨x, hdr⟩ (.inr (hO _ ar.text.1 ar.text.2))]
    exact ar.names hO
  rw [eO, ← hp] at p1
  have ez : z.positioner = (interpretScan env reg ⟨x, hdr⟩).1.scan.positioner := by
    obtain ⟨L, hL⟩ := ar.labels
    rw [hL]
  have eh : (r.sdf.headerOf z).positionerXref = (s.headerOf x).positionerXref := by
    obtain ⟨O, d, e, e1⟩ := ar.after; rw [e1]
  obtain ⟨c1, c2, _⟩ := C79_positioners hr hx ar.savable hc.keys hsv hm ar.now rfl rfl
  have hne : z.positioner ≠ [] := by
    intro he
    have := p2.order
    rw [← ez, he] at this
    cases pairs with
    | nil => exact h0 rfl
    | cons p rest =>
      obtain ⟨q, qs, _, _, rfl⟩ := List.forall₂_cons_left_iff.1 p1
      · rw [List.map_cons] at this
        have hmem : q.1 ∈ firstOcc (q.1 :: qs.map (·.1)) := by
          rw [firstOcc_mem]; simp
        rw [← this] at hmem
        cases hmem
  have h3 := c1.resolve_right hne
  have h4 := c2 (by rw [h3]; exact hne)
  rw [h3, List.nil_append, eh] at h4
  refine ⟨ps, z.positioner, ?_, by rw [ez]; exact p2, h4⟩
  refine p1.imp ?_
  rintro a b ⟨e1, e2⟩
  refine ⟨e1, ?_⟩
  unfold Py.float at e2
  split at e2
  · next f hf => rw [hf]; injection e2 with e2; rw [e2]
  · cases e2

end
end S2N.Props
