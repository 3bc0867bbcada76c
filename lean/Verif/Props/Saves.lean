import Verif.Lemmas.Saves
import Verif.Props.Total
/-
C95: a well-formed file can be converted.
-/
namespace S2N.Props
open S2N S2N.Py S2N.Spec S2N.Writer

section
variable [UniDB] (env : Env) (reg : List HKey) (hr : reg.Perm HKey.all)

/-- what is known of a header while scans are saved -/
structure HeadInv (h : Obj) : Prop where
  told : HeaderSays h
  time : HdrTime env h
  ok : HeadOK h
  saves : HeaderSaves env h.raw

/-- what is known of a scan with its header: it was not interpreted, and its text is well formed; or it is ready to be saved -/
def ScanInv (hdr x : Obj) : Prop :=
  (Calm x ∧ (∃ tm, strptimeSpec x.date = some tm) ∧ (∀ e, x.epoch = some e → TimeFits env e) ∧ ScanTextFits env hdr.raw x.raw ∧ ScanSaves env hdr.raw x) ∨
  (x.interpreted = true ∧ CanSave hdr x)

/-- what is known of a file while its scans are saved: of the scans of the names `A`, and `M` are the names of the meshes -/
structure SaveInv (M A : Str → Prop) (s : Sdf) : Prop where
  hdrs : ∀ h ∈ s.headers, HeadInv env h
  scans : ∀ p ∈ s.scans, A p.1 → ScanInv env (s.headerOf p.2) p.2
  mesh : ∀ p ∈ s.scans, ¬ M p.1 → NotBy p.2 meshMacros
  named : ∀ p ∈ s.scans, p.2.scanNum = p.1

theorem headInv_new (name : Str) : HeadInv env (Obj.newHeader name []) := by
  refine ⟨newHeader_says _, .inl rfl, HeadOK.new _ _, ?_⟩
  refine ⟨?_, ?_, ?_, ?_, ?_⟩
  · intro l hl; cases hl
  · intro l hl; cases hl
  · intro l hl; cases hl
  · intro h; exact absurd rfl h
  · intro _ h; exact absurd rfl h

theorem SaveInv.header {M A : Str → Prop} {s : Sdf} (h : SaveInv env M A s) (x : Obj) : HeadInv env (s.headerOf x) := by
  unfold Sdf.headerOf
  rw [List.getD_eq_getElem?_getD]
  cases hi : s.headers[x.hdrIdx]? with
  | none => exact headInv_new env _
  | some y => exact h.hdrs y (List.mem_of_getElem? hi)

theorem canSave_like {a b x : Obj} (hl : HdrLike a b) (hb : HeadOK b) (h : CanSave a x) : CanSave b x := by
  have hx : ∀ f, CanWrite a x f → CanWrite b x f := by
    obtain ⟨O, d, e, rfl⟩ := hl
    intro f hf
    cases f <;> exact hf
  have h5 : b.h5 = a.h5 := by obtain ⟨O, d, e, rfl⟩ := hl; rfl
  refine ⟨h.number, hb.writes _, fun f hf => hx f (h.scan f hf), ?_, ?_⟩
  · rw [h5]; exact h.apart
  · rw [h5]; exact h.sample

include hr in
/-- one scan: it is interpreted, ready to be saved, and the file is as before; if it is a mesh, its labels may be changed, and
nothing more is known of it -/
theorem saveInv_step (hc : ClockReads env) {M A : Str → Prop} {s : Sdf} (h : SaveInv env M A s) {n : Str} {x0 : Obj} (hm : (n, x0) ∈ s.scans) (ha : A n) :
    ∃ x hdr, interpretScan env reg ⟨x0, s.headerOf x0⟩ = (⟨x, hdr⟩, none) ∧ CanSave hdr x ∧
      ∀ (B : Str → Prop) L, (∀ m, B m → A m) → (B n → ¬ M n) → (NotBy x meshMacros → L = x.L) →
        SaveInv env M B (s.putScan x0.scanNum ⟨{ x with L := L }, hdr⟩) := by
  have hh := h.header env x0
  have main : ∃ x hdr, interpretScan env reg ⟨x0, s.headerOf x0⟩ = (⟨x, hdr⟩, none) ∧ CanSave hdr x ∧ x.interpreted = true ∧ HeadInv env hdr := by
    rcases h.scans _ hm ha with ⟨f1, f2, f3, f4, f5⟩ | ⟨i1, i2⟩
    · have f1 : Calm x0 := f1
      have hfit := fits_of_text env hh.told hh.time f3 f4
      have hok := C92_interprets env reg hr (c := ⟨x0, s.headerOf x0⟩) hfit f1.1
      have hcs := canSave_scan env reg hr hc (c := ⟨x0, s.headerOf x0⟩) f1 f2 hh.told hh.ok hh.time hfit hh.saves f5
      obtain ⟨q1, q2, q3⟩ := interp_hdr_says env reg hr (c := ⟨x0, s.headerOf x0⟩) hh.told hh.time f1.1 hfit
      refine ⟨_, _, Prod.ext rfl hok, hcs, interp_interpreted hok, ⟨q1, q2, hh.ok.like (interp_hdrLike env reg ⟨x0, s.headerOf x0⟩), ?_⟩⟩
      rw [q3]; exact hh.saves
    · exact ⟨x0, s.headerOf x0, interp_done i1, i2, i1, hh⟩
  obtain ⟨x, hdr, e1, e2, e4, e5⟩ := main
  refine ⟨x, hdr, e1, e2, ?_⟩
  intro B L hBA hBM hL
  have hid := interp_ident env reg ⟨x0, s.headerOf x0⟩
  have hlike := interp_hdrLike env reg ⟨x0, s.headerOf x0⟩
  rw [e1] at hid hlike
  have hlike : HdrLike (s.headerOf x0) hdr := hlike
  have hnum : x.scanNum = x0.scanNum := congrArg Ident.scanNum hid
  have hidx : x.hdrIdx = x0.hdrIdx := congrArg Ident.hdrIdx hid
  have hcmd : x.scanCmd = x0.scanCmd := congrArg Ident.scanCmd hid
  have hraw : ∀ {a b : Obj}, HdrLike a b → b.raw = a.raw := by
    rintro a b ⟨O, d, e, rfl⟩; rfl
  have hhdr : ∀ y : Obj, HdrLike (s.headerOf y) ((s.putScan x0.scanNum ⟨{ x with L := L }, hdr⟩).headerOf y) ∧
      (y.hdrIdx = x0.hdrIdx → y.hdrIdx < s.headers.length → (s.putScan x0.scanNum ⟨{ x with L := L }, hdr⟩).headerOf y = hdr) := by
    intro y
    unfold Sdf.headerOf Sdf.putScan
    simp only [List.getD_eq_getElem?_getD, hidx]
    constructor
    · by_cases hi : x0.hdrIdx = y.hdrIdx
      · by_cases hlt : y.hdrIdx < s.headers.length
        · rw [List.getElem?_set, if_pos hi, if_pos (by omega), Option.getD_some]
          have : s.headers[y.hdrIdx]?.getD (Obj.newHeader s.fileName []) = s.headerOf x0 := by
            unfold Sdf.headerOf
            rw [List.getD_eq_getElem?_getD, hi]
          rw [this]; exact hlike
        · rw [List.set_eq_of_length_le (by omega)]; exact HdrLike.refl _
      · rw [List.getElem?_set, if_neg hi]; exact HdrLike.refl _
    · intro hi hlt
      rw [List.getElem?_set, if_pos hi.symm, if_pos (by omega)]; rfl
  have hinv : ∀ z ∈ (s.putScan x0.scanNum ⟨{ x with L := L }, hdr⟩).headers, HeadInv env z := by
    intro z hz
    rcases List.mem_or_eq_of_mem_set hz with hz | rfl
    · exact h.hdrs z hz
    · exact e5
  have hof : ∀ y : Obj, HeadOK ((s.putScan x0.scanNum ⟨{ x with L := L }, hdr⟩).headerOf y) := by
    intro y
    exact (h.header env y).ok.like (hhdr y).1
  have hnn : x0.scanNum = n := h.named _ hm
  have hnb : ∀ L', NotBy { x with L := L' } meshMacros ↔ NotBy x0 meshMacros := by
    intro L'
    unfold NotBy macroOf
    rw [hcmd]
  refine ⟨hinv, ?_, ?_, ?_⟩
  · intro p hp hB
    rcases Dict.mem_set hp with hp | hp
    · subst hp
      rw [hnn] at hB
      have hx : NotBy x meshMacros := (hnb x.L).2 (h.mesh _ hm (hBM hB))
      have hL := hL hx
      subst hL
      refine .inr ⟨e4, ?_⟩
      have hl2 : HdrLike hdr ((s.putScan x0.scanNum ⟨x, hdr⟩).headerOf x) := by
        have h1 := (hhdr x).1
        have h2 : s.headerOf x = s.headerOf x0 := by unfold Sdf.headerOf; rw [hidx]
        rw [h2] at h1
        exact hlike.symm.trans h1
      exact canSave_like hl2 (hof x) e2
    · have hl2 := (hhdr p.2).1
      rcases h.scans p hp (hBA _ hB) with ⟨f1, f2, f3, f4, f5⟩ | ⟨i1, i2⟩
      · refine .inl ⟨f1, f2, f3, ?_, ?_⟩
        · rw [hraw hl2]; exact f4
        · rw [hraw hl2]; exact f5
      · exact .inr ⟨i1, canSave_like hl2 (hof _) i2⟩
  · intro p hp hM
    rcases Dict.mem_set hp with hp | hp
    · subst hp
      rw [hnn] at hM
      exact (hnb L).2 (h.mesh _ hm hM)
    · exact h.mesh p hp hM
  · intro p hp
    rcases Dict.mem_set hp with hp | hp
    · rw [hp]; exact hnum
    · exact h.named p hp

include hr in
theorem canSaveAll_of_inv (hc : ClockReads env) {M : Str → Prop} : ∀ (ks : List Ref) (ns : List Str) {s : Sdf}, SaveInv env M (fun n => ¬ M n ∨ n ∈ ns) s →
    List.Forall₂ (fun k n => (∃ x, s.scans.get? n = some x) ∧ ∀ s' : Sdf, s'.scans.keys = s.scans.keys → s'.getScan k = .ok (s'.scans.get? n)) ks ns →
    ns.Pairwise (fun a b => a = b → ¬ M a) → CanSaveAll env reg ks s
  | _, _, _, _, .nil, _ => trivial
  | k :: ks, n :: ns, s, h, .cons ⟨⟨x0, hn⟩, hall⟩ hk, hp => by
    have hx0 : s.getScan k = .ok (some x0) := by rw [hall s rfl, hn]
    have hm := Dict.mem_of_get? hn
    obtain ⟨hp1, hp2⟩ := List.pairwise_cons.1 hp
    obtain ⟨x, hdr, e1, e2, e4⟩ := saveInv_step env reg hr hc h hm (.inr (by simp))
    refine ⟨x0, x, hdr, hx0, e1, e2, ?_⟩
    intro L hL
    refine canSaveAll_of_inv hc ks ns (s := s.putScan x0.scanNum ⟨{ x with L := L }, hdr⟩) (e4 _ L ?_ ?_ hL) ?_ hp2
    · rintro m (hm | hm)
      · exact .inl hm
      · exact .inr (by simp [hm])
    · rintro (hm | hm)
      · exact hm
      · exact hp1 n hm rfl
    have hname : x0.scanNum = n := h.named _ hm
    have hkeys : (s.putScan x0.scanNum ⟨{ x with L := L }, hdr⟩).scans.keys = s.scans.keys := by
      show (s.scans.set x0.scanNum _).keys = _
      rw [Dict.keys_set, if_pos]
      rw [hname]
      exact List.mem_map.2 ⟨_, hm, rfl⟩
    refine hk.imp ?_
    rintro k' n' ⟨⟨y, hn'⟩, hall'⟩
    refine ⟨?_, fun s' hs' => hall' s' (hs'.trans hkeys)⟩
    show ∃ z, (s.scans.set x0.scanNum _).get? n' = some z
    by_cases he : x0.scanNum = n'
    · rw [he, Dict.get?_set_self]; exact ⟨_, rfl⟩
    · rw [Dict.get?_set_ne _ _ he, hn']; exact ⟨_, rfl⟩

/-- the names of the scans the keys denote -/
theorem names_of_keys {s : Sdf} : ∀ (ks : List Ref), (∀ k ∈ ks, ∃ x, s.getScan k = .ok (some x)) →
    ∃ ns : List Str, List.Forall₂ (fun k n => (∃ x, s.scans.get? n = some x) ∧ ∀ s' : Sdf, s'.scans.keys = s.scans.keys → s'.getScan k = .ok (s'.scans.get? n)) ks ns
  | [], _ => ⟨[], .nil⟩
  | k :: ks, h => by
    obtain ⟨x, hx⟩ := h k (by simp)
    obtain ⟨n, h1, h2⟩ := _root_.S2N.getScan_name hx
    obtain ⟨ns, h3⟩ := names_of_keys ks (fun k' hk' => h k' (by simp [hk']))
    exact ⟨n :: ns, .cons ⟨⟨x, h1⟩, h2⟩ h3⟩

theorem names_pairwise {s : Sdf} {M : Str → Prop} (hM : ∀ n x, s.scans.get? n = some x → NotBy x meshMacros → ¬ M n) : ∀ {ks : List Ref} {ns : List Str},
    List.Forall₂ (fun k n => (∃ x, s.scans.get? n = some x) ∧ ∀ s' : Sdf, s'.scans.keys = s.scans.keys → s'.getScan k = .ok (s'.scans.get? n)) ks ns →
    ks.Pairwise (fun k k' => ∀ x, s.getScan k = .ok (some x) → s.getScan k' = .ok (some x) → NotBy x meshMacros) →
    ns.Pairwise (fun a b => a = b → ¬ M a)
  | _, _, .nil, _ => .nil
  | _, _, .cons (a := k) (b := n) (l₁ := ks) (l₂ := ns) ⟨⟨x, h1⟩, h2⟩ h3, hp => by
    obtain ⟨hp1, hp2⟩ := List.pairwise_cons.1 hp
    refine List.pairwise_cons.2 ⟨?_, names_pairwise hM h3 hp2⟩
    rintro n' hn' rfl
    obtain ⟨i, hi, e⟩ := List.getElem_of_mem hn'
    have hi' : i < ks.length := by rw [h3.length_eq]; exact hi
    obtain ⟨-, h4⟩ := h3.get hi' hi
    have e' : ns.get ⟨i, hi⟩ = n := e
    rw [e'] at h4
    refine hM n x h1 (hp1 _ (List.getElem_mem hi') x ?_ ?_)
    · rw [h2 s rfl, h1]
    · exact (h4 s rfl).trans (by rw [h1])

/-- the texts of headers are sections of the file -/
theorem header_raws (texts : List Str) : ∀ (all : List Str) (sh : Shape), (∀ t ∈ texts, t ∈ all) → (∀ h ∈ sh.headers, h.raw = [] ∨ (h.raw ∈ all ∧ isHeaderText h.raw = true)) →
    ∀ h ∈ (texts.foldl absStep sh).headers, h.raw = [] ∨ (h.raw ∈ all ∧ isHeaderText h.raw = true) := by
  induction texts with
  | nil => intro all sh _ h; exact h
  | cons t ts ih =>
    intro all sh hsub h
    rw [List.foldl_cons]
    refine ih all _ (fun u hu => hsub u (by simp [hu])) ?_
    intro y hy
    unfold absStep at hy
    split at hy
    · next ht =>
      split at hy
      · exact h y hy
      · rcases List.mem_append.1 hy with hy | hy
        · exact h y hy
        · rw [List.mem_singleton.1 hy]
          exact .inr ⟨hsub t (by simp), ht⟩
    · split at hy
      · simp only at hy
        split at hy
        · rw [List.mem_singleton.1 hy]; exact .inl rfl
        · exact h y hy
      · exact h y hy

omit [UniDB] in
theorem finish_file (stat : FileSt) (s1 s : Sdf) (h : Sdf.finish stat s1 = (s, none)) : s.specFile ≠ none := by
  unfold Sdf.finish at h
  have hg : ∀ sf, Sdf.getLastScanNumber { s1 with specFile := sf } = s1.getLastScanNumber := fun _ => rfl
  simp only [hg] at h
  cases hl : s1.getLastScanNumber with
  | error e => rw [hl] at h; simp [Res.raise] at h
  | ok r =>
    rw [hl] at h
    simp only [Res.eval_ok] at h
    split at h
    · simp [Res.raise] at h
    · simp only [Res.ok, Prod.mk.injEq, and_true] at h
      rw [← h]; simp

theorem headed_of_first {s1 s : Sdf} (h : FileInv env s1) (e1 : s.scans = s1.scans) (e2 : s.headers = s1.headers) (hn : s.specFile ≠ none)
    (hf : FirstDated s) : Headed s := by
  obtain ⟨x, h1, h2⟩ := hf
  have hx : (∃ tm, strptimeSpec x.date = some tm) ∧ ∃ e, x.epoch = some e := by
    rcases h2 with h2 | ⟨p, hp, h2⟩
    · rcases h.dated x (by rw [← e2]; exact List.mem_of_head? h1) with hd | hd
      · exact absurd hd.2 h2
      · exact hd
    · rw [e1] at hp
      obtain ⟨y, tm, b1, b2, b3⟩ := h.below p hp
      unfold Sdf.headerOf at h2
      rw [e2, List.getD_eq_getElem?_getD, b1] at h2
      rw [← h2]
      exact ⟨⟨tm, b2⟩, b3⟩
  obtain ⟨⟨tm, htm⟩, e3, h3⟩ := hx
  obtain ⟨hs, e⟩ : ∃ hs, s.headers = x :: hs := by
    cases hh : s.headers with
    | nil => rw [hh] at h1; cases h1
    | cons a as => rw [hh] at h1; cases h1; exact ⟨as, rfl⟩
  refine ⟨hn, x, hs, e, ?_, ?_⟩
  · rw [h3]; simp
  · unfold DatedText iso8601
    rw [htm]; exact ⟨_, rfl⟩

include hr in
/-- **C95.**  A file was opened whose sections are well formed (as C93 asks); its headers and scans are as `HeaderSaves`, `ScanTextFits` and `ScanSaves`
say, and its first header has a date, or a scan below it.  Then any scans of it can be converted to an HDF5 file, in one call of
`Writer.save`, as long as they are found, by plain keys which give different names of entries, and no mesh is asked for twice: nothing raises, and the result is a conversion in the sense of C90 and C91, which say what is in it. -/
theorem C95_converts (hx : SchemaNames env) (v : Versions) (name : Str) (f stat : FileSt) (t : Str) (hc : ClockReads env) (hf : f.node = .file (some t))
    (hfit : ∀ texts, SectionsOf (fileLines t) texts → FileFits env texts ∧ ∀ u ∈ texts, isHeaderText u = true → HeaderSaves env u)
    {s : Sdf} (ho : Sdf.openFile env reg name f stat = .ok s) (hh : FirstDated s)
    (hs : ∀ p ∈ s.scans, ScanTextFits env (s.headerOf p.2).raw p.2.raw ∧ ScanSaves env (s.headerOf p.2).raw p.2)
    (ks : List Ref) (hk : ∀ k ∈ ks, ∃ x, s.getScan k = .ok (some x)) (hp : ∀ k ∈ ks, PlainText k.text) (hd : (ks.map entryName).Nodup)
    (hm : ks.Pairwise (fun k k' => ∀ x, s.getScan k = .ok (some x) → s.getScan k' = .ok (some x) → NotBy x meshMacros)) :
    ∃ r, save env reg v ks s = (r, none) ∧ ∃ texts, Conversion env reg texts s ks r := by
  obtain ⟨texts, s1, h1, h2, h3, h4⟩ := open_ok env reg hr name f stat s ho
  have hst := sections_text f.node texts h1
  have hdis := h1
  rw [hf] at h1
  have hsec := (C01_partition t texts h1).2
  obtain ⟨hfits, hsav⟩ := hfit texts hsec
  obtain ⟨q1, q2⟩ := blocks_total env reg hr hc hst hfits (s := { fileName := name }) ⟨rfl, by simp, by simp, by simp, by simp⟩
  rw [h2] at q2
  have q2 : FileInv env s1 := q2
  obtain ⟨e1, e2, e3, -⟩ := finish_ok stat s1 s h4
  have hh : Headed s := headed_of_first env q2 e1 e2 (finish_file stat s1 s h4) hh
  have hP : ∀ u ∈ texts, isHeaderText u = true → ∀ l ∈ splitlines u, hKind .P l = false :=
    fun u hu hk l hl => (hfits.headers u hu hk).kinds l hl .P (by decide)
  have hQ : Lasting HeadOK := ⟨fun n => HeadOK.new n [], fun x d e h => h.like ⟨x.O, d, e, rfl⟩⟩
  have hcalm := calm_open env reg hr hQ name f stat s ho texts hdis hP (by
    intro u hu hk c e hok hfr hok2
    subst e
    exact head_ok env reg hr hx hfr hok hok2 (hfits.headers _ hu hk) (hsav _ hu hk))
  have hraws : ∀ h ∈ s.headers, h.raw = [] ∨ (h.raw ∈ texts ∧ isHeaderText h.raw = true) := by
    obtain ⟨texts', g1, g2, -, -⟩ := open_shape env reg hr name f stat s ho
    obtain rfl : texts = texts' := by rw [hdis] at g1; simpa using g1
    intro h hm
    have := header_raws texts texts ⟨name, [], [], none⟩ (fun _ h => h) (by simp)
    rw [← g2] at this
    exact this h.ident (List.mem_map.2 ⟨h, hm, rfl⟩)
  have hwn := open_wellNamed env reg hr name f stat s ho
  obtain ⟨ns, hns⟩ := names_of_keys ks hk
  let M : Str → Prop := fun n => ∃ x, s.scans.get? n = some x ∧ ¬ NotBy x meshMacros
  have inv : SaveInv env M (fun n => ¬ M n ∨ n ∈ ns) s := by
    refine ⟨?_, ?_, ?_, hwn.named⟩
    · intro h hm
      have hm' := hm
      rw [e2] at hm'
      obtain ⟨a, b⟩ := q2.hdrs h hm'
      refine ⟨a, b, hcalm.headers h hm, ?_⟩
      rcases hraws h hm with hr0 | ⟨hr1, hr2⟩
      · rw [hr0]; exact (headInv_new env []).saves
      · exact hsav _ hr1 hr2
    · intro p hp _
      have hp' := hp
      rw [e1] at hp'
      obtain ⟨a, b, c⟩ := q2.scans p hp'
      obtain ⟨d1, d2⟩ := hs p hp
      exact .inl ⟨hcalm.scans p hp, b, c, d1, d2⟩
    · intro p hp hM
      refine Classical.byContradiction fun hn => hM ⟨p.2, ?_, hn⟩
      exact (Dict.mem_iff_get? s.scans hwn.nodup p.1 p.2).1 hp
  have hph : ∀ u ∈ texts, isHeaderText u = true → ∀ l ∈ splitlines u, hKind .j l = true ∨ hKind .o l = true →
      ∀ w ∈ splitWs (stripFirstWord l), Relative w :=
    fun u hu hk l hl hj w hw => relative_noSlash (((hsav u hu hk).lines l hl).names hj w hw)
  have hps : ∀ u ∈ texts, isScanText u = true → ∀ l ∈ scanLines u, isKind .j l = true ∨ isKind .o l = true →
      ∀ w ∈ splitWs (stripFirstWord l), Relative w := by
    obtain ⟨texts', g1, -, g3, -⟩ := open_shape env reg hr name f stat s ho
    obtain rfl : texts = texts' := by rw [hdis] at g1; simpa using g1
    have hraw := fold_raws texts ⟨name, [], [], none⟩
    rw [← g3] at hraw
    simp only [shape, List.map_map, List.map_nil, List.nil_append] at hraw
    intro u hu hk l hl hj w hw
    have : u ∈ texts.filter isScanText := List.mem_filter.2 ⟨hu, hk⟩
    rw [← hraw] at this
    obtain ⟨p, hp, rfl⟩ := List.mem_map.1 this
    exact relative_noSlash (((hs p hp).2.lines l hl).names hj w hw)
  have hsavable : Savable s := C70_savable env reg hr hx name f stat s ho texts hdis hP hph hps
  obtain ⟨r, e⟩ := C89_save_does_not_raise hr hx v hsavable hp hd hh (canSaveAll_of_inv env reg hr hc ks ns inv hns
    (names_pairwise (M := M) (by rintro n x h1 h2 ⟨y, h3, h4⟩; rw [h1] at h3; cases h3; exact h4 h2) hns hm))
  exact ⟨r, e, texts, ⟨name, f, stat, ho, hdis⟩, ⟨hP, hph, hps⟩, hp, v, e⟩

end
end S2N.Props
