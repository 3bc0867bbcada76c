import Verif.Props.Opens
import Verif.Lemmas.SaveLoop
/-
C94: in a well-formed file, attributes of scans can be read in any order.
-/
namespace S2N.Props
open S2N S2N.Py S2N.Spec

section
variable [UniDB] (env : Env) (reg : List HKey) (hr : reg.Perm HKey.all)

/-- the times of a header can be compared with those of a scan -/
def HdrTime (h : Obj) : Prop := strip h.date = [] ∨ ∃ e, h.epoch = some e ∧ TimeFits env e

theorem fits_of_text {hdr x : Obj} (hs : HeaderSays hdr) (ht : HdrTime env hdr) (hx : ∀ e, x.epoch = some e → TimeFits env e)
    (h : ScanTextFits env hdr.raw x.raw) : ScanFits env hdr x where
  lines := h.lines
  labels := h.labels
  dates := fun _ => ⟨hx, ht⟩
  metadata := by
    intro i l hi
    obtain ⟨H, labels, h1, h2, h3⟩ := h.metadata i l hi
    exact ⟨H, labels, hs.H.trans h1, h2, h3⟩
  counters := h.counters
  positions := by
    intro i l O names hi hO
    exact h.positions i l O names hi (hs.O.symm.trans hO)
  geometry := by
    intro hne
    have hc : hdr.comments = (statedHeader hdr.raw).comments := hs.comments
    obtain ⟨g1, g2, g3⟩ := h.geometry hne
    refine ⟨g1, ?_, ?_⟩
    · intro l hl hg
      rw [hc]; exact g2 l hl hg
    · rw [hc]; exact g3
  data := h.data
  uxml := h.uxml

include hr in
/-- what the interpretation of a scan does to its header -/
theorem interp_hdr_says {c : ScanCtx} (hs : HeaderSays c.hdr) (ht : HdrTime env c.hdr) (hf : Fresh c.scan) (h : ScanFits env c.hdr c.scan) :
    HeaderSays (interpretScan env reg c).1.hdr ∧ HdrTime env (interpretScan env reg c).1.hdr ∧ (interpretScan env reg c).1.hdr.raw = c.hdr.raw := by
  have hok := C92_interprets env reg hr h hf
  have hraw : (interpretScan env reg c).1.hdr.raw = c.hdr.raw := by
    have := interpretScan_ident env reg c
    simp only [ctxIdent, Prod.mk.injEq] at this
    exact congrArg Ident.raw this.2
  obtain ⟨c1, c2, e1, e2, e3⟩ := interpret_ok env reg c (by obtain ⟨_, _, _, _, _, _, _, _, _, e⟩ := hf; rw [e]; rfl) hok
  obtain ⟨h1, h2⟩ := lines_total env reg hr h hf
  rw [e1] at h2
  have hh : (interpretScan env reg c).1.hdr = c1.hdr := by
    rw [e3]
    have := forEach_pres (runPost env) (fun d : ScanCtx => d.hdr) c1.scan.post.values (fun f _ d => pp_hdr env f d) c1
    rw [e2] at this
    exact this
  refine ⟨⟨?_, ?_, ?_, ?_⟩, ?_, hraw⟩
  · rw [hraw, hh]; exact h2.O.trans hs.O
  · rw [hraw, hh]; exact h2.H.trans hs.H
  · rw [hraw, hh]; exact h2.comments.trans hs.comments
  · rw [hraw, hh]; exact h2.o.trans hs.o
  · rw [hh]
    by_cases hD : ∃ l ∈ scanLines c.scan.raw, isKind .D l = true
    · exact h2.date hD
    · have := forEach_pres (scanLine env reg) (fun d : ScanCtx => d.hdr) (scanLines c.scan.raw) (by
        intro l hl d
        have hn := scanLines_no_nl c.scan.raw l hl
        rw [scanLine_eq]
        cases hk : effKey reg l with
        | none => rfl
        | some k =>
          refine ps_hdr env k l d ?_ ?_
          · rintro rfl
            have := (effKey_iff reg hr l hn .O (by simp) (by simp)).1 hk
            rw [(h.lines l hl).noO] at this; cases this
          · rintro rfl
            exact hD ⟨l, hl, (effKey_iff reg hr l hn .D (by simp) (by simp)).1 hk⟩) ⟨{ c.scan with lazy := false }, c.hdr⟩
      rw [e1] at this
      have : c1.hdr = c.hdr := this
      rw [this]; exact ht

/-- what is known of a file while attributes of its scans are read -/
structure ReadInv (s : Sdf) : Prop where
  hdrs : ∀ h ∈ s.headers, HeaderSays h ∧ HdrTime env h
  scans : ∀ p ∈ s.scans, p.2.lazy = false ∨ (Fresh p.2 ∧ (∀ e, p.2.epoch = some e → TimeFits env e) ∧ ScanTextFits env (s.headerOf p.2).raw p.2.raw)

theorem ReadInv.header {s : Sdf} (h : ReadInv env s) (x : Obj) : HeaderSays (s.headerOf x) ∧ HdrTime env (s.headerOf x) := by
  unfold Sdf.headerOf
  rw [List.getD_eq_getElem?_getD]
  cases hi : s.headers[x.hdrIdx]? with
  | none => exact ⟨newHeader_says _, .inl rfl⟩
  | some y => exact h.hdrs y (List.mem_of_getElem? hi)

include hr in
theorem access_total {s : Sdf} (h : ReadInv env s) (n attr : Str) (hn : s.scans.has n = true) :
    (Sdf.access env reg n attr s).2 = none ∧ ReadInv env (Sdf.access env reg n attr s).1 ∧ (Sdf.access env reg n attr s).1.scans.keys = s.scans.keys := by
  obtain ⟨x, hx⟩ : ∃ x, s.scans.get? n = some x := by
    rw [Dict.has_iff_mem] at hn
    cases hg : s.scans.get? n with
    | none => exact absurd hn ((Dict.get?_eq_none_iff _ _).1 hg)
    | some x => exact ⟨x, rfl⟩
  have hm := Dict.mem_of_get? hx
  have same : ∀ (x' : Obj) (hdr' : Obj), x'.raw = x.raw → x'.hdrIdx = x.hdrIdx → hdr'.raw = (s.headerOf x).raw → HeaderSays hdr' → HdrTime env hdr' →
      (x' = x ∨ x'.lazy = false) →
      ReadInv env { s with scans := s.scans.set n x', headers := s.headers.set x.hdrIdx hdr' } ∧ (s.scans.set n x').keys = s.scans.keys := by
    intro x' hdr' e1 e2 e3 e4 e5 e6
    refine ⟨⟨?_, ?_⟩, ?_⟩
    · intro y hy
      rcases List.mem_or_eq_of_mem_set hy with hy | rfl
      · exact h.hdrs y hy
      · exact ⟨e4, e5⟩
    · have hraw : ∀ y : Obj, (Sdf.headerOf { s with scans := s.scans.set n x', headers := s.headers.set x.hdrIdx hdr' } y).raw = (s.headerOf y).raw := by
        intro y
        unfold Sdf.headerOf
        simp only [List.getD_eq_getElem?_getD, List.getElem?_set]
        by_cases hi : x.hdrIdx = y.hdrIdx
        · rw [if_pos hi]
          split
          · next hlt =>
            have : (s.headerOf x).raw = ((s.headers[y.hdrIdx]?).getD (Obj.newHeader s.fileName [])).raw := by
              unfold Sdf.headerOf
              rw [List.getD_eq_getElem?_getD, hi]
            rw [Option.getD_some, e3, this]
          · next hlt =>
            rw [List.getElem?_eq_none (by omega)]
        · rw [if_neg hi]
      intro p hp
      rcases Dict.mem_set hp with hp | hp
      rotate_left
      · rw [hraw]; exact h.scans p hp
      · rw [hp]
        rcases e6 with rfl | e6
        · rw [hraw]; exact h.scans _ hm
        · exact .inl e6
    · rw [Dict.keys_set, if_pos ((Dict.has_iff_mem _ _).1 hn)]
  unfold Sdf.access
  rw [hx]
  simp only
  obtain ⟨g1, g2⟩ := h.header env x
  unfold readAttr
  by_cases ha : attr ∈ lazyAttributes ∧ x.lazy = true
  · rw [if_pos ha]
    rcases h.scans _ hm with hl | ⟨f1, f2, f3⟩
    · have : x.lazy = false := hl
      rw [ha.2] at this; cases this
    · have f1 : Fresh x := f1
      have hfit := fits_of_text env g1 g2 f2 f3
      have hok := C92_interprets env reg hr (c := ⟨x, s.headerOf x⟩) hfit f1
      obtain ⟨q1, q2, q3⟩ := interp_hdr_says env reg hr (c := ⟨x, s.headerOf x⟩) g1 g2 f1 hfit
      have hid := interp_ident env reg ⟨x, s.headerOf x⟩
      have hlz : (interpretScan env reg ⟨x, s.headerOf x⟩).1.scan.lazy = false := by
        obtain ⟨c1, c2, e1, e2, e3⟩ := interpret_ok env reg ⟨x, s.headerOf x⟩ (by obtain ⟨_, _, _, _, _, _, _, _, _, e⟩ := f1; show x.interpreted = false; rw [e]; rfl) hok
        rw [e3]
        have h1 := forEach_pres (runPost env) (fun d : ScanCtx => d.scan.lazy) c1.scan.post.values (fun f _ d => pp_lazy env f d) c1
        have h2 := forEach_pres (scanLine env reg) (fun d : ScanCtx => d.scan.lazy) (scanLines x.raw) (by
          intro l _ d
          rw [scanLine_eq]
          cases effKey reg l with
          | none => rfl
          | some k => exact ps_lazy env k l d) ⟨{ x with lazy := false }, s.headerOf x⟩
        rw [e2] at h1
        rw [e1] at h2
        exact h1.trans h2
      obtain ⟨r1, r2⟩ := same _ _ (congrArg Ident.raw hid) (congrArg Ident.hdrIdx hid) q3 q1 q2 (.inr hlz)
      exact ⟨hok, r1, r2⟩
  · rw [if_neg ha]
    obtain ⟨r1, r2⟩ := same x (s.headerOf x) rfl rfl rfl g1 g2 (.inl rfl)
    exact ⟨rfl, r1, r2⟩

/-- reading an attribute of a scan: the name of the scan and the attribute -/
def readOne (a : Str × Str) (s : Sdf) : Res Sdf := Sdf.access env reg a.1 a.2 s

include hr in
/-- **C94.**  A file was opened whose sections are well formed (as C93 asks), and the text of each scan is as `ScanTextFits` says.  Then attributes
of its scans can be read, in any order and any number of times, and nothing raises. -/
theorem C94_reads (name : Str) (f stat : FileSt) (t : Str) (hc : ClockReads env) (hf : f.node = .file (some t))
    (hfit : ∀ texts, SectionsOf (fileLines t) texts → FileFits env texts)
    {s : Sdf} (ho : Sdf.openFile env reg name f stat = .ok s) (hs : ∀ p ∈ s.scans, ScanTextFits env (s.headerOf p.2).raw p.2.raw)
    (reads : List (Str × Str)) (hr2 : ∀ a ∈ reads, s.scans.has a.1 = true) :
    (forEach (readOne env reg) reads s).2 = none := by
  obtain ⟨texts, s1, h1, h2, h3, h4⟩ := open_ok env reg hr name f stat s ho
  have hst := sections_text f.node texts h1
  rw [hf] at h1
  have hsec := (C01_partition t texts h1).2
  obtain ⟨q1, q2⟩ := blocks_total env reg hr hc hst (hfit texts hsec) (s := { fileName := name }) ⟨rfl, by simp, by simp, by simp, by simp⟩
  rw [h2] at q2
  have q2 : FileInv env s1 := q2
  obtain ⟨e1, e2, e3, -⟩ := finish_ok stat s1 s h4
  have inv : ReadInv env s := by
    refine ⟨?_, ?_⟩
    · rw [e2]; exact q2.hdrs
    · intro p hp
      have hp' := hp
      rw [e1] at hp'
      obtain ⟨a, b, c⟩ := q2.scans p hp'
      exact .inr ⟨a, c, hs p hp⟩
  refine (forEach_total (readOne env reg) reads (fun _ u => ReadInv env u ∧ u.scans.keys = s.scans.keys) ?_ reads [] s rfl ⟨inv, rfl⟩).1
  intro pre a post u e hu
  obtain ⟨r1, r2, r3⟩ := access_total env reg hr hu.1 a.1 a.2 (by
    rw [Dict.has_iff_mem, hu.2, ← Dict.has_iff_mem]
    exact hr2 a (by rw [e]; simp))
  exact ⟨r1, r2, r3.trans hu.2⟩

end
end S2N.Props
