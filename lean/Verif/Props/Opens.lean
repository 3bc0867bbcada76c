import Verif.Lemmas.Opens
/-
C93: a file whose sections are well formed can be opened.
-/
namespace S2N.Props
open S2N S2N.Py S2N.Spec

theorem addScan_total {part r : Str} (hl : Sdf.firstLine part = .ok (p!"#S " ++ r)) (idx : Nat) (s : Sdf) :
    ∃ name S cmd, Sdf.addScan part idx s = Res.ok { s with scans := s.scans ++ [(name, { Obj.newScan s.fileName idx part with
      S := S, scanNum := name, scanCmd := cmd })] } := by
  unfold Sdf.addScan
  rw [hl]
  simp only [Res.eval_ok]
  cases hs : splitWs (stripFirstWord (strip (p!"#S " ++ r))) with
  | nil =>
    exfalso
    have := numWord_line r
    have hs' : splitWs (stripFirstWord (strip ('#' :: 'S' :: ' ' :: r))) = [] := hs
    rw [hs'] at this
    split at this
    · next w n ws e =>
      have h2 := (splitWs_word ('#' :: 'S' :: ' ' :: r) n (by rw [e]; simp)).1
      exact h2 this.symm
    · cases this
  | cons num ws =>
    simp only
    have hfree := freeName_free s.scans num
    rw [if_neg (by rw [hfree]; simp)]
    refine ⟨Sdf.freeName s.scans num, stripFirstWord (strip (p!"#S " ++ r)), stripFirstWord (stripFirstWord (strip (p!"#S " ++ r))), ?_⟩
    rw [Dict.set_of_not_mem _ _ _ ((Dict.not_has_iff _ _).mp hfree)]

theorem findDate_total : ∀ (pre : List Str) (d : Str) (post : List Str),
    (∀ l ∈ pre, l = [] ∨ (splitWs l ≠ [] ∧ ¬ firstWordIs p!"#D" l)) → firstWordIs p!"#D" d →
    Sdf.findDate (pre ++ d :: post) = .ok (some d)
  | [], d, post, _, hd => by
    rw [List.nil_append]
    unfold Sdf.findDate
    unfold firstWordIs at hd
    cases hs : splitWs d with
    | nil => rw [hs] at hd; cases hd
    | cons w ws =>
      rw [hs] at hd
      have hw : w = p!"#D" := by simpa using hd
      have hne : ¬ d.length = 0 := by
        intro h0
        have : d = [] := List.eq_nil_of_length_eq_zero h0
        subst this
        cases hs
      simp only [hne, hw, if_false, if_true]
  | l :: pre, d, post, hp, hd => by
    have ih := findDate_total pre d post (fun x hx => hp x (by simp [hx])) hd
    rw [List.cons_append]
    unfold Sdf.findDate
    rcases hp l (by simp) with rfl | ⟨h1, h2⟩
    · simp only [List.length_nil, if_true]; exact ih
    · obtain ⟨w, ws, hw⟩ := List.exists_cons_of_ne_nil h1
      have hne : ¬ l.length = 0 := by
        intro h0
        have : l = [] := List.eq_nil_of_length_eq_zero h0
        subst this
        exact h1 rfl
      have hwd : ¬ w = p!"#D" := by
        rintro rfl
        exact h2 (by unfold firstWordIs; rw [hw]; rfl)
      simp only [hne, hw, hwd, if_false]
      exact ih

/-- the date of a scan after its #D line was read -/
theorem procDate_date [UniDB] {env : Env} {t : Str} {x : Obj} (hc : ClockReads env) (h : DateFits env (stripFirstWord t))
    (hx : x.epoch = none) : ∃ e d tm, procDate env t x = Res.ok { x with date := d, epoch := some e } ∧ TimeFits env e ∧ strptimeSpec d = some tm := by
  rcases h with ⟨hs, f, n, h1, h2, ⟨s, h3⟩, h4⟩ | ⟨hs, tm, e, h1, h2, h3⟩
  · obtain ⟨tm, htm⟩ := hc f s h3
    refine ⟨.int n, s, tm, ?_, h4, htm⟩
    unfold procDate
    simp only [(splitC_length _).2 hs, if_true, h1, h2, h3, Res.eval]
  · have hl : ¬ (splitC ' ' (stripFirstWord t)).length = 1 := fun h => (splitC_length _).1 h hs
    refine ⟨e, stripFirstWord t, tm, ?_, h3, h1⟩
    unfold procDate
    simp only [hl, if_false, hx, h1, h2, Res.eval]

section
variable [UniDB] (env : Env) (reg : List HKey) (hr : reg.Perm HKey.all)

theorem newHeader_says (name : Str) : HeaderSays (Obj.newHeader name []) := ⟨rfl, rfl, rfl, rfl⟩

theorem _root_.S2N.Spec.HeaderSays.dated {x : Obj} (h : HeaderSays x) (d : Str) (e : Option Num) : HeaderSays { x with date := d, epoch := e } :=
  ⟨h.O, h.H, h.comments, h.o⟩

theorem scan_total (hc : ClockReads env) {part r : Str} (hl : Sdf.firstLine part = .ok (p!"#S " ++ r)) (hd : ScanDated env part)
    {s : Sdf} (h : FileInv env s) :
    ((s.procS part).andThen (Sdf.dateLatest env)).2 = none ∧ FileInv env ((s.procS part).andThen (Sdf.dateLatest env)).1 := by
  rw [procS_none part s h.last]
  generalize hs1 : (if s.headers = [] then { s with headers := [Obj.newHeader s.fileName []] } else s : Sdf) = s1
  have h1 : FileInv env s1 := by
    subst hs1
    split
    · rename_i hnil
      refine ⟨h.last, ?_, h.scans, ?_, ?_⟩
      · intro y hy
        rw [List.mem_singleton.1 hy]
        exact ⟨newHeader_says _, .inl rfl⟩
      · intro y hy
        rw [List.mem_singleton.1 hy]
        exact .inl ⟨rfl, rfl⟩
      · intro p hp
        obtain ⟨y, tm, b1, b2⟩ := h.below p hp
        rw [hnil] at b1
        simp at b1
    · exact h
  have hidx : (if s.headers = [] then [Obj.newHeader s.fileName []] else s.headers).length - 1 < s1.headers.length := by
    subst hs1
    split
    · simp
    · rename_i hne
      have := List.length_pos_iff.2 hne
      omega
  obtain ⟨name, S, cmd, ha⟩ := addScan_total hl ((if s.headers = [] then [Obj.newHeader s.fileName []] else s.headers).length - 1) s1
  generalize (if s.headers = [] then [Obj.newHeader s.fileName []] else s.headers).length - 1 = idx at ha hidx
  rw [ha, Res.andThen_of_none rfl]
  generalize hx0 : ({ Obj.newScan s1.fileName idx part with S := S, scanNum := name, scanCmd := cmd } : Obj) = x0
  have hxe : x0.epoch = none := by rw [← hx0]; rfl
  have hxr : x0.raw = part := by rw [← hx0]; rfl
  generalize hs2 : ({ s1 with scans := s1.scans ++ [(name, x0)] } : Sdf) = s2
  have hlat : s2.latest = some (name, x0) := by
    rw [← hs2]; show (s1.scans ++ [(name, x0)]).getLast? = _
    simp
  have hhd : ∀ h ∈ s2.headers, HeaderSays h ∧ (strip h.date = [] ∨ ∃ e, h.epoch = some e ∧ TimeFits env e) := by
    rw [← hs2]; exact h1.hdrs
  have hsc : s2.scans.dropLast = s1.scans := by rw [← hs2]; simp
  have hl2 : s2.lastScan = none := by rw [← hs2]; exact h1.last
  obtain ⟨pre, d, post, e1, e2, e3, e4⟩ := hd
  obtain ⟨ep, dt, tm, q1, q2, q3⟩ := procDate_date (x := x0) (t := d) hc e4 hxe
  have hho : HeaderSays (s2.headerOf x0) ∧ (strip (s2.headerOf x0).date = [] ∨ ∃ e, (s2.headerOf x0).epoch = some e ∧ TimeFits env e) := by
    unfold Sdf.headerOf
    rw [List.getD_eq_getElem?_getD]
    cases hi : s2.headers[x0.hdrIdx]? with
    | none => exact ⟨newHeader_says _, .inl rfl⟩
    | some y => exact hhd y (List.mem_of_getElem? hi)
  have q4 : onScan (procDate env d) ⟨x0, s2.headerOf x0⟩ = Res.ok ⟨{ x0 with date := dt, epoch := some ep }, s2.headerOf x0⟩ := by
    unfold onScan; rw [q1]; rfl
  obtain ⟨p1, p2, d2, ep2, p3⟩ := dateHdr_total (c := ⟨{ x0 with date := dt, epoch := some ep }, s2.headerOf x0⟩) rfl q2 hho.2
  have p4 : (dateHdr env ⟨{ x0 with date := dt, epoch := some ep }, s2.headerOf x0⟩).1.scan = ({ x0 with date := dt, epoch := some ep } : Obj).addH5 p!"#D" .date :=
    dateHdr_scan env _
  have hps : procScan env .D d ⟨x0, s2.headerOf x0⟩ = dateHdr env ⟨{ x0 with date := dt, epoch := some ep }, s2.headerOf x0⟩ := by
    simp only [procScan]
    rw [q4, Res.andThen_of_none rfl]
    rfl
  generalize hdd : dateHdr env ⟨{ x0 with date := dt, epoch := some ep }, s2.headerOf x0⟩ = dd at p1 p2 p3 p4 hps
  have hgoal : Sdf.dateLatest env s2 = (s2.putLatest name dd.1, dd.2) := by
    unfold Sdf.dateLatest
    simp only [hlat, hxr, e1, findDate_total pre d post e2 e3, Res.eval_ok, hps]
  show (Sdf.dateLatest env s2).2 = none ∧ FileInv env (Sdf.dateLatest env s2).1
  rw [hgoal]
  have hxi : x0.hdrIdx = idx := by rw [← hx0]; rfl
  have hdi : dd.1.scan.hdrIdx = idx := by rw [p4]; exact hxi
  have hh1 : s2.headers = s1.headers := by rw [← hs2]
  have hdt : HeaderDated dd.1.hdr ∧ ∃ tm, strptimeSpec dd.1.hdr.date = some tm := by
    have : ∃ tm, strptimeSpec dd.1.hdr.date = some tm := by
      rw [← hdd]
      unfold dateHdr
      by_cases hz : (strip (s2.headerOf x0).date).length = 0
      · simp only [hz, if_true]; exact ⟨tm, q3⟩
      · have hold : ∃ tm, strptimeSpec (s2.headerOf x0).date = some tm := by
          unfold Sdf.headerOf at hz ⊢
          rw [hh1, hxi] at hz ⊢
          rw [List.getD_eq_getElem?_getD, List.getElem?_eq_getElem hidx, Option.getD_some] at hz ⊢
          rcases h1.dated _ (List.getElem_mem hidx) with hd | hd
          · rw [hd.1] at hz; exact absurd rfl hz
          · exact hd.1
        simp only [hz, if_false]
        split
        · simp only [Res.eval]
          (repeat' split) <;> exact hold
        · exact hold
    obtain ⟨e0, he0, -⟩ := p2
    exact ⟨.inr ⟨this, e0, he0⟩, this⟩
  have hset : (s2.putLatest name dd.1).headers = s1.headers.set idx dd.1.hdr := by
    unfold Sdf.putLatest
    simp only [hdi, hh1]
  refine ⟨p1, ?_, ?_, ?_, ?_, ?_⟩
  · exact hl2
  · intro y hy
    rcases List.mem_or_eq_of_mem_set hy with hy | rfl
    · exact hhd y hy
    · refine ⟨?_, .inr p2⟩
      have := hho.1.dated d2 ep2
      rw [p3]; exact this
  · intro p hp
    have hp' : p ∈ s2.scans.dropLast ++ [(name, dd.1.scan)] := hp
    rw [hsc] at hp'
    rcases List.mem_append.1 hp' with hp' | hp'
    · exact h1.scans p hp'
    · rw [List.mem_singleton.1 hp', p4]
      refine ⟨?_, ⟨tm, q3⟩, ?_⟩
      · rw [← hx0]
        exact ⟨s1.fileName, idx, part, S, name, cmd, dt, some ep, _, rfl⟩
      · intro e he
        have : some ep = some e := he
        cases this
        exact q2
  · rw [hset]
    intro y hy
    rcases List.mem_or_eq_of_mem_set hy with hy | rfl
    · exact h1.dated y hy
    · exact hdt.1
  · rw [hset]
    intro p hp
    have hp' : p ∈ s2.scans.dropLast ++ [(name, dd.1.scan)] := hp
    rw [hsc] at hp'
    obtain ⟨tm1, htm1⟩ : ∃ tm, strptimeSpec dd.1.hdr.date = some tm ∧ ∃ e, dd.1.hdr.epoch = some e := by
      obtain ⟨tm1, h1⟩ := hdt.2
      obtain ⟨e0, he0, -⟩ := p2
      exact ⟨tm1, h1, e0, he0⟩
    have hnew : (s1.headers.set idx dd.1.hdr)[idx]? = some dd.1.hdr := by
      rw [List.getElem?_set_self hidx]
    rcases List.mem_append.1 hp' with hp' | hp'
    · obtain ⟨y, tm2, b1, b2⟩ := h1.below p hp'
      by_cases hi : p.2.hdrIdx = idx
      · rw [hi]; exact ⟨_, tm1, hnew, htm1⟩
      · rw [List.getElem?_set_ne (Ne.symm hi)]; exact ⟨y, tm2, b1, b2⟩
    · rw [List.mem_singleton.1 hp']
      show ∃ h tm, (s1.headers.set idx dd.1.hdr)[dd.1.scan.hdrIdx]? = some h ∧ _
      rw [hdi]
      exact ⟨_, tm1, hnew, htm1⟩

include hr in
theorem block_total (hc : ClockReads env) {t : Str} (ht : IsSectionText t)
    (hst : ∃ r, t = p!"#F " ++ r ∨ t = p!"#E " ++ r ∨ t = p!"#S " ++ r)
    (hh : isHeaderText t = true → HeaderFits env t) (hs : isScanText t = true → ScanDated env t) {s : Sdf} (h : FileInv env s) :
    (s.readBlock env reg t).2 = none ∧ FileInv env (s.readBlock env reg t).1 := by
  obtain ⟨first, rest, e, hss, hnb⟩ := ht
  have hfne := startsSection_ne_nil hss
  have hfl : Sdf.firstLine t = .ok first := by rw [e]; exact firstLine_section first rest hnb hfne
  have htne : ¬ t.length = 0 := by
    intro h0
    have : t = [] := List.eq_nil_of_length_eq_zero h0
    subst this
    simp [Sdf.firstLine, splitlines, splitlinesAux] at hfl
  have hnl : '\n' ∉ first := by
    intro h
    have := hnb first (by simp) '\n' h
    simp [isLineBreak] at this
  -- the first line starts like the text
  have start : ∀ x r, t = '#' :: x :: ' ' :: r → isSpace x = false → ∃ r', first = '#' :: x :: ' ' :: r' := by
    intro x r he hx
    have hj : ∃ tl, t = first ++ tl ∧ (tl = [] ∨ ∃ tl', tl = '\n' :: tl') := by
      cases rest with
      | nil => exact ⟨[], by rw [e]; simp [join], .inl rfl⟩
      | cons a as => exact ⟨'\n' :: join ['\n'] (a :: as), by rw [e]; simp [join], .inr ⟨_, rfl⟩⟩
    obtain ⟨tl, h1, h2⟩ := hj
    rw [he] at h1
    match first, hfne with
    | [a], _ =>
      simp only [List.cons_append, List.nil_append, List.cons.injEq] at h1
      rcases h2 with rfl | ⟨_, rfl⟩
      · cases h1.2
      · have : x = '\n' := by simpa using congrArg List.head? h1.2
        subst this; cases hx
    | [a, b], _ =>
      simp only [List.cons_append, List.nil_append, List.cons.injEq] at h1
      rcases h2 with rfl | ⟨_, rfl⟩
      · cases h1.2.2
      · have := congrArg List.head? h1.2.2
        revert this; simp
    | a :: b :: c :: cs, _ =>
      simp only [List.cons_append, List.cons.injEq] at h1
      obtain ⟨rfl, rfl, rfl, -⟩ := h1
      exact ⟨cs, rfl⟩
  unfold Sdf.readBlock
  rw [if_neg htne, hfl]
  simp only [Res.eval_ok]
  have word : ∀ x r, first = '#' :: x :: ' ' :: r → isSpace x = false → firstWordIs ['#', x] first := by
    intro x r he hx
    unfold firstWordIs
    rw [he]
    have := splitWs_word_append ['#', x] ' ' r (by simp) (by
      intro d hd
      simp only [List.mem_cons, List.not_mem_nil, or_false] at hd
      rcases hd with rfl | rfl
      · rfl
      · exact hx) (by decide)
    rw [List.cons_append, List.cons_append, List.nil_append] at this
    rw [this]; rfl
  have key : ∀ (K : HKey) x r, first = '#' :: x :: ' ' :: r → x ≠ ' ' → K.keyText = ['#', x] → getControlKey reg first = .ok (some K) := by
    intro K x r he hx hK
    rw [hkey_iff reg hr first hnl]
    unfold hKind leadWord
    have hf : findC ' ' first = some 2 := by
      rw [he]
      have := findC_append ' ' ['#', x] (' ' :: r) (by simp [Ne.symm hx])
      simpa [findC] using this
    rw [hf, he]
    simp only [Option.map_some, List.take_succ_cons, List.take_zero]
    unfold wordIs
    rw [hK]; simp
  obtain ⟨r, he | he | he⟩ := hst
  · obtain ⟨r', hr'⟩ := start 'F' r he rfl
    rw [key .F 'F' r' hr' (by decide) rfl]
    simp only [Res.eval_ok]
    refine ⟨rfl, ?_⟩
    unfold Sdf.procF
    split <;> exact ⟨h.last, h.hdrs, h.scans, h.dated, h.below⟩
  · obtain ⟨r', hr'⟩ := start 'E' r he rfl
    rw [key .E 'E' r' hr' (by decide) rfl]
    simp only [Res.eval_ok]
    have hk := (section_kind t first rest e 'E' (word 'E' r' hr' rfl)).1
    exact procE_total env reg hr hc hfl (hh (by rw [hk]; rfl)) h
  · obtain ⟨r', hr'⟩ := start 'S' r he rfl
    rw [key .S 'S' r' hr' (by decide) rfl]
    simp only [Res.eval_ok]
    have hk := (section_kind t first rest e 'S' (word 'S' r' hr' rfl)).2
    exact scan_total env hc (by rw [hfl, hr']; rfl) (hs (by rw [hk]; rfl)) h

include hr in
theorem blocks_total (hc : ClockReads env) {texts : List Str} (ht : ∀ t ∈ texts, IsSectionText t) (hf : FileFits env texts) {s : Sdf} (h : FileInv env s) :
    (forEach (Sdf.readBlock env reg) texts s).2 = none ∧ FileInv env (forEach (Sdf.readBlock env reg) texts s).1 := by
  refine forEach_total (Sdf.readBlock env reg) texts (fun _ s => FileInv env s) ?_ texts [] s rfl h
  intro pre t post s e h
  have hm : t ∈ texts := by rw [e]; simp
  exact block_total env reg hr hc (ht t hm) (hf.starts t hm) (hf.headers t hm) (hf.scans t hm) h

include hr in
/-- **C93.**  A text file that is a SPEC data file (see C02) and whose sections are well formed can be opened: each section starts with
#F, #E or #S and a space, headers are as `HeaderFits` says, and each scan has a date (`ScanDated`).  The resulting
scans all have a valid date. -/
theorem C93_opens (name : Str) (f stat : FileSt) (t : Str) (hc : ClockReads env) (hf : f.node = .file (some t))
    (hspec : FourLineHeader t ∨ HasScanLine t) (hfit : ∀ texts, SectionsOf (fileLines t) texts → FileFits env texts)
    (hst : stat.node ≠ .missing) :
    ∃ s, Sdf.openFile env reg name f stat = .ok s ∧ ∀ p ∈ s.scans, HasDate p := by
  have hsf : isSpecFile f.node = true := (C02_is_spec_file f.node).2 ⟨t, hf, hspec⟩
  obtain ⟨texts, -, hd⟩ := C02_recognised f.node hsf
  have hst2 := sections_text f.node texts hd
  rw [hf] at hd
  have hsec := (C01_partition t texts hd).2
  obtain ⟨h1, h2⟩ := blocks_total env reg hr hc hst2 (hfit texts hsec) (s := { fileName := name }) ⟨rfl, by simp, by simp, by simp, by simp⟩
  have h3 : ∃ l, sortedBy (fun x : Obj => Sdf.strptime x.date) Tm.le
      (forEach (Sdf.readBlock env reg) texts { fileName := name : Sdf }).1.scans.values = .ok l := by
    obtain ⟨ks, hks, -⟩ := mapE_all (fun x : Obj => Sdf.strptime x.date) (forEach (Sdf.readBlock env reg) texts { fileName := name : Sdf }).1.scans.values (by
      intro x hx
      obtain ⟨p, hp, rfl⟩ := List.mem_map.1 hx
      obtain ⟨tm, htm⟩ := (h2.scans p hp).2.1
      exact ⟨tm, by unfold Sdf.strptime; rw [htm]⟩)
    unfold sortedBy
    rw [hks]
    exact ⟨_, rfl⟩
  obtain ⟨l, h3⟩ := h3
  generalize hs1 : (forEach (Sdf.readBlock env reg) texts { fileName := name : Sdf }).1 = s1 at h2 h3
  have hlast : ∃ r, s1.getLastScanNumber = .ok r := by
    unfold Sdf.getLastScanNumber Sdf.getScanNumbersChronological Sdf.lastOr0
    rw [h3]
    simp only
    split <;> exact ⟨_, rfl⟩
  obtain ⟨r, hlast⟩ := hlast
  refine ⟨{ s1 with specFile := some (s1.specFile.getD s1.fileName), lastScan := some r, filesize := stat.size, mtime := stat.mtime }, ?_, fun p hp => (h2.scans p hp).2.1⟩
  unfold Sdf.openFile
  have hex : ¬ f.node.exists = false := by rw [hf]; simp [FNode.exists]
  rw [if_neg hex, if_neg (by rw [hsf]; simp)]
  have hread : Sdf.read env reg f stat { fileName := name } = Res.ok { s1 with specFile := some (s1.specFile.getD s1.fileName), lastScan := some r, filesize := stat.size, mtime := stat.mtime } := by
    unfold Sdf.read
    rw [hf, hd]
    simp only [Res.eval_ok]
    rw [Res.andThen_of_none h1, hs1]
    unfold Sdf.finish
    have hg : Sdf.getLastScanNumber { s1 with specFile := some (s1.specFile.getD s1.fileName) } = .ok r := hlast
    simp only [hg, Res.eval_ok]
  rw [hread]
  rfl

end
end S2N.Props
