import Verif.Props.Alone
import Verif.Props.Untouched
import Verif.Props.Refresh
import Verif.Props.Iso
/-
C108: sections at the end of a data file do not change the entries of the scans before them.
-/
namespace S2N.Props
open S2N S2N.Py S2N.Spec S2N.Moved
open Writer Eznx H5

section
variable [UniDB]

/-! ### reading on -/

/-- what was read stays, when more is read -/
structure Kept (s s' : Sdf) : Prop where
  name : s'.fileName = s.fileName
  scans : s.scans <+: s'.scans
  headers : ∀ (i : Nat) (h : Obj), s.headers[i]? = some h → strip h.date ≠ [] → s'.headers[i]? = some h

omit [UniDB] in
theorem Kept.refl (s : Sdf) : Kept s s := ⟨rfl, List.prefix_refl _, fun _ _ h _ => h⟩

omit [UniDB] in
theorem Kept.trans {s t u : Sdf} (h : Kept s t) (k : Kept t u) : Kept s u :=
  ⟨k.name.trans h.name, h.scans.trans k.scans, fun i x hx hd => k.headers i x (h.headers i x hx hd) hd⟩

/-- nothing is added to the scans, or one that has a date only if its header has one -/
def Added (s s' : Sdf) : Prop := s'.scans = s.scans ∨ ∃ name z, s'.scans = s.scans ++ [(name, z)] ∧
  (strip z.date ≠ [] → strip (s'.headerOf z).date ≠ [])

omit [UniDB] in
/-- a scan with a date dates its header -/
theorem procScan_dated {env : Env} {line : Str} {c : ScanCtx} (h : (procScan env .D line c).2 = none)
    (hd : strip (procScan env .D line c).1.scan.date ≠ []) : strip (procScan env .D line c).1.hdr.date ≠ [] := by
  have e : procScan env .D line c = (onScan (procDate env line) c).andThen (dateHdr env) := rfl
  rw [e] at h hd ⊢
  obtain ⟨g1, g2, g3⟩ := andThen_none h
  rw [g2] at hd ⊢
  generalize (onScan (procDate env line) c).1 = c1 at g3 hd ⊢
  unfold dateHdr at hd ⊢
  simp only at hd ⊢
  by_cases h0 : (strip c1.hdr.date).length = 0
  · rw [if_pos h0] at hd ⊢
    exact hd
  · rw [if_neg h0] at hd ⊢
    have h1 : strip c1.hdr.date ≠ [] := fun e => h0 (by rw [e]; rfl)
    simp only [Res.ok, Res.raise, Res.eval] at hd ⊢
    repeat' split
    all_goals exact h1

/-- one section -/
theorem kept_block {env : Env} {reg : List HKey} (hr : reg.Perm HKey.all) (t : Str) (ht : IsSectionText t)
    (s : Sdf) (hl : s.lastScan = none) (hok : (s.readBlock env reg t).2 = none)
    (hP : isHeaderText t = true → ∀ l ∈ splitlines t, hKind .P l = false) :
    Kept s (s.readBlock env reg t).1 ∧ Added s (s.readBlock env reg t).1 := by
  obtain ⟨first, rest, e, hst, hnb⟩ := ht
  have hfne := startsSection_ne_nil hst
  have hfl : Sdf.firstLine t = .ok first := by rw [e]; exact firstLine_section first rest hnb hfne
  have htne : t ≠ [] := by
    rintro rfl; simp [Sdf.firstLine, splitlines, splitlinesAux] at hfl
  have hnl : '\n' ∉ first := by
    intro h
    have := hnb first (by simp) '\n' h
    simp [isLineBreak] at this
  obtain ⟨x, hx, hw⟩ : ∃ x, (x = 'E' ∨ x = 'F' ∨ x = 'S') ∧ firstWordIs ['#', x] first := by
    rcases hst with h | h | h
    · exact ⟨'E', by simp, h⟩
    · exact ⟨'F', by simp, h⟩
    · exact ⟨'S', by simp, h⟩
  obtain ⟨hkE, hkS⟩ := section_kind t first rest e x hw
  unfold Sdf.readBlock at hok ⊢
  rw [if_neg (by simpa using htne), hfl] at hok ⊢
  simp only [Res.eval_ok] at hok ⊢
  cases hg : getControlKey reg first with
  | error er => rw [hg] at hok; simp at hok
  | ok o =>
    rw [hg] at hok
    simp only [Res.eval_ok] at hok ⊢
    cases o with
    | none => simp at hok
    | some k =>
      obtain ⟨hkt, _⟩ := block_key reg hr first hnl x hx hw k hg
      have hks := keyText_section k x hkt
      rcases hx with rfl | rfl | rfl
      · have hk := hks.1 rfl
        subst hk
        have hh : isHeaderText t = true := by rw [hkE]; rfl
        simp only at hok ⊢
        unfold Sdf.procE at hok ⊢
        split
        · exact ⟨Kept.refl s, .inl rfl⟩
        next hany =>
        rw [if_neg hany] at hok
        rw [hfl] at hok ⊢
        simp only [Res.eval_ok] at hok ⊢
        cases he : Sdf.epochOf (strip first) with
        | error er => rw [he] at hok; simp at hok
        | ok ep =>
        rw [he] at hok
        simp only [Res.eval_ok] at hok ⊢
        have hset : ∀ (r : Obj) (i : Nat) (z : Obj), s.headers[i]? = some z →
            ((s.headers ++ [{ Obj.newHeader s.fileName t with epoch := some ep }]).set s.headers.length r)[i]? = some z := by
          intro r i z hz
          have e0 : (s.headers ++ [{ Obj.newHeader s.fileName t with epoch := some ep }]).set s.headers.length r = s.headers ++ [r] := by
            rw [List.set_append_right _ _ (Nat.le_refl _)]
            simp
          rw [e0, List.getElem?_append_left (List.getElem?_eq_some_iff.1 hz).1]
          exact hz
        cases hlat : (Sdf.latest { s with headers := s.headers ++ [{ Obj.newHeader s.fileName t with epoch := some ep }] }) with
        | none =>
          rw [hlat] at hok
          simp only at hok ⊢
          exact ⟨⟨rfl, List.prefix_refl _, fun i z hz _ => hset _ i z hz⟩, .inl rfl⟩
        | some q =>
          obtain ⟨nm, y⟩ := q
          rw [hlat] at hok
          simp only at hok ⊢
          have hl1 := (nop_interpret env reg hr _ hok (hP hh)).1
          rw [hl1]
          simp only
          rw [putLatest_self _ _ _ hlat]
          exact ⟨⟨rfl, List.prefix_refl _, fun i z hz _ => hset _ i z hz⟩, .inl rfl⟩
      · have hk := hks.2.1 rfl
        subst hk
        simp only
        unfold Sdf.procF
        split <;> exact ⟨⟨rfl, List.prefix_refl _, fun _ _ h _ => h⟩, .inl rfl⟩
      · have hk := hks.2.2 rfl
        subst hk
        simp only at hok ⊢
        rw [procS_none t s hl] at hok ⊢
        -- the file object with at least one header
        generalize hs0 : (if s.headers = [] then { s with headers := [Obj.newHeader s.fileName []] } else s) = s0 at hok ⊢
        have k0 : Kept s s0 := by
          rw [← hs0]
          split
          · next he =>
            refine ⟨rfl, List.prefix_refl _, fun i h hi _ => ?_⟩
            rw [he] at hi
            simp at hi
          · exact Kept.refl s
        have hsc : s0.scans = s.scans := by rw [← hs0]; split <;> rfl
        have hidx : (if s.headers = [] then [Obj.newHeader s.fileName []] else s.headers).length - 1 < s0.headers.length := by
          rw [← hs0]
          split
          · simp
          · next he => exact Nat.sub_lt (List.length_pos_of_ne_nil he) (by omega)
        suffices hmain : ∀ s2, s2 = _ → Kept s0 s2 ∧ Added s0 s2 from by
          obtain ⟨q1, q2⟩ := hmain _ rfl
          refine ⟨k0.trans q1, ?_⟩
          unfold Added at q2 ⊢
          rw [← hsc]
          exact q2
        rintro s2 rfl
        generalize (if s.headers = [] then [Obj.newHeader s.fileName []] else s.headers).length - 1 = idx at hok hidx ⊢
        obtain ⟨g1, g2, g3⟩ := andThen_none hok
        rw [g2]
        clear g2 hok
        unfold Sdf.addScan at g1 g3 ⊢
        rw [hfl] at g1 g3 ⊢
        simp only [Res.eval_ok] at g1 g3 ⊢
        cases hsw : splitWs (stripFirstWord (strip first)) with
        | nil => rw [hsw] at g1; simp at g1
        | cons num ws =>
          rw [hsw] at g1 g3
          simp only at g1 g3 ⊢
          by_cases hhas : s0.scans.has (Sdf.freeName s0.scans num) = true
          · rw [if_pos hhas] at g1; simp at g1
          · rw [if_neg hhas] at g3 ⊢
            have hset : ∀ z : Obj, s0.scans.set (Sdf.freeName s0.scans num) z = s0.scans ++ [(Sdf.freeName s0.scans num, z)] :=
              fun z => Dict.set_of_not_mem _ _ _ (fun hc => hhas ((Dict.has_iff_mem _ _).2 hc))
            simp only [Res.ok, hset] at g3 ⊢
            unfold Sdf.dateLatest Sdf.latest at g3 ⊢
            simp only [List.getLast?_append, List.getLast?_singleton, Option.some_or] at g3 ⊢
            cases hfd : Sdf.findDate (splitlines t).tail with
            | error er => simp only [Obj.newScan, hfd] at g3; simp at g3
            | ok d =>
              simp only [Obj.newScan, hfd, Res.eval_ok] at g3 ⊢
              cases d with
              | none => exact ⟨⟨rfl, List.prefix_append _ _, fun _ _ h _ => h⟩, .inr ⟨_, _, rfl, fun h => absurd rfl h⟩⟩
              | some line =>
                refine ⟨⟨rfl, ?_, fun i h hi hd => ?_⟩, ?_⟩
                · unfold Sdf.putLatest
                  simp only [List.dropLast_concat]
                  exact List.prefix_append _ _
                · unfold Sdf.putLatest
                  simp only [ps_hdrIdx]
                  by_cases hii : idx = i
                  · subst hii
                    have hho : ∀ z : Dict Obj, ∀ w : Obj, w.hdrIdx = idx → Sdf.headerOf { s0 with scans := z } w = h := by
                      intro z w hw
                      unfold Sdf.headerOf
                      rw [hw, List.getD_eq_getElem?_getD]
                      simp only [hi, Option.getD_some]
                    rw [ps_hdr_keep env .D line _ (by simp) (by rw [hho _ _ rfl]; exact hd), hho _ _ rfl]
                    rw [List.getElem?_set_self (List.getElem?_eq_some_iff.1 hi).1]
                  · rw [List.getElem?_set_ne hii]
                    exact hi
                · have hpd := fun hd => procScan_dated g3 hd
                  simp only at g3 ⊢
                  generalize hcc : procScan env HKey.D line _ = R at hpd g3 ⊢
                  have hRi : R.1.scan.hdrIdx = idx := by rw [← hcc, ps_hdrIdx]
                  refine .inr ⟨Sdf.freeName s0.scans num, R.1.scan, ?_, ?_⟩
                  · unfold Sdf.putLatest
                    simp only [List.dropLast_concat]
                  · unfold Sdf.putLatest Sdf.headerOf
                    simp only [hRi]
                    rw [List.getD_eq_getElem?_getD, List.getElem?_set_self hidx]
                    exact hpd

theorem kept_loop {env : Env} {reg : List HKey} (hr : reg.Perm HKey.all) : ∀ (ts : List Str) (s : Sdf), s.lastScan = none →
    (∀ t ∈ ts, IsSectionText t) → (∀ t ∈ ts, isHeaderText t = true → ∀ l ∈ splitlines t, hKind .P l = false) →
    (forEach (Sdf.readBlock env reg) ts s).2 = none → Kept s (forEach (Sdf.readBlock env reg) ts s).1 := by
  intro ts
  induction ts with
  | nil => intro s _ _ _ _; exact Kept.refl s
  | cons t ts ih =>
    intro s hl hs hP hok
    obtain ⟨g1, g2, g3⟩ := forEach_cons_ok hok
    rw [g2]
    refine (kept_block hr t (hs t (by simp)) s hl g1 (hP t (by simp))).1.trans
      (ih _ ?_ (fun u hu => hs u (by simp [hu])) (fun u hu => hP u (by simp [hu])) g3)
    have := congrArg Shape.lastScan (readBlock_abs env reg hr t (hs t (by simp)) s hl g1)
    rw [absStep_last] at this
    exact this.trans hl

/-- a file of which another one is the beginning -/
theorem kept_open {env : Env} {reg : List HKey} (hr : reg.Perm HKey.all) {name : Str} {f g stf stg : FileSt} {s s' : Sdf}
    (h : Sdf.openFile env reg name f stf = .ok s) (h' : Sdf.openFile env reg name g stg = .ok s') {texts rest : List Str}
    (ht : dissectFile f.node = .ok texts) (ht' : dissectFile g.node = .ok (texts ++ rest))
    (hP : ∀ t ∈ rest, isHeaderText t = true → ∀ l ∈ splitlines t, hKind .P l = false) : Kept s s' := by
  obtain ⟨texts1, s1, h1, h2, h3, h4⟩ := open_ok env reg hr name f stf s h
  obtain rfl : texts = texts1 := by rw [ht] at h1; simpa using h1
  obtain ⟨texts2, s2, k1, k2, k3, k4⟩ := open_ok env reg hr name g stg s' h'
  obtain rfl : texts ++ rest = texts2 := by rw [ht'] at k1; simpa using k1
  have hsec := sections_text g.node _ ht'
  rw [forEach_append, h2] at k2
  have k2 : forEach (Sdf.readBlock env reg) rest s1 = (s2, none) := k2
  have hlast : s1.lastScan = none := by
    have := congrArg Shape.lastScan h3
    have hf : ∀ (ts : List Str) (sh : Shape), sh.lastScan = none → (ts.foldl absStep sh).lastScan = none := by
      intro ts
      induction ts with
      | nil => intro sh h; exact h
      | cons t ts ih => intro sh h; exact ih _ (by rw [absStep_last]; exact h)
    exact this.trans (hf _ _ rfl)
  have hk := kept_loop hr rest s1 hlast (fun t hm => hsec t (by simp [hm])) hP (by rw [k2])
  rw [k2] at hk
  obtain ⟨e1, e2, e3, _⟩ := finish_ok stf s1 s h4
  obtain ⟨d1, d2, d3, _⟩ := finish_ok stg s2 s' k4
  exact ⟨by rw [d3, e3]; exact hk.name, by rw [d1, e1]; exact hk.scans, by rw [d2, e2]; exact hk.headers⟩

/-- the scans that have a date, have a header with one -/
def DatedFile (s : Sdf) : Prop := ∀ p ∈ s.scans, strip p.2.date ≠ [] → strip (s.headerOf p.2).date ≠ []

omit [UniDB] in
theorem DatedFile.step {s s' : Sdf} (h : DatedFile s) (hk : Kept s s') (ha : Added s s') : DatedFile s' := by
  have old : ∀ p ∈ s.scans, strip p.2.date ≠ [] → strip (s'.headerOf p.2).date ≠ [] := by
    intro p hp hd
    have h1 := h p hp hd
    unfold Sdf.headerOf at h1 ⊢
    rw [List.getD_eq_getElem?_getD] at h1 ⊢
    cases e : s.headers[p.2.hdrIdx]? with
    | none => rw [e] at h1; exact absurd (by rfl) h1
    | some y =>
      rw [e] at h1
      rw [hk.headers _ y e h1]
      exact h1
  intro p hp hd
  rcases ha with ha | ⟨name, z, ha, hz⟩
  · rw [ha] at hp
    exact old p hp hd
  · rw [ha] at hp
    rcases List.mem_append.1 hp with hp | hp
    · exact old p hp hd
    · rw [List.mem_singleton.1 hp] at hd ⊢
      exact hz hd

theorem dated_loop {env : Env} {reg : List HKey} (hr : reg.Perm HKey.all) : ∀ (ts : List Str) (s : Sdf), s.lastScan = none →
    (∀ t ∈ ts, IsSectionText t) → (∀ t ∈ ts, isHeaderText t = true → ∀ l ∈ splitlines t, hKind .P l = false) →
    (forEach (Sdf.readBlock env reg) ts s).2 = none → DatedFile s → DatedFile (forEach (Sdf.readBlock env reg) ts s).1 := by
  intro ts
  induction ts with
  | nil => intro s _ _ _ _ h; exact h
  | cons t ts ih =>
    intro s hl hs hP hok h
    obtain ⟨g1, g2, g3⟩ := forEach_cons_ok hok
    rw [g2]
    obtain ⟨k1, k2⟩ := kept_block hr t (hs t (by simp)) s hl g1 (hP t (by simp))
    refine ih _ ?_ (fun u hu => hs u (by simp [hu])) (fun u hu => hP u (by simp [hu])) g3 (h.step k1 k2)
    have := congrArg Shape.lastScan (readBlock_abs env reg hr t (hs t (by simp)) s hl g1)
    rw [absStep_last] at this
    exact this.trans hl

omit [UniDB] in
theorem lower_isSpace {c : Char} (h : isSpace c = true) : lowerC c = c := by
  unfold isSpace at h
  unfold lowerC
  simp only [Bool.or_eq_true, Bool.and_eq_true, decide_eq_true_eq, beq_iff_eq] at h
  rw [if_neg]
  simp only [Bool.and_eq_true, decide_eq_true_eq]
  omega

open Re in
omit [UniDB] in
/-- a SPEC date does not begin with white space -/
theorem spec_dark {s : Str} {t : Tm} (h : strptimeSpec s = some t) : ∃ c cs, s = c :: cs ∧ isSpace c = false := by
  unfold strptimeSpec at h
  split at h
  · next g e =>
    obtain ⟨w, e1, l⟩ := first_sound e
    have l : Lang (seq fA (cat [ws, fB, ws, fD, ws, fH, ch ':', fM, ch ':', fS, ws, fY])) w _ := l
    obtain ⟨w1, w2, g1, g2, e2, _, hA, _⟩ := lang_seq.1 l
    obtain ⟨g', _, hA⟩ := lang_grp.1 hA
    have : ∃ c cs, w1 = c :: cs ∧ isSpace c = false := by
      have hI : ∀ (c : Char) (cs : Str) (w : Str) (g : List Str),
          (∀ d, lowerC d = c → isSpace d = false) →
          Lang (litI (c :: cs)) w g → ∃ d ds, w = d :: ds ∧ isSpace d = false := by
        intro c cs w g h2 hl
        obtain ⟨a, b, _, _, e, _, ha, _⟩ := lang_seq.1 hl
        obtain ⟨⟨d, e3, hd⟩, _⟩ := lang_cls.1 ha
        simp only [beq_iff_eq] at hd
        exact ⟨d, b, by simp [e, e3], h2 d hd⟩
      have hlow : ∀ d c : Char, isSpace c = false → lowerC d = c → isSpace d = false := by
        intro d c hc e
        by_contra h
        have h : isSpace d = true := by simpa using h
        rw [lower_isSpace h] at e
        rw [← e, h] at hc; cases hc
      simp only [dayNames, List.map, alts, lang_alt] at hA
      rcases hA with h | h | h | h | h | h | h <;>
        exact hI _ _ _ _ (fun d e => hlow d _ (by decide) e) h
    obtain ⟨c, cs, e3, hc⟩ := this
    exact ⟨c, cs ++ w2 ++ [], by simp [e1, e2, e3], hc⟩
  · cases h

theorem open_dated {env : Env} {reg : List HKey} (hr : reg.Perm HKey.all) {name : Str} {f stat : FileSt} {s : Sdf}
    (h : Sdf.openFile env reg name f stat = .ok s) {texts : List Str} (ht : dissectFile f.node = .ok texts)
    (hP : ∀ t ∈ texts, isHeaderText t = true → ∀ l ∈ splitlines t, hKind .P l = false) {n : Str} {x : Obj}
    (hn : s.scans.get? n = some x) : strip (s.headerOf x).date ≠ [] := by
  obtain ⟨texts1, s1, h1, h2, h3, h4⟩ := open_ok env reg hr name f stat s h
  obtain rfl : texts = texts1 := by rw [ht] at h1; simpa using h1
  have hd := dated_loop hr texts { fileName := name } rfl (sections_text f.node _ ht) hP (by rw [h2]) (by
    intro p hp; simp at hp)
  rw [h2] at hd
  obtain ⟨e1, e2, e3, _, _, _, r, e4, _⟩ := finish_ok stat s1 s h4
  have hm := Dict.mem_of_get? hn
  have hho : s.headerOf x = s1.headerOf x := by unfold Sdf.headerOf; rw [e2, e3]
  rw [hho]
  refine hd (n, x) (by rw [← e1]; exact hm) ?_
  -- the date could be read
  have hvals : x ∈ s1.scans.values := List.mem_map.2 ⟨(n, x), by rw [← e1]; exact hm, rfl⟩
  have hall : ∃ tm, Sdf.strptime x.date = .ok tm := by
    unfold Sdf.getLastScanNumber Sdf.getScanNumbersChronological sortedBy at e4
    cases em : mapE (fun x : Obj => Sdf.strptime x.date) s1.scans.values with
    | error e => rw [em] at e4; cases e4
    | ok l =>
      have := (mapE_ok_iff _ _ _).1 em
      obtain ⟨i, hi, hix⟩ := List.getElem_of_mem hvals
      have hil : i < l.length := by rw [← this.length_eq]; exact hi
      exact ⟨l[i], by rw [← hix]; exact (List.forall₂_iff_get.1 this).2 i hi hil⟩
  obtain ⟨tm, htm⟩ := hall
  obtain ⟨c, r, hc1, hc2⟩ := spec_dark ((strptime_ok _ _).1 htm)
  intro h0
  have := (splitWs_eq_nil_iff _).1 ((strip_eq_nil_iff _).1 h0) c (by rw [hc1]; simp)
  rw [hc2] at this; cases this

/-- C107, C108: the header of every scan has a date, after a file without #P lines in its headers was opened.  (So this
condition of `OnItsOwn` is always met for a file that was just opened.) -/
theorem C108_dated {env : Env} {reg : List HKey} (hr : reg.Perm HKey.all) {name : Str} {f stat : FileSt} {s : Sdf}
    (h : Sdf.openFile env reg name f stat = .ok s) {texts : List Str} (ht : dissectFile f.node = .ok texts)
    (hP : ∀ t ∈ texts, isHeaderText t = true → ∀ l ∈ splitlines t, hKind .P l = false) {k : Ref} {x : Obj}
    (hx : s.getScan k = .ok (some x)) : strip (s.headerOf x).date ≠ [] := by
  obtain ⟨n, hn, _⟩ := _root_.S2N.getScan_name hx
  exact open_dated hr h ht hP hn

/-- C108: if the sections of a file are the first ones of another file, then each scan of it is found in the other one
under its name, unchanged, and belongs to the same header (if this has a date). -/
theorem C108_scans {env : Env} {reg : List HKey} (hr : reg.Perm HKey.all) {name : Str} {f g stf stg : FileSt} {s s' : Sdf}
    (h : Sdf.openFile env reg name f stf = .ok s) (h' : Sdf.openFile env reg name g stg = .ok s') {texts rest : List Str}
    (ht : dissectFile f.node = .ok texts) (ht' : dissectFile g.node = .ok (texts ++ rest))
    (hP : ∀ t ∈ rest, isHeaderText t = true → ∀ l ∈ splitlines t, hKind .P l = false) {k : Ref} (hk : Positive k.text)
    {x : Obj} (hx : s.getScan k = .ok (some x)) :
    s'.getScan k = .ok (some x) ∧ (strip (s.headerOf x).date ≠ [] → s'.headerOf x = s.headerOf x) := by
  have hkept := kept_open hr h h' ht ht' hP
  have hw' := open_wellNamed env reg hr name g stg s' h'
  rw [getScan_pos s k hk] at hx
  rw [getScan_pos s' k hk]
  have hx : s.scans.get? k.text = some x := by injection hx
  refine ⟨?_, fun hd => ?_⟩
  · have hm := hkept.scans.subset (Dict.mem_of_get? hx)
    rw [(Dict.mem_iff_get? _ hw'.nodup _ _).1 hm]
  · unfold Sdf.headerOf at hd ⊢
    rw [List.getD_eq_getElem?_getD] at hd ⊢
    rw [List.getD_eq_getElem?_getD]
    cases e : s.headers[x.hdrIdx]? with
    | none =>
      rw [e] at hd
      exact absurd (by rfl) hd
    | some y =>
      rw [e] at hd
      rw [hkept.headers _ y e hd]
      rfl

/-- one scan in two data files -/
theorem entry_two {env : Env} {reg : List HKey} (hr : reg.Perm HKey.all) (hx : SchemaNames env) {v : Versions} {s s' : Sdf}
    (hs : Savable s) {k : Ref} (hk : PlainText k.text) {x : Obj} (h1 : s.getScan k = .ok (some x))
    (h2 : s'.getScan k = .ok (some x)) (hh : s'.headerOf x = s.headerOf x) (hl : OnItsOwn env reg s x) {a a' : Dict AVal}
    (ha : rootAttributes v s = .ok a) (ha' : rootAttributes v s' = .ok a') :
    (save env reg v [k] s').2 = (save env reg v [k] s).2 ∧
      SameEntry (entryName k) (save env reg v [k] s).1.h5 (save env reg v [k] s').1.h5 := by
  have he : ∀ S : SState, saveKeys env reg true [k] S = saveKey env reg true k S := by
    intro S
    rw [saveKeys]
    cases saveKey env reg true k S with
    | mk S1 e => cases e <;> rfl
  rw [save_eq ha, save_eq ha', he, he]
  obtain ⟨p1, p2, l, g1, g2, g3, g4, g5⟩ := saveKey_par (env := env) (reg := reg) (plain_entry hk) true true
    (S1 := ⟨s, [.group [] (Dict.update [] a)]⟩) (S2 := ⟨s', [.group [] (Dict.update [] a')]⟩) (fileOk_root _) (fileOk_root _)
    rfl rfl rfl rfl (.inr ⟨x, x, h1, h2, by show interpretScan env reg ⟨x, s.headerOf x⟩ = interpretScan env reg ⟨x, s'.headerOf x⟩; rw [hh]⟩) (by
      intro x0 y hdr e1 e2
      obtain ⟨b1, b2, b3⟩ := hsafe_of hr hx (Savable.ok hs) x0 y hdr e1 e2
      refine ⟨b1, b2, b3, ?_⟩
      have e1 : s.getScan k = .ok (some x0) := e1
      rw [h1] at e1
      cases e1
      have hid := interp_ident env reg ⟨x, s.headerOf x⟩
      have e2' : interpretScan env reg ⟨x, s.headerOf x⟩ = (⟨y, hdr⟩, none) := e2
      rw [e2'] at hid
      have hc : y.scanCmd = x.scanCmd := congrArg Ident.scanCmd hid
      intro m ws hw hm l hl'
      refine hl.labels ⟨m, hm, ?_⟩ l ?_
      · unfold macroOf; rw [← hc, hw]; rfl
      · rw [e2']; exact hl')
  refine ⟨g5.symm, ?_⟩
  rw [g1, g2]
  exact sameEntry_up g3 g4 l

/-- C108: the outcome of saving the scan from the shorter and from the longer file is the same, and so is the entry. -/
theorem C108_entry {env : Env} {reg : List HKey} (hr : reg.Perm HKey.all) (hx : SchemaNames env) {v : Versions} {name : Str}
    {f g stf stg : FileSt} {s s' : Sdf} (h : Sdf.openFile env reg name f stf = .ok s)
    (h' : Sdf.openFile env reg name g stg = .ok s') {texts rest : List Str} (ht : dissectFile f.node = .ok texts)
    (ht' : dissectFile g.node = .ok (texts ++ rest))
    (hP : ∀ t ∈ rest, isHeaderText t = true → ∀ l ∈ splitlines t, hKind .P l = false) (hs : Savable s)
    {k : Ref} (hk : Positive k.text) (hpl : PlainText k.text) {x : Obj} (h1 : s.getScan k = .ok (some x))
    (hl : OnItsOwn env reg s x) {a a' : Dict AVal} (ha : rootAttributes v s = .ok a) (ha' : rootAttributes v s' = .ok a') :
    (save env reg v [k] s').2 = (save env reg v [k] s).2 ∧
      SameEntry (entryName k) (save env reg v [k] s).1.h5 (save env reg v [k] s').1.h5 := by
  obtain ⟨h2, h3⟩ := C108_scans hr h h' ht ht' hP hk h1
  exact entry_two hr hx hs hpl h1 h2 (h3 hl.dated) hl ha ha'

/-- C108: whatever scans of the shorter file are saved together, and whatever scans of the longer file, the entry of a
scan that is in both lists is the same. -/
theorem C108_converted {env : Env} {reg : List HKey} (hr : reg.Perm HKey.all) (hx : SchemaNames env) {v : Versions} {name : Str}
    {f g stf stg : FileSt} {s s' : Sdf} (h : Sdf.openFile env reg name f stf = .ok s)
    (h' : Sdf.openFile env reg name g stg = .ok s') {texts rest : List Str} (ht : dissectFile f.node = .ok texts)
    (ht' : dissectFile g.node = .ok (texts ++ rest))
    (hP : ∀ t ∈ rest, isHeaderText t = true → ∀ l ∈ splitlines t, hKind .P l = false) (hs : Savable s) (hs' : Savable s')
    {ks ks' : List Ref} (hks : ∀ k ∈ ks, PlainText k.text) (hks' : ∀ k ∈ ks', PlainText k.text)
    (hi : Independent env reg s ks) (hi' : Independent env reg s' ks') {r r' : SState}
    (hr1 : save env reg v ks s = (r, none)) (hr2 : save env reg v ks' s' = (r', none)) {k : Ref} (hm : k ∈ ks) (hm' : k ∈ ks')
    (hk : Positive k.text) : SameEntry (entryName k) r.h5 r'.h5 := by
  obtain ⟨_, _, _, ⟨_, _, a, ha, _⟩, hen⟩ := save_ok hr hx (Savable.ok hs) (fun k hk' => plain_entry (hks k hk')) hr1
  obtain ⟨_, _, _, ⟨_, _, a', ha', _⟩, _⟩ := save_ok hr hx (Savable.ok hs') (fun k hk' => plain_entry (hks' k hk')) hr2
  obtain ⟨r1, b1, b2⟩ := C107_alone hr hx hs hks hi hr1 hm
  obtain ⟨r2, c1, c2⟩ := C107_alone hr hx hs' hks' hi' hr2 hm'
  have hx1 : ∃ x, s.getScan k = .ok (some x) := by
    have hb := b1
    rw [save_eq ha] at hb
    rw [saveKeys] at hb
    cases hsk : saveKey env reg true k ⟨s, [.group [] (Dict.update [] a)]⟩ with
    | mk S1 e =>
      rw [hsk] at hb
      cases e with
      | some e => cases hb
      | none =>
        obtain ⟨_, _, _, x0, _, _, _, _, _, _, _, _, q, _⟩ := (saveKey_ok (fileOk_root _) (plain_entry (hks k hm))
          (hsafe_of hr hx (Savable.ok hs)) hsk).ex
        exact ⟨x0, q⟩
  obtain ⟨x, hx1⟩ := hx1
  obtain ⟨_, d⟩ := C108_entry hr hx (v := v) h h' ht ht' hP hs hk (hks k hm) hx1 (hi.own k hm x hx1) ha ha'
  rw [b1, c1] at d
  exact b2.trans (d.trans c2.symm)

omit [UniDB] in
/-- C108: a text that ends with a newline, and one in which lines follow, the first of which starts a section: the
sections of the first are the first ones of the second. -/
theorem C108_append {T more : Str} {texts : List Str} (hn : ∃ a, T = a ++ ['\n'])
    (hm : ∃ l ls, fileLines more = l :: ls ∧ StartsSection l)
    (ht : dissectFile (.file (some T)) = .ok texts) {texts' : List Str}
    (ht' : dissectFile (.file (some (T ++ more))) = .ok texts') :
    ∃ rest, texts' = texts ++ rest ∧ rest = sectionsOf more := by
  obtain ⟨a, rfl⟩ := hn
  obtain ⟨l, ls, h1, h2⟩ := hm
  rw [dissect_sections _ _ ht, dissect_sections _ _ ht']
  refine ⟨sectionsOf more, ?_, rfl⟩
  unfold sectionsOf
  rw [fileLines_append]
  have hlead : (grp (fileLines more)).1 = [] := by
    rw [h1, grp, if_pos ((isSectionStart_iff l).2 h2)]
  by_cases hnil : (grp (fileLines (a ++ ['\n']))).2 = []
  · exfalso
    have h0 := (C01_partition _ _ ht).1
    rw [dissect_sections _ _ ht] at h0
    unfold sectionsOf at h0
    rw [hnil] at h0
    exact h0 rfl
  · rw [grp_append _ _ _ _ (List.dropLast_append_getLast hnil).symm, hlead, List.append_nil, List.dropLast_append_getLast hnil,
      List.map_append]

end

/-! ### an example, and where it fails -/

/-- a scan, and what is appended -/
def grownText : Str := demoHead ++ join p!"\n" [[], p!"#S 1 ascan  th 0 1 2 1", p!"#D Wed Jun 16 18:24:36 2010",
  p!"#N 2", p!"#L two theta  I0", p!"0.5 1", p!"1.5 3", []]
def grownMore : Str := join p!"\n" [p!"#E 20", p!"#D Thu Jun 17 18:24:00 2010", p!"#C more", [], p!"#S 1 ascan  th 0 1 2 1",
  p!"#D Thu Jun 17 18:24:36 2010", p!"#N 2", p!"#L chi  I0", p!"5 10", []]

theorem plainOne : PlainText (Ref.int 1).text := by
  intro c hc
  have : c = '1' := by simpa [Ref.text, show intStr 1 = ['1'] from rfl] using hc
  subst this
  decide

/-- C108: the hypotheses are met by these two files: the entries of scan 1 are the same; the scan with the same number in the
second part is 1.1. -/
theorem C108_nonvacuous : letI : UniDB := asciiDB
    ∃ s s' texts rest x a a', openText grownText = .ok s ∧ openText (grownText ++ grownMore) = .ok s' ∧
      dissectFile (.file (some grownText)) = .ok texts ∧
      dissectFile (.file (some (grownText ++ grownMore))) = .ok (texts ++ rest) ∧ rest.length = 2 ∧
      (∀ t ∈ rest, isHeaderText t = true → ∀ l ∈ splitlines t, hKind .P l = false) ∧ Savable s ∧ Savable s' ∧
      Positive (Ref.int 1).text ∧ PlainText (Ref.int 1).text ∧ s.getScan (.int 1) = .ok (some x) ∧
      OnItsOwn saveEnv HKey.all s x ∧ rootAttributes saveVersions s = .ok a ∧ rootAttributes saveVersions s' = .ok a' ∧
      s'.scans.keys = [p!"1", p!"1.1"] ∧ (save saveEnv HKey.all saveVersions [.int 1] s).2 = none := by
  letI : UniDB := asciiDB
  have hd : (match openText grownText, openText (grownText ++ grownMore) with
    | .ok s, .ok s' => savableB s && savableB s' && decide (s'.scans.keys = [p!"1", p!"1.1"]) &&
      decide ((save saveEnv HKey.all saveVersions [.int 1] s).2 = none) &&
      (match s.getScan (.int 1), rootAttributes saveVersions s, rootAttributes saveVersions s' with
       | .ok (some x), .ok _, .ok _ => onItsOwnB saveEnv HKey.all s x
       | _, _, _ => false)
    | _, _ => false) = true := by decide +kernel
  have hsec : (match dissectFile (.file (some grownText)), dissectFile (.file (some (grownText ++ grownMore))) with
    | .ok texts, .ok texts' => decide (texts' = texts ++ texts'.drop texts.length) && decide ((texts'.drop texts.length).length = 2) &&
      (texts'.drop texts.length).all (fun t => !isHeaderText t || (splitlines t).all (fun l => !(hKind .P l)))
    | _, _ => false) = true := by decide +kernel
  cases h1 : openText grownText with
  | error e => rw [h1] at hd; simp at hd
  | ok s =>
    cases h2 : openText (grownText ++ grownMore) with
    | error e => rw [h1, h2] at hd; simp at hd
    | ok s' =>
      rw [h1, h2] at hd
      simp only [Bool.and_eq_true, decide_eq_true_eq] at hd
      obtain ⟨⟨⟨⟨a1, a2⟩, a3⟩, a4⟩, a5⟩ := hd
      cases h3 : dissectFile (.file (some grownText)) with
      | error e => rw [h3] at hsec; simp at hsec
      | ok texts =>
        cases h4 : dissectFile (.file (some (grownText ++ grownMore))) with
        | error e => rw [h3, h4] at hsec; simp at hsec
        | ok texts' =>
          rw [h3, h4] at hsec
          simp only [Bool.and_eq_true, decide_eq_true_eq, List.all_eq_true, Bool.or_eq_true, Bool.not_eq_true'] at hsec
          obtain ⟨⟨b1, b2⟩, b3⟩ := hsec
          cases h5 : s.getScan (.int 1) with
          | error e => rw [h5] at a5; simp at a5
          | ok o =>
            cases o with
            | none => rw [h5] at a5; simp at a5
            | some x =>
              cases h6 : rootAttributes saveVersions s with
              | error e => rw [h5, h6] at a5; simp at a5
              | ok a =>
                cases h7 : rootAttributes saveVersions s' with
                | error e => rw [h5, h6, h7] at a5; simp at a5
                | ok a' =>
                  rw [h5, h6, h7] at a5
                  refine ⟨s, s', texts, texts'.drop texts.length, x, a, a', rfl, rfl, rfl, by rw [← b1], b2, ?_, savable_of_b a1,
                    savable_of_b a2, ⟨1, by decide +kernel, by decide +kernel⟩, plainOne, h5, onItsOwn_of_b a5, h6, h7, a3, a4⟩
                  intro t ht hh l hl
                  rcases b3 t ht with q | q
                  · rw [hh] at q; cases q
                  · exact q l hl

/-- the rows of positions that the user sees as the attribute `P` of scan 1, after opening a file with this text -/
def rowsOfOne [UniDB] (t : Str) : Option (List (List Str)) :=
  match openText t with
  | .ok s => (match s.getScan (.int 1) with
    | .ok (some x) => (interpretScan saveEnv HKey.all ⟨x, s.headerOf x⟩).1.scan.P
    | _ => none)
  | .error _ => none

def growP : Str := demoHead ++ join p!"\n" [[], p!"#O0 th  chi", p!"#S 1 ascan  th 0 1 2 1", p!"#D Wed Jun 16 18:24:36 2010",
  p!"#P0 1 2", p!"#N 2", p!"#L two theta  I0", p!"0.5 1", p!"1.5 3", []]
def growPMore : Str := join p!"\n" [p!"#E 20", p!"#D Thu Jun 17 18:24:00 2010", p!"#C more", p!"#P0 7 8", []]

/-- C108: the condition on the lines of the appended headers is needed: a #P line in such a header is added to the scan before
it. -/
theorem C108_P_lines_matter : letI : UniDB := asciiDB
    rowsOfOne growP = some [[p!"1", p!"2"]] ∧
      rowsOfOne (growP ++ growPMore) = some [[p!"1", p!"2"], [p!"7", p!"8"]] := by
  constructor <;> decide +kernel

end S2N.Props
