import Verif.Lemmas.Stored
import Verif.Props.OpensRead
import Verif.Props.Last
import Verif.Props.Plot
import Verif.Props.Arrive
/-
What an interpreted header or scan has for its writers (for C95).
-/
namespace S2N.Props
open S2N S2N.Py S2N.Spec

theorem forEach_keep {α σ : Type} (f : α → σ → Res σ) (P : σ → Prop) : ∀ (as : List α), (∀ a ∈ as, ∀ s, P s → (f a s).2 = none → P (f a s).1) →
    ∀ (s : σ), P s → (forEach f as s).2 = none → P (forEach f as s).1
  | [], _, _, hs, _ => hs
  | a :: as, h, s, hs, hok => by
    obtain ⟨h1, h2, h3⟩ := forEach_cons_ok hok
    rw [h2]
    exact forEach_keep f P as (fun b hb => h b (by simp [hb])) _ (h a (by simp) s hs h1) h3

section
variable [UniDB] (env : Env) (reg : List HKey) (hr : reg.Perm HKey.all)

include hr in
theorem stored_scan {c : ScanCtx} (hf : Calm c.scan) (hok : (interpretScan env reg c).2 = none)
    (hl : ∀ l ∈ scanLines c.scan.raw, LineSaves (isKind · l) l) : Stored (interpretScan env reg c).1.scan := by
  obtain ⟨c1, c2, e1, e2, e3⟩ := interpret_ok env reg c (fresh_interpreted hf.1) hok
  have h1 := forEach_keep (scanLine env reg) (fun d : ScanCtx => Stored d.scan) (scanLines c.scan.raw) (by
    intro l hm d hd _
    rw [scanLine_eq]
    cases hk : effKey reg l with
    | none => exact hd
    | some k =>
      refine ps_stored env k l d ?_ hd
      have key : k ≠ .S → k ≠ .unrec → isKind k l = true := fun a b => (effKey_iff reg hr l (scanLines_no_nl _ l hm) k a b).1 hk
      have hs := hl l hm
      refine ⟨?_, ?_, ?_, ?_⟩
      · rintro rfl; exact hs.monitor (key (by simp) (by simp))
      · rintro rfl; exact hs.time (key (by simp) (by simp))
      · rintro (rfl | rfl)
        · exact hs.names (.inl (key (by simp) (by simp)))
        · exact hs.names (.inr (key (by simp) (by simp)))
      · intro h
        refine va_key (k := k) (key ?_ ?_) h
        · rintro rfl; simp at h
        · rintro rfl; simp at h) ⟨{ c.scan with lazy := false }, c.hdr⟩
    ((stored_fresh hf).same (RegMore.refl _ _) rfl rfl rfl rfl rfl rfl rfl rfl rfl rfl) (by rw [e1])
  rw [e1] at h1
  have h2 := forEach_keep (runPost env) (fun d : ScanCtx => Stored d.scan) c1.scan.post.values (fun f _ d hd _ => pp_stored env f d hd) c1 h1 (by rw [e2])
  rw [e2] at h2
  rw [e3]
  have h2 : Stored c2.scan := h2
  exact h2.same (RegMore.refl _ _) rfl rfl rfl rfl rfl rfl rfl rfl rfl rfl

include hr in
theorem stored_header {c : HCtx} (hf : FreshHeader c.hdr) (hok : (interpretHeader env reg c).2 = none)
    (hfl : ∀ l ∈ splitlines c.hdr.raw, ∀ a, l.head? = some a → isSpace a = false)
    (hl : ∀ l ∈ splitlines c.hdr.raw, LineSaves (hKind · l) l) : Stored (interpretHeader env reg c).1.hdr := by
  obtain ⟨c1, c2, e1, e2, e3⟩ := hinterpret_ok env reg c hok
  have h0 : Stored c.hdr := by
    obtain ⟨_, _, _, e⟩ := hf
    rw [e]
    refine ⟨?_, ?_, ?_, ?_, ?_, ?_, ?_, ?_, ?_, ?_⟩
    all_goals intro m; try intro hm; cases hm
    all_goals simp [Obj.newHeader, Dict.values] at m
  have h1 := forEach_keep (hdrLine env reg) (fun d : HCtx => Stored d.hdr) (splitlines c.hdr.raw) (by
    intro l hm d hd hk
    rw [hdrLine_eq env reg l d hk]
    cases hk : hEff reg l with
    | none => exact hd
    | some k =>
      have key : k ≠ .E → k ≠ .unrec → hKind k l = true := fun a b => (hEff_iff reg hr l (splitlines_no_nl _ l hm) k a b).1 hk
      have hs := hl l hm
      have hls : LineStored k l := by
        refine ⟨?_, ?_, ?_, ?_⟩
        · rintro rfl; exact hs.monitor (key (by simp) (by simp))
        · rintro rfl; exact hs.time (key (by simp) (by simp))
        · rintro (rfl | rfl)
          · exact hs.names (.inl (key (by simp) (by simp)))
          · exact hs.names (.inr (key (by simp) (by simp)))
        · intro h
          refine va_key (k := k) ?_ h
          rw [← hKind_flush (hfl l hm)]
          refine key ?_ ?_
          · rintro rfl; simp at h
          · rintro rfl; simp at h
      simp only [procHdr]
      split
      · split <;> exact hd
      · exact po_stored env _ l d.hdr hls hd) c h0 (by rw [e1])
  rw [e1] at h1
  have h2 := forEach_keep (fun f => HCtx.onHdr (runPostHdr env f)) (fun d : HCtx => Stored d.hdr) c1.hdr.post.values (fun f _ d hd _ => ph_stored env f d.hdr hd) c1 h1 (by rw [e2])
  rw [e2] at h2
  rw [e3]
  exact h2

omit [UniDB] in
/-- a pair of a dictionary is one of the pairs it was made of -/
theorem _root_.S2N.Spec.LastWins.mem {α : Type} {d : Dict α} {ps : List (Str × α)} (h : LastWins d ps) {kv : Str × α} (hm : kv ∈ d) : kv ∈ ps := by
  obtain ⟨k, v⟩ := kv
  have hn : d.keys.Nodup := by rw [h.order]; exact firstOcc_nodup _
  have h1 := (Dict.mem_iff_get? d hn k v).1 hm
  rw [h.value] at h1
  have key : ∀ l : List (Str × α), List.lookup k l = some v → (k, v) ∈ l := by
    intro l
    induction l with
    | nil => intro h; simp at h
    | cons p l ih =>
      intro h
      obtain ⟨a, b⟩ := p
      rw [List.lookup_cons] at h
      split at h
      · next he =>
        have he : k = a := by simpa using he
        subst he
        cases h; simp
      · exact List.mem_cons_of_mem _ (ih h)
  exact List.mem_reverse.1 (key _ h1)

omit [UniDB] in
theorem _root_.S2N.Spec.LastWins.key {α : Type} {d : Dict α} {ps : List (Str × α)} (h : LastWins d ps) {k : Str} (hm : k ∈ d.keys) : k ∈ ps.map (·.1) := by
  rw [h.order, firstOcc_mem] at hm
  exact hm

include hr in
/-- the dates of an interpreted scan can be read -/
theorem dated_scan (hc : ClockReads env) {c : ScanCtx} (hf : Fresh c.scan) (hok : (interpretScan env reg c).2 = none)
    (hl : ∀ l ∈ scanLines c.scan.raw, LineFits env l) (hd : ∃ tm, strptimeSpec c.scan.date = some tm) :
    ∃ tm, strptimeSpec (interpretScan env reg c).1.scan.date = some tm := by
  obtain ⟨c1, c2, e1, e2, e3⟩ := interpret_ok env reg c (fresh_interpreted hf) hok
  have h1 := forEach_keep (scanLine env reg) (fun d : ScanCtx => ∃ tm, strptimeSpec d.scan.date = some tm) (scanLines c.scan.raw) (by
    intro l hm d hd hk0
    rw [scanLine_eq] at hk0 ⊢
    cases hk : effKey reg l with
    | none => exact hd
    | some k =>
      rw [hk] at hk0
      have hk0 : (procScan env k l d).2 = none := hk0
      by_cases hD : k = .D
      · subst hD
        have hfit := (hl l hm).date ((effKey_iff reg hr l (scanLines_no_nl _ l hm) .D (by simp) (by simp)).1 hk)
        have e : ∃ tm, strptimeSpec (procDate env l d.scan).1.date = some tm := by
          rcases hfit with ⟨hs, f, n, h1, h2, ⟨s, h3⟩, h4⟩ | ⟨hs, tm, e, h1, h2, h3⟩
          · obtain ⟨tm, htm⟩ := hc f s h3
            refine ⟨tm, ?_⟩
            unfold procDate
            simp only [(splitC_length _).2 hs, if_true, h1, h2, h3, Res.eval]
            exact htm
          · have hl : ¬ (splitC ' ' (stripFirstWord l)).length = 1 := fun h => (splitC_length _).1 h hs
            refine ⟨tm, ?_⟩
            unfold procDate
            cases hx : d.scan.epoch with
            | some e' => simp only [hl, if_false]; exact h1
            | none => simp only [hl, if_false, h1, h2, Res.eval]; exact h1
        obtain ⟨tm, htm⟩ := e
        refine ⟨tm, ?_⟩
        rw [← htm]
        show strptimeSpec ((onScan (procDate env l) d).andThen (dateHdr env)).1.scan.date = _
        unfold Res.andThen
        split
        · rw [dateHdr_scan]; rfl
        · rfl
      · have := ps_date env k l d hD
        show ∃ tm, strptimeSpec (procScan env k l d).1.scan.date = some tm
        rw [this]; exact hd) ⟨{ c.scan with lazy := false }, c.hdr⟩ hd (by rw [e1])
  rw [e1] at h1
  have h2 := forEach_pres (runPost env) (fun d : ScanCtx => d.scan.date) c1.scan.post.values (fun f _ d => pp_date env f d) c1
  rw [e2] at h2
  rw [e3]
  have h2 : c2.scan.date = c1.scan.date := h2
  show ∃ tm, strptimeSpec c2.scan.date = some tm
  rw [h2]; exact h1

theorem g_key {l : Str} (h : isKind .G l = true) : lstripC '#' ((splitWs l).headD []) ≠ [] := by
  obtain ⟨w0, rest, e, -, -, h1⟩ := isKind_lead h
  have h2 : ∃ r, w0 = '#' :: 'G' :: r := by
    simp only [wordIs, Bool.or_eq_true, beq_iff_eq] at h1
    rcases h1 with h1 | h1
    · rw [h1]; exact ⟨_, rfl⟩
    · have h1 : (startsWith w0 p!"#G" && !(w0.drop 2).isEmpty && (w0.drop 2).all isDecU) = true := h1
      rw [Bool.and_eq_true, Bool.and_eq_true] at h1
      obtain ⟨⟨h1, -⟩, -⟩ := h1
      rw [startsWith_iff] at h1
      obtain ⟨r, rfl⟩ := h1
      exact ⟨_, rfl⟩
  obtain ⟨r, rfl⟩ := h2
  obtain ⟨u, ws, h3⟩ := splitWs_two '#' 'G' (r ++ ' ' :: rest) (lstrip_head (l := l) e) (by decide)
  rw [← splitWs_lstrip, e]
  have h4 : splitWs (('#' :: 'G' :: r) ++ ' ' :: rest) = ('#' :: 'G' :: u) :: ws := h3
  rw [h4]
  simp [lstripC]

include hr in
theorem geometry_scan {c : ScanCtx} (hf : Fresh c.scan) (hok : (interpretScan env reg c).2 = none) (hne : ofKind .G (scanLines c.scan.raw) ≠ [])
    (hg : GeometryFits c.hdr (scanLines c.scan.raw)) : GeometryOk (interpretScan env reg c).1.scan := by
  constructor
  · obtain ⟨d, h1, h2⟩ := C29_G env reg hr c hf hok
    refine ⟨d, h1, ?_⟩
    intro kv hkv
    obtain ⟨l, hl, e⟩ := List.mem_map.1 (h2.mem hkv)
    subst e
    refine ⟨g_key (List.mem_filter.1 hl).2, ?_⟩
    intro w hw
    obtain ⟨q, hq⟩ := hg.numbers l hl w hw
    exact ⟨_, hq⟩
  · obtain ⟨l, hl⟩ := List.exists_mem_of_ne_nil _ hne
    obtain ⟨hl1, hl2⟩ := List.mem_filter.1 hl
    obtain ⟨c1, c', -, -, h2, h3⟩ := interp_post env reg hr .geometry (by simp [soleLabel]) (fun d => d.scan.diff) (fun _ => ())
      (fun f d h => pp_diff env f d h) (fun _ _ _ => rfl) (fun _ _ => rfl) c hf hok ⟨l, hl1, .G, rfl, hl2⟩
    have h3 : (interpretScan env reg c).1.scan.diff = (runPost env .geometry c').1.scan.diff := h3
    rw [h3]
    revert h2
    simp only [runPost, postGeometry, Res.eval]
    repeat' split
    all_goals intro h; first | (cases h; done) | simp [Res.ok]

theorem mapE_len {α β : Type} (f : α → Except PyErr β) : ∀ (l : List α) (bs : List β), mapE f l = .ok bs → bs.length = l.length
  | [], bs, h => by cases h; rfl
  | a :: as, bs, h => by
    unfold mapE at h
    split at h
    · cases h
    · split at h
      · cases h
      · next e => cases h; simp [mapE_len f as _ e]

/-- with a #G1 line there is a unit cell -/
theorem geoPost_lattice {s : DScan} {d : Diff} {row : Str} (h : geoPost s = .ok d) (hG : (s.G.getD []).get? p!"G1" = some row)
    (hw : 2 ≤ (splitWs row).length) : d.lattice ≠ none := by
  unfold geoPost at h
  split at h
  · cases h
  · next n hn =>
    split at h
    · next d' e =>
      cases h
      generalize s.G.getD [] = G at hG e
      unfold Diff.parse at e
      split at e
      · cases e
      · next gonio hg =>
        generalize hp0 : parseG0 gonio G (Diff.new n) = r0 at e
        obtain ⟨d0, o0⟩ := r0
        cases o0 with
        | some err => cases e
        | none =>
          rw [Res.andThen_of_none rfl] at e
          generalize hp1 : parseG1 gonio G d0 = r1 at e
          obtain ⟨d1, o1⟩ := r1
          cases o1 with
          | some err => cases e
          | none =>
            rw [Res.andThen_of_none rfl] at e
            have hd1 : d1.lattice ≠ none := by
              unfold parseG1 at hp1
              rw [hG] at hp1
              simp only at hp1
              cases hm : mapE Py.float (splitWs row) with
              | error err => rw [hm] at hp1; cases hp1
              | ok g1 =>
                rw [hm] at hp1
                have hlen := mapE_len _ _ _ hm
                simp only [Res.eval_ok] at hp1
                rw [if_pos (by rw [hlen]; omega)] at hp1
                cases hl : latticeOf (zipDict (gonio.U.getD defaultU) g1) with
                | error err => simp only [hl] at hp1; cases hp1
                | ok l =>
                  simp only [hl, Res.eval_ok] at hp1
                  have hrf : (reflections gonio d0.variant (zipDict (gonio.U.getD defaultU) g1) { d0 with lattice := some l }).1.lattice = some l := by
                    unfold reflections
                    simp only [Res.eval, Res.ok, Res.raise]
                    (repeat' split) <;> rfl
                  generalize reflections gonio d0.variant (zipDict (gonio.U.getD defaultU) g1) { d0 with lattice := some l } = rf at hp1 hrf
                  obtain ⟨d2, o2⟩ := rf
                  cases o2 with
                  | some err => cases hp1
                  | none =>
                    rw [Res.andThen_of_none rfl] at hp1
                    have := congrArg (fun r => r.1.lattice) hp1
                    have hrf : d2.lattice = some l := hrf
                    have this : d2.lattice = d1.lattice := this
                    rw [← this, hrf]; simp
            have h3 : ((parseG3 G d1).1).lattice = d1.lattice := by
              unfold parseG3
              simp only [Res.eval, Res.ok, Res.raise]
              (repeat' split) <;> rfl
            generalize parseG3 G d1 = r3 at e h3
            obtain ⟨d3, o3⟩ := r3
            cases o3 with
            | some err => cases e
            | none =>
              rw [Res.andThen_of_none rfl] at e
              have h4 : ((parseG4 gonio G d3).1).lattice = d3.lattice := by
                unfold parseG4
                simp only [Res.eval, Res.ok, Res.raise]
                (repeat' split) <;> rfl
              have e : parseG4 gonio G d3 = (d, none) := e
              rw [e] at h4
              have h4 : d.lattice = d3.lattice := h4
              have h3 : d3.lattice = d1.lattice := h3
              rw [h4, h3]; exact hd1
    · cases h

include hr in
/-- a scan with a #G1 line has a sample -/
theorem sample_scan {c : ScanCtx} (hf : Fresh c.scan) (h0 : c.scan.h5.get? p!"diffractometer geometry" = none) (hok : (interpretScan env reg c).2 = none) (h1 : ∃ l ∈ ofKind .G (scanLines c.scan.raw), gName l = p!"G1")
    (h2 : ∀ l ∈ ofKind .G (scanLines c.scan.raw), gName l = p!"G1" → 2 ≤ (wordsOf l).length) :
    .geometry ∈ (interpretScan env reg c).1.scan.h5.values ∧ HasSample (interpretScan env reg c).1.scan := by
  obtain ⟨G, g1, g2⟩ := C29_G env reg hr c hf hok
  obtain ⟨l, hl, hn⟩ := h1
  obtain ⟨hl1, hl2⟩ := List.mem_filter.1 hl
  have hkey : p!"G1" ∈ G.keys := by
    rw [g2.order, firstOcc_mem]
    rw [List.map_map]
    exact List.mem_map.2 ⟨l, hl, hn⟩
  obtain ⟨row, hrow⟩ : ∃ row, G.get? p!"G1" = some row := by
    cases hg : G.get? p!"G1" with
    | some row => exact ⟨row, rfl⟩
    | none => exact absurd hkey ((Dict.get?_eq_none_iff G _).1 hg)
  have hlen : 2 ≤ (splitWs row).length := by
    obtain ⟨l', hl', e⟩ := List.mem_map.1 (g2.mem (Dict.mem_of_get? hrow))
    have e1 : gName l' = p!"G1" := congrArg Prod.fst e
    have e2 : stripFirstWord l' = row := congrArg Prod.snd e
    rw [← e2]
    exact h2 l' hl' e1
  obtain ⟨c1, c', q0, q1, q2, q3⟩ := interp_post env reg hr .geometry (by simp [soleLabel])
    (fun d => (d.scan.diff, d.scan.G, d.scan.h5.get? p!"diffractometer geometry"))
    (fun d => d.scan.h5.get? p!"diffractometer geometry")
    (fun f d h => by simp only [pp_diff env f d h, pp_G env f d, pp_geoWriter env f d h]) (fun f d h => pp_geoWriter env f d h) (fun _ _ => rfl) c hf hok ⟨l, hl1, .G, rfl, hl2⟩
  simp only [Prod.mk.injEq] at q3
  obtain ⟨r1, r2, r3⟩ := q3
  rw [pp_G, g1] at r2
  have hGne : c'.scan.G.getD [] ≠ [] := by
    rw [← r2]
    intro h0
    rw [show G = [] from h0] at hrow
    cases hrow
  constructor
  · have hlines := forEach_pres (scanLine env reg) (fun d : ScanCtx => d.scan.h5.get? p!"diffractometer geometry") (scanLines c.scan.raw) (by
      intro l _ d
      rw [scanLine_eq]
      split
      · rfl
      · exact ps_geoWriter env _ l d) { c with scan := { c.scan with lazy := false } }
    rw [q0] at hlines
    have hlines : c1.scan.h5.get? p!"diffractometer geometry" = c.scan.h5.get? p!"diffractometer geometry" := hlines
    have q1 : c'.scan.h5.get? p!"diffractometer geometry" = c1.scan.h5.get? p!"diffractometer geometry" := q1
    rw [hlines, h0] at q1
    have hw : (runPost env .geometry c').1.scan.h5.get? p!"diffractometer geometry" = some .geometry := by
      show (postGeometry c').1.scan.h5.get? p!"diffractometer geometry" = _
      have hx : (c'.scan.addH5 p!"diffractometer geometry" .geometry).h5.get? p!"diffractometer geometry" = some .geometry := by
        have hh : c'.scan.h5.has p!"diffractometer geometry" = false := by unfold Dict.has; rw [q1]; rfl
        unfold Obj.addH5
        show (c'.scan.h5.setDefault _ _).get? _ = _
        unfold Dict.setDefault
        rw [hh]
        exact Dict.get?_set_self _ _ _
      unfold postGeometry
      rw [if_pos (List.length_pos_iff.2 hGne)]
      simp only [Res.eval, Res.ok, Res.raise]
      split <;> exact hx
    rw [← r3] at hw
    exact (mem_values _ _).2 ⟨_, Dict.mem_of_get? hw⟩
  · have hd : ∃ d, (runPost env .geometry c').1.scan.diff = some d ∧ d.lattice ≠ none := by
      have q2 : (postGeometry c').2 = none := q2
      show ∃ d, (postGeometry c').1.scan.diff = some d ∧ d.lattice ≠ none
      unfold postGeometry at q2 ⊢
      have hxG : (if (c'.scan.G.getD []).length > 0 then c'.scan.addH5 p!"diffractometer geometry" .geometry else c'.scan).G = some G := by
        rw [r2]; split <;> rfl
      generalize (if (c'.scan.G.getD []).length > 0 then c'.scan.addH5 p!"diffractometer geometry" .geometry else c'.scan) = x at hxG q2 ⊢
      simp only at q2 ⊢
      cases hgp : geoPost ⟨c'.hdr.comments, c'.hdr.o, c'.hdr.O, x.positioner.keys, x.G⟩ with
      | error e => rw [hgp] at q2; cases q2
      | ok d =>
        simp only [Res.eval_ok]
        exact ⟨d, rfl, geoPost_lattice hgp (by rw [hxG]; exact hrow) hlen⟩
    obtain ⟨d, e1, e2⟩ := hd
    exact ⟨d, by rw [r1]; exact e1, .inl e2⟩

include hr in
theorem uxml_scan {c : ScanCtx} (hf : Fresh c.scan) (hok : (interpretScan env reg c).2 = none) (hne : ofKind .UXML (scanLines c.scan.raw) ≠ []) :
    ∃ root, env.xmlParse (join ['\n'] ((ofKind .UXML (scanLines c.scan.raw)).map stripFirstWord)) = .ok root ∧
      (interpretScan env reg c).1.scan.uxmlRoot = some root := by
  obtain ⟨l, hl⟩ := List.exists_mem_of_ne_nil _ hne
  obtain ⟨hl1, hl2⟩ := List.mem_filter.1 hl
  obtain ⟨c1, c', e1, h1, h2, h3⟩ := interp_post env reg hr .uxml (by simp [soleLabel]) (fun d => (d.scan.uxmlRoot, d.scan.UXML)) (fun d => d.scan.UXML)
    (fun f d h => by simp only [pp_uxmlRoot env f d h, pp_UXML env f d]) (fun f d _ => pp_UXML env f d) (fun _ _ => rfl) c hf hok ⟨l, hl1, .UXML, rfl, hl2⟩
  have h3 : ((interpretScan env reg c).1.scan.uxmlRoot, (interpretScan env reg c).1.scan.UXML) = ((runPost env .uxml c').1.scan.uxmlRoot, (runPost env .uxml c').1.scan.UXML) := h3
  have hU := C30_UXML env reg hr c hf hok
  rw [if_neg hne] at hU
  obtain ⟨g1, g2⟩ := Prod.mk.inj h3
  rw [g2, pp_UXML] at hU
  rw [g1]
  revert h2
  simp only [runPost, onScan, postUXML, Res.eval, hU, Option.getD_some]
  cases env.xmlParse (join ['\n'] ((ofKind .UXML (scanLines c.scan.raw)).map stripFirstWord)) with
  | error e => intro h; cases h
  | ok root =>
    intro _
    refine ⟨root, rfl, ?_⟩
    simp only
    split <;> rfl

omit [UniDB] in
/-- the spectra of each detector have the same length -/
theorem _root_.S2N.Spec.McaOf.same {ls : List Str} {s : Dict (List (List Num))} (h : McaOf ls s)
    (hl : ∀ l ∈ ls, ∀ l' ∈ ls, mcaName l = mcaName l' → (splitWs l).length = (splitWs l').length) : ∀ kv ∈ s, SameLengths kv.2 := by
  rintro ⟨k, rows⟩ hm
  have hn : s.keys.Nodup := by rw [h.names]; exact firstOcc_nodup _
  have h1 := (Dict.mem_iff_get? s hn k rows).1 hm
  have h2 : k ∈ ls.map mcaName := by
    rw [← firstOcc_mem, ← h.names]
    exact List.mem_map.2 ⟨_, hm, rfl⟩
  obtain ⟨sp, h3, h4⟩ := h.spectra k h2
  rw [h1] at h3
  cases h3
  have len : ∀ {l : Str} {xs : List Num}, SpectrumOf l xs → xs.length = (splitWs l).tail.length := fun h => h.length_eq.symm
  have mem : ∀ l, l ∈ ls.filter (fun l => mcaName l == k) → l ∈ ls ∧ mcaName l = k := by
    intro l hl
    obtain ⟨a, b⟩ := List.mem_filter.1 hl
    exact ⟨a, by simpa using b⟩
  generalize hg : ls.filter (fun l => mcaName l == k) = fl at h4 mem
  cases h4 with
  | nil =>
    obtain ⟨l, hl1, hl2⟩ := List.mem_map.1 h2
    have : l ∈ ls.filter (fun l => mcaName l == k) := List.mem_filter.2 ⟨hl1, by simpa using hl2⟩
    rw [hg] at this; cases this
  | cons ha ht =>
    rename_i a b as bs
    refine ⟨b, bs, rfl, ?_⟩
    intro r' hr'
    obtain ⟨l', hl', hs⟩ : ∃ l' ∈ as, SpectrumOf l' r' := by
      clear hg mem hm h1 h2 h
      induction ht with
      | nil => cases hr'
      | cons hx hy ih =>
        rcases List.mem_cons.1 hr' with rfl | hr'
        · exact ⟨_, by simp, hx⟩
        · obtain ⟨l', p, q⟩ := ih hr'
          exact ⟨l', by simp [p], q⟩
    obtain ⟨m1, m2⟩ := mem a (by simp)
    obtain ⟨m3, m4⟩ := mem l' (by simp [hl'])
    have := hl a m1 l' m3 (m2.trans m4.symm)
    rw [len hs, len ha, List.length_tail, List.length_tail, this]

include hr in
theorem data_scan {c : ScanCtx} (hf : Fresh c.scan) (hok : (interpretScan env reg c).2 = none) (hne : dataLinesOf (scanLines c.scan.raw) ≠ [])
    {header : Str} (hS : ScanSaves env header c.scan) : DataOk (interpretScan env reg c).1.scan := by
  have hD := hS.data hne
  have hcmd : (interpretScan env reg c).1.scan.scanCmd = c.scan.scanCmd := congrArg Ident.scanCmd (interp_ident env reg c)
  have hmac : macroOf (interpretScan env reg c).1.scan = macroOf c.scan := by unfold macroOf; rw [hcmd]
  obtain ⟨labels, names, nm, lines, h1, h2, h3, h4, h5, h6, h7, h8, h9⟩ := interp_data env reg hr c hf hok hne
  obtain ⟨labels', g1, g2, g3⟩ := C21_first_last env reg hr c hf hok
  obtain rfl := statedLabels_unique h1 g1
  obtain ⟨l1, l2⟩ := hD.labels labels h1
  have hmca : p!"_mca_" ∉ names := renamed_mca h3 (fun h => (l2 _ h).2 rfl)
  obtain ⟨rows, sp, a1, a2, a3, a4, a5⟩ := h9 (.inl hmca)
  refine ⟨⟨?_, ?_, ?_, ?_⟩, by rw [hcmd]; exact hS.command, ?_, ?_⟩
  · rw [h2]
    intro l hl
    have hl : l ∈ names := hl
    obtain ⟨i, hi, e⟩ := List.getElem_of_mem hl
    have hi' : i < labels.length := by rw [← h3.length]; exact hi
    have hget : names[i]? = some l := by rw [List.getElem?_eq_getElem hi, e]
    refine ⟨?_, _, a1.column i l hget⟩
    obtain ⟨n, q1, -, -⟩ := h3.name i labels[i] l (List.getElem?_eq_getElem hi') hget
    have q2 := (l2 labels[i] (List.getElem_mem hi')).1
    rw [q1]
    cases n with
    | zero => exact q2
    | succ n => simp [candidate]
  · refine ⟨_, g2, ?_⟩
    obtain ⟨a, as, rfl⟩ := List.exists_cons_of_ne_nil l1
    exact (l2 a (by simp)).1
  · refine ⟨_, g3, ?_⟩
    rw [List.getLast?_eq_getLast_of_ne_nil l1]
    exact (l2 _ (List.getLast_mem l1)).1
  · cases sp with
    | none =>
      refine .inl ((Dict.get?_eq_none_iff _ _).2 ?_)
      rw [a1.keys]
      simpa using hmca
    | some m =>
      refine .inr ⟨m, a1.mca m rfl, ?_⟩
      refine (a5 m rfl).same ?_
      intro l hl l' hl' e
      obtain ⟨b1, b2⟩ := List.mem_filter.1 hl
      obtain ⟨b3, b4⟩ := List.mem_filter.1 hl'
      exact hD.spectra l b1 l' b3 b2 b4 e
  · rintro ⟨m, hm, e⟩
    rw [hmac] at e
    obtain ⟨m, w1, s1, e1, n1, w2, s2, e2, n2, t, i1, i2, c1, c2, c3, c4, c5, c6, c7, c8⟩ := hS.mesh ⟨m, hm, e⟩ hne
    obtain ⟨d1, d2, d3⟩ := c7 labels names h1 h3
    have hkeys : ∀ w, w ≠ p!"_mca_" → ((interpretScan env reg c).1.scan.data.has w = true ↔ w ∈ names) := by
      intro w hw
      rw [Dict.has_iff_mem, a1.keys, List.mem_append]
      constructor
      · rintro (h | h)
        · exact h
        · split at h
          · exact absurd (List.mem_singleton.1 h) hw
          · cases h
      · exact .inl
    have hax : ∀ w i, w ≠ p!"_mca_" → meshAxis (interpretScan env reg c).1.scan w i = axisOf names w i := by
      intro w i hw
      unfold meshAxis axisOf
      rw [h2, Option.getD_some]
      by_cases hm : w ∈ names
      · rw [if_pos hm, if_pos ((hkeys w hw).2 hm)]
      · rw [if_neg hm, if_neg (fun h => hm ((hkeys w hw).1 h))]
    have hsome : ∀ w i, i < 2 → ∃ l, axisOf names w i = some l ∧ l ∈ names := by
      intro w i hi
      unfold axisOf
      split
      · next h => exact ⟨w, rfl, h⟩
      · exact ⟨names[i]'(by omega), List.getElem?_eq_getElem (by omega), List.getElem_mem _⟩
    have hcol : ∀ l ∈ names, ∃ i, (interpretScan env reg c).1.scan.data.get? l = some (.col (rows.map (fun r => r.getD i .nan))) := by
      intro l hl
      obtain ⟨i, hi, e⟩ := List.getElem_of_mem hl
      exact ⟨i, a1.column i l (by rw [List.getElem?_eq_getElem hi, e])⟩
    obtain ⟨l1', b1, b2⟩ := hsome w1 0 (by omega)
    obtain ⟨l2', b3, b4⟩ := hsome w2 1 (by omega)
    obtain ⟨j1, b5⟩ := hcol l1' b2
    obtain ⟨j2, b6⟩ := hcol l2' b4
    have hrows : rows.length = (lines.filter (isCompleteRow names.length)).length := a2.length_eq.symm
    refine ⟨m, w1, s1, e1, n1, w2, s2, e2, n2, t, i1, i2, l1', l2', _, by rw [hcmd]; exact c1, c2, c3, by rw [hax _ _ c5]; exact b1,
      by rw [hax _ _ c6]; exact b3, b5, ⟨_, b6⟩, ?_, ?_, ?_⟩
    · intro hlt
      rw [List.length_map] at hlt
      unfold mcaOf
      cases sp with
      | none =>
        rw [(Dict.get?_eq_none_iff _ _).2]
        rw [a1.keys]
        simpa using hmca
      | some mm =>
        exfalso
        obtain ⟨l, g4, g5, -⟩ := a3.1 rfl
        have := c8 ⟨l, g4, g5⟩ labels nm lines h1 h6 h7
        rw [← h3.length] at this
        omega
    · intro _
      rw [h2]
      refine ⟨by omega, b2, b4, ?_⟩
      rintro rfl
      exact d2 (b1.trans b3.symm)
    · intro hle hst k hk _ _
      rw [hcmd] at hst
      obtain ⟨j, b7⟩ := hcol k (d3 hst k hk)
      rw [List.length_map] at hle
      cases rows with
      | nil => simp at hle; omega
      | cons r rs => exact ⟨_, _, b7⟩
  · rintro ⟨m, hm, e⟩
    rw [hmac] at e
    rw [hcmd]
    exact hS.hkl ⟨m, hm, e⟩

omit [UniDB] in
theorem pairTables_fst {α β : Type} (a : List (List α)) (b : List (List β)) : (pairTables a b).map (·.1) ⊆ a.flatten ∧ (pairTables a b).length ≤ a.flatten.length := by
  unfold pairTables
  induction a generalizing b with
  | nil => simp
  | cons r rs ih =>
    cases b with
    | nil => simp
    | cons q qs =>
      obtain ⟨h1, h2⟩ := ih qs
      rw [List.zip_cons_cons, List.flatMap_cons]
      constructor
      · intro x hx
        rw [List.map_append] at hx
        rcases List.mem_append.1 hx with hx | hx
        · obtain ⟨p, hp, rfl⟩ := List.mem_map.1 hx
          have := List.of_mem_zip (a := p.1) (b := p.2) hp
          rw [List.flatten_cons]
          exact List.mem_append.2 (.inl this.1)
        · rw [List.flatten_cons]
          exact List.mem_append.2 (.inr (h1 hx))
      · simp only [List.length_append, List.length_zip, List.flatten_cons]
        omega

omit [UniDB] in
theorem pairTables_all {α β : Type} : ∀ (a : List (List α)) (b : List (List β)), Covers a b → (pairTables a b).map (·.1) = a.flatten
  | [], _, _ => rfl
  | r :: rs, [], h => by
    obtain ⟨_, h1, -⟩ := h 0 r rfl
    cases h1
  | r :: rs, q :: qs, h => by
    have h0 := pairTables_all rs qs (fun i row hi => h (i + 1) row hi)
    unfold pairTables at h0 ⊢
    rw [List.zip_cons_cons, List.flatMap_cons, List.map_append, h0, List.flatten_cons]
    obtain ⟨row', h1, h2⟩ := h 0 r rfl
    cases h1
    congr 1
    exact List.map_fst_zip h2

omit [UniDB] in
theorem firstOcc_length : ∀ l : List Str, (firstOcc l).length ≤ l.length := by
  intro l
  induction l using List.reverseRecOn with
  | nil => simp [firstOcc]
  | append_singleton l a ih =>
    rw [firstOcc_snoc]
    split
    · simp; omega
    · simp; omega

omit [UniDB] in
theorem firstOcc_of_nodup : ∀ l : List Str, l.Nodup → firstOcc l = l := by
  intro l
  induction l using List.reverseRecOn with
  | nil => intro _; simp [firstOcc]
  | append_singleton l a ih =>
    intro h
    obtain ⟨h1, -, h2⟩ := List.nodup_append.1 h
    rw [firstOcc_snoc, ih h1, if_neg]
    intro hm
    exact h2 a hm a (by simp) rfl

/-- what is known of an interpreted header -/
structure HeadOK (x : Obj) : Prop where
  stored : Stored x
  noDate : .date ∉ x.h5.values ∧ .geometry ∉ x.h5.values
  uxml : .uxml ∈ x.h5.values → DocumentFits x.uxmlRoot
  regs : ∀ f ∈ x.h5.values, f ≠ .unrec → ∃ l ∈ splitlines x.raw, ∃ k, hKind k l = true ∧ k ∉ scanOnly ∧ (lineFn k = some f ∨ (postOf k).map postFn = some f)
  xref : ∀ d, x.positionerXref = some d → hOfKind .o (splitlines x.raw) ≠ [] ∧ (wordTable .o (splitlines x.raw)).flatten.length ≤ d.length

theorem HeadOK.like {a b : Obj} (h : HeadOK a) (hl : HdrLike a b) : HeadOK b := by
  obtain ⟨O, d, e, rfl⟩ := hl
  exact ⟨h.stored.same (RegMore.refl _ _) rfl rfl rfl rfl rfl rfl rfl rfl rfl rfl, h.noDate, h.uxml, h.regs, h.xref⟩

theorem HeadOK.new (name raw : Str) : HeadOK (Obj.newHeader name raw) := by
  refine ⟨?_, ?_, ?_, ?_, ?_⟩
  · refine ⟨?_, ?_, ?_, ?_, ?_, ?_, ?_, ?_, ?_, ?_⟩
    all_goals intro m; try intro hm; cases hm
    all_goals simp [Obj.newHeader, Dict.values] at m
  · simp [Obj.newHeader, Dict.values]
  · simp [Obj.newHeader, Dict.values]
  · simp [Obj.newHeader, Dict.values]
  · intro d h; simp [Obj.newHeader] at h

/-- the header has what its writers need -/
theorem HeadOK.writes {x : Obj} (h : HeadOK x) (y : Obj) : ∀ f ∈ x.h5.values, CanWrite y x f := by
  intro f hf
  have kinds : ∀ f ∈ x.h5.values, f ≠ .unrec → ∃ k, k ∉ scanOnly ∧ (lineFn k = some f ∨ (postOf k).map postFn = some f) := by
    intro f hf hu
    obtain ⟨l, -, k, -, h1, h2⟩ := h.regs f hf hu
    exact ⟨k, h1, h2⟩
  cases f
  case date => exact absurd hf h.noDate.1
  case geometry => exact absurd hf h.noDate.2
  case counterJ => exact h.stored.jx
  case counterj => exact h.stored.jx
  case positionerXref => exact h.stored.ox
  case monitor => exact h.stored.mon hf
  case countTime => exact h.stored.time hf
  case MD => exact h.stored.md
  case VA => exact h.stored.va
  case VD => exact h.stored.vd
  case VE => exact h.stored.ve
  case uxml => exact h.uxml hf
  case positioners =>
    obtain ⟨k, h1, h2⟩ := kinds _ hf (by simp)
    exfalso
    cases k <;> simp [lineFn, postOf, postFn, scanOnly] at h1 h2
  case scanData =>
    obtain ⟨k, h1, h2⟩ := kinds _ hf (by simp)
    exfalso
    cases k <;> simp [lineFn, postOf, postFn, scanOnly] at h1 h2
  case metadata =>
    obtain ⟨k, h1, h2⟩ := kinds _ hf (by simp)
    exfalso
    cases k <;> simp [lineFn, postOf, postFn, scanOnly] at h1 h2
  all_goals trivial

omit [UniDB] in
theorem forall2_fst {α β γ : Type} {as : List (γ × α)} {bs : List (γ × β)} (h : List.Forall₂ (fun a b => a.1 = b.1) as bs) : bs.map (·.1) = as.map (·.1) := by
  induction h with
  | nil => rfl
  | cons h _ ih => simp only [List.map_cons, ih, h]

include hr in
theorem positioners_scan {c : ScanCtx} (hf : Fresh c.scan) (hok : (interpretScan env reg c).2 = none) (hh : HeadOK c.hdr) (hs : HeaderSays c.hdr)
    (hO : (interpretScan env reg c).1.hdr.O = c.hdr.O) (hH : HeaderSaves env c.hdr.raw) :
    CanWrite (interpretScan env reg c).1.hdr (interpretScan env reg c).1.scan .positioners := by
  obtain ⟨-, ⟨ps, h1, h2⟩, -⟩ := C26_positioners env reg hr c hf hok
  rw [hO, hs.O, Option.getD_some] at h1
  have hfst : ps.map (·.1) = (pairTables (namesTable (hOfKind .O (splitlines c.hdr.raw))) ((ofKind .P (scanLines c.scan.raw)).map (fun l => splitWs (stripFirstWord l)))).map (·.1) := by
    exact forall2_fst (h1.imp (fun _ _ h => h.1))
  obtain ⟨q1, q2⟩ := pairTables_fst (namesTable (hOfKind .O (splitlines c.hdr.raw))) ((ofKind .P (scanLines c.scan.raw)).map (fun l => splitWs (stripFirstWord l)))
  refine ⟨?_, ?_⟩
  · intro n hn
    have h3 := h2.key hn
    rw [hfst] at h3
    obtain ⟨row, hrow, hnr⟩ := List.mem_flatten.1 (q1 h3)
    exact hH.names row hrow n hnr
  · intro d hd
    have hx : (interpretScan env reg c).1.hdr.positionerXref = c.hdr.positionerXref := by
      obtain ⟨O, d, e, h⟩ := interp_hdrLike env reg c
      rw [h]
    rw [hx] at hd
    obtain ⟨g1, g2⟩ := hh.xref d hd
    have h4 : (interpretScan env reg c).1.scan.positioner.length ≤ ps.length := by
      have : (interpretScan env reg c).1.scan.positioner.keys.length = (interpretScan env reg c).1.scan.positioner.length := by simp [Dict.keys]
      rw [← this, h2.order]
      refine Nat.le_trans (firstOcc_length _) ?_
      simp
    have h5 : ps.length = (pairTables (namesTable (hOfKind .O (splitlines c.hdr.raw))) ((ofKind .P (scanLines c.scan.raw)).map (fun l => splitWs (stripFirstWord l)))).length := by
      have := congrArg List.length hfst
      simpa using this
    have h6 := (hH.mnemonics g1).2
    omega

include hr in
theorem metadata_scan {c : ScanCtx} (hf : Fresh c.scan) (hok : (interpretScan env reg c).2 = none) (hs : HeaderSays c.hdr)
    (hne : ofKind .V (scanLines c.scan.raw) ≠ []) (hH : HeaderSaves env c.hdr.raw) :
    ∀ k ∈ ((interpretScan env reg c).1.scan.metadata.getD []).keys, k ≠ [] := by
  obtain ⟨-, -, d, h1, h2⟩ := C27_metadata env reg hr c hf hok _ hs.H hne
  rw [h1, Option.getD_some]
  intro k hk
  have h3 := h2.key hk
  rw [List.map_map] at h3
  have h3 := (pairTables_fst _ _).1 h3
  obtain ⟨row, hrow, hn⟩ := List.mem_flatten.1 h3
  obtain ⟨l, hl, rfl⟩ := List.mem_map.1 hrow
  exact hH.labels l hl k hn

include hr in
theorem uxml_header {c : HCtx} (hf : FreshHeader c.hdr) (hok : (interpretHeader env reg c).2 = none) (hm : .uxml ∈ (interpretHeader env reg c).1.hdr.h5.values) :
    hOfKind .UXML (splitlines c.hdr.raw) ≠ [] ∧
    ∃ root, env.xmlParse (join ['\n'] ((hOfKind .UXML (splitlines c.hdr.raw)).map stripFirstWord)) = .ok root ∧ (interpretHeader env reg c).1.hdr.uxmlRoot = some root := by
  have hne : hOfKind .UXML (splitlines c.hdr.raw) ≠ [] := by
    obtain ⟨l, hl, k, hk, h⟩ := regs_header env reg hr c hf hok .uxml (by simp) hm
    have : k = .UXML := by cases k <;> simp [lineFn, postOf, postFn] at h <;> rfl
    subst this
    exact List.ne_nil_of_mem (List.mem_filter.2 ⟨hl, hk⟩)
  refine ⟨hne, ?_⟩
  obtain ⟨c1, c2, e1, e2, e3⟩ := hinterpret_ok env reg c hok
  have hux : c1.hdr.UXML = some ((hOfKind .UXML (splitlines c.hdr.raw)).map stripFirstWord) := by
    have h := hlines_kind env reg hr .UXML (by simp) (by simp) (by simp) (·.UXML)
      (fun l b => some (b.getD [] ++ [stripFirstWord l])) (fun t x _ => rfl)
      (fun k t x hk => po_UXML env k t x hk) (splitlines c.hdr.raw) (splitlines_no_nl _) c (by rw [e1])
    rw [e1] at h
    have h00 : c.hdr.UXML = none := by obtain ⟨_, _, _, e⟩ := hf; rw [e]; rfl
    rw [foldl_opt_append, h00, if_neg hne] at h
    exact h
  have hno : .uxml ∉ c1.hdr.h5.values := by
    have := forEach_keep (hdrLine env reg) (fun d : HCtx => .uxml ∉ d.hdr.h5.values) (splitlines c.hdr.raw) (by
      intro l _ d hd hk
      rw [hdrLine_eq env reg l d hk]
      cases hEff reg l with
      | none => exact hd
      | some k =>
        simp only [procHdr]
        split
        · split <;> exact hd
        · intro hm
          rcases po_reg env _ l d.hdr _ hm with h | h
          · exact hd h
          · cases k <;> simp [lineFn] at h) c (by obtain ⟨_, _, _, e⟩ := hf; rw [e]; simp [Obj.newHeader, Dict.values]) (by rw [e1])
    rw [e1] at this
    exact this
  have h2 := forEach_keep (fun f => HCtx.onHdr (runPostHdr env f))
    (fun d : HCtx => d.hdr.UXML = some ((hOfKind .UXML (splitlines c.hdr.raw)).map stripFirstWord) ∧ (.uxml ∈ d.hdr.h5.values →
      ∃ root, env.xmlParse (join ['\n'] ((hOfKind .UXML (splitlines c.hdr.raw)).map stripFirstWord)) = .ok root ∧ d.hdr.uxmlRoot = some root))
    c1.hdr.post.values (by
      intro f _ d hd hk
      refine ⟨(ph_rest env f d.hdr).1.trans hd.1, ?_⟩
      by_cases hfu : f = .uxml
      · subst hfu
        intro _
        revert hk
        simp only [HCtx.onHdr, runPostHdr, postUXML, Res.eval, hd.1, Option.getD_some]
        cases env.xmlParse (join ['\n'] ((hOfKind .UXML (splitlines c.hdr.raw)).map stripFirstWord)) with
        | error e => intro h; cases h
        | ok root =>
          intro _
          refine ⟨root, rfl, ?_⟩
          simp only
          split <;> rfl
      · intro hm
        have hroot : (runPostHdr env f d.hdr).1.uxmlRoot = d.hdr.uxmlRoot := by
          cases f
          case uxml => exact absurd rfl hfu
          all_goals
            simp only [runPostHdr, counterXref, positionerXref, Res.andThen, Res.ok, Obj.addH5]
            (repeat' split) <;> simp
        have hm : .uxml ∈ (runPostHdr env f d.hdr).1.h5.values := hm
        show ∃ root, _ ∧ (runPostHdr env f d.hdr).1.uxmlRoot = some root
        rw [hroot]
        rcases ph_reg env f d.hdr _ hm with h | h
        · exact hd.2 h
        · cases f <;> simp [postFn] at h
          exact absurd rfl hfu) c1 ⟨hux, fun h => absurd h hno⟩ (by rw [e2])
  rw [e2] at h2
  rw [e3] at hm ⊢
  exact h2.2 hm

theorem relative_noSlash {w : Str} (h : NoSlash w) : Relative w := by
  obtain ⟨-, -, h⟩ := h
  unfold Relative
  cases w with
  | nil => rfl
  | cons a w =>
    cases hb : startsWith (a :: w) p!"/" with
    | false => rfl
    | true =>
      obtain ⟨u, hu⟩ := (startsWith_iff _ _).1 hb
      cases hu
      simp at h

include hr in
theorem head_ok (hx : SchemaNames env) {c : HCtx} (hf : FreshHeader c.hdr) (hd : HdrOk c.hdr) (hok : (interpretHeader env reg c).2 = none) (hH : HeaderFits env c.hdr.raw)
    (hS : HeaderSaves env c.hdr.raw) : HeadOK (interpretHeader env reg c).1.hdr := by
  have hraw : (interpretHeader env reg c).1.hdr.raw = c.hdr.raw := by
    have := interpretHeader_ident env reg c
    simp only [hctxIdent, Prod.mk.injEq] at this
    exact congrArg Ident.raw this.1
  have hP : ∀ l ∈ splitlines c.hdr.raw, hKind .P l = false := fun l hl => hH.kinds l hl .P (by decide)
  have hw := ((nop_interpret env reg hr c hok hP).2 hx (fun l hl hk w hw => (hS.lines l hl).names hk w hw |> relative_noSlash) hd).writers
  refine ⟨stored_header env reg hr hf hok hH.flush hS.lines, ?_, ?_, ?_, ?_⟩
  · exact ⟨fun h => (by cases hw.date (.inl h)), fun h => (by cases hw.date (.inr h))⟩
  · intro hm
    obtain ⟨h1, root, h2, h3⟩ := uxml_header env reg hr hf hok hm
    rw [h3]
    exact hS.uxml root h1 h2
  · intro f hm hu
    obtain ⟨l, hl, k, hk, h⟩ := regs_header env reg hr c hf hok f hu hm
    rw [hraw]
    refine ⟨l, hl, k, hk, ?_, h⟩
    intro hs; rw [hH.kinds l hl k hs] at hk; cases hk
  · intro d hd
    rw [hraw]
    have hkey := hw.positioners (by rw [hd]; simp)
    obtain ⟨p, hp, hpk⟩ := List.mem_map.1 hkey
    have hpv : p.2 = .positionerXref := by
      have := hw.label p hp
      rw [hpk] at this
      cases h : p.2 <;> rw [h] at this <;> first | rfl | (exfalso; revert this; decide)
    obtain ⟨l, hl, k, hk, h⟩ := regs_header env reg hr c hf hok .positionerXref (by simp) ((mem_values _ _).2 ⟨p.1, by rw [← hpv]; exact hp⟩)
    have : k = .o := by cases k <;> simp [lineFn, postOf, postFn] at h <;> rfl
    subst this
    have hne : hOfKind .o (splitlines c.hdr.raw) ≠ [] := List.ne_nil_of_mem (List.mem_filter.2 ⟨hl, hk⟩)
    refine ⟨hne, ?_⟩
    obtain ⟨g1, d', g2, g3⟩ := C31_positioners env reg hr c hf hok hne
    rw [hd] at g2
    cases g2
    have h1 : d.length = d.keys.length := by simp [Dict.keys]
    rw [h1, g3.order, pairTables_all _ _ g1]
    have h2 := firstOcc_of_nodup _ (hS.mnemonics hne).1
    exact Nat.le_of_eq (congrArg List.length h2).symm

omit [UniDB] in
theorem group_label {f g : H5Fn} (e : labelOf f = labelOf g) : f = g ∨ (f = .counterJ ∧ g = .counterj) ∨ (f = .counterj ∧ g = .counterJ) := by
  cases f <;> cases g <;> first | exact .inl rfl | exact .inr (.inl ⟨rfl, rfl⟩) | exact .inr (.inr ⟨rfl, rfl⟩) | (exfalso; revert e; decide)

omit [UniDB] in
theorem group_pairs (f : H5Fn) (hf : f ∈ groupWriters) (k : HKey) (hk : k ∉ scanOnly) (h : lineFn k = some f ∨ (postOf k).map postFn = some f) :
    ∃ gr ∈ [[HKey.J, .j], [.o], [.MD], [.UXML], [.VA], [.VD], [.VE]], k ∈ gr ∧ ∀ g, labelOf f = labelOf g → ∀ k',
      (lineFn k' = some g ∨ (postOf k').map postFn = some g) → k' ∈ gr := by
  have key : ∀ gr : List HKey, gr ∈ [[HKey.J, .j], [.o], [.MD], [.UXML], [.VA], [.VD], [.VE]] → k ∈ gr →
      (∀ g, (f = g ∨ (f = .counterJ ∧ g = .counterj) ∨ (f = .counterj ∧ g = .counterJ)) → ∀ k', (lineFn k' = some g ∨ (postOf k').map postFn = some g) → k' ∈ gr) →
      ∃ gr ∈ [[HKey.J, .j], [.o], [.MD], [.UXML], [.VA], [.VD], [.VE]], k ∈ gr ∧ ∀ g, labelOf f = labelOf g → ∀ k',
        (lineFn k' = some g ∨ (postOf k').map postFn = some g) → k' ∈ gr :=
    fun gr h1 h2 h3 => ⟨gr, h1, h2, fun g e => h3 g (group_label e)⟩
  cases k <;> simp [lineFn, postOf, postFn] at h <;> subst h <;> first | (exfalso; revert hk; decide) | (exfalso; revert hf; decide) | skip
  case J => exact key [.J, .j] (by simp) (by simp) (by intro g hg k' h; rcases hg with rfl | ⟨-, rfl⟩ | ⟨-, rfl⟩ <;> cases k' <;> simp [lineFn, postOf, postFn] at h ⊢)
  case j => exact key [.J, .j] (by simp) (by simp) (by intro g hg k' h; rcases hg with rfl | ⟨-, rfl⟩ | ⟨-, rfl⟩ <;> cases k' <;> simp [lineFn, postOf, postFn] at h ⊢)
  case o => exact key [.o] (by simp) (by simp) (by intro g hg k' h; rcases hg with rfl | ⟨e, -⟩ | ⟨e, -⟩; (cases k' <;> simp [lineFn, postOf, postFn] at h ⊢); all_goals cases e)
  case MD => exact key [.MD] (by simp) (by simp) (by intro g hg k' h; rcases hg with rfl | ⟨e, -⟩ | ⟨e, -⟩; (cases k' <;> simp [lineFn, postOf, postFn] at h ⊢); all_goals cases e)
  case UXML => exact key [.UXML] (by simp) (by simp) (by intro g hg k' h; rcases hg with rfl | ⟨e, -⟩ | ⟨e, -⟩; (cases k' <;> simp [lineFn, postOf, postFn] at h ⊢); all_goals cases e)
  case VA => exact key [.VA] (by simp) (by simp) (by intro g hg k' h; rcases hg with rfl | ⟨e, -⟩ | ⟨e, -⟩; (cases k' <;> simp [lineFn, postOf, postFn] at h ⊢); all_goals cases e)
  case VD => exact key [.VD] (by simp) (by simp) (by intro g hg k' h; rcases hg with rfl | ⟨e, -⟩ | ⟨e, -⟩; (cases k' <;> simp [lineFn, postOf, postFn] at h ⊢); all_goals cases e)
  case VE => exact key [.VE] (by simp) (by simp) (by intro g hg k' h; rcases hg with rfl | ⟨e, -⟩ | ⟨e, -⟩; (cases k' <;> simp [lineFn, postOf, postFn] at h ⊢); all_goals cases e)

include hr in
theorem canSave_scan (hc : ClockReads env) {c : ScanCtx} (hf : Calm c.scan) (hd : ∃ tm, strptimeSpec c.scan.date = some tm) (hs : HeaderSays c.hdr) (hh : HeadOK c.hdr)
    (ht : HdrTime env c.hdr) (hfit : ScanFits env c.hdr c.scan) (hH : HeaderSaves env c.hdr.raw) (hS : ScanSaves env c.hdr.raw c.scan) :
    CanSave (interpretScan env reg c).1.hdr (interpretScan env reg c).1.scan := by
  have hok := C92_interprets env reg hr hfit hf.1
  obtain ⟨s1, s2, s3⟩ := interp_hdr_says env reg hr hs ht hf.1 hfit
  have hlike := interp_hdrLike env reg c
  have hh' := hh.like hlike
  have hst := stored_scan env reg hr hf hok hS.lines
  have hO : (interpretScan env reg c).1.hdr.O = c.hdr.O := by rw [s1.O, hs.O, s3]
  have regs : ∀ f ∈ (interpretScan env reg c).1.scan.h5.values, f ≠ .unrec → f = .date ∨ ∃ k, ofKind k (scanLines c.scan.raw) ≠ [] ∧
      (lineFn k = some f ∨ (postOf k).map postFn = some f) := by
    intro f hm hu
    rcases regs_scan env reg hr c hf.1 hok f hu hm with h | ⟨l, hl, k, hk, h⟩
    · rcases hf.2 with e | e <;> rw [e] at h
      · cases h
      · simp [Dict.values] at h; exact .inl h
    · exact .inr ⟨k, List.ne_nil_of_mem (List.mem_filter.2 ⟨hl, hk⟩), h⟩
  have only : ∀ {k : HKey} {f : H5Fn}, f ∈ (interpretScan env reg c).1.scan.h5.values → f ≠ .unrec → f ≠ .date →
      (∀ k', (lineFn k' = some f ∨ (postOf k').map postFn = some f) → k' = k) → ofKind k (scanLines c.scan.raw) ≠ [] := by
    intro k f hm hu hnd h
    rcases regs f hm hu with rfl | ⟨k', h1, h2⟩
    · exact absurd rfl hnd
    · rw [← h k' h2]; exact h1
  refine ⟨?_, hh'.writes _, ?_, ?_, ?_⟩
  · have : (interpretScan env reg c).1.scan.scanNum = c.scan.scanNum := congrArg Ident.scanNum (interp_ident env reg c)
    rw [this]; exact hS.number
  · intro f hm
    cases f
    case date =>
      obtain ⟨tm, h⟩ := dated_scan env reg hr hc hf.1 hok hfit.lines hd
      refine ⟨strftimeIso tm, ?_⟩
      unfold iso8601
      rw [h]
    case geometry =>
      have hne := only (k := .G) hm (by simp) (by simp) (by intro k' h; cases k' <;> simp [lineFn, postOf, postFn] at h <;> rfl)
      exact geometry_scan env reg hr hf.1 hok hne (hfit.geometry hne)
    case counterJ => exact hst.jx
    case counterj => exact hst.jx
    case positionerXref => exact hst.ox
    case monitor => exact hst.mon hm
    case countTime => exact hst.time hm
    case MD => exact hst.md
    case VA => exact hst.va
    case VD => exact hst.vd
    case VE => exact hst.ve
    case uxml =>
      have hne := only (k := .UXML) hm (by simp) (by simp) (by intro k' h; cases k' <;> simp [lineFn, postOf, postFn] at h <;> rfl)
      obtain ⟨root, h1, h2⟩ := uxml_scan env reg hr hf.1 hok hne
      show DocumentFits _
      rw [h2]
      exact hS.uxml root hne h1
    case positioners => exact positioners_scan env reg hr hf.1 hok hh hs hO hH
    case scanData =>
      refine data_scan env reg hr hf.1 hok ?_ hS
      rcases regs _ hm (by simp) with h | ⟨k, h1, h2⟩
      · cases h
      · obtain ⟨l, hl⟩ := List.exists_mem_of_ne_nil _ h1
        obtain ⟨hl1, hl2⟩ := List.mem_filter.1 hl
        refine List.ne_nil_of_mem (a := l) (List.mem_filter.2 ⟨hl1, ?_⟩)
        cases k <;> simp [lineFn, postOf, postFn] at h2 <;> simp [hl2]
    case metadata =>
      have hne := only (k := .V) hm (by simp) (by simp) (by intro k' h; cases k' <;> simp [lineFn, postOf, postFn] at h <;> rfl)
      exact metadata_scan env reg hr hf.1 hok hs hne hH
    all_goals trivial
  · intro f hfm g hgm e hgr
    have hfu : f ≠ .unrec := by rintro rfl; revert hgr; decide
    obtain ⟨l, hl, k, hk, h1, h2⟩ := hh'.regs f hfm hfu
    rw [s3] at hl
    have hkne : hOfKind k (splitlines c.hdr.raw) ≠ [] := List.ne_nil_of_mem (List.mem_filter.2 ⟨hl, hk⟩)
    have hgu : g ≠ .unrec := by
      rintro rfl
      cases f <;> first | (revert hgr; decide) | (revert e; decide)
    have hgd : g ≠ .date := by
      rintro rfl
      cases f <;> first | (revert hgr; decide) | (revert e; decide)
    rcases regs g hgm hgu with hg | ⟨k', h3, h4⟩
    · exact hgd hg
    · have grp : ∃ gr ∈ [[HKey.J, .j], [.o], [.MD], [.UXML], [.VA], [.VD], [.VE]], k ∈ gr ∧ k' ∈ gr := by
        obtain ⟨gr, q1, q2, q3⟩ := group_pairs f hgr k h1 h2
        exact ⟨gr, q1, q2, q3 g e k' h4⟩
      obtain ⟨gr, hgr1, hk1, hk2⟩ := grp
      rcases hS.apart gr hgr1 with h | h
      · exact hkne (h k hk1)
      · exact h3 (h k' hk2)
  · intro h
    have hX : hOfKind .X (splitlines c.hdr.raw) ≠ [] ∨ ofKind .X (scanLines c.scan.raw) ≠ [] := by
      rcases h with h | h
      · obtain ⟨l, hl, k, hk, h1, h3⟩ := hh'.regs _ h (by simp)
        rw [s3] at hl
        cases k <;> simp [lineFn, postOf, postFn] at h3
        exact .inl (List.ne_nil_of_mem (List.mem_filter.2 ⟨hl, hk⟩))
      · exact .inr (only (k := .X) h (by simp) (by simp) (by intro k' h; cases k' <;> simp [lineFn, postOf, postFn] at h <;> rfl))
    obtain ⟨h1, h2⟩ := hS.sample hX
    exact sample_scan env reg hr hf.1 (by rcases hf.2 with e | e <;> rw [e] <;> decide) hok h1 h2

end
end S2N.Props
