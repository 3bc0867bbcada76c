import Verif.Props.Save
import Verif.Lemmas.SlotWriters
/-
What an entry of the NeXus file says of its scan.
-/
namespace S2N.Props
open S2N Py H5 Eznx Writer Spec

section
variable [UniDB]

/-! ### the datasets of every entry -/

theorem slotted_none {N : Str} (h1 : ∀ f, N ∉ usedBy f) (h2 : startsWith N p!"unrecognized_" = false) :
    Slotted (fun n => n = N) (fun _ => False) Always Always (fun _ _ _ _ => False) where
  data := id
  avoids := one_avoids (fun f _ => h1 f) (fun _ => h2)
  step := fun _ h => h.elim
  init := trivial
  pL := fun _ _ _ => trivial
  withL := fun _ _ _ _ h => h.elim

/-- a name that only the first part of `save_scan` uses -/
theorem entry_first {k : Ref} {S : SState} {m : Str} {x y z : Obj} {e : Nat} {chE : Dict Nat}
    (h : EntryOf k S m x y z e chE) {N : Str} (h1 : ∀ f, N ∉ usedBy f) (h2 : startsWith N p!"unrecognized_" = false)
    (h3 : N ∉ usedByAdditions) (h4 : N ≠ p!"experiment_description") (h5 : N ≠ p!"data") {w : Content}
    (hstep : ∀ {K v s s'}, Slots (entryScope (p!"S" ++ k.text) e) (fun n => n = N) K v Known.nil s →
      firstPart ⟨e, [p!"S" ++ k.text]⟩ x s = (s', .ok ()) →
      ∃ K' v' W, W N = some w ∧ Slots (entryScope (p!"S" ++ k.text) e) (fun n => n = N) K' v' W s') :
    Shown S.h5 (p!"S" ++ k.text) N (some w) := by
  obtain ⟨hdr, ⟨t1, t2, chT, aT, r1, r2, r3, r4, r5, r6, _, r8, r9, _⟩, hl⟩ := h.ran
  obtain ⟨s1, s2, s3, h', q1, q2, q3, q4⟩ := saveScanRest_inv r1
  have hst : Slots (entryScope (p!"S" ++ k.text) e) (fun n => n = N) (fun _ => False) (fun _ => none) Known.nil t1 :=
    Slots.start (fun _ h => h) r2 r3 (fun n hn => by
      have hb : (n == p!"experiment_description") = false := beq_false_of_ne fun e => h4 (hn ▸ e)
      simp only [Dict.get?, List.lookup, hb])
  obtain ⟨K1, v1, W, hW, g1⟩ := hstep hst q1
  have hplain : Plain (entryScope (p!"S" ++ k.text) e).E := hst.held.inv.plain
  have hs := slotted_none h1 h2
  obtain ⟨K2, v2, W2, g2, _, o1⟩ := slots_run hs.at hplain rfl rfl _ _ r4 trivial trivial g1 q2
  obtain ⟨K3, v3, W3, g3, _, o2⟩ := slots_run hs.at hplain rfl rfl _ _ r5 trivial trivial g2 q3
  rw [o1.none (by simp)] at o2
  have e3 := o2.none (by simp)
  have g4 := (g3.step (conf_additions ⟨g3.held.inv.notD, .inl ⟨rfl, rfl⟩⟩
    (fun n hn (e : n = N) => h3 (e ▸ hn))) q4).1
  have := h.shown g4 r6 r8 r9 rfl h5
  rwa [e3, hW] at this

theorem firstPart_inv {e : HRef} {x : Obj} {s s' : H5} (h : firstPart e x s = (s', .ok ())) :
    ∃ s1 s2 s3 s4 a b nums ds, writeDataset e p!"title" (.str x.S) [] s = (s1, .ok a) ∧
      splitScanNumberString x.scanNum = .ok nums ∧
      writeDataset e p!"scan_number" (.num (.int (nums.getD 0 0))) [] s1 = (s2, .ok ds) ∧
      addAttributes ds (attr1 p!"spec_name" p!"SCAN_N") s2 = (s3, .ok ()) ∧
      HM.onlyIf (decide (0 < nums.getD 1 0)) (addAttributes ds [(p!"repeat", .num (.int (nums.getD 1 0)))]) s3 = (s4, .ok ()) ∧
      writeDataset e p!"command" (.str x.scanCmd) [] s4 = (s', .ok b) := by
  unfold firstPart at h
  obtain ⟨t1, u1, a1, h⟩ := HM.bind_inv h
  obtain ⟨nums, a2, h⟩ := HM.bind_lift_inv h
  obtain ⟨t3, u3, a3, h⟩ := HM.bind_inv h
  obtain ⟨t4, u4, a4, h⟩ := HM.bind_inv h
  obtain ⟨t5, u5, a5, h⟩ := HM.bind_inv h
  obtain ⟨t6, u6, a6, h⟩ := HM.bind_inv h
  obtain ⟨_, rfl⟩ := HM.ret_inv h
  exact ⟨t1, t3, t4, t5, u1, u6, nums, u3, a1, a2, a3, a4, a5, a6⟩

/-- the rest after a dataset of the first part -/
theorem conf_mid {c : Scope} {e : HRef} (ho : Ok c e) (hX : ∀ n ∈ [p!"scan_number", p!"command"], ¬ c.X n) (n r : Int) (cmd : Str) :
    Conf c (do
      let ds ← writeDataset e p!"scan_number" (.num (.int n)) []
      addAttributes ds (attr1 p!"spec_name" p!"SCAN_N")
      HM.onlyIf (decide (0 < r)) (addAttributes ds [(p!"repeat", .num (.int r))])
      writeDataset e p!"command" (.str cmd) []) (fun _ => True) := by
  refine Conf.bind' (conf_wd ho (by decide) (hX _ (by decide)) _ _) fun ds hds => ?_
  refine Conf.bind' (conf_addAttributes hds.1.1 hds.2 _) fun _ _ => ?_
  refine Conf.bind' (Conf.onlyIf fun _ => conf_addAttributes hds.1.1 hds.2 _) fun _ _ => ?_
  exact (conf_wd ho (by decide) (hX _ (by decide)) _ _).mono fun _ _ => trivial

theorem entry_title {k : Ref} {S : SState} {m : Str} {x y z : Obj} {e : Nat} {chE : Dict Nat}
    (h : EntryOf k S m x y z e chE) : Shown S.h5 (p!"S" ++ k.text) p!"title" (some (.ds (.text [ascii x.S]) [])) := by
  refine entry_first h (by intro f; cases f <;> decide) (by decide) (by decide) (by decide) (by decide) ?_
  intro K v s s' hs hf
  obtain ⟨s1, s2, s3, s4, a, b, nums, ds, w1, _, w3, w4, w5, w6⟩ := firstPart_inv hf
  obtain ⟨d, d1, d2, d3⟩ := hs.write rfl rfl (by decide : Plain p!"title").single w1
  simp only [PData.toH, Except.ok.injEq] at d1
  subst d1
  have hm : (do
      let ds ← writeDataset ⟨e, [p!"S" ++ k.text]⟩ p!"scan_number" (.num (.int (nums.getD 0 0))) []
      addAttributes ds (attr1 p!"spec_name" p!"SCAN_N")
      HM.onlyIf (decide (0 < nums.getD 1 0)) (addAttributes ds [(p!"repeat", .num (.int (nums.getD 1 0)))])
      writeDataset ⟨e, [p!"S" ++ k.text]⟩ p!"command" (.str x.scanCmd) []) s1 = (s', .ok b) := by
    rw [HM.bind_ok w3, HM.bind_ok w4, HM.bind_ok w5]; exact w6
  have := (d3.step (conf_mid ⟨d3.held.inv.notD, .inl ⟨rfl, rfl⟩⟩ (by
    intro n hn (e : n = _); subst e; revert hn; decide) _ _ _) hm).1
  exact ⟨_, _, _, upd_self .., this⟩

theorem entry_command {k : Ref} {S : SState} {m : Str} {x y z : Obj} {e : Nat} {chE : Dict Nat}
    (h : EntryOf k S m x y z e chE) : Shown S.h5 (p!"S" ++ k.text) p!"command" (some (.ds (.text [ascii x.scanCmd]) [])) := by
  refine entry_first h (by intro f; cases f <;> decide) (by decide) (by decide) (by decide) (by decide) ?_
  intro K v s s' hs hf
  obtain ⟨s1, s2, s3, s4, a, b, nums, ds, w1, _, w3, w4, w5, w6⟩ := firstPart_inv hf
  have ok : ∀ {K v W s}, Slots (entryScope (p!"S" ++ k.text) e) (fun n => n = p!"command") K v W s →
      Ok ((entryScope (p!"S" ++ k.text) e).slots (fun n => n = p!"command") K) ⟨e, [p!"S" ++ k.text]⟩ := fun h =>
    ⟨h.held.inv.notD, .inl ⟨rfl, rfl⟩⟩
  have g1 := (hs.step (conf_wd (ok hs) (by decide) (by show ¬ (_ = _); decide) _ _) w1).1
  obtain ⟨g2, hds⟩ := g1.step (conf_wd (ok g1) (by decide) (by show ¬ (_ = _); decide) _ _) w3
  have hds := hds ds rfl
  have g3 := (g2.step (conf_addAttributes hds.1.1 hds.2 _) w4).1
  have g4 := (g3.step (Conf.onlyIf fun _ => conf_addAttributes hds.1.1 hds.2 _) w5).1
  obtain ⟨d, d1, d2, d3⟩ := g4.write rfl rfl (by decide : Plain p!"command").single w6
  simp only [PData.toH, Except.ok.injEq] at d1
  subst d1
  exact ⟨_, _, _, upd_self .., d3⟩

/-- the attributes of `scan_number` -/
def numberAttrs (r : Int) : Dict AVal :=
  (p!"spec_name", AVal.str p!"SCAN_N") :: if 0 < r then [(p!"repeat", .num (.int r))] else []

theorem entry_number {k : Ref} {S : SState} {m : Str} {x y z : Obj} {e : Nat} {chE : Dict Nat}
    (h : EntryOf k S m x y z e chE) : ∃ nums, splitScanNumberString x.scanNum = .ok nums ∧
      Shown S.h5 (p!"S" ++ k.text) p!"scan_number" (some (.ds (.nums ⟨[.int (nums.getD 0 0)], [1]⟩) (numberAttrs (nums.getD 1 0)))) := by
  cases hn : splitScanNumberString x.scanNum with
  | error er =>
    exfalso
    obtain ⟨hdr, ⟨t1, t2, chT, aT, r1, r2, r3, r4, r5, r6, _, r8, r9, _⟩, hl⟩ := h.ran
    obtain ⟨s1, s2, s3, h', q1, q2, q3, q4⟩ := saveScanRest_inv r1
    obtain ⟨_, _, _, _, _, _, _, _, _, w, _⟩ := firstPart_inv q1
    rw [hn] at w; cases w
  | ok nums =>
  refine ⟨nums, rfl, ?_⟩
  refine entry_first h (by intro f; cases f <;> decide) (by decide) (by decide) (by decide) (by decide) ?_
  intro K v s s' hs hf
  obtain ⟨s1, s2, s3, s4, a, b, nums', ds, w1, w2, w3, w4, w5, w6⟩ := firstPart_inv hf
  rw [hn] at w2
  injection w2 with w2
  subst w2
  have ok : ∀ {K v W s}, Slots (entryScope (p!"S" ++ k.text) e) (fun n => n = p!"scan_number") K v W s →
      Ok ((entryScope (p!"S" ++ k.text) e).slots (fun n => n = p!"scan_number") K) ⟨e, [p!"S" ++ k.text]⟩ := fun h =>
    ⟨h.held.inv.notD, .inl ⟨rfl, rfl⟩⟩
  have g1 := (hs.step (conf_wd (ok hs) (by decide) (by show ¬ (_ = _); decide) _ _) w1).1
  obtain ⟨d, d1, d2, d3⟩ := g1.write rfl rfl (by decide : Plain p!"scan_number").single w3
  simp only [PData.toH, Except.ok.injEq] at d1
  subst d1
  have g2 := d3.dsAttrs rfl (fun _ h => h) (upd_self ..) (by rw [upd_self, d2]) w4
  rw [upd_upd] at g2
  by_cases hp : 0 < nums.getD 1 0
  · rw [decide_eq_true hp] at w5
    have g3 := g2.dsAttrs rfl (fun _ h => h) (upd_self ..) (by rw [upd_self, d2]) w5
    rw [upd_upd] at g3
    have g4 := (g3.step (conf_wd (ok g3) (by decide) (by show ¬ (_ = _); decide) _ _) w6).1
    refine ⟨_, _, _, ?_, g4⟩
    rw [upd_self, numberAttrs, if_pos hp]
    rfl
  · rw [decide_eq_false hp] at w5
    obtain ⟨_, rfl⟩ := HM.ret_inv w5
    have g4 := (g2.step (conf_wd (ok g2) (by decide) (by show ¬ (_ = _); decide) _ _) w6).1
    refine ⟨_, _, _, ?_, g4⟩
    rw [upd_self, numberAttrs, if_neg hp]
    rfl

/-! ### the writers of the scan and of its header -/

theorem entry_of' {env : Env} {reg : List HKey} (hr : reg.Perm HKey.all) (hx : SchemaNames env) {v : Versions}
    {ks : List Ref} {s : Sdf} {r : SState} (hs : Savable s) (hk : ∀ k ∈ ks, PlainText k.text)
    (h : save env reg v ks s = (r, none)) {k : Ref} (hm : k ∈ ks) {z : Obj} (hz : r.sdf.getScan k = .ok (some z)) :
    ∃ n x y e chE, EntryOf k r n x y z e chE ∧ Writers .scan z ∧ Writers .header (r.sdf.headerOf z) ∧ z.interpreted = true := by
  obtain ⟨n, x, y, e, chE, en⟩ := entry_of hr hx hs hk h hm hz
  have hok := (save_ok hr hx (Savable.ok hs) (fun k hk' => plain_entry (hk k hk')) h).2.1
  refine ⟨n, x, y, e, chE, en, hok.safe.writers _ (Dict.mem_of_get? en.now), (headerOf_ok hok z).2.2, ?_⟩
  obtain ⟨L, hL⟩ := en.z_eq
  rw [hL]; exact en.done

/-- C74: the entry of a scan has the text of its #S line as `title`, its command as `command` and its
number as `scan_number`; a repeated scan (1.2) has its suffix as the attribute `repeat` of `scan_number`. -/
theorem C74_identity {env : Env} {reg : List HKey} (hr : reg.Perm HKey.all) (hx : SchemaNames env) {v : Versions}
    {ks : List Ref} {s : Sdf} {r : SState} (hs : Savable s) (hk : ∀ k ∈ ks, PlainText k.text)
    (h : save env reg v ks s = (r, none)) {k : Ref} (hm : k ∈ ks) {z : Obj} (hz : r.sdf.getScan k = .ok (some z)) :
    datasetAt r.h5 [entryName k, p!"title"] = some (.text [ascii z.S], []) ∧
    datasetAt r.h5 [entryName k, p!"command"] = some (.text [ascii z.scanCmd], []) ∧
    (∀ n, z.scanNum = natStr n → datasetAt r.h5 [entryName k, p!"scan_number"] =
      some (.nums ⟨[.int n], [1]⟩, [(p!"spec_name", .str p!"SCAN_N")])) ∧
    (∀ n m, z.scanNum = natStr n ++ p!"." ++ natStr (m + 1) → datasetAt r.h5 [entryName k, p!"scan_number"] =
      some (.nums ⟨[.int n], [1]⟩, [(p!"spec_name", .str p!"SCAN_N"), (p!"repeat", .num (.int (m + 1)))])) := by
  obtain ⟨m, x, y, e, chE, en⟩ := entry_of hr hx hs hk h hm hz
  obtain ⟨L, hL⟩ := en.z_eq
  have e1 : z.S = x.S := by rw [hL]
  have e2 : z.scanCmd = x.scanCmd := by rw [hL]
  have e3 : z.scanNum = x.scanNum := by rw [hL]
  rw [e1, e2, e3]
  obtain ⟨nums, n1, n2⟩ := entry_number en
  refine ⟨entry_title en, entry_command en, fun n hn => ?_, fun n m hn => ?_⟩
  · rw [hn, C35_plain] at n1
    injection n1 with n1
    subst n1
    exact n2
  · rw [hn, C35_suffix] at n1
    injection n1 with n1
    subst n1
    have : numberAttrs ([(n : Int), ((m + 1 : Nat) : Int)].getD 1 0) =
        [(p!"spec_name", .str p!"SCAN_N"), (p!"repeat", .num (.int (m + 1)))] := by
      unfold numberAttrs
      rw [if_pos (by show (0 : Int) < ((m + 1 : Nat) : Int); omega)]
      rfl
    rw [this] at n2
    exact n2

theorem outcome_absent {σ : Type} {F : H5Fn → Prop} {R : H5Fn → Obj → σ → σ → Prop} {fs : List H5Fn} {x : Obj} {W W' : σ}
    (h : Outcome F R fs x W W') (hn : ∀ f ∈ fs, ¬ F f) : W' = W := by
  rcases h with ⟨f, f1, f2, _⟩ | ⟨_, h⟩
  · exact absurd f2 (hn f f1)
  · exact h

theorem outcome_one {σ : Type} {f0 : H5Fn} {R : H5Fn → Obj → σ → σ → Prop} {fs : List H5Fn} {x : Obj} {W W' : σ}
    (h : Outcome (fun f => f = f0) R fs x W W') (hm : f0 ∈ fs) : R f0 x W W' := by
  rcases h with ⟨f, _, f2, f3⟩ | ⟨h, _⟩
  · subst f2; exact f3
  · exact absurd rfl (h f0 hm)

theorem outcome_zero {σ : Type} {f0 : H5Fn} {R : H5Fn → Obj → σ → σ → Prop} {fs : List H5Fn} {x : Obj} {W W' : σ}
    (h : Outcome (fun f => f = f0) R fs x W W') (hm : f0 ∉ fs) : W' = W :=
  outcome_absent h fun f hf (e : f = f0) => hm (e ▸ hf)

/-- C74: a scan whose text has a #D line has its date as `date`, in the form of ISO 8601. -/
theorem C74_date {env : Env} {reg : List HKey} (hr : reg.Perm HKey.all) (hx : SchemaNames env) {v : Versions}
    {ks : List Ref} {s : Sdf} {r : SState} (hs : Savable s) (hk : ∀ k ∈ ks, PlainText k.text)
    (h : save env reg v ks s = (r, none)) {k : Ref} (hm : k ∈ ks) {z : Obj} (hz : r.sdf.getScan k = .ok (some z))
    (hd : ∃ l ∈ scanLines z.raw, isKind .D l = true) :
    ∃ d, iso8601 z.date = .ok d ∧ datasetAt r.h5 [entryName k, p!"date"] = some (.text [ascii d], []) := by
  obtain ⟨m, x, y, e, chE, en, hw, hh, hi⟩ := entry_of' hr hx hs hk h hm hz
  obtain ⟨hdr, W1, W2, hl, hwh, o1, o2, hsh⟩ := en.slots slotted_date (by rintro _ _ rfl rfl; rfl) hw hh (by decide) (by decide)
    (by decide) (by decide) (fun _ _ => trivial) trivial
  obtain ⟨d, d1, d2⟩ := outcome_one o2 (hw.dated hi hd)
  refine ⟨d, d1, ?_⟩
  have := hsh p!"date" rfl
  rw [d2, upd_self] at this
  exact this

/-- C74: the comments of a scan are the lines of `comments`; a scan without comments has no `comments`.
(Those of the header of the file are not in the entry.) -/
theorem C74_comments {env : Env} {reg : List HKey} (hr : reg.Perm HKey.all) (hx : SchemaNames env) {v : Versions}
    {ks : List Ref} {s : Sdf} {r : SState} (hs : Savable s) (hk : ∀ k ∈ ks, PlainText k.text)
    (h : save env reg v ks s = (r, none)) {k : Ref} (hm : k ∈ ks) {z : Obj} (hz : r.sdf.getScan k = .ok (some z)) :
    (z.comments ≠ [] → datasetAt r.h5 [entryName k, p!"comments"] = some (.text [ascii (join p!"\n" z.comments)], [])) ∧
    (z.comments = [] → objAt r.h5 [entryName k, p!"comments"] = none) := by
  obtain ⟨m, x, y, e, chE, en, hw, hh, hi⟩ := entry_of' hr hx hs hk h hm hz
  obtain ⟨hdr, W1, W2, hl, hwh, o1, o2, hsh⟩ := en.slots slotted_comments (by rintro _ _ rfl rfl; rfl) hw hh (by decide) (by decide)
    (by decide) (by decide) (fun _ _ => trivial) trivial
  have h1 : W1 = Known.nil := outcome_zero o1 (fun hc => by have := (hwh.comments.1 hc).1; cases this)
  subst h1
  have := hsh p!"comments" rfl
  refine ⟨fun hc => ?_, fun hc => ?_⟩
  · have d := outcome_one o2 (hw.comments.2 ⟨rfl, hc⟩)
    rw [d, upd_self] at this
    exact this
  · have d := outcome_zero o2 (fun hm => (hw.comments.1 hm).2 hc)
    rw [d] at this
    exact this

/-- C74: `Q` is the value of the #Q line of the scan, or that of its header if the scan has none, or is
not there. -/
theorem C74_hkl {env : Env} {reg : List HKey} (hr : reg.Perm HKey.all) (hx : SchemaNames env) {v : Versions}
    {ks : List Ref} {s : Sdf} {r : SState} (hs : Savable s) (hk : ∀ k ∈ ks, PlainText k.text)
    (h : save env reg v ks s = (r, none)) {k : Ref} (hm : k ∈ ks) {z : Obj} (hz : r.sdf.getScan k = .ok (some z)) :
    (∀ q, z.Q = some q ∨ (z.Q = none ∧ (r.sdf.headerOf z).Q = some q) →
      datasetAt r.h5 [entryName k, p!"Q"] = some (.nums ⟨q.map .flt, [q.length]⟩,
        [(p!"description", .str p!"hkl at start of scan")])) ∧
    (z.Q = none → (r.sdf.headerOf z).Q = none → objAt r.h5 [entryName k, p!"Q"] = none) := by
  obtain ⟨m, x, y, e, chE, en, hw, hh, hi⟩ := entry_of' hr hx hs hk h hm hz
  obtain ⟨hdr, W1, W2, hl, hwh, o1, o2, hsh⟩ := en.slots slotted_hkl (by rintro _ _ rfl rfl; rfl) hw hh (by decide) (by decide)
    (by decide) (by decide) (fun _ _ => trivial) trivial
  have hQ : (r.sdf.headerOf z).Q = hdr.Q := by obtain ⟨O, d, ep, e⟩ := hl; rw [e]
  rw [hQ]
  have hsh := hsh p!"Q" rfl
  refine ⟨?_, fun h1 h2 => ?_⟩
  · rintro q (h1 | ⟨h1, h2⟩)
    · obtain ⟨q', q1, q2⟩ := outcome_one o2 (hw.hkl.2 (by rw [h1]; simp))
      rw [h1] at q1
      injection q1 with q1
      subst q1
      rw [q2, upd_self] at hsh
      exact hsh
    · have d := outcome_zero o2 (fun hm => hw.hkl.1 hm h1)
      obtain ⟨q', q1, q2⟩ := outcome_one o1 (hwh.hkl.2 (by rw [h2]; simp))
      rw [h2] at q1
      injection q1 with q1
      subst q1
      rw [d, q2, upd_self] at hsh
      exact hsh
  · rw [outcome_zero o2 (fun hm => hw.hkl.1 hm h1), outcome_zero o1 (fun hm => hwh.hkl.1 hm h2)] at hsh
    exact hsh

end
end S2N.Props
