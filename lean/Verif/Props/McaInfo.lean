import Verif.Props.Last
/-
C68: what the lines #@CALIB, #@CHANN, #@CTIME and #@ROI leave in `scan.MCA`; C69: the date of the
header.
-/
namespace S2N.Props
open S2N S2N.Py S2N.Spec

/-- the line holds a name (which may have blanks inside), the first channel and the last channel,
separated by blanks -/
def RoiLine (l : Str) (item : Str × Int × Int) : Prop :=
  ∃ nm a b, stripFirstWord l = nm ++ ' ' :: (a ++ ' ' :: b) ∧ ' ' ∉ a ∧ ' ' ∉ b ∧
    item.1 = strip nm ∧ parseInt a = some item.2.1 ∧ parseInt b = some item.2.2

theorem findC_append (c : Char) : ∀ (a b : Str), c ∉ a → findC c (a ++ c :: b) = some a.length
  | [], b, _ => by simp [findC]
  | x :: a, b, h => by
    have hx : ¬ x = c := fun e => h (by simp [e])
    simp [findC, findC_append c a b (fun h2 => h (by simp [h2])), hx]

theorem rfindC_append (a b : Str) (h : ' ' ∉ b) : rfindC ' ' (a ++ ' ' :: b) = some a.length := by
  unfold rfindC
  have : (a ++ ' ' :: b).reverse = b.reverse ++ ' ' :: a.reverse := by simp
  rw [this, findC_append ' ' _ _ (by simpa using h)]
  simp only [Option.map_some, List.length_append, List.length_cons, List.length_reverse, Option.some.injEq]
  omega

theorem parseInt_space (b : Str) : parseInt (' ' :: b) = parseInt b := by
  have : strip (' ' :: b) = strip b := by
    unfold strip lstrip
    rw [List.dropWhile_cons_of_pos (by decide)]
  unfold parseInt
  rw [this]

/-- the regions of interest after an #@ROI line -/
def roiUpd (l : Str) (d : Dict (Int × Int)) : Dict (Int × Int) :=
  ((procRoi l { Obj.newScan [] 0 [] with mca := some { roi := d } }).1.mca.getD {}).roi

section
variable [UniDB] (env : Env) (reg : List HKey) (hr : reg.Perm HKey.all)

include hr in
/-- every line of a kind was handled without exception -/
theorem kind_ok (K : HKey) (hS : K ≠ .S) (hU : K ≠ .unrec) (P : Str → Prop)
    (hP : ∀ t (c : ScanCtx), (procScan env K t c).2 = none → P t)
    (c : ScanCtx) (hf : Fresh c.scan) (hok : (interpretScan env reg c).2 = none) :
    ∀ l ∈ ofKind K (scanLines c.scan.raw), P l := by
  intro l hl
  obtain ⟨c1, c2, e1, e2, e3⟩ := interpret_ok env reg c (fresh_interpreted hf) hok
  obtain ⟨h1, h2⟩ := List.mem_filter.1 hl
  exact line_ok env reg c K P hP _ _ (by rw [e1]) l h1
    ((effKey_iff reg hr l (scanLines_no_nl _ l h1) K hS hU).2 h2)

omit [UniDB] in
/-- the kinds of lines that change `scan.MCA` -/
theorem mca_other (k : HKey) (t : Str) (c : ScanCtx) :
    (k ≠ .CALIB → (procScan env k t c).1.scan.mca.bind (·.calib) = c.scan.mca.bind (·.calib)) ∧
    (k ≠ .CHANN → (procScan env k t c).1.scan.mca.bind (·.chann) = c.scan.mca.bind (·.chann)) ∧
    (k ≠ .CTIME → (procScan env k t c).1.scan.mca.bind (·.ctime) = c.scan.mca.bind (·.ctime)) ∧
    (k ≠ .ROI → ((procScan env k t c).1.scan.mca.getD {}).roi = (c.scan.mca.getD {}).roi) := by
  by_cases h : k = .CALIB ∨ k = .CHANN ∨ k = .CTIME ∨ k = .ROI
  · rcases h with rfl | rfl | rfl | rfl <;>
    · simp only [procScan, onScan, procObj, procCalib, procChann, procCtime, procRoi, Res.eval, Obj.addH5]
      refine ⟨fun h => ?_, fun h => ?_, fun h => ?_, fun h => ?_⟩ <;>
      first
        | exact absurd rfl h
        | (repeat' split) <;> cases hm : c.scan.mca <;> simp_all [Res.raise, Res.ok]
  · have : (procScan env k t c).1.scan.mca = c.scan.mca := ps_mca env k t c (fun e => h (.inl e))
      (fun e => h (.inr (.inl e))) (fun e => h (.inr (.inr (.inl e)))) (fun e => h (.inr (.inr (.inr e))))
    rw [this]; simp

include hr in
/-- C68: `scan.MCA["CALIB"]` holds the first three numbers of the last #@CALIB line. -/
theorem C68_calib (c : ScanCtx) (hf : Fresh c.scan) (hok : (interpretScan env reg c).2 = none) :
    match (ofKind .CALIB (scanLines c.scan.raw)).getLast? with
    | none => (interpretScan env reg c).1.scan.mca.bind (·.calib) = none
    | some l => ∃ v, (interpretScan env reg c).1.scan.mca.bind (·.calib) = some v ∧ ThreeNumbers l v := by
  have hstep := interp_kind env reg hr .CALIB (by simp) (by simp) (fun x => x.mca.bind (·.calib))
    (fun l _ => match mapE Py.float ((splitWs (stripFirstWord l)).take 3) with
      | .ok [a, b, c] => some (a, b, c)
      | _ => none) ?_ (fun k t c hk => (mca_other env k t c).1 hk) (fun f c => by rw [pp_mca]) (fun _ _ => rfl)
    (fun _ _ => rfl) c (fresh_interpreted hf) hok
  · have hall := kind_ok env reg hr .CALIB (by simp) (by simp)
      (fun l => ∃ a b c, mapE Py.float ((splitWs (stripFirstWord l)).take 3) = .ok [a, b, c]) ?_ c hf hok
    · rw [hstep, foldl_last]
      split
      · next e =>
        rw [e]
        obtain ⟨_, _, _, _, _, _, _, _, _, e⟩ := hf
        have : c.scan.mca = none := by rw [e]; rfl
        simp [this]
      · next l e =>
        obtain ⟨a, b, d, h⟩ := hall l (List.mem_of_getLast? e)
        refine ⟨(a, b, d), by rw [e]; simp [h], ?_⟩
        have := mapE_float_ok _ _ h
        unfold ThreeNumbers
        match hs : splitWs (stripFirstWord l), this with
        | w1 :: w2 :: w3 :: more, .cons h1 (.cons h2 (.cons h3 _)) => exact ⟨w1, w2, w3, more, rfl, h1, h2, h3⟩
    · intro t c hok
      simp only [procScan, onScan, procObj, procCalib] at hok
      cases hm : mapE Py.float ((splitWs (stripFirstWord t)).take 3) with
      | error e => rw [hm] at hok; simp [Res.eval] at hok
      | ok l =>
        rw [hm] at hok
        simp only [Res.eval] at hok
        split at hok
        · exact ⟨_, _, _, rfl⟩
        · simp [Res.raise] at hok
  · intro t c hok
    simp only [procScan, onScan, procObj, procCalib] at hok ⊢
    cases hm : mapE Py.float ((splitWs (stripFirstWord t)).take 3) with
    | error e => rw [hm] at hok; simp [Res.eval, Res.raise] at hok
    | ok l =>
      rw [hm] at hok
      simp only [Res.eval] at hok ⊢
      split at hok
      · rfl
      · simp [Res.raise] at hok

include hr in
/-- C68: the three times in `scan.MCA` are the numbers of the last #@CTIME line, which has no other words. -/
theorem C68_ctime (c : ScanCtx) (hf : Fresh c.scan) (hok : (interpretScan env reg c).2 = none) :
    match (ofKind .CTIME (scanLines c.scan.raw)).getLast? with
    | none => (interpretScan env reg c).1.scan.mca.bind (·.ctime) = none
    | some l => ∃ v, (interpretScan env reg c).1.scan.mca.bind (·.ctime) = some v ∧
      NumbersOf (stripFirstWord l) [v.1, v.2.1, v.2.2] := by
  have hstep := interp_kind env reg hr .CTIME (by simp) (by simp) (fun x => x.mca.bind (·.ctime))
    (fun l _ => match mapE Py.float (splitWs (stripFirstWord l)) with
      | .ok [a, b, c] => some (a, b, c)
      | _ => none) ?_ (fun k t c hk => (mca_other env k t c).2.2.1 hk) (fun f c => by rw [pp_mca]) (fun _ _ => rfl)
    (fun _ _ => rfl) c (fresh_interpreted hf) hok
  · have hall := kind_ok env reg hr .CTIME (by simp) (by simp)
      (fun l => ∃ a b c, mapE Py.float (splitWs (stripFirstWord l)) = .ok [a, b, c]) ?_ c hf hok
    · rw [hstep, foldl_last]
      split
      · next e =>
        rw [e]
        obtain ⟨_, _, _, _, _, _, _, _, _, e⟩ := hf
        have : c.scan.mca = none := by rw [e]; rfl
        simp [this]
      · next l e =>
        obtain ⟨a, b, d, h⟩ := hall l (List.mem_of_getLast? e)
        refine ⟨(a, b, d), by rw [e]; simp [h], mapE_float_ok _ _ h⟩
    · intro t c hok
      simp only [procScan, onScan, procObj, procCtime] at hok
      cases hm : mapE Py.float (splitWs (stripFirstWord t)) with
      | error e => rw [hm] at hok; simp [Res.eval] at hok
      | ok l =>
        rw [hm] at hok
        simp only [Res.eval] at hok
        split at hok
        · exact ⟨_, _, _, rfl⟩
        · simp [Res.raise] at hok
  · intro t c hok
    simp only [procScan, onScan, procObj, procCtime] at hok ⊢
    cases hm : mapE Py.float (splitWs (stripFirstWord t)) with
    | error e => rw [hm] at hok; simp [Res.eval, Res.raise] at hok
    | ok l =>
      rw [hm] at hok
      simp only [Res.eval] at hok ⊢
      split at hok
      · rfl
      · simp [Res.raise] at hok

include hr in
/-- C68: the channel information in `scan.MCA` comes from the last #@CHANN line: number saved, first
and last channel saved, and the reduction coefficient, which is the last word. -/
theorem C68_chann (c : ScanCtx) (hf : Fresh c.scan) (hok : (interpretScan env reg c).2 = none) :
    match (ofKind .CHANN (scanLines c.scan.raw)).getLast? with
    | none => (interpretScan env reg c).1.scan.mca.bind (·.chann) = none
    | some l => ∃ v, (interpretScan env reg c).1.scan.mca.bind (·.chann) = some v ∧ Channels l v := by
  have hstep := interp_kind env reg hr .CHANN (by simp) (by simp) (fun x => x.mca.bind (·.chann))
    (fun l _ => match mapE Py.int ((splitWs (stripFirstWord l)).take 3),
        Py.float ((splitWs (stripFirstWord l)).getLastD []) with
      | .ok [a, b, c], .ok r => some (a, b, c, r)
      | _, _ => none) ?_ (fun k t c hk => (mca_other env k t c).2.1 hk) (fun f c => by rw [pp_mca])
    (fun _ _ => rfl) (fun _ _ => rfl) c (fresh_interpreted hf) hok
  · have hall := kind_ok env reg hr .CHANN (by simp) (by simp)
      (fun l => ∃ a b c r, mapE Py.int ((splitWs (stripFirstWord l)).take 3) = .ok [a, b, c] ∧
        Py.float ((splitWs (stripFirstWord l)).getLastD []) = .ok r) ?_ c hf hok
    · rw [hstep, foldl_last]
      split
      · next e =>
        rw [e]
        obtain ⟨_, _, _, _, _, _, _, _, _, e⟩ := hf
        have : c.scan.mca = none := by rw [e]; rfl
        simp [this]
      · next l e =>
        obtain ⟨a, b, d, r, h, hr⟩ := hall l (List.mem_of_getLast? e)
        refine ⟨(a, b, d, r), by rw [e, Option.map_some, Option.getD_some, h, hr], ?_⟩
        have := mapE_int_ok _ _ h
        unfold Channels
        match hs : splitWs (stripFirstWord l), this with
        | w1 :: w2 :: w3 :: more, .cons h1 (.cons h2 (.cons h3 _)) =>
          refine ⟨w1, w2, w3, more, (w1 :: w2 :: w3 :: more).getLast (by simp), rfl,
            List.getLast?_eq_some_getLast _, h1, h2, h3, ?_⟩
          rw [hs] at hr
          unfold Py.float at hr
          rw [List.getLastD_eq_getLast?, List.getLast?_eq_some_getLast (by simp), Option.getD_some] at hr
          split at hr
          · next e => cases hr; exact e
          · cases hr
    · intro t c hok
      simp only [procScan, onScan, procObj, procChann] at hok
      cases hm : mapE Py.int ((splitWs (stripFirstWord t)).take 3) with
      | error e => rw [hm] at hok; simp [Res.eval] at hok
      | ok l =>
        rw [hm] at hok
        simp only [Res.eval] at hok
        split at hok
        · split at hok
          · next r e => exact ⟨_, _, _, r, rfl, e⟩
          · simp at hok
        · simp [Res.raise] at hok
  · intro t c hok
    simp only [procScan, onScan, procObj, procChann] at hok ⊢
    cases hm : mapE Py.int ((splitWs (stripFirstWord t)).take 3) with
    | error e => rw [hm] at hok; simp [Res.eval] at hok
    | ok l =>
      rw [hm] at hok
      simp only [Res.eval] at hok ⊢
      split at hok
      · split at hok
        · next r e => rw [e]; rfl
        · simp at hok
      · simp [Res.raise] at hok

include hr in
/-- C68: `scan.MCA["ROI"]` holds, for each name on an #@ROI line, the first and the last channel of
the last line with that name. -/
theorem C68_roi (c : ScanCtx) (hf : Fresh c.scan) (hok : (interpretScan env reg c).2 = none)
    (items : List (Str × Int × Int)) (hl : List.Forall₂ RoiLine (@ofKind asciiDB .ROI (scanLines c.scan.raw)) items) :
    LastWins ((interpretScan env reg c).1.scan.mca.getD {}).roi items := by
  have hline : ∀ l item, RoiLine l item → ∀ x : Obj, procRoi l x =
      Res.ok { x with mca := some { x.mca.getD {} with roi := (x.mca.getD {}).roi.set item.1 (item.2.1, item.2.2) } } := by
    rintro l ⟨n, f, la⟩ ⟨nm, a, b, e, ha, hb, h1, h2, h3⟩ x
    simp only at h1 h2 h3
    subst h1
    have e' : stripFirstWord l = (nm ++ ' ' :: a) ++ ' ' :: b := by rw [e]; simp
    unfold procRoi
    simp only [e', rfindC_append _ _ hb, sliceFrom, sliceTo, List.drop_left, List.take_left,
      rfindC_append _ _ ha]
    simp only [Py.int, parseInt_space, h2, h3, Res.eval]
  have hstep := interp_kind env reg hr .ROI (by simp) (by simp) (fun x => (x.mca.getD {}).roi)
    (fun l d => roiUpd l d)
    ?_ (fun k t c hk => (mca_other env k t c).2.2.2 hk) (fun f c => by rw [pp_mca]) (fun _ _ => rfl)
    (fun _ _ => rfl) c (fresh_interpreted hf) hok
  · rw [hstep]
    have h0 : (c.scan.mca.getD {}).roi = [] := by
      obtain ⟨_, _, _, _, _, _, _, _, _, e⟩ := hf
      rw [e]; rfl
    rw [h0]
    have key : ∀ (ls : List Str) (its : List (Str × Int × Int)) (d : Dict (Int × Int)),
        List.Forall₂ RoiLine ls its →
        ls.foldl (fun d l => roiUpd l d) d = its.foldl (fun d kv => d.set kv.1 kv.2) d := by
      intro ls
      induction ls with
      | nil => rintro _ d ⟨⟩; rfl
      | cons l ls ih =>
        rintro _ d (_ | ⟨h1, h2⟩)
        rw [List.foldl_cons, List.foldl_cons, roiUpd, hline _ _ h1]
        exact ih _ _ h2
    have h2 : LastWins (items.foldl (fun d kv => d.set kv.1 kv.2) []) items := by
      simpa using lastWins_foldl items [] [] lastWins_nil
    exact (key _ _ _ hl).symm ▸ h2
  · intro t c hok
    simp only [procScan, onScan, procObj, roiUpd, procRoi, Py.int] at hok ⊢
    cases h1 : parseInt (sliceFrom (rfindC ' ' (stripFirstWord t)) (stripFirstWord t)) with
    | none => rw [h1] at hok; simp [Res.eval, Res.raise] at hok
    | some a =>
      rw [h1] at hok
      simp only [Res.eval] at hok ⊢
      cases h2 : parseInt (sliceFrom (rfindC ' ' (sliceTo (rfindC ' ' (stripFirstWord t)) (stripFirstWord t)))
          (sliceTo (rfindC ' ' (stripFirstWord t)) (stripFirstWord t))) with
      | none => rw [h2] at hok; simp [Res.raise] at hok
      | some b => rfl
/-! ### C69: the date of the header -/

omit [UniDB] in
theorem procO_date (t : Str) (h : Obj) : (procO t h).1.date = h.date ∧ (procO t h).1.epoch = h.epoch := by
  unfold procO
  cases firstWord t with
  | error e => exact ⟨rfl, rfl⟩
  | ok w =>
    simp only [Res.eval]
    split
    · split <;> exact ⟨rfl, rfl⟩
    · split <;> exact ⟨rfl, rfl⟩

omit [UniDB] in
theorem eval_fst {α σ : Type} (a : Except PyErr α) (x : σ) (f : α → Res σ) (h : ∀ v, (f v).1 = x) :
    (Res.eval a x f).1 = x := by
  cases a with
  | error e => rfl
  | ok v => exact h v

omit [UniDB] in
theorem dateHdr_fst (c : ScanCtx) : (dateHdr env c).1 =
    ⟨c.scan.addH5 p!"#D" .date,
     if strip c.hdr.date = [] then { c.hdr with date := c.scan.date, epoch := c.scan.epoch } else c.hdr⟩ := by
  unfold dateHdr
  simp only
  by_cases hd : strip c.hdr.date = []
  · rw [if_pos (by simpa using hd), if_pos hd]; rfl
  · rw [if_neg (by simpa using hd), if_neg hd]
    split
    · refine eval_fst _ _ _ fun v => eval_fst _ _ _ fun w => ?_
      split
      · exact eval_fst _ _ _ fun v => eval_fst _ _ _ fun w => rfl
      · rfl
    · rfl

omit [UniDB] in
/-- a #D line and the header -/
theorem dateHdr_eff {t : Str} {c : ScanCtx} (h : (procScan env .D t c).2 = none) :
    (strip c.hdr.date ≠ [] → (procScan env .D t c).1.hdr = c.hdr) ∧
    (strip c.hdr.date = [] → (procScan env .D t c).1.hdr.date = (procScan env .D t c).1.scan.date ∧
      (procScan env .D t c).1.hdr.epoch = (procScan env .D t c).1.scan.epoch) ∧
    ((splitC ' ' (stripFirstWord t)).length ≠ 1 → (procScan env .D t c).1.scan.date = stripFirstWord t ∧
      ∀ e, c.scan.epoch = some e → (procScan env .D t c).1.scan.epoch = some e) := by
  simp only [procScan, onScan] at h ⊢
  cases e : (procDate env t c.scan).2 with
  | some er => rw [e] at h; simp [Res.andThen] at h
  | none =>
    rw [e] at h
    simp only [Res.andThen] at h ⊢
    refine ⟨fun hd => ?_, fun hd => ?_, fun hd => ?_⟩
    · rw [dateHdr_fst, if_neg hd]
    · rw [dateHdr_fst, if_pos hd]
      exact ⟨rfl, rfl⟩
    · have h1 : (dateHdr env { c with scan := (procDate env t c.scan).1 }).1.scan.date = (procDate env t c.scan).1.date ∧
          (dateHdr env { c with scan := (procDate env t c.scan).1 }).1.scan.epoch = (procDate env t c.scan).1.epoch := by
        rw [dateHdr_fst]
        exact ⟨rfl, rfl⟩
      rw [h1.1, h1.2]
      unfold procDate at e ⊢
      simp only at e ⊢
      rw [if_neg hd] at e ⊢
      cases he : c.scan.epoch with
      | some x => exact ⟨rfl, fun e he => by cases he; simp [Res.ok, *]⟩
      | none =>
        rw [he] at e
        simp only at e ⊢
        cases hs : strptimeSpec (stripFirstWord t) with
        | none => rw [hs] at e; simp [Res.raise] at e
        | some tm =>
          rw [hs] at e
          simp only [Res.eval] at e ⊢
          split at e
          · next x hx => exact ⟨rfl, fun e he => by cases he⟩
          · simp at e

/-- the date of the header along the lines of a scan -/
theorem hdr_lines (hr : reg.Perm HKey.all) : ∀ (lines : List Str) (c : ScanCtx), (∀ l ∈ lines, '\n' ∉ l) →
    (forEach (scanLine env reg) lines c).2 = none →
    (strip c.hdr.date ≠ [] → (forEach (scanLine env reg) lines c).1.hdr.date = c.hdr.date ∧
      (forEach (scanLine env reg) lines c).1.hdr.epoch = c.hdr.epoch) ∧
    (ofKind .D lines = [] → (forEach (scanLine env reg) lines c).1.hdr.date = c.hdr.date ∧
      (forEach (scanLine env reg) lines c).1.hdr.epoch = c.hdr.epoch) ∧
    (strip c.hdr.date = [] → ∀ l rest, ofKind .D lines = l :: rest →
      (splitC ' ' (stripFirstWord l)).length ≠ 1 → strip (stripFirstWord l) ≠ [] →
      (forEach (scanLine env reg) lines c).1.hdr.date = stripFirstWord l ∧
      ∀ e, c.scan.epoch = some e → (forEach (scanLine env reg) lines c).1.hdr.epoch = some e)
  | [], c, _, _ => ⟨fun _ => ⟨rfl, rfl⟩, fun _ => ⟨rfl, rfl⟩, fun _ _ _ h => by simp [ofKind] at h⟩
  | a :: as, c, hn, h => by
    obtain ⟨h1, h2, h3⟩ := forEach_cons_ok h
    rw [h2]
    obtain ⟨i1, i2, i3⟩ := hdr_lines hr as _ (fun l hl => hn l (by simp [hl])) h3
    have hD := effKey_iff reg hr a (hn a (by simp)) .D (by simp) (by simp)
    by_cases hd : effKey reg a = some .D
    · have hof : ofKind .D (a :: as) = a :: ofKind .D as := by
        simp [ofKind, List.filter_cons, hD.1 hd]
      have es : scanLine env reg a c = procScan env .D a c := by rw [scanLine_eq, hd]
      rw [es] at h1 i1 i2 i3 ⊢
      obtain ⟨d1, d2, d3⟩ := dateHdr_eff env h1
      refine ⟨fun hs => ?_, fun he => by rw [hof] at he; simp at he, fun hs l rest he hl1 hl2 => ?_⟩
      · rw [d1 hs] at i1
        exact i1 hs
      · rw [hof] at he
        cases he
        obtain ⟨d4, d5⟩ := d3 hl1
        obtain ⟨d6, d7⟩ := d2 hs
        have hx := i1 (by rw [d6, d4]; exact hl2)
        exact ⟨hx.1.trans (d6.trans d4), fun e he => hx.2.trans (d7.trans (d5 e he))⟩
    · have hof : ofKind .D (a :: as) = ofKind .D as := by
        have : isKind .D a = false := by
          cases hh : isKind .D a with
          | false => rfl
          | true => exact absurd (hD.2 hh) hd
        simp [ofKind, List.filter_cons, this]
      have hkeep : (scanLine env reg a c).1.hdr.date = c.hdr.date ∧
          (scanLine env reg a c).1.hdr.epoch = c.hdr.epoch ∧
          (scanLine env reg a c).1.scan.epoch = c.scan.epoch := by
        rw [scanLine_eq]
        cases hk : effKey reg a with
        | none => exact ⟨rfl, rfl, rfl⟩
        | some k =>
          have hkD : k ≠ .D := fun e => hd (by rw [hk, e])
          by_cases hO : k = .O
          · subst hO
            exact ⟨(procO_date a c.hdr).1, (procO_date a c.hdr).2, rfl⟩
          · exact ⟨by rw [ps_hdr env k a c hO hkD], by rw [ps_hdr env k a c hO hkD],
              ps_epoch env k a c hkD⟩
      obtain ⟨k1, k2, k3⟩ := hkeep
      rw [k1, k2] at i1
      rw [k1, k2] at i2
      rw [k1, k3] at i3
      rw [hof]
      exact ⟨i1, i2, i3⟩

include hr in
/-- C69: interpreting a scan never changes a date that its header has; a header without one keeps none
if the scan has no #D line, else it receives the date of the first #D line of the scan (when that is
a date, not a number) and the time of the scan. -/
theorem C69_header_date (c : ScanCtx) (hf : Fresh c.scan) (hok : (interpretScan env reg c).2 = none) :
    (strip c.hdr.date ≠ [] ∨ ofKind .D (scanLines c.scan.raw) = [] →
      (interpretScan env reg c).1.hdr.date = c.hdr.date ∧
      (interpretScan env reg c).1.hdr.epoch = c.hdr.epoch) ∧
    (strip c.hdr.date = [] → ∀ l rest, ofKind .D (scanLines c.scan.raw) = l :: rest →
      (splitC ' ' (stripFirstWord l)).length ≠ 1 → strip (stripFirstWord l) ≠ [] →
      (interpretScan env reg c).1.hdr.date = stripFirstWord l ∧
      ∀ e, c.scan.epoch = some e → (interpretScan env reg c).1.hdr.epoch = some e) := by
  obtain ⟨c1, c2, e1, e2, e3⟩ := interpret_ok env reg c (fresh_interpreted hf) hok
  have h := hdr_lines env reg hr (scanLines c.scan.raw) { c with scan := { c.scan with lazy := false } }
    (scanLines_no_nl _) (by rw [e1])
  have hp := forEach_pres (runPost env) (fun c => c.hdr) c1.scan.post.values
    (fun f _ c => pp_hdr env f c) c1
  rw [e2] at hp
  have hh : (interpretScan env reg c).1.hdr = c1.hdr := by rw [e3]; exact hp
  rw [hh]
  rw [e1] at h
  exact ⟨fun hs => hs.elim h.1 h.2.1, h.2.2⟩

end

/-- a scan with all four kinds of lines -/
def mcaInfoScan : ScanCtx :=
  ⟨Obj.newScan p!"f.dat" 0 (join ['\n'] [p!"#S 1 ascan  th 0 1 2 1", p!"#D Mon Jul 08 13:35:50 2019",
    p!"#@MCA 16C", p!"#@CALIB 0 1 0", p!"#@CHANN 1201 1110 1200 1", p!"#@CTIME 1 0.5 2",
    p!"#@ROI Fe Ka 2 9", p!"#@ROI gas 1 5", p!"#@ROI Fe Ka 3 8", p!"#@Calib 0.5 0.25 0 mca1",
    p!"#N 1", p!"#L th", p!"0 "]),
   { Obj.newHeader p!"f.dat" [] with date := p!"x" }⟩

theorem mcaInfoScan_fresh : Fresh mcaInfoScan.scan := ⟨_, _, _, _, _, _, _, _, _, rfl⟩

theorem C68_nonvacuous :
    (@interpretScan asciiDB demoEnv HKey.all mcaInfoScan).2 = none ∧
    (@interpretScan asciiDB demoEnv HKey.all mcaInfoScan).1.scan.mca.bind (·.calib) =
      some (.fin (1/2), .fin (1/4), .fin 0) ∧
    ((@interpretScan asciiDB demoEnv HKey.all mcaInfoScan).1.scan.mca.getD {}).roi =
      [(p!"Fe Ka", 3, 8), (p!"gas", 1, 5)] := by
  decide +kernel

theorem C68_roi_nonvacuous : List.Forall₂ RoiLine (@ofKind asciiDB .ROI (scanLines mcaInfoScan.scan.raw))
    [(p!"Fe Ka", 2, 9), (p!"gas", 1, 5), (p!"Fe Ka", 3, 8)] := by
  have : @ofKind asciiDB .ROI (scanLines mcaInfoScan.scan.raw) =
      [p!"#@ROI Fe Ka 2 9", p!"#@ROI gas 1 5", p!"#@ROI Fe Ka 3 8"] := by decide +kernel
  rw [this]
  refine .cons ⟨p!"Fe Ka", p!"2", p!"9", ?_⟩ (.cons ⟨p!"gas", p!"1", p!"5", ?_⟩
    (.cons ⟨p!"Fe Ka", p!"3", p!"8", ?_⟩ .nil)) <;> decide +kernel

/-- headers with and without a date -/
theorem C69_nonvacuous :
    (@interpretScan asciiDB demoEnv HKey.all mcaInfoScan).1.hdr.date = p!"x" ∧
    (@interpretScan asciiDB demoEnv HKey.all
      ⟨mcaInfoScan.scan, Obj.newHeader p!"f.dat" []⟩).2 = none ∧
    (@interpretScan asciiDB demoEnv HKey.all
      ⟨mcaInfoScan.scan, Obj.newHeader p!"f.dat" []⟩).1.hdr.date = p!"Mon Jul 08 13:35:50 2019" := by
  decide +kernel

end S2N.Props
