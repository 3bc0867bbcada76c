import Verif.Spec.Plugins
import Verif.Props.ArriveHeader
import Verif.Props.ArriveTemp
import Verif.Props.EntryXpcs
import Verif.Props.Uxml
import Verif.Lemmas.Saves
/-
C99: the lines of plug-ins in headers and scans, from the text of a SPEC data file to the entries of its scans.
-/
namespace S2N.Props
open S2N S2N.Py S2N.Spec S2N.H5 S2N.Writer

theorem foldl_dict : ∀ (ls : List Str) (key val : Str → Str) (o : Option (Dict Str)) (ps : List (Str × Str)), LastWins (o.getD []) ps →
    (ls = [] → ls.foldl (fun (b : Option (Dict Str)) l => some ((b.getD []).set (key l) (val l))) o = o) ∧
    (ls ≠ [] → ∃ d, ls.foldl (fun (b : Option (Dict Str)) l => some ((b.getD []).set (key l) (val l))) o = some d ∧ LastWins d (ps ++ ls.map (fun l => (key l, val l))))
  | [], _, _, o, ps, _ => ⟨fun _ => rfl, fun h => absurd rfl h⟩
  | l :: ls, key, val, o, ps, h => by
    have h1 := lastWins_set h (key l) (val l)
    obtain ⟨a, b⟩ := foldl_dict ls key val (some ((o.getD []).set (key l) (val l))) _ h1
    refine ⟨fun h => absurd h (by simp), fun _ => ?_⟩
    by_cases e : ls = []
    · subst e
      exact ⟨_, rfl, by simpa using h1⟩
    · obtain ⟨d, d1, d2⟩ := b e
      exact ⟨d, d1, by simpa using d2⟩

theorem ph_mca (env : Env) (f : PostFn) (x : Obj) :
    (runPostHdr env f x).1.mca = x.mca ∧ (runPostHdr env f x).1.tempSP = x.tempSP ∧ (runPostHdr env f x).1.degcSP = x.degcSP := by
  cases f
  all_goals
    simp only [runPostHdr, counterXref, positionerXref, postUXML, Res.andThen, Res.ok, Res.raise, Res.eval,
      Obj.addH5]
    (repeat' split) <;> simp

theorem po_mca_other (env : Env) (k : HKey) (t : Str) (x : Obj) :
    (k ≠ .CALIB → (procObj env k t x).1.mca.bind (·.calib) = x.mca.bind (·.calib)) ∧
    (k ≠ .CHANN → (procObj env k t x).1.mca.bind (·.chann) = x.mca.bind (·.chann)) ∧
    (k ≠ .CTIME → (procObj env k t x).1.mca.bind (·.ctime) = x.mca.bind (·.ctime)) := by
  by_cases h : k = .CALIB ∨ k = .CHANN ∨ k = .CTIME ∨ k = .ROI
  · rcases h with rfl | rfl | rfl | rfl <;>
    · simp only [procObj, procCalib, procChann, procCtime, procRoi, Res.eval, Obj.addH5]
      refine ⟨fun h => ?_, fun h => ?_, fun h => ?_⟩ <;>
      first
        | exact absurd rfl h
        | (repeat' split) <;> cases hm : x.mca <;> simp_all [Res.raise, Res.ok]
  · have : (procObj env k t x).1.mca = x.mca := po_mca env k t x (fun e => h (.inl e))
      (fun e => h (.inr (.inl e))) (fun e => h (.inr (.inr (.inl e)))) (fun e => h (.inr (.inr (.inr e))))
    rw [this]; simp

section
variable [UniDB]

section
variable (env : Env) (reg : List HKey) (hr : reg.Perm HKey.all) (c : HCtx) (hfr : FreshHeader c.hdr)
  (hok : (interpretHeader env reg c).2 = none)
include hr hok

/-- an attribute of a header that only lines of one kind change -/
theorem hinterp_kind {β : Type} (K : HKey) (hE : K ≠ .E) (hU : K ≠ .unrec) (hKP : K ≠ .P) (π : Obj → β) (upd : Str → β → β)
    (hK : ∀ text x, (procObj env K text x).2 = none → π (procObj env K text x).1 = upd text (π x))
    (hne : ∀ k text x, k ≠ K → π (procObj env k text x).1 = π x)
    (hpost : ∀ f x, π (runPostHdr env f x).1 = π x) :
    π (interpretHeader env reg c).1.hdr = (hOfKind K (splitlines c.hdr.raw)).foldl (fun b l => upd l b) (π c.hdr) := by
  obtain ⟨c1, c2, e1, e2, e3⟩ := hinterpret_ok env reg c hok
  have h := hlines_kind env reg hr K hE hU hKP π upd hK hne (splitlines c.hdr.raw) (splitlines_no_nl _) c (by rw [e1])
  rw [e1] at h
  have h2 := forEach_pres (fun f => HCtx.onHdr (runPostHdr env f)) (fun c : HCtx => π c.hdr) c1.hdr.post.values
    (fun f _ c => hpost f c.hdr) c1
  rw [e2] at h2
  rw [e3]
  exact h2.trans h

/-- the handler did not raise on any line of a kind -/
theorem hkind_ok (K : HKey) (hE : K ≠ .E) (hU : K ≠ .unrec) (hKP : K ≠ .P) (P : Str → Prop)
    (hP : ∀ t x, (procObj env K t x).2 = none → P t) : ∀ l ∈ hOfKind K (splitlines c.hdr.raw), P l := by
  obtain ⟨c1, c2, e1, e2, e3⟩ := hinterpret_ok env reg c hok
  have key : ∀ (ls : List Str), (∀ l ∈ ls, '\n' ∉ l) → ∀ c : HCtx, (forEach (hdrLine env reg) ls c).2 = none → ∀ l ∈ ls, hKind K l = true → P l := by
    intro ls
    induction ls with
    | nil => intro _ _ _ l hl; cases hl
    | cons a ls ih =>
      intro hn c h l hl hk
      obtain ⟨h1, _, h3⟩ := andThen_none (show ((hdrLine env reg a c).andThen (forEach (hdrLine env reg) ls)).2 = none from h)
      rcases List.mem_cons.1 hl with rfl | hl
      · have e := (hEff_iff reg hr l (hn l (by simp)) K hE hU).2 hk
        rw [hdrLine_eq env reg l c h1, e] at h1
        exact hP l c.hdr (procHdr_ok env reg K l c hKP h1)
      · exact ih (fun l h => hn l (by simp [h])) _ h3 l hl hk
  intro l hl
  obtain ⟨h1, h2⟩ := List.mem_filter.1 hl
  exact key _ (splitlines_no_nl _) c (by rw [e1]) l h1 h2

/-- an attribute of a header is as it was if no line of certain kinds is there -/
theorem hinterp_none {β : Type} (B : HKey → Prop) (hB : ∀ k, B k → k ≠ .E ∧ k ≠ .unrec) (π : Obj → β)
    (hne : ∀ k text x, ¬ B k → π (procObj env k text x).1 = π x) (hpost : ∀ f x, π (runPostHdr env f x).1 = π x)
    (hno : ∀ l ∈ splitlines c.hdr.raw, ∀ k, B k → hKind k l = false) :
    π (interpretHeader env reg c).1.hdr = π c.hdr := by
  obtain ⟨c1, c2, e1, e2, e3⟩ := hinterpret_ok env reg c hok
  have h := forEach_keep (hdrLine env reg) (fun d : HCtx => π d.hdr = π c.hdr) (splitlines c.hdr.raw) (by
    intro l hl d hd hk
    rw [hdrLine_eq env reg l d hk]
    cases he : hEff reg l with
    | none => exact hd
    | some k =>
      simp only
      rw [procHdr_hdr]
      split
      · exact hd
      · have hb : ¬ B k := by
          intro hb
          have := (hEff_iff reg hr l (splitlines_no_nl _ l hl) k (hB k hb).1 (hB k hb).2).1 he
          rw [hno l hl k hb] at this
          cases this
        rw [hne k l d.hdr hb]
        exact hd) c rfl (by rw [e1])
  rw [e1] at h
  have h2 := forEach_pres (fun f => HCtx.onHdr (runPostHdr env f)) (fun c : HCtx => π c.hdr) c1.hdr.post.values
    (fun f _ c => hpost f c.hdr) c1
  rw [e2] at h2
  rw [e3]
  exact h2.trans h

include hfr

theorem hparams (i : Xpcs) : DictOrNone (i.of (interpretHeader env reg c).1.hdr) (keyedLines i.kind c.hdr.raw) := by
  have h0 : i.of c.hdr = none := by obtain ⟨_, _, _, e⟩ := hfr; rw [e]; cases i <;> rfl
  have h := hinterp_kind env reg hr c hok i.kind (by cases i <;> simp [Xpcs.kind]) (by cases i <;> simp [Xpcs.kind])
    (by cases i <;> simp [Xpcs.kind]) i.of
    (fun l b => some ((b.getD []).set (lstripC '#' ((splitWs l).headD [])) (stripFirstWord l)))
    (by
      intro t x hx
      cases i
      all_goals
        simp only [Xpcs.kind, procObj, procVA, procVD, procVE, firstWord, Xpcs.of] at hx ⊢
        cases hw : splitWs t with
        | nil => rw [hw] at hx; simp at hx
        | cons w ws =>
          simp only [Res.eval_ok, Res.ok]
          split <;> rfl)
    (by
      intro k t x hk
      cases i
      · exact po_VA env k t x hk
      · exact po_VD env k t x hk
      · exact po_VE env k t x hk)
    (by
      intro f x
      obtain ⟨_, _, _, a, b, d, _⟩ := ph_frames env f x
      cases i
      · exact a
      · exact b
      · exact d)
  obtain ⟨a, b⟩ := foldl_dict (hOfKind i.kind (splitlines c.hdr.raw)) (fun l => lstripC '#' ((splitWs l).headD [])) stripFirstWord
    (i.of c.hdr) [] (by rw [h0]; exact lastWins_nil)
  rw [h0] at h a b
  refine ⟨fun hn => ?_, fun hn => ?_⟩
  · rw [h, a (by simpa [keyedLines] using hn)]
  · obtain ⟨d, d1, d2⟩ := b (by simpa [keyedLines] using hn)
    exact ⟨d, by rw [h, d1], by simpa [keyedLines] using d2⟩

omit hfr in
theorem hmd_fold : (interpretHeader env reg c).1.hdr.MD = (hOfKind .MD (splitlines c.hdr.raw)).foldl (fun b l =>
    match mdItem (b.getD []).length l with
    | .ok kv => some ((b.getD []).set kv.1 kv.2)
    | .error _ => b) c.hdr.MD :=
  hinterp_kind env reg hr c hok .MD (by simp) (by simp) (by simp) (·.MD) (fun l b =>
    match mdItem (b.getD []).length l with
    | .ok kv => some ((b.getD []).set kv.1 kv.2)
    | .error _ => b)
    (by
      intro t x hx
      simp only [procObj, procMD] at hx ⊢
      cases hm : mdItem (x.MD.getD []).length t with
      | error e => rw [hm] at hx; simp at hx
      | ok kv => simp [Obj.addH5])
    (fun k t x hk => po_MD env k t x hk) (fun f x => (ph_frames env f x).2.2.1)

theorem hmd_none (h : hOfKind .MD (splitlines c.hdr.raw) = []) : (interpretHeader env reg c).1.hdr.MD = none := by
  have h0 : c.hdr.MD = none := by obtain ⟨_, _, _, e⟩ := hfr; rw [e]; rfl
  rw [hmd_fold env reg hr c hok, h, h0]
  rfl

omit hfr in
theorem hmd_some (h : hOfKind .MD (splitlines c.hdr.raw) ≠ []) : (interpretHeader env reg c).1.hdr.MD.getD [] ≠ [] := by
  rw [hmd_fold env reg hr c hok]
  have hall := hkind_ok env reg hr c hok .MD (by simp) (by simp) (by simp) (fun l => ∀ n, ∃ kv, mdItem n l = .ok kv) (by
    intro t x hx n
    simp only [procObj, procMD] at hx
    unfold mdItem at hx ⊢
    revert hx
    cases findS ['='] t with
    | none => intro _; exact ⟨_, rfl⟩
    | some p =>
      simp only
      by_cases hp : p > 5
      · simp only [if_pos hp]
        match splitWs t with
        | [] => intro hx; cases hx
        | [_] => intro hx; cases hx
        | _ :: _ :: _ => intro _; exact ⟨_, rfl⟩
      · simp only [if_neg hp]
        intro _; exact ⟨_, rfl⟩)
  have hset : ∀ (d : Dict Str) k v, Dict.set d k v ≠ [] := by
    intro d k v h
    have := Dict.get?_set_self d k v
    rw [h] at this
    cases this
  have key : ∀ (ls : List Str), (∀ l ∈ ls, ∀ n, ∃ kv, mdItem n l = .ok kv) → ∀ b : Option (Dict Str), (ls = [] → b.getD [] ≠ []) →
      (ls.foldl (fun b l =>
        match mdItem (b.getD []).length l with
        | .ok kv => some ((b.getD []).set kv.1 kv.2)
        | .error _ => b) b).getD [] ≠ [] := by
    intro ls
    induction ls with
    | nil => intro _ b hb; exact hb rfl
    | cons l ls ih =>
      intro hl b _
      rw [List.foldl_cons]
      obtain ⟨kv, hkv⟩ := hl l (by simp) (b.getD []).length
      rw [hkv]
      exact ih (fun l h => hl l (by simp [h])) _ (fun _ => hset _ _ _)
  exact key _ hall _ (fun e => absurd e h)

theorem hmd_items (items : List (Str × Str)) (hne : items ≠ [])
    (hk : ∀ kv ∈ items, kv.1 ≠ [] ∧ ∀ ch ∈ kv.1, isSpace ch = false ∧ ch ≠ '=')
    (hl : hOfKind .MD (splitlines c.hdr.raw) = items.map (fun kv => mdLine kv.1 kv.2)) :
    ∃ d, (interpretHeader env reg c).1.hdr.MD = some d ∧ LastWins d (items.map (fun kv => (kv.1, strip kv.2))) := by
  have h0 : c.hdr.MD = none := by obtain ⟨_, _, _, e⟩ := hfr; rw [e]; rfl
  have h := hmd_fold env reg hr c hok
  rw [hl, h0] at h
  have key : ∀ (its : List (Str × Str)) (b : Option (Dict Str)) (ps : List (Str × Str)),
      (∀ kv ∈ its, kv.1 ≠ [] ∧ ∀ ch ∈ kv.1, isSpace ch = false ∧ ch ≠ '=') →
      LastWins (b.getD []) ps → (its = [] → b ≠ none) →
      ∃ d, (its.map (fun kv => mdLine kv.1 kv.2)).foldl (fun b l =>
          match mdItem (b.getD []).length l with
          | .ok kv => some ((b.getD []).set kv.1 kv.2)
          | .error _ => b) b = some d ∧
        LastWins d (ps ++ its.map (fun kv => (kv.1, strip kv.2))) := by
    intro its
    induction its with
    | nil =>
      intro b ps _ hb hn
      cases b with
      | none => exact absurd rfl (hn rfl)
      | some d => exact ⟨d, rfl, by simpa using hb⟩
    | cons kv its ih =>
      intro b ps hk hb _
      simp only [List.map_cons, List.foldl_cons]
      rw [mdItem_line _ _ _ (hk kv (by simp)).1 (hk kv (by simp)).2]
      obtain ⟨d, h1, h2⟩ := ih (some ((b.getD []).set kv.1 (strip kv.2))) (ps ++ [(kv.1, strip kv.2)])
        (fun q hq => hk q (by simp [hq])) (lastWins_set hb _ _) (fun _ => by simp)
      exact ⟨d, h1, by simpa using h2⟩
  obtain ⟨d, d1, d2⟩ := key items none [] hk lastWins_nil (fun e => absurd e hne)
  exact ⟨d, h.trans d1, by simpa using d2⟩

theorem hX_none (h : hOfKind .X (splitlines c.hdr.raw) = []) :
    (interpretHeader env reg c).1.hdr.tempSP = none ∧ (interpretHeader env reg c).1.hdr.degcSP = none := by
  have h0 : c.hdr.tempSP = none ∧ c.hdr.degcSP = none := by obtain ⟨_, _, _, e⟩ := hfr; rw [e]; exact ⟨rfl, rfl⟩
  have := hinterp_none env reg hr c hok (· = .X) (by rintro _ rfl; simp) (fun x => (x.tempSP, x.degcSP))
    (fun k t x hk => by simp only [po_tempSP env k t x hk, po_degcSP env k t x hk])
    (fun f x => by simp only [(ph_mca env f x).2.1, (ph_mca env f x).2.2]) (by
      rintro l hl _ rfl
      cases hq : hKind .X l with
      | false => rfl
      | true =>
        have : l ∈ hOfKind .X (splitlines c.hdr.raw) := List.mem_filter.2 ⟨hl, hq⟩
        rw [h] at this
        cases this)
  simp only [Prod.mk.injEq, h0.1, h0.2] at this
  exact this

omit hfr in
theorem hX_some {l : Str} {p q : Rat} (hl : (hOfKind .X (splitlines c.hdr.raw)).getLast? = some l) (ht : TempLine l p q) :
    (interpretHeader env reg c).1.hdr.tempSP = some (.flt (.fin p)) ∧ (interpretHeader env reg c).1.hdr.degcSP = some (.flt (.fin q)) := by
  have h := hinterp_kind env reg hr c hok .X (by simp) (by simp) (by simp) (fun x => (x.tempSP, x.degcSP))
    (fun l b => match tempScan tempFormats l with
      | .ok (some [a, d]) => (some a, some d)
      | _ => b)
    (by
      intro t x hc
      simp only [procObj, procX] at hc ⊢
      cases hm : tempScan tempFormats t with
      | error e => rw [hm] at hc; simp [Res.eval] at hc
      | ok o =>
        rw [hm] at hc
        simp only [Res.eval] at hc ⊢
        split at hc
        · rfl
        · rfl
        · simp [Res.raise] at hc)
    (fun k t x hk => by simp only [po_tempSP env k t x hk, po_degcSP env k t x hk])
    (fun f x => by simp only [(ph_mca env f x).2.1, (ph_mca env f x).2.2])
  obtain ⟨ls, hls⟩ : ∃ ls, hOfKind .X (splitlines c.hdr.raw) = ls ++ [l] := ⟨_, (List.dropLast_append_getLast? l hl).symm⟩
  rw [hls, List.foldl_append] at h
  simp only [List.foldl_cons, List.foldl_nil, tempScan_line ht, Prod.mk.injEq] at h
  exact h

theorem hcalib : StatedBy (hOfKind .CALIB (splitlines c.hdr.raw)).getLast? ThreeNumbers ((interpretHeader env reg c).1.hdr.mca.bind (·.calib)) := by
  have h0 : c.hdr.mca = none := by obtain ⟨_, _, _, e⟩ := hfr; rw [e]; rfl
  have hstep := hinterp_kind env reg hr c hok .CALIB (by simp) (by simp) (by simp) (fun x => x.mca.bind (·.calib))
    (fun l _ => match mapE Py.float ((splitWs (stripFirstWord l)).take 3) with
      | .ok [a, b, c] => some (a, b, c)
      | _ => none) (by
      intro t x hok
      simp only [procObj, procCalib] at hok ⊢
      cases hm : mapE Py.float ((splitWs (stripFirstWord t)).take 3) with
      | error e => rw [hm] at hok; simp [Res.eval, Res.raise] at hok
      | ok l =>
        rw [hm] at hok
        simp only [Res.eval] at hok ⊢
        split at hok
        · rfl
        · simp [Res.raise] at hok) (fun k t x hk => (po_mca_other env k t x).1 hk) (fun f x => by rw [(ph_mca env f x).1])
  have hall := hkind_ok env reg hr c hok .CALIB (by simp) (by simp) (by simp)
    (fun l => ∃ a b c, mapE Py.float ((splitWs (stripFirstWord l)).take 3) = .ok [a, b, c]) (by
      intro t c hok
      simp only [procObj, procCalib] at hok
      cases hm : mapE Py.float ((splitWs (stripFirstWord t)).take 3) with
      | error e => rw [hm] at hok; simp [Res.eval] at hok
      | ok l =>
        rw [hm] at hok
        simp only [Res.eval] at hok
        split at hok
        · exact ⟨_, _, _, rfl⟩
        · simp [Res.raise] at hok)
  unfold StatedBy
  rw [hstep, foldl_last]
  split
  · next e => rw [e]; simp [h0]
  · next l e =>
    obtain ⟨a, b, d, h⟩ := hall l (List.mem_of_getLast? e)
    refine ⟨(a, b, d), by rw [e]; simp [h], ?_⟩
    have := mapE_float_ok _ _ h
    unfold ThreeNumbers
    match hs : splitWs (stripFirstWord l), this with
    | w1 :: w2 :: w3 :: more, .cons h1 (.cons h2 (.cons h3 _)) => exact ⟨w1, w2, w3, more, rfl, h1, h2, h3⟩

theorem hctime : StatedBy (hOfKind .CTIME (splitlines c.hdr.raw)).getLast? (fun l v => NumbersOf (stripFirstWord l) [v.1, v.2.1, v.2.2])
    ((interpretHeader env reg c).1.hdr.mca.bind (·.ctime)) := by
  have h0 : c.hdr.mca = none := by obtain ⟨_, _, _, e⟩ := hfr; rw [e]; rfl
  have hstep := hinterp_kind env reg hr c hok .CTIME (by simp) (by simp) (by simp) (fun x => x.mca.bind (·.ctime))
    (fun l _ => match mapE Py.float (splitWs (stripFirstWord l)) with
      | .ok [a, b, c] => some (a, b, c)
      | _ => none) (by
      intro t x hok
      simp only [procObj, procCtime] at hok ⊢
      cases hm : mapE Py.float (splitWs (stripFirstWord t)) with
      | error e => rw [hm] at hok; simp [Res.eval, Res.raise] at hok
      | ok l =>
        rw [hm] at hok
        simp only [Res.eval] at hok ⊢
        split at hok
        · rfl
        · simp [Res.raise] at hok) (fun k t x hk => (po_mca_other env k t x).2.2 hk) (fun f x => by rw [(ph_mca env f x).1])
  have hall := hkind_ok env reg hr c hok .CTIME (by simp) (by simp) (by simp)
    (fun l => ∃ a b c, mapE Py.float (splitWs (stripFirstWord l)) = .ok [a, b, c]) (by
      intro t c hok
      simp only [procObj, procCtime] at hok
      cases hm : mapE Py.float (splitWs (stripFirstWord t)) with
      | error e => rw [hm] at hok; simp [Res.eval] at hok
      | ok l =>
        rw [hm] at hok
        simp only [Res.eval] at hok
        split at hok
        · exact ⟨_, _, _, rfl⟩
        · simp [Res.raise] at hok)
  unfold StatedBy
  rw [hstep, foldl_last]
  split
  · next e => rw [e]; simp [h0]
  · next l e =>
    obtain ⟨a, b, d, h⟩ := hall l (List.mem_of_getLast? e)
    exact ⟨(a, b, d), by rw [e]; simp [h], mapE_float_ok _ _ h⟩

theorem hchann : StatedBy (hOfKind .CHANN (splitlines c.hdr.raw)).getLast? Channels ((interpretHeader env reg c).1.hdr.mca.bind (·.chann)) := by
  have h0 : c.hdr.mca = none := by obtain ⟨_, _, _, e⟩ := hfr; rw [e]; rfl
  have hstep := hinterp_kind env reg hr c hok .CHANN (by simp) (by simp) (by simp) (fun x => x.mca.bind (·.chann))
    (fun l _ => match mapE Py.int ((splitWs (stripFirstWord l)).take 3),
        Py.float ((splitWs (stripFirstWord l)).getLastD []) with
      | .ok [a, b, c], .ok r => some (a, b, c, r)
      | _, _ => none) (by
      intro t c hok
      simp only [procObj, procChann] at hok ⊢
      cases hm : mapE Py.int ((splitWs (stripFirstWord t)).take 3) with
      | error e => rw [hm] at hok; simp [Res.eval] at hok
      | ok l =>
        rw [hm] at hok
        simp only [Res.eval] at hok ⊢
        split at hok
        · split at hok
          · next r e => rw [e]; rfl
          · simp at hok
        · simp [Res.raise] at hok) (fun k t x hk => (po_mca_other env k t x).2.1 hk) (fun f x => by rw [(ph_mca env f x).1])
  have hall := hkind_ok env reg hr c hok .CHANN (by simp) (by simp) (by simp)
    (fun l => ∃ a b c r, mapE Py.int ((splitWs (stripFirstWord l)).take 3) = .ok [a, b, c] ∧
      Py.float ((splitWs (stripFirstWord l)).getLastD []) = .ok r) (by
      intro t c hok
      simp only [procObj, procChann] at hok
      cases hm : mapE Py.int ((splitWs (stripFirstWord t)).take 3) with
      | error e => rw [hm] at hok; simp [Res.eval] at hok
      | ok l =>
        rw [hm] at hok
        simp only [Res.eval] at hok
        split at hok
        · split at hok
          · next r e => exact ⟨_, _, _, r, rfl, e⟩
          · simp at hok
        · simp [Res.raise] at hok)
  unfold StatedBy
  rw [hstep, foldl_last]
  split
  · next e => rw [e]; simp [h0]
  · next l e =>
    obtain ⟨a, b, d, r, h, hr⟩ := hall l (List.mem_of_getLast? e)
    refine ⟨(a, b, d, r), by rw [e, Option.map_some, Option.getD_some, h, hr], ?_⟩
    have := mapE_int_ok _ _ h
    unfold Channels
    match hs : splitWs (stripFirstWord l), this with
    | w1 :: w2 :: w3 :: more, .cons h1 (.cons h2 (.cons h3 _)) =>
      refine ⟨w1, w2, w3, more, (w1 :: w2 :: w3 :: more).getLast (by simp), rfl,
        List.getLast?_eq_some_getLast _, h1, h2, h3, ?_⟩
      rw [hs] at hr
      unfold Py.float at hr
      rw [List.getLastD_eq_getLast?, List.getLast?_eq_some_getLast (by simp), Option.getD_some] at hr
      split at hr
      · next e => cases hr; exact e
      · cases hr

theorem hmca_none (hno : ∀ l ∈ splitlines c.hdr.raw, hKind .CALIB l = false ∧ hKind .CHANN l = false ∧ hKind .CTIME l = false ∧ hKind .ROI l = false) :
    (interpretHeader env reg c).1.hdr.mca = none := by
  have h0 : c.hdr.mca = none := by obtain ⟨_, _, _, e⟩ := hfr; rw [e]; rfl
  rw [← h0]
  exact hinterp_none env reg hr c hok (fun k => k = .CALIB ∨ k = .CHANN ∨ k = .CTIME ∨ k = .ROI) (by rintro _ (rfl | rfl | rfl | rfl) <;> simp)
    (·.mca) (fun k t x hk => by
      simp only [not_or] at hk
      exact po_mca env k t x hk.1 hk.2.1 hk.2.2.1 hk.2.2.2) (fun f x => (ph_mca env f x).1) (by
      rintro l hl _ (rfl | rfl | rfl | rfl)
      · exact (hno l hl).1
      · exact (hno l hl).2.1
      · exact (hno l hl).2.2.1
      · exact (hno l hl).2.2.2)

omit [UniDB] hr hok hfr in
theorem ph_root (env : Env) (f : PostFn) (x : Obj) (h : f ≠ .uxml) : (runPostHdr env f x).1.uxmlRoot = x.uxmlRoot := by
  cases f
  case uxml => exact absurd rfl h
  all_goals
    simp only [runPostHdr, counterXref, positionerXref, Res.andThen, Res.ok, Obj.addH5]
    (repeat' split) <;> simp

theorem huxml (hne : hOfKind .UXML (splitlines c.hdr.raw) ≠ []) :
    ∃ root, env.xmlParse (xmlText (hOfKind .UXML (splitlines c.hdr.raw))) = .ok root ∧ (interpretHeader env reg c).1.hdr.uxmlRoot = some root := by
  obtain ⟨c1, c2, e1, e2, e3⟩ := hinterpret_ok env reg c hok
  have hux : c1.hdr.UXML = some ((hOfKind .UXML (splitlines c.hdr.raw)).map stripFirstWord) := by
    have h := hlines_kind env reg hr .UXML (by simp) (by simp) (by simp) (·.UXML)
      (fun l b => some (b.getD [] ++ [stripFirstWord l])) (fun t x _ => rfl)
      (fun k t x hk => po_UXML env k t x hk) (splitlines c.hdr.raw) (splitlines_no_nl _) c (by rw [e1])
    rw [e1] at h
    have h00 : c.hdr.UXML = none := by obtain ⟨_, _, _, e⟩ := hfr; rw [e]; rfl
    rw [foldl_opt_append, h00, if_neg hne] at h
    exact h
  obtain ⟨f, x, f1, f2, f3, f4⟩ := hdr_ran env reg hr c c1 c2 hfr p!"UXML_metadata" (·.uxmlRoot) (·.UXML)
    (fun f x h => ph_root env f x (fun e => h (by rw [e]; rfl))) (fun f x _ => (ph_rest env f x).1) e1 e2 .UXML rfl (by simp) hne
  have hf : f = .uxml := by cases f <;> first | rfl | (exfalso; revert f1; decide)
  subst hf
  rw [e3]
  have f2 : x.UXML = some ((hOfKind .UXML (splitlines c.hdr.raw)).map stripFirstWord) := f2.trans hux
  rw [f4]
  revert f3
  simp only [runPostHdr, postUXML, Res.eval, f2, Option.getD_some, xmlText]
  cases env.xmlParse (join ['\n'] ((hOfKind .UXML (splitlines c.hdr.raw)).map stripFirstWord)) with
  | error e => intro h; cases h
  | ok root =>
    intro _
    refine ⟨root, rfl, ?_⟩
    simp only
    split <;> rfl

theorem huxml_none (hno : hOfKind .UXML (splitlines c.hdr.raw) = []) : (interpretHeader env reg c).1.hdr.uxmlRoot = none := by
  obtain ⟨c1, c2, e1, e2, e3⟩ := hinterpret_ok env reg c hok
  have h0 : c.hdr.uxmlRoot = none ∧ c.hdr.post = [] := by obtain ⟨_, _, _, e⟩ := hfr; rw [e]; exact ⟨rfl, rfl⟩
  have hp := hlines_post env reg (splitlines c.hdr.raw) c (by rw [e1])
  have hu := hlines_fold env reg (·.uxmlRoot) (fun _ _ b => b)
    (fun k t x _ _ => po_uxmlRoot env k t x) (fun _ _ => rfl) (splitlines c.hdr.raw) c (by rw [e1])
  have hu : (forEach (hdrLine env reg) (splitlines c.hdr.raw) c).1.hdr.uxmlRoot = none := by
    rw [hu, h0.1]
    clear * -
    induction splitlines c.hdr.raw with
    | nil => rfl
    | cons l ls ih => rw [List.foldl_cons]; split <;> exact ih
  rw [h0.2] at hp
  have hnot : PostFn.uxml ∉ (forEach (hdrLine env reg) (splitlines c.hdr.raw) c).1.hdr.post.values := by
    rw [hp]
    intro hm
    rw [postFold_mem (by simp [soleLabel]) _ _ ⟨by simp [Dict.keys], by simp⟩] at hm
    rcases hm with hm | ⟨k, hk, hk2⟩
    · simp [Dict.values] at hm
    · obtain ⟨l, hl, hl2⟩ := List.mem_filterMap.1 (List.mem_filter.1 hk).1
      have hkk : k = .UXML := by cases k <;> simp [postOf] at hk2 <;> rfl
      subst hkk
      have hq := (hEff_iff reg hr l (splitlines_no_nl _ l hl) .UXML (by simp) (by simp)).1 hl2
      have : l ∈ hOfKind .UXML (splitlines c.hdr.raw) := List.mem_filter.2 ⟨hl, hq⟩
      rw [hno] at this
      cases this
  rw [e1] at hu hnot
  have h2 := forEach_pres (fun f => HCtx.onHdr (runPostHdr env f)) (fun c : HCtx => c.hdr.uxmlRoot) c1.hdr.post.values
    (fun f hf c => ph_root env f c.hdr (fun e => hnot (e ▸ hf))) c1
  rw [e2] at h2
  rw [e3]
  exact h2.trans hu

theorem header_plugins : HeaderPlugins env (interpretHeader env reg c).1.hdr := by
  have hraw : (interpretHeader env reg c).1.hdr.raw = c.hdr.raw := by
    have := interpretHeader_ident env reg c
    simp only [hctxIdent, Prod.mk.injEq] at this
    exact congrArg Ident.raw this.1
  constructor <;> rw [hraw]
  · exact hparams env reg hr c hfr hok
  · exact hmd_none env reg hr c hfr hok
  · exact hmd_some env reg hr c hok
  · exact hmd_items env reg hr c hfr hok
  · exact huxml_none env reg hr c hfr hok
  · exact huxml env reg hr c hfr hok
  · exact hX_none env reg hr c hfr hok
  · exact fun l p q => hX_some env reg hr c hok
  · exact hcalib env reg hr c hfr hok
  · exact hchann env reg hr c hfr hok
  · exact hctime env reg hr c hfr hok
  · exact hmca_none env reg hr c hfr hok

end

theorem newHeader_plugins (env : Env) (name : Str) : HeaderPlugins env (Obj.newHeader name []) :=
  ⟨(fun i => by cases i <;> exact ⟨fun _ => rfl, fun h => absurd rfl h⟩), fun _ => rfl, fun h => absurd rfl h,
    fun items h _ e => absurd (List.map_eq_nil_iff.1 e.symm) h, fun _ => rfl, fun h => absurd rfl h, fun _ => ⟨rfl, rfl⟩,
    (fun _ _ _ h => by cases h), rfl, rfl, rfl, fun _ => rfl⟩

theorem _root_.S2N.Spec.HeaderPlugins.dated {env : Env} {x : Obj} (h : HeaderPlugins env x) (d : Str) (e : Option Num) :
    HeaderPlugins env { x with date := d, epoch := e } :=
  ⟨(fun i => by cases i <;> first | exact h.parameters .VA | exact h.parameters .VD | exact h.parameters .VE), h.noMetadata, h.someMetadata, h.metadata, h.noDocument, h.document, h.noSetpoints, h.setpoints,
    h.calib, h.chann, h.ctime, h.noMca⟩

/-- C99: when a file without #P lines in its headers has been opened, the attributes that plug-ins give to each header are
what its text says. -/
theorem C99_headers {env : Env} {reg : List HKey} (hr : reg.Perm HKey.all) {name : Str} {f stat : FileSt} {s : Sdf}
    (h : Sdf.openFile env reg name f stat = .ok s) {texts : List Str} (ht : dissectFile f.node = .ok texts)
    (hP : ∀ t ∈ texts, isHeaderText t = true → ∀ l ∈ splitlines t, hKind .P l = false) :
    ∀ x ∈ s.headers, HeaderPlugins env x :=
  (calm_open env reg hr (Q := HeaderPlugins env) ⟨newHeader_plugins env, fun _ d e h => h.dated d e⟩ name f stat s h
    texts ht hP (fun _ _ _ c _ _ hf hok => header_plugins env reg hr c hf hok)).headers

theorem plugins_of {env : Env} {reg : List HKey} (hr : reg.Perm HKey.all) {texts : List Str} {s : Sdf}
    {ks : List Ref} {r : SState} (hc : Conversion env reg texts s ks r) (x : Obj) : HeaderPlugins env (s.headerOf x) := by
  obtain ⟨name, f, stat, ho, ht⟩ := hc.opened
  have h := C99_headers hr ho ht hc.plain.noP
  unfold Sdf.headerOf
  rw [List.getD_eq_getElem?_getD]
  cases hi : s.headers[x.hdrIdx]? with
  | none => exact newHeader_plugins env _
  | some y => exact h y (List.mem_of_getElem? hi)

/-- an attribute of a scan is as it was if no line of certain kinds is there -/
theorem interp_none (env : Env) (reg : List HKey) (hr : reg.Perm HKey.all) (c : ScanCtx) (hf : Fresh c.scan)
    (hok : (interpretScan env reg c).2 = none) {β : Type} (B : HKey → Prop) (hB : ∀ k, B k → k ≠ .S ∧ k ≠ .unrec) (π : Obj → β)
    (hne : ∀ k text c, ¬ B k → π (procScan env k text c).1.scan = π c.scan) (hpost : ∀ f c, π (runPost env f c).1.scan = π c.scan)
    (hlazy : ∀ x : Obj, π { x with lazy := false } = π x) (hdone : ∀ x : Obj, π { x with interpreted := true } = π x)
    (hno : ∀ l ∈ scanLines c.scan.raw, ∀ k, B k → isKind k l = false) :
    π (interpretScan env reg c).1.scan = π c.scan := by
  obtain ⟨c1, c2, e1, e2, e3⟩ := interpret_ok env reg c (fresh_interpreted hf) hok
  have h := forEach_keep (scanLine env reg) (fun d : ScanCtx => π d.scan = π c.scan) (scanLines c.scan.raw) (by
    intro l hl d hd _
    rw [scanLine_eq]
    cases he : effKey reg l with
    | none => exact hd
    | some k =>
      have hb : ¬ B k := by
        intro hb
        have := (effKey_iff reg hr l (scanLines_no_nl _ l hl) k (hB k hb).1 (hB k hb).2).1 he
        rw [hno l hl k hb] at this
        cases this
      exact (hne k l d hb).trans hd) { c with scan := { c.scan with lazy := false } } (hlazy _) (by rw [e1])
  rw [e1] at h
  have h2 := forEach_pres (runPost env) (fun c : ScanCtx => π c.scan) c1.scan.post.values (fun f _ c => hpost f c) c1
  rw [e2] at h2
  rw [e3]
  exact (hdone _).trans (h2.trans h)

theorem kinds_none {K : HKey} {ls : List Str} (h : ofKind K ls = []) : ∀ l ∈ ls, isKind K l = false := by
  intro l hl
  cases hq : isKind K l with
  | false => rfl
  | true =>
    have : l ∈ ofKind K ls := List.mem_filter.2 ⟨hl, hq⟩
    rw [h] at this
    cases this

theorem uxml_scan_none (env : Env) (reg : List HKey) (hr : reg.Perm HKey.all) (c : ScanCtx) (hf : Fresh c.scan)
    (hok : (interpretScan env reg c).2 = none) (hno : ofKind .UXML (scanLines c.scan.raw) = []) :
    (interpretScan env reg c).1.scan.uxmlRoot = none := by
  obtain ⟨c1, c2, e1, e2, e3⟩ := interpret_ok env reg c (fresh_interpreted hf) hok
  have h0 : c.scan.uxmlRoot = none ∧ c.scan.post = [] := by obtain ⟨_, _, _, _, _, _, _, _, _, e⟩ := hf; rw [e]; exact ⟨rfl, rfl⟩
  have h1 := forEach_pres (scanLine env reg) (fun c : ScanCtx => c.scan.uxmlRoot) (scanLines c.scan.raw) (fun l _ c => by
    rw [scanLine_eq]
    cases effKey reg l with
    | none => rfl
    | some k => exact ps_uxmlRoot env k l c) { c with scan := { c.scan with lazy := false } }
  have hnot := lines_post_mem env reg hr (scanLines c.scan.raw) (scanLines_no_nl _) { c with scan := { c.scan with lazy := false } } h0.2
    (by rw [e1]) (f0 := .uxml) (by simp [soleLabel])
  rw [e1] at h1 hnot
  have h2 := forEach_pres (runPost env) (fun c : ScanCtx => c.scan.uxmlRoot) c1.scan.post.values (fun f hm c => pp_uxmlRoot env f c (by
    rintro rfl
    obtain ⟨l, hl, k, hk, hk2⟩ := hnot.1 hm
    have : k = .UXML := by cases k <;> simp [postOf] at hk <;> rfl
    subst this
    rw [kinds_none hno l hl] at hk2
    cases hk2)) c1
  rw [e2] at h2
  rw [e3]
  exact h2.trans (h1.trans h0.1)

section
variable {env : Env} {reg : List HKey} (hr : reg.Perm HKey.all) (hx : SchemaNames env) {texts : List Str} {s : Sdf}
  {ks : List Ref} {r : SState} (hc : Conversion env reg texts s ks r) {k : Ref} (hm : k ∈ ks) {x : Obj}
  (hk : s.getScan k = .ok (some x)) {head : Str} (hh : head = (s.headerOf x).raw)
include hr hx hc hm hk hh

/-- C99: the words of the #VA, #VD and #VE lines of the text of a header (the last line of each key) are the datasets of the
groups `VA`, `VD` and `VE` of the entry of each of its scans. -/
theorem C99_parameters (i : Xpcs) :
    (keyedLines i.kind head = [] → objAt r.h5 [entryName k, i.name] = none) ∧
    (keyedLines i.kind head ≠ [] → ∃ d, LastWins d (keyedLines i.kind head) ∧ DictAt r.h5 (entryName k) i.name i.attrs wordsData d) := by
  obtain ⟨z, hdr, ar⟩ := arrived hr hx hc hm hk
  obtain ⟨v, hsv⟩ := hc.saved
  obtain ⟨h1, h2⟩ := C84_parameters hr hx ar.savable hc.keys hsv hm ar.now i
  have e : i.of (r.sdf.headerOf z) = i.of (s.headerOf x) := by obtain ⟨O, d, e, e1⟩ := ar.after; rw [e1]; cases i <;> rfl
  obtain ⟨p1, p2⟩ := (plugins_of hr hc x).parameters i
  rw [e] at h1 h2
  rw [hh]
  exact ⟨fun h => h2 (p1 h), fun h => by obtain ⟨d, d1, d2⟩ := p2 h; exact ⟨d, d2, h1 d d1⟩⟩

/-- C99: the `#MD key = value` lines of the text of a header are the group `bluesky_metadata` of the entry of each of its scans;
such a scan has no #MD lines of its own. -/
theorem C99_metadata {items : List (Str × Str)} (hne : items ≠ [])
    (hkey : ∀ kv ∈ items, kv.1 ≠ [] ∧ ∀ ch ∈ kv.1, isSpace ch = false ∧ ch ≠ '=')
    (hl : hOfKind .MD (splitlines head) = items.map (fun kv => mdLine kv.1 kv.2)) :
    (∀ its : List (Str × Str), its ≠ [] → (∀ kv ∈ its, kv.1 ≠ [] ∧ ∀ ch ∈ kv.1, isSpace ch = false ∧ ch ≠ '=') →
      ofKind .MD (scanLines x.raw) ≠ its.map (fun kv => mdLine kv.1 kv.2)) ∧
    (ofKind .MD (scanLines x.raw) = [] → ∃ d, LastWins d (items.map (fun kv => (kv.1, strip kv.2))) ∧ MetaAt r.h5 (entryName k) d) := by
  obtain ⟨z, hdr, ar⟩ := arrived hr hx hc hm hk
  obtain ⟨v, hsv⟩ := hc.saved
  obtain ⟨L, hL⟩ := ar.labels
  subst hh
  obtain ⟨d, d1, d2⟩ := (plugins_of hr hc x).metadata items hne hkey hl
  have e : (r.sdf.headerOf z).MD = some d := by obtain ⟨O, d', e, e1⟩ := ar.after; rw [e1]; exact d1
  obtain ⟨g1, g2, _⟩ := C75_metadata hr hx ar.savable hc.keys hsv hm ar.now rfl rfl
  have hd : d ≠ [] := lastWins_ne d2 (by simpa using hne)
  rw [e] at g1 g2
  have g3 : z.MD.getD [] = [] := g1.resolve_left hd
  rw [g3, List.append_nil] at g2
  refine ⟨fun its i1 i2 i3 => ?_, fun _ => ⟨d, d2, g2 hd⟩⟩
  obtain ⟨d', a1, a2⟩ := C30_MD env reg hr ⟨x, hdr⟩ ar.fresh ar.done its i1 i2 i3
  have e' : z.MD = some d' := by rw [hL]; exact a1
  rw [e'] at g3
  exact lastWins_ne a2 (by simpa using i1) g3

/-- C99: the XML text of the #UXML lines of a scan or of its header (not both) is the group `UXML` of its entry: each dataset
and each group of the document is there at its place, and a hard link is the object with its id (see C46 for repeated ones). -/
theorem C99_document {hl sl : List Str} (hhl : hl = hOfKind .UXML (splitlines head)) (hsl : sl = ofKind .UXML (scanLines x.raw))
    (hd : ∀ ls root, (ls = hl ∨ ls = sl) → env.xmlParse (xmlText ls) = .ok root → ∀ e ∈ elements root, NodeOk e.2) :
    (hl = [] ∨ sl = []) ∧ (hl ++ sl = [] → objAt r.h5 [entryName k, p!"UXML"] = none) ∧
    (hl ++ sl ≠ [] → ∃ root, env.xmlParse (xmlText (hl ++ sl)) = .ok root ∧ UxmlGroup r.h5 (entryName k) ∧
      (∀ e ∈ elements root, Element r.h5 ([entryName k, p!"UXML"] ++ e.1) e.2) ∧
      ∀ t p q, lastPlace linkTo t (elements root) = some p → lastPlace idOf t (elements root) = some q →
        SameObject r.h5 ([entryName k, p!"UXML"] ++ p) ([entryName k, p!"UXML"] ++ q)) := by
  obtain ⟨z, hdr, ar⟩ := arrived hr hx hc hm hk
  obtain ⟨v, hsv⟩ := hc.saved
  obtain ⟨L, hL⟩ := ar.labels
  have hp := plugins_of hr hc x
  subst hh
  have eh : (r.sdf.headerOf z).uxmlRoot = (s.headerOf x).uxmlRoot := by obtain ⟨O, d, e, e1⟩ := ar.after; rw [e1]
  have ez : z.uxmlRoot = (interpretScan env reg ⟨x, hdr⟩).1.scan.uxmlRoot := by rw [hL]
  have h1 : (hl = [] → (r.sdf.headerOf z).uxmlRoot = none) ∧
      (hl ≠ [] → ∃ root, env.xmlParse (xmlText hl) = .ok root ∧ (r.sdf.headerOf z).uxmlRoot = some root) := by
    rw [eh, hhl]
    exact ⟨hp.noDocument, hp.document⟩
  have h2 : (sl = [] → z.uxmlRoot = none) ∧ (sl ≠ [] → ∃ root, env.xmlParse (xmlText sl) = .ok root ∧ z.uxmlRoot = some root) := by
    rw [ez, hsl]
    exact ⟨uxml_scan_none env reg hr ⟨x, hdr⟩ ar.fresh ar.done, uxml_scan env reg hr ar.fresh ar.done⟩
  have o1 : DocumentOk (r.sdf.headerOf z).uxmlRoot := by
    intro root hroot
    by_cases e : hl = []
    · rw [h1.1 e] at hroot; cases hroot
    · obtain ⟨root', a, b⟩ := h1.2 e
      rw [b] at hroot
      cases hroot
      exact hd hl root (.inl rfl) a
  have o2 : DocumentOk z.uxmlRoot := by
    intro root hroot
    by_cases e : sl = []
    · rw [h2.1 e] at hroot; cases hroot
    · obtain ⟨root', a, b⟩ := h2.2 e
      rw [b] at hroot
      cases hroot
      exact hd sl root (.inr rfl) a
  obtain ⟨q1, q2, q3⟩ := C78_elements hr hx ar.savable hc.keys hsv hm ar.now o1 o2
  have hone : hl = [] ∨ sl = [] := by
    by_cases e : hl = []
    · exact .inl e
    · by_cases e' : sl = []
      · exact .inr e'
      · obtain ⟨a, _, b⟩ := h1.2 e
        obtain ⟨a', _, b'⟩ := h2.2 e'
        rw [b, b'] at q1
        rcases q1 with q1 | q1 <;> cases q1
  refine ⟨hone, fun h => ?_, fun h => ?_⟩
  · obtain ⟨e1, e2⟩ := List.append_eq_nil_iff.1 h
    exact q3 (h1.1 e1) (h2.1 e2)
  · have fin : ∀ root, (r.sdf.headerOf z).uxmlRoot = some root ∨ z.uxmlRoot = some root → UxmlGroup r.h5 (entryName k) ∧
        (∀ e ∈ elements root, Element r.h5 ([entryName k, p!"UXML"] ++ e.1) e.2) ∧
        ∀ t p q, lastPlace linkTo t (elements root) = some p → lastPlace idOf t (elements root) = some q →
          SameObject r.h5 ([entryName k, p!"UXML"] ++ p) ([entryName k, p!"UXML"] ++ q) := fun root hroot =>
      ⟨(q2 root hroot).1, (q2 root hroot).2, fun t p q a b => C46_last hr hx ar.savable hc.keys hsv hm ar.now o1 o2 hroot t p q a b⟩
    rcases hone with e | e
    · subst e
      obtain ⟨root, a, b⟩ := h2.2 (by simpa using h)
      exact ⟨root, a, fin root (.inr b)⟩
    · rw [e, List.append_nil] at h ⊢
      obtain ⟨root, a, b⟩ := h1.2 h
      exact ⟨root, a, fin root (.inl b)⟩

/-- C99: the set points of the temperature are those of the last #X line of a header and its scan; without such lines
there are none. -/
theorem C99_temperature {ls : List Str} (hls : ls = hOfKind .X (splitlines head) ++ ofKind .X (scanLines x.raw)) :
    (ls = [] → TemperatureAt r.h5 (entryName k) none none) ∧
    (∀ l p q, ls.getLast? = some l → TempLine l p q → TemperatureAt r.h5 (entryName k) (some (.flt (.fin p))) (some (.flt (.fin q)))) := by
  obtain ⟨z, hdr, ar⟩ := arrived hr hx hc hm hk
  obtain ⟨v, hsv⟩ := hc.saved
  obtain ⟨L, hL⟩ := ar.labels
  have hp := plugins_of hr hc x
  have eh : (r.sdf.headerOf z).tempSP = (s.headerOf x).tempSP ∧ (r.sdf.headerOf z).degcSP = (s.headerOf x).degcSP := by
    obtain ⟨O, d, e, e1⟩ := ar.after; rw [e1]; exact ⟨rfl, rfl⟩
  have no : ofKind .X (scanLines x.raw) = [] → z.tempSP = none ∧ z.degcSP = none := by
    intro hno
    have h0 : x.tempSP = none ∧ x.degcSP = none := by obtain ⟨_, _, _, _, _, _, _, _, _, e⟩ := ar.fresh; rw [e]; exact ⟨rfl, rfl⟩
    have := interp_none env reg hr ⟨x, hdr⟩ ar.fresh ar.done (· = .X) (by rintro _ rfl; simp) (fun x => (x.tempSP, x.degcSP))
      (fun k t c hk => by simp only [ps_tempSP env k t c hk, ps_degcSP env k t c hk])
      (fun f c => by simp only [pp_tempSP, pp_degcSP]) (fun _ => rfl) (fun _ => rfl) (by rintro l hl _ rfl; exact kinds_none hno l hl)
    simp only [Prod.mk.injEq, h0.1, h0.2] at this
    rw [hL]
    exact this
  refine ⟨fun h => ?_, fun l p q hl ht => ?_⟩
  · rw [hls] at h
    obtain ⟨e1, e2⟩ := List.append_eq_nil_iff.1 h
    rw [hh] at e1
    obtain ⟨a1, a2⟩ := hp.noSetpoints e1
    obtain ⟨b1, b2⟩ := no e2
    exact (C87_temperature hr hx ar.savable hc.keys hsv hm ar.now (by rw [b1, eh.1, a1]; rfl) (by rw [b2, eh.2, a2]; rfl)).1
  · by_cases e : ofKind .X (scanLines x.raw) = []
    · rw [hls, e, List.append_nil, hh] at hl
      obtain ⟨a1, a2⟩ := hp.setpoints l p q hl ht
      obtain ⟨b1, b2⟩ := no e
      exact (C87_temperature hr hx ar.savable hc.keys hsv hm ar.now (by rw [b1, eh.1, a1]; rfl) (by rw [b2, eh.2, a2]; rfl)).1
    · rw [hls, List.getLast?_append_of_ne_nil _ e] at hl
      exact C96_temperature hr hx hc hm hk hl ht

/-- C99: the numbers of the last #@CALIB, #@CHANN and #@CTIME lines of a header and its scan are in the group `MCA` of the
entry of the scan; without such lines and without #@ROI lines there is no such group. -/
theorem C99_mca {last : HKey → Option Str} (hlast : ∀ K, last K = (hOfKind K (splitlines head) ++ ofKind K (scanLines x.raw)).getLast?) :
    ∃ calib chann ctime, StatedBy (last .CALIB) ThreeNumbers calib ∧ StatedBy (last .CHANN) Channels chann ∧
      StatedBy (last .CTIME) (fun l v => NumbersOf (stripFirstWord l) [v.1, v.2.1, v.2.2]) ctime ∧
      (last .CALIB ≠ none ∨ last .CHANN ≠ none ∨ last .CTIME ≠ none → McaAt r.h5 (entryName k) calib chann ctime) ∧
      (last .CALIB = none → last .CHANN = none → last .CTIME = none → last .ROI = none → objAt r.h5 [entryName k, p!"MCA"] = none) := by
  obtain ⟨z, hdr, ar⟩ := arrived hr hx hc hm hk
  obtain ⟨v, hsv⟩ := hc.saved
  obtain ⟨L, hL⟩ := ar.labels
  have hp := plugins_of hr hc x
  have e : z.mca = (interpretScan env reg ⟨x, hdr⟩).1.scan.mca := by rw [hL]
  have eh : (r.sdf.headerOf z).mca = (s.headerOf x).mca := by obtain ⟨O, d, e, e1⟩ := ar.after; rw [e1]
  have a1 := C68_calib env reg hr ⟨x, hdr⟩ ar.fresh ar.done
  have a2 := C68_chann env reg hr ⟨x, hdr⟩ ar.fresh ar.done
  have a3 := C68_ctime env reg hr ⟨x, hdr⟩ ar.fresh ar.done
  rw [← e] at a1 a2 a3
  obtain ⟨g, g0⟩ := C81_mca hr hx ar.savable hc.keys hsv hm ar.now rfl rfl rfl
  rw [eh] at g g0
  have b1 := hp.calib
  have b2 := hp.chann
  have b3 := hp.ctime
  rw [← hh] at b1 b2 b3
  have join : ∀ {α : Type} {P : Str → α → Prop} (K : HKey) {o o' : Option α}, StatedBy (hOfKind K (splitlines head)).getLast? P o' →
      (match (ofKind K (scanLines x.raw)).getLast? with
        | none => o = none
        | some l => ∃ v, o = some v ∧ P l v) → StatedBy (last K) P (o.or o') := by
    intro α P K o o' h h'
    by_cases en : ofKind K (scanLines x.raw) = []
    · rw [en] at h'
      rw [hlast, en, List.append_nil]
      have h' : o = none := h'
      rw [h']
      exact h
    · rw [hlast, List.getLast?_append_of_ne_nil _ en]
      cases hq : (ofKind K (scanLines x.raw)).getLast? with
      | none => exact absurd (List.getLast?_eq_none_iff.1 hq) en
      | some l =>
        rw [hq] at h'
        obtain ⟨w, w1, w2⟩ := h'
        exact ⟨w, by rw [w1]; rfl, w2⟩
  have c1 := join .CALIB b1 a1
  have c2 := join .CHANN b2 a2
  have c3 := join .CTIME b3 a3
  have some_of : ∀ {α : Type} {P : Str → α → Prop} {l : Option Str} {o : Option α}, StatedBy l P o → l ≠ none → o ≠ none := by
    intro α P l o h hn
    cases l with
    | none => exact absurd rfl hn
    | some l => obtain ⟨w, w1, _⟩ := h; rw [w1]; simp
  refine ⟨_, _, _, c1, c2, c3, fun h => g ?_, fun n1 n2 n3 n4 => g0 ?_ ?_⟩
  · rcases h with h | h | h
    · exact .inl (some_of c1 h)
    · exact .inr (.inl (some_of c2 h))
    · exact .inr (.inr (some_of c3 h))
  · rw [hlast, List.getLast?_eq_none_iff, List.append_eq_nil_iff] at n1 n2 n3 n4
    have h0 : x.mca = none := by obtain ⟨_, _, _, _, _, _, _, _, _, e⟩ := ar.fresh; rw [e]; rfl
    rw [e, ← h0]
    exact interp_none env reg hr ⟨x, hdr⟩ ar.fresh ar.done (fun k => k = .CALIB ∨ k = .CHANN ∨ k = .CTIME ∨ k = .ROI)
      (by rintro _ (rfl | rfl | rfl | rfl) <;> simp) (·.mca) (fun k t c hk => by
        simp only [not_or] at hk
        exact ps_mca env k t c hk.1 hk.2.1 hk.2.2.1 hk.2.2.2) (fun f c => pp_mca env f c) (fun _ => rfl) (fun _ => rfl) (by
        rintro l hl _ (rfl | rfl | rfl | rfl)
        · exact kinds_none n1.2 l hl
        · exact kinds_none n2.2 l hl
        · exact kinds_none n3.2 l hl
        · exact kinds_none n4.2 l hl)
  · rw [hlast, List.getLast?_eq_none_iff, List.append_eq_nil_iff] at n1 n2 n3 n4
    rw [hh] at n1 n2 n3 n4
    have no : ∀ {K : HKey} {ls : List Str}, hOfKind K ls = [] → ∀ l ∈ ls, hKind K l = false := by
      intro K ls h l hl
      cases hq : hKind K l with
      | false => rfl
      | true =>
        have : l ∈ hOfKind K ls := List.mem_filter.2 ⟨hl, hq⟩
        rw [h] at this
        cases this
    exact hp.noMca (fun l hl => ⟨no n1.1 l hl, no n2.1 l hl, no n3.1 l hl, no n4.1 l hl⟩)

end

end
end S2N.Props
