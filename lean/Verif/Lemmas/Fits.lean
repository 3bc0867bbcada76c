import Verif.Spec.Fits
import Verif.Props.ScanfTotal
import Verif.Props.McaInfo
import Verif.Props.Columns
import Verif.Props.Tables
import Verif.Props.Diffractometers
/-
Interpretation of a scan whose lines are as their kinds demand does not raise.
-/
namespace S2N.Props
open S2N S2N.Py S2N.HKey S2N.Spec

/-- a loop in which no step raises -/
theorem forEach_total {α σ : Type} (f : α → σ → Res σ) (all : List α) (I : List α → σ → Prop)
    (step : ∀ pre a post s, all = pre ++ a :: post → I pre s → (f a s).2 = none ∧ I (pre ++ [a]) (f a s).1) :
    ∀ (todo pre : List α) (s : σ), all = pre ++ todo → I pre s → (forEach f todo s).2 = none ∧ I all (forEach f todo s).1
  | [], pre, s, e, h => by
    rw [List.append_nil] at e
    subst e
    exact ⟨rfl, h⟩
  | a :: as, pre, s, e, h => by
    obtain ⟨h1, h2⟩ := step pre a as s e h
    have := forEach_total f all I step as (pre ++ [a]) (f a s).1 (by simpa using e) h2
    simp only [forEach, Res.andThen_of_none h1]
    exact this

/-- a loop in which no step raises, over different steps each of which has what it needs until it is taken -/
theorem forEach_each {α σ : Type} (f : α → σ → Res σ) (Q : α → σ → Prop)
    (ok : ∀ a s, Q a s → (f a s).2 = none) (keep : ∀ a b s, a ≠ b → Q a s → Q a (f b s).1) :
    ∀ (as : List α) (s : σ), as.Nodup → (∀ a ∈ as, Q a s) → (forEach f as s).2 = none
  | [], s, _, _ => rfl
  | a :: as, s, hn, h => by
    have h1 := ok a s (h a (by simp))
    obtain ⟨hn1, hn2⟩ := List.nodup_cons.1 hn
    simp only [forEach, Res.andThen_of_none h1]
    refine forEach_each f Q ok keep as _ hn2 ?_
    intro b hb
    exact keep b a s (fun e => hn1 (e ▸ hb)) (h b (by simp [hb]))

theorem mapE_all {α β : Type} (f : α → Except PyErr β) : ∀ (l : List α), (∀ a ∈ l, ∃ b, f a = .ok b) →
    ∃ bs, mapE f l = .ok bs ∧ bs.length = l.length
  | [], _ => ⟨[], rfl, rfl⟩
  | a :: as, h => by
    obtain ⟨b, hb⟩ := h a (by simp)
    obtain ⟨bs, h1, h2⟩ := mapE_all f as (fun x hx => h x (by simp [hx]))
    exact ⟨b :: bs, by simp only [mapE, hb, h1], by simp [h2]⟩

section
variable [UniDB]

theorem isKind_lead {k : HKey} {l : Str} (h : isKind k l = true) :
    ∃ w rest, lstrip l = w ++ ' ' :: rest ∧ ' ' ∉ w ∧ leadWord (lstrip l) = some w ∧ wordIs k w = true := by
  unfold isKind at h
  cases hw : leadWord (lstrip l) with
  | none => rw [hw] at h; cases h
  | some w =>
    rw [hw] at h
    unfold leadWord at hw
    cases hf : findC ' ' (lstrip l) with
    | none => rw [hf] at hw; cases hw
    | some p =>
      rw [hf] at hw
      obtain ⟨a, b, e, ha, hl⟩ := findC_some _ _ _ hf
      have : w = a := by
        simp only [Option.map_some, Option.some.injEq] at hw
        rw [← hw, e, ← hl, List.take_left]
      subst this
      exact ⟨w, b, e, ha, rfl, h⟩

theorem splitWs_lstrip (l : Str) : splitWs (lstrip l) = splitWs l := by
  induction l with
  | nil => rfl
  | cons c cs ih =>
    unfold lstrip at ih ⊢
    rw [List.dropWhile_cons]
    split
    · next h => rw [ih, splitWs_cons_space (by simpa using h)]
    · rfl

theorem lstrip_head : ∀ {l : Str} {c : Char} {cs : Str}, lstrip l = c :: cs → isSpace c = false
  | [], c, cs, h => by simp [lstrip] at h
  | a :: l, c, cs, h => by
    unfold lstrip at h
    rw [List.dropWhile_cons] at h
    split at h
    · exact lstrip_head (l := l) h
    · next hn =>
      cases h
      simpa using hn

theorem isKind_words {k : HKey} {l : Str} (h : isKind k l = true) : ∃ w ws, splitWs l = w :: ws := by
  obtain ⟨w, rest, e, -⟩ := isKind_lead h
  have hne : splitWs l ≠ [] := by
    rw [← splitWs_lstrip, ne_eq, splitWs_eq_nil_iff]
    intro hall
    cases hl : lstrip l with
    | nil => rw [hl] at e; simp at e
    | cons c cs =>
      have := hall c (by rw [hl]; simp)
      rw [lstrip_head hl] at this
      cases this
  exact List.exists_cons_of_ne_nil hne

theorem isWord_eq : isWord '=' = false := rfl

theorem mdItem_total {n : Nat} {l : Str} (h : isKind .MD l = true) : ∃ kv, mdItem n l = .ok kv := by
  unfold mdItem
  rw [findS_single]
  cases hf : findC '=' l with
  | none => exact ⟨_, rfl⟩
  | some p =>
    simp only
    split
    · obtain ⟨w, rest, e, hsp, -, hw⟩ := isKind_lead h
      have hm : '=' ∈ l := by
        by_contra hc
        rw [(findC_eq_none_iff _ _).2 hc] at hf
        cases hf
      have hme : '=' ∈ lstrip l := by
        by_contra hc
        obtain ⟨a, ha⟩ := lstrip_suffix l
        have hall : ∀ c ∈ a, isSpace c = true := by
          have : a = l.takeWhile isSpace := by
            have h1 : l.takeWhile isSpace ++ lstrip l = l := List.takeWhile_append_dropWhile
            have h2 := ha.trans h1.symm
            exact List.append_cancel_right h2
          intro c hc
          rw [this] at hc
          exact (List.all_eq_true.1 (List.all_takeWhile (p := isSpace) (l := l))) c hc
        rw [← ha] at hm
        rcases List.mem_append.1 hm with h | h
        · exact absurd (hall _ h) (by decide)
        · exact hc h
      have hnw : '=' ∉ w := by
        intro hc
        simp only [wordIs, Bool.or_eq_true, beq_iff_eq, Bool.and_eq_true] at hw
        rcases hw with hw | ⟨h1, h2⟩
        · subst hw; revert hc; decide
        · obtain ⟨r, hr⟩ : p!"#MD" <+: w := by simpa [startsWith] using h1
          subst hr
          rcases List.mem_append.1 hc with h | h
          · revert h; decide
          · have : (p!"#MD" ++ r).drop 3 = r := rfl
            rw [this, List.all_eq_true] at h2
            have := h2 _ h
            rw [isWord_eq] at this
            cases this
      have hrest : '=' ∈ rest := by
        rw [e] at hme
        rcases List.mem_append.1 hme with h | h
        · exact absurd h hnw
        · rcases List.mem_cons.1 h with h | h
          · exact absurd h (by decide)
          · exact h
      have h1 : splitWs w ≠ [] := by
        rw [ne_eq, splitWs_eq_nil_iff]
        intro hall
        cases hwc : w with
        | nil => rw [hwc] at hw; exact absurd hw (by simp [wordIs, startsWith, HKey.keyText])
        | cons c cs =>
          have := hall c (by rw [hwc]; simp)
          rw [lstrip_head (l := l) (c := c) (cs := cs ++ ' ' :: rest) (by rw [e, hwc]; rfl)] at this
          cases this
      have h2 : splitWs rest ≠ [] := by
        rw [ne_eq, splitWs_eq_nil_iff]
        intro hall
        exact absurd (hall _ hrest) (by decide)
      have h3 : splitWs l = splitWs w ++ splitWs rest := by
        rw [← splitWs_lstrip, e, splitWs_append_sp]
      obtain ⟨a, as, ea⟩ := List.exists_cons_of_ne_nil h1
      obtain ⟨b, bs, eb⟩ := List.exists_cons_of_ne_nil h2
      rw [h3, ea, eb]
      cases as with
      | nil => exact ⟨_, rfl⟩
      | cons a2 as => exact ⟨_, rfl⟩
    · exact ⟨_, rfl⟩

omit [UniDB] in
theorem tempScan_total (text : Str) : tempScan tempFormats text = .ok none ∨ ∃ a b, tempScan tempFormats text = .ok (some [a, b]) := by
  have key : ∀ f ∈ tempFormats, scanfFresh f text = .ok none ∨ ∃ a b, scanfFresh f text = .ok (some [a, b]) := by
    intro f hf
    have h2 : itemsCasts (scanfItems f) = [.f, .f] := by
      revert f; decide
    rcases C48_never_raises f text (by rw [h2]; decide) with h | ⟨vs, h, hv⟩
    · exact .inl h
    · rw [h2] at hv
      obtain ⟨a, as, -, hv1, rfl⟩ := List.forall₂_cons_left_iff.1 hv
      obtain ⟨b, bs, -, hv2, rfl⟩ := List.forall₂_cons_left_iff.1 hv1
      cases hv2
      exact .inr ⟨a, b, h⟩
  have gen : ∀ fs : List Str, (∀ f ∈ fs, f ∈ tempFormats) → tempScan fs text = .ok none ∨ ∃ a b, tempScan fs text = .ok (some [a, b]) := by
    intro fs
    induction fs with
    | nil => intro _; exact .inl rfl
    | cons f fs ih =>
      intro hfs
      rcases key f (hfs f (by simp)) with h | ⟨a, b, h⟩
      · simp only [tempScan, h]
        exact ih (fun g hg => hfs g (by simp [hg]))
      · exact .inr ⟨a, b, by simp only [tempScan, h]⟩
  exact gen _ (fun _ h => h)

theorem consHead_ne (c : Char) (l : List Str) : consHead c l ≠ [] := by
  cases l <;> simp [consHead]

theorem splitDbl_ne : ∀ (b : Bool) (s : Str), splitDbl b s ≠ []
  | true, [] => by simp [splitDbl]
  | false, [] => by simp [splitDbl]
  | true, c :: cs => by
    unfold splitDbl
    split
    · exact splitDbl_ne true cs
    · exact consHead_ne _ _
  | false, [c] => by simp [splitDbl]
  | false, c :: d :: ds => by
    unfold splitDbl
    split
    · simp
    · exact consHead_ne _ _

theorem splitC_length (t : Str) : (splitC ' ' t).length = 1 ↔ ' ' ∉ t := by
  constructor
  · intro h hc
    obtain ⟨a, b, e, ha, -⟩ : ∃ a b, t = a ++ ' ' :: b ∧ ' ' ∉ a ∧ True := by
      cases hf : findC ' ' t with
      | none => exact absurd hc ((findC_eq_none_iff _ _).1 hf)
      | some p =>
        obtain ⟨a, b, e, ha, -⟩ := findC_some _ _ _ hf
        exact ⟨a, b, e, ha, trivial⟩
    unfold splitC at h
    rw [e, splitP_append_sep _ a ' ' b (by
      intro d hd; simp only [beq_eq_false_iff_ne]; exact fun e => ha (e ▸ hd)) (by simp)] at h
    have := splitP_ne_nil (· == ' ') b
    cases hb : splitP (· == ' ') b with
    | nil => exact absurd hb this
    | cons x xs => rw [hb] at h; simp at h
  · intro h
    unfold splitC
    rw [splitP_of_none]
    · rfl
    · intro d hd; simp only [beq_eq_false_iff_ne]; exact fun e => h (e ▸ hd)

/-- what is known after the lines `pre` of a scan that can be interpreted -/
structure LineInv (env : Env) (x0 hdr0 : Obj) (pre : List Str) (c : ScanCtx) : Prop where
  G : ∃ g, c.scan.G = some g
  P : ∃ rows, c.scan.P = some rows
  data : ∃ ls, c.scan.dataLines = some ls
  V : ∃ rows, c.scan.V = some rows ∧ rows.length = (ofKind .V pre).length ∧ ∀ (i : Nat) (r : List Str), rows[i]? = some r →
    ∃ (H : List (List Str)) (labels : List Str), hdr0.H = some H ∧ H[i]? = some labels ∧ r.length ≤ labels.length
  N : (∃ n ns, c.scan.N = .nums (n :: ns)) ∨ (c.scan.N = .minusOne ∧ ∀ l ∈ pre, isKind .N l = false)
  epoch : (∃ l ∈ scanLines x0.raw, isKind .D l = true) → ∀ e, c.scan.epoch = some e → TimeFits env e
  date : (∃ l ∈ scanLines x0.raw, isKind .D l = true) → strip c.hdr.date = [] ∨ ∃ e, c.hdr.epoch = some e ∧ TimeFits env e
  H : c.hdr.H = hdr0.H
  O : c.hdr.O = hdr0.O
  comments : c.hdr.comments = hdr0.comments
  o : c.hdr.o = hdr0.o

theorem procDate_total {env : Env} {t : Str} {x : Obj} (h : DateFits env (stripFirstWord t)) (he : ∀ e, x.epoch = some e → TimeFits env e) :
    ∃ e d, procDate env t x = Res.ok { x with date := d, epoch := some e } ∧ TimeFits env e := by
  rcases h with ⟨hs, f, n, h1, h2, ⟨s, h3⟩, h4⟩ | ⟨hs, tm, e, h1, h2, h3⟩
  · refine ⟨.int n, s, ?_, h4⟩
    unfold procDate
    simp only [(splitC_length _).2 hs, if_true, h1, h2, h3, Res.eval]
  · have hl : ¬ (splitC ' ' (stripFirstWord t)).length = 1 := fun h => (splitC_length _).1 h hs
    cases hx : x.epoch with
    | some e' =>
      refine ⟨e', stripFirstWord t, ?_, he e' hx⟩
      unfold procDate
      simp only [hl, if_false, hx]
    | none =>
      refine ⟨e, stripFirstWord t, ?_, h3⟩
      unfold procDate
      simp only [hl, if_false, hx, h1, h2, Res.eval]

theorem dateHdr_total {env : Env} {c : ScanCtx} {e : Num} (he : c.scan.epoch = some e) (ht : TimeFits env e)
    (hd : strip c.hdr.date = [] ∨ ∃ e, c.hdr.epoch = some e ∧ TimeFits env e) :
    (dateHdr env c).2 = none ∧ (∃ e, (dateHdr env c).1.hdr.epoch = some e ∧ TimeFits env e) ∧
      ∃ d ep, (dateHdr env c).1.hdr = { c.hdr with date := d, epoch := ep } := by
  unfold dateHdr
  by_cases hl : (strip c.hdr.date).length = 0
  · simp only [hl, if_true]
    exact ⟨rfl, ⟨e, he, ht⟩, _, _, rfl⟩
  · rcases hd with hd | ⟨e', he', ⟨a, ha⟩, s', hs'⟩
    · exact absurd (by rw [hd]; rfl) hl
    · obtain ⟨⟨b, hb⟩, s, hs⟩ := ht
      have hse : (c.scan.addH5 p!"#D" .date).epoch = some e := he
      simp only [hl, if_false, he', hse, ha, hb, hs, hs', Res.eval]
      split
      · exact ⟨rfl, ⟨e', he', ⟨a, ha⟩, s', hs'⟩, _, _, rfl⟩
      · exact ⟨rfl, ⟨e', he', ⟨a, ha⟩, s', hs'⟩, _, _, rfl⟩

theorem ofKind_snoc (K : HKey) (pre : List Str) (l : Str) :
    ofKind K (pre ++ [l]) = ofKind K pre ++ (if isKind K l = true then [l] else []) := by
  unfold ofKind
  rw [List.filter_append, List.filter_cons, List.filter_nil]

theorem ofKind_get {K : HKey} {pre : List Str} {l : Str} (post : List Str) (h : isKind K l = true) :
    (ofKind K (pre ++ l :: post))[(ofKind K pre).length]? = some l := by
  unfold ofKind
  rw [List.filter_append, List.filter_cons, if_pos h, List.getElem?_append_right (by simp)]
  simp

theorem labelsOf_total {N : NVal} {l : Str} (h : ∃ n ns, N = .nums (n :: ns)) : ∃ L a b, labelsOf N l = .ok L ∧ L.head? = some a ∧ L.getLast? = some b := by
  obtain ⟨n, ns, rfl⟩ := h
  have ends : ∀ L : List Str, L ≠ [] → ∃ a b, L.head? = some a ∧ L.getLast? = some b := by
    intro L hL
    exact ⟨L.head hL, L.getLast hL, List.head?_eq_some_head hL, List.getLast?_eq_some_getLast hL⟩
  have h0 : splitColumnLabels (stripFirstWord l) ≠ [] := splitDbl_ne _ _
  unfold labelsOf
  simp only
  split
  · simp only [NVal.first]
    split
    · next hc =>
      obtain ⟨a, b, h1, h2⟩ := ends (splitWs (stripFirstWord l)) (by
        intro e; rw [e] at hc; simp at hc; omega)
      exact ⟨_, a, b, rfl, h1, h2⟩
    · obtain ⟨a, b, h1, h2⟩ := ends _ h0
      exact ⟨_, a, b, rfl, h1, h2⟩
  · obtain ⟨a, b, h1, h2⟩ := ends _ h0
    exact ⟨_, a, b, rfl, h1, h2⟩

theorem procRoi_total {t : Str} {x : Obj} (h : ∃ name a b, stripFirstWord t = name ++ ' ' :: (a ++ ' ' :: b) ∧ ' ' ∉ a ∧ ' ' ∉ b ∧
    Integral a ∧ Integral b) : (procRoi t x).2 = none := by
  obtain ⟨nm, a, b, e, ha, hb, ⟨i, hi⟩, j, hj⟩ := h
  have e' : stripFirstWord t = (nm ++ ' ' :: a) ++ ' ' :: b := by rw [e]; simp
  have hi' : Py.int (' ' :: a) = .ok i := by unfold Py.int at hi ⊢; rw [parseInt_space]; exact hi
  have hj' : Py.int (' ' :: b) = .ok j := by unfold Py.int at hj ⊢; rw [parseInt_space]; exact hj
  unfold procRoi
  simp only [e', rfindC_append _ _ hb, sliceFrom, sliceTo, List.drop_left, List.take_left, rfindC_append _ _ ha]
  simp only [hi', hj', Res.eval]
  rfl

theorem three_of {α : Type} {l : List α} (h : l.length = 3) : ∃ a b c, l = [a, b, c] := List.length_eq_three.1 h

variable (env : Env) (reg : List HKey) (hr : reg.Perm HKey.all)

/-- a handler of a line as its kind demands does not raise -/
theorem procScan_total {x0 hdr0 : Obj} (hs : ScanFits env hdr0 x0) {pre post : List Str} {l : Str} {c : ScanCtx}
    (e : scanLines x0.raw = pre ++ l :: post) (h : LineInv env x0 hdr0 pre c) {k : HKey} (hk : k ≠ .S) (hK : k = .unrec ∨ isKind k l = true) :
    (procScan env k l c).2 = none := by
  have hl : l ∈ scanLines x0.raw := by rw [e]; simp
  have hf := hs.lines l hl
  rcases hK with rfl | hK
  · rfl
  cases k
  case S => exact absurd rfl hk
  case E => rw [hf.noE] at hK; cases hK
  case O => rw [hf.noO] at hK; cases hK
  case H => rw [hf.noH] at hK; cases hK
  case D =>
    have hD : ∃ l ∈ scanLines x0.raw, isKind .D l = true := ⟨l, hl, hK⟩
    obtain ⟨ep, d, h1, h2⟩ := procDate_total (x := c.scan) (hf.date hK) (h.epoch hD)
    simp only [procScan]
    have h3 : onScan (procDate env l) c = Res.ok { c with scan := { c.scan with date := d, epoch := some ep } } := by
      unfold onScan; rw [h1]; rfl
    rw [h3, Res.andThen_of_none rfl]
    exact (dateHdr_total (c := { c with scan := { c.scan with date := d, epoch := some ep } }) rfl h2 (h.date hD)).1
  case C => simp only [procScan, onScan, procObj, procC]; rfl
  case G =>
    obtain ⟨w, ws, hw⟩ := isKind_words hK
    obtain ⟨g, hg⟩ := h.G
    simp only [procScan, onScan, procObj, procG, firstWord, hw, hg, Res.eval]; rfl
  case I =>
    obtain ⟨v, hv⟩ := hf.normal hK
    simp only [procScan, onScan, procObj, procI, hv, Res.eval]; rfl
  case L =>
    have hN : ∃ n ns, c.scan.N = .nums (n :: ns) := by
      rcases h.N with h | ⟨-, h⟩
      · exact h
      · obtain ⟨n, hn, hn2⟩ := hs.labels pre l post e hK
        rw [h n hn] at hn2
        cases hn2
    obtain ⟨L, a, b, h1, h2, h3⟩ := labelsOf_total (l := l) hN
    simp only [procScan, onScan, procObj, procL, h1, h2, h3, Res.eval]; rfl
  case N =>
    obtain ⟨ns, h1, -⟩ := mapE_all Py.int (wordsOf l) (hf.columns hK).2
    have h1' : mapE Py.int (splitWs (stripFirstWord l)) = .ok ns := h1
    simp only [procScan, onScan, procObj, procN, h1', Res.eval]; rfl
  case P =>
    obtain ⟨g, hg⟩ := h.P
    simp only [procScan, onScan, procObj, procP, hg]; rfl
  case Q =>
    obtain ⟨ns, h1, -⟩ := mapE_all Py.float (wordsOf l) (hf.hkl hK)
    have h1' : mapE Py.float (splitWs (stripFirstWord l)) = .ok ns := h1
    simp only [procScan, onScan, procObj, procQ, h1', Res.eval]
    split <;> rfl
  case X =>
    rcases tempScan_total l with h1 | ⟨a, b, h1⟩
    · simp only [procScan, onScan, procObj, procX, h1, Res.eval]; rfl
    · simp only [procScan, onScan, procObj, procX, h1, Res.eval]; rfl
  case data =>
    obtain ⟨g, hg⟩ := h.data
    simp only [procScan, onScan, procObj, procData, hg]; rfl
  case A =>
    obtain ⟨g, hg⟩ := h.data
    simp only [procScan, onScan, procObj, procData, hg]; rfl
  case CALIB =>
    obtain ⟨h0, h1⟩ := hf.calib hK
    obtain ⟨vs, h2, h3⟩ := mapE_all Py.float ((wordsOf l).take 3) h1
    obtain ⟨a, b, d, rfl⟩ := three_of (h3.trans (by rw [List.length_take]; omega))
    have h2' : mapE Py.float ((splitWs (stripFirstWord l)).take 3) = .ok [a, b, d] := h2
    simp only [procScan, onScan, procObj, procCalib, h2', Res.eval]; rfl
  case CHANN =>
    obtain ⟨h0, h1, hlast⟩ := hf.chann hK
    obtain ⟨vs, h2, h3⟩ := mapE_all Py.int ((wordsOf l).take 3) h1
    obtain ⟨a, b, d, rfl⟩ := three_of (h3.trans (by rw [List.length_take]; omega))
    have h2' : mapE Py.int ((splitWs (stripFirstWord l)).take 3) = .ok [a, b, d] := h2
    have hne : wordsOf l ≠ [] := by intro e; rw [e] at h0; simp at h0
    obtain ⟨v, hv⟩ := hlast _ (List.getLast?_eq_some_getLast hne)
    have hv' : Py.float ((splitWs (stripFirstWord l)).getLastD []) = .ok v := by
      have : (wordsOf l).getLastD [] = (wordsOf l).getLast hne := by
        rw [List.getLastD_eq_getLast?, List.getLast?_eq_some_getLast hne]; rfl
      rw [← this] at hv
      exact hv
    simp only [procScan, onScan, procObj, procChann, h2', hv', Res.eval]; rfl
  case CTIME =>
    obtain ⟨h0, h1⟩ := hf.ctime hK
    obtain ⟨vs, h2, h3⟩ := mapE_all Py.float (wordsOf l) h1
    obtain ⟨a, b, d, rfl⟩ := three_of (h3.trans h0)
    have h2' : mapE Py.float (splitWs (stripFirstWord l)) = .ok [a, b, d] := h2
    simp only [procScan, onScan, procObj, procCtime, h2', Res.eval]; rfl
  case ROI =>
    show (procRoi l c.scan).2 = none
    exact procRoi_total (hf.roi hK)
  case MD =>
    obtain ⟨kv, h1⟩ := mdItem_total (n := (c.scan.MD.getD []).length) hK
    simp only [procScan, onScan, procObj, procMD, h1, Res.eval]; rfl
  case V =>
    obtain ⟨rows, h1, h2, -⟩ := h.V
    obtain ⟨H, labels, h3, h4, -⟩ := hs.metadata (ofKind .V pre).length l (by rw [e]; exact ofKind_get post hK)
    simp only [procScan, procV, h1, h.H, h3, h2, h4]; rfl
  case VA =>
    obtain ⟨w, ws, hw⟩ := isKind_words hK
    simp only [procScan, onScan, procObj, procVA, firstWord, hw, Res.eval]; rfl
  case VD =>
    obtain ⟨w, ws, hw⟩ := isKind_words hK
    simp only [procScan, onScan, procObj, procVD, firstWord, hw, Res.eval]; rfl
  case VE =>
    obtain ⟨w, ws, hw⟩ := isKind_words hK
    simp only [procScan, onScan, procObj, procVE, firstWord, hw, Res.eval]; rfl
  case XPCS =>
    obtain ⟨w, ws, hw⟩ := List.exists_cons_of_ne_nil (hf.xpcs hK)
    have hw' : splitWs (stripFirstWord l) = w :: ws := hw
    simp only [procScan, onScan, procObj, procXPCS, hw']; rfl
  case CCD =>
    obtain ⟨w, ws, hw⟩ := List.exists_cons_of_ne_nil (hf.ccd hK)
    have hw' : splitWs (stripFirstWord l) = w :: ws := hw
    simp only [procScan, onScan, procObj, procCCD, hw']; rfl
  all_goals rfl

/-- the invariant is kept by a line -/
theorem LineInv.step {x0 hdr0 : Obj} (hs : ScanFits env hdr0 x0) {pre post : List Str} {l : Str} {c : ScanCtx}
    (e : scanLines x0.raw = pre ++ l :: post) (h : LineInv env x0 hdr0 pre c) {k : HKey} (hk : k ≠ .S) (hK : k = .unrec ∨ isKind k l = true)
    (only : ∀ K, K ≠ .S → K ≠ .unrec → isKind K l = true → K = k) :
    LineInv env x0 hdr0 (pre ++ [l]) (procScan env k l c).1 := by
  have hl : l ∈ scanLines x0.raw := by rw [e]; simp
  have hf := hs.lines l hl
  have hok := procScan_total env hs e h hk hK
  have yes : k ≠ .unrec → isKind k l = true := fun hu => hK.resolve_left hu
  have notk : ∀ K, K ≠ .S → K ≠ .unrec → k ≠ K → isKind K l = false := by
    intro K h1 h2 h3
    rw [← Bool.not_eq_true]
    exact fun h4 => h3 (only K h1 h2 h4).symm
  have hnO : k ≠ .O := by
    rintro rfl
    have := yes (by simp)
    rw [hf.noO] at this
    cases this
  have hdr : k ≠ .D → (procScan env k l c).1.hdr = c.hdr := ps_hdr env k l c hnO
  have hdate : k = .D → (∃ e, (procScan env k l c).1.scan.epoch = some e ∧ TimeFits env e) ∧
      (∃ e, (procScan env k l c).1.hdr.epoch = some e ∧ TimeFits env e) ∧ ∃ d ep, (procScan env k l c).1.hdr = { c.hdr with date := d, epoch := ep } := by
    rintro rfl
    have hD : ∃ l ∈ scanLines x0.raw, isKind .D l = true := ⟨l, hl, yes (by simp)⟩
    obtain ⟨ep, d, h1, h2⟩ := procDate_total (x := c.scan) (hf.date (yes (by simp))) (h.epoch hD)
    have h3 : onScan (procDate env l) c = Res.ok { c with scan := { c.scan with date := d, epoch := some ep } } := by
      unfold onScan; rw [h1]; rfl
    have h4 : procScan env .D l c = dateHdr env { c with scan := { c.scan with date := d, epoch := some ep } } := by
      simp only [procScan]
      rw [h3, Res.andThen_of_none rfl]; rfl
    rw [h4]
    obtain ⟨-, h5, h6⟩ := dateHdr_total (c := { c with scan := { c.scan with date := d, epoch := some ep } }) rfl h2 (h.date hD)
    refine ⟨⟨ep, ?_, h2⟩, h5, h6⟩
    rw [dateHdr_scan]; rfl
  refine ⟨?_, ?_, ?_, ?_, ?_, ?_, ?_, ?_, ?_, ?_, ?_⟩
  · by_cases hkk : k = .G
    · subst hkk
      obtain ⟨w, ws, hw⟩ := isKind_words (yes (by simp))
      obtain ⟨g, hg⟩ := h.G
      simp only [procScan, onScan, procObj, procG, firstWord, hw, hg, Res.eval]
      exact ⟨_, rfl⟩
    · rw [ps_G env k l c hkk]; exact h.G
  · by_cases hkk : k = .P
    · subst hkk
      obtain ⟨g, hg⟩ := h.P
      simp only [procScan, onScan, procObj, procP, hg]
      exact ⟨_, rfl⟩
    · rw [ps_P env k l c hkk]; exact h.P
  · by_cases hkk : k = .data ∨ k = .A
    · obtain ⟨g, hg⟩ := h.data
      rcases hkk with rfl | rfl
      · simp only [procScan, onScan, procObj, procData, hg]; exact ⟨_, rfl⟩
      · simp only [procScan, onScan, procObj, procData, hg]; exact ⟨_, rfl⟩
    · rw [not_or] at hkk
      rw [ps_dataLines env k l c hkk.1 hkk.2]; exact h.data
  · by_cases hkk : k = .V
    · subst hkk
      obtain ⟨rows, h1, h2, h5⟩ := h.V
      have hkV := yes (by simp)
      obtain ⟨H, labels, h3, h4, h6⟩ := hs.metadata (ofKind .V pre).length l (by rw [e]; exact ofKind_get post hkV)
      refine ⟨rows ++ [valuesV labels l], ?_, ?_, ?_⟩
      · simp only [procScan, procV, h1, h.H, h3, h2, h4]; rfl
      · rw [ofKind_snoc, if_pos hkV]; simp [h2]
      · intro i r hi
        rcases Nat.lt_or_ge i rows.length with hlt | hge
        · rw [List.getElem?_append_left hlt] at hi
          exact h5 i r hi
        · rw [List.getElem?_append_right hge] at hi
          have hi0 : i = rows.length := by
            by_contra hc
            have : 1 ≤ i - rows.length := by omega
            rw [List.getElem?_eq_none (by simpa using this)] at hi
            cases hi
          rw [hi0, Nat.sub_self] at hi
          simp only [List.getElem?_cons_zero, Option.some.injEq] at hi
          refine ⟨H, labels, h3, by rw [hi0, h2]; exact h4, ?_⟩
          rw [← hi]
          by_cases hc : labels.length = (splitTwo (stripFirstWord l)).length
          · rw [show valuesV labels l = splitTwo (stripFirstWord l) from if_pos hc, hc]
            exact Nat.le_refl _
          · rw [show valuesV labels l = splitC ' ' (stripFirstWord l) from if_neg hc]
            exact h6.resolve_left (fun e => hc e.symm)
    · obtain ⟨rows, h1, h2, h5⟩ := h.V
      refine ⟨rows, by rw [ps_V env k l c hkk]; exact h1, ?_, h5⟩
      rw [ofKind_snoc, notk .V (by simp) (by simp) hkk]
      simp [h2]
  · by_cases hkk : k = .N
    · subst hkk
      left
      obtain ⟨h0, hi⟩ := hf.columns (yes (by simp))
      obtain ⟨ns, h1, h2⟩ := mapE_all Py.int (wordsOf l) hi
      have h1' : mapE Py.int (splitWs (stripFirstWord l)) = .ok ns := h1
      have hne : ns ≠ [] := by
        rintro rfl
        exact h0 (List.length_eq_zero_iff.1 h2.symm)
      obtain ⟨n, ns', rfl⟩ := List.exists_cons_of_ne_nil hne
      refine ⟨n, ns', ?_⟩
      simp only [procScan, onScan, procObj, procN, h1', Res.eval]; rfl
    · rw [ps_N env k l c hkk]
      refine h.N.imp id ?_
      rintro ⟨h1, h2⟩
      refine ⟨h1, ?_⟩
      intro z hz
      rcases List.mem_append.1 hz with hz | hz
      · exact h2 z hz
      · rw [List.mem_singleton.1 hz]; exact notk .N (by simp) (by simp) hkk
  · intro hD
    by_cases hkk : k = .D
    · obtain ⟨⟨ep, h1, h2⟩, -⟩ := hdate hkk
      intro e he
      rw [h1] at he
      cases he
      exact h2
    · rw [ps_epoch env k l c hkk]; exact h.epoch hD
  · intro hD
    by_cases hkk : k = .D
    · exact .inr (hdate hkk).2.1
    · rw [hdr hkk]; exact h.date hD
  all_goals
    by_cases hkk : k = .D
    · obtain ⟨-, -, d, ep, h1⟩ := hdate hkk
      rw [h1]
      first | exact h.H | exact h.O | exact h.comments | exact h.o
    · rw [hdr hkk]
      first | exact h.H | exact h.O | exact h.comments | exact h.o

include hr in
/-- the lines of a scan that can be interpreted -/
theorem lines_total {x0 hdr0 : Obj} (hs : ScanFits env hdr0 x0) (hf : Fresh x0) :
    (forEach (scanLine env reg) (scanLines x0.raw) ⟨{ x0 with lazy := false }, hdr0⟩).2 = none ∧
      LineInv env x0 hdr0 (scanLines x0.raw) (forEach (scanLine env reg) (scanLines x0.raw) ⟨{ x0 with lazy := false }, hdr0⟩).1 := by
  refine forEach_total (scanLine env reg) (scanLines x0.raw) (LineInv env x0 hdr0) ?_ (scanLines x0.raw) [] _ rfl ?_
  · intro pre l post c e h
    have hl : l ∈ scanLines x0.raw := by rw [e]; simp
    have hn := scanLines_no_nl x0.raw l hl
    rw [scanLine_eq]
    cases hk : effKey reg l with
    | none =>
      refine ⟨rfl, ?_⟩
      have no : ∀ K, K ≠ .S → K ≠ .unrec → isKind K l = false := by
        intro K h1 h2
        rw [← Bool.not_eq_true, ← effKey_iff reg hr l hn K h1 h2, hk]; simp
      refine { h with V := ?_, N := ?_ }
      · rw [ofKind_snoc, no .V (by simp) (by simp)]; simpa using h.V
      · refine h.N.imp id ?_
        rintro ⟨h1, h2⟩
        refine ⟨h1, ?_⟩
        intro z hz
        rcases List.mem_append.1 hz with hz | hz
        · exact h2 z hz
        · rw [List.mem_singleton.1 hz]; exact no .N (by simp) (by simp)
    | some k =>
      have hS : k ≠ .S := by rintro rfl; exact effKey_ne_S reg l hk
      have hK : k = .unrec ∨ isKind k l = true := by
        by_cases hu : k = .unrec
        · exact .inl hu
        · exact .inr ((effKey_iff reg hr l hn k hS hu).1 hk)
      have only : ∀ K, K ≠ .S → K ≠ .unrec → isKind K l = true → K = k := by
        intro K h1 h2 h3
        have := (effKey_iff reg hr l hn K h1 h2).2 h3
        rw [hk] at this
        exact (Option.some.inj this).symm
      exact ⟨procScan_total env hs e h hS hK, LineInv.step env hs e h hS hK only⟩
  · obtain ⟨fileName, idx, raw, S, num, cmd, date, epoch, h5, rfl⟩ := hf
    refine ⟨⟨_, rfl⟩, ⟨_, rfl⟩, ⟨_, rfl⟩, ⟨[], rfl, rfl, by simp⟩, .inr ⟨rfl, by simp⟩, fun hD => (hs.dates hD).1, fun hD => (hs.dates hD).2, rfl, rfl, rfl, rfl⟩

end
end S2N.Props
