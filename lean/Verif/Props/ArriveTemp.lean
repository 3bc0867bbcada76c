import Verif.Spec.SetPoint
import Verif.Props.ArriveMore
import Verif.Props.ScanfTotal
import Verif.Props.EntrySample
/-
C96: the set points of the temperature, from the #X lines to the NeXus file.
-/
namespace S2N.Props
open S2N S2N.Py S2N.Spec S2N.H5 S2N.Writer

theorem lit_mem {c : Char} : ∀ (items : List FItem) (w : Str) (g : List Str), Re.Lang (itemsRe items) w g → .lit c ∈ items → c ∈ w
  | [], w, g, _, h => by cases h
  | .lit d :: r, w, g, hl, h => by
    obtain ⟨s1, s2, g1, g2, rfl, rfl, h1, h2⟩ := Re.lang_seq.1 hl
    obtain ⟨⟨e, rfl, he⟩, rfl⟩ := Re.lang_cls.1 h1
    have he : e = d := by simpa using he
    subst he
    rcases List.mem_cons.1 h with h | h
    · injection h with h; subst h; simp
    · exact List.mem_append_right _ (lit_mem r s2 g2 h2 h)
  | .conv k :: r, w, g, hl, h => by
    obtain ⟨s1, s2, g1, g2, rfl, rfl, h1, h2⟩ := Re.lang_seq.1 hl
    rcases List.mem_cons.1 h with h | h
    · cases h
    · exact List.mem_append_right _ (lit_mem r s2 g2 h2 h)

theorem scanf_none {fmt s : Str} (h : ∀ w g r, s = w ++ r → ¬ Re.Lang (itemsRe (scanfItems fmt)) w g) : scanfFresh fmt s = .ok none := by
  unfold scanfFresh scanf
  have e : (scanfCompile [] fmt).2 = scanfTranslate fmt := rfl
  simp only [e, scanfTranslate]
  cases hf : Re.first (itemsRe (scanfItems fmt)) s with
  | none => rfl
  | some x =>
    obtain ⟨g, r⟩ := x
    obtain ⟨w, rfl, hl⟩ := Re.first_sound hf
    exact absurd hl (h w g r rfl)

/-- no match if a literal of the format is not in the text -/
theorem scanf_none_of_lit {fmt s : Str} {c : Char} (hc : .lit c ∈ scanfItems fmt) (hs : c ∉ s) : scanfFresh fmt s = .ok none :=
  scanf_none fun w g r e hl => hs (by rw [e]; exact List.mem_append_left _ (lit_mem _ _ _ hl hc))

/-- a number begins with a sign, a digit or a point -/
theorem lang_f_head {w : Str} {g : List Str} (h : Re.Lang Conv.f.re w g) : ∃ c r, w = c :: r ∧ (c = '+' ∨ c = '-' ∨ c = '.' ∨ isDig c = true) := by
  obtain ⟨g', e, h'⟩ := Re.lang_grp.1 h
  obtain ⟨s1, s2, g1, g2, rfl, rfl, h1, h2⟩ := Re.lang_seq.1 h'
  obtain ⟨rfl, hs⟩ := lang_sign h1
  obtain ⟨rfl, hm⟩ := lang_mant h2
  rcases hs with rfl | rfl | rfl
  · have := hm.ne
    cases s2 with
    | nil => exact absurd rfl this
    | cons c r =>
      refine ⟨c, r, rfl, ?_⟩
      rcases hm.chars c (by simp) with h | h
      · exact .inr (.inr (.inr h))
      · exact .inr (.inr (.inl h))
  · exact ⟨_, _, rfl, .inl rfl⟩
  · exact ⟨_, _, rfl, .inr (.inl rfl)⟩

/-- the characters of a number -/
theorem _root_.S2N.Spec.FixedPoint.chars {t : Str} {q : Rat} (h : FixedPoint t q) : ∀ c ∈ t, c = '-' ∨ c = '.' ∨ isDig c = true := by
  obtain ⟨neg, a, b, h0, hd, rfl, _⟩ := h
  intro c hc
  simp only [List.mem_append, List.mem_cons] at hc
  rcases hc with (hc | hc) | hc | hc
  · cases neg
    · cases hc
    · left; simpa using hc
  · exact .inr (.inr (hd c (List.mem_append_left _ hc)))
  · exact .inr (.inl hc)
  · exact .inr (.inr (hd c (List.mem_append_right _ hc)))

/-- the number of a #X line as a piece -/
theorem _root_.S2N.Spec.FixedPoint.piece {t : Str} {q : Rat} (h : FixedPoint t q) :
    ∃ p : Piece, p.text = t ∧ p.vals = [.flt (.fin q)] ∧ p.fmt = p!"%f" ∧ ∀ rest : Str, (∀ c, rest.head? = some c → isDig c = false) → p.Ok rest := by
  obtain ⟨neg, a, b, h0, hd, rfl, rfl⟩ := h
  refine ⟨.fixed neg a b, rfl, rfl, rfl, fun rest hr => ⟨h0, fun c hc => hd c (List.mem_append_left _ hc), fun c hc => hd c (List.mem_append_right _ hc), hr⟩⟩

theorem dig_not {c : Char} (h : isDig c = true) : c ≠ 'K' ∧ c ≠ '(' := by
  constructor <;> (rintro rfl; revert h; decide)

theorem _root_.S2N.Spec.FixedPoint.lacks {t : Str} {q : Rat} (h : FixedPoint t q) : 'K' ∉ t ∧ '(' ∉ t := by
  constructor <;> intro hc
  all_goals
    rcases h.chars _ hc with h | h | h
    · revert h; decide
    · revert h; decide
    · revert h; decide

/-- the set points of a #X line are found, in each of the three forms -/
theorem tempScan_line {l : Str} {p q : Rat} (h : TempLine l p q) : tempScan tempFormats l = .ok (some [.flt (.fin p), .flt (.fin q)]) := by
  obtain ⟨a, b, ha, hb, h⟩ := h
  obtain ⟨pa, a1, a2, a3, a4⟩ := ha.piece
  obtain ⟨pb, b1, b2, b3, b4⟩ := hb.piece
  have key : ∀ (t0 t1 t2 : Str), (∀ c ∈ t0 ++ t1 ++ t2, c ≠ '%' ∧ c ≠ '^' ∧ c ≠ '$' ∧ c ≠ '|') →
      (∀ (r : Str) c, (t1 ++ r).head? = some c → isDig c = false) → (∀ c, t2.head? = some c → isDig c = false) →
      scanfFresh (t0 ++ p!"%f" ++ t1 ++ p!"%f" ++ t2) (t0 ++ a ++ t1 ++ b ++ t2) = .ok (some [.flt (.fin p), .flt (.fin q)]) := by
    intro t0 t1 t2 h1 h2 h3
    have := C48_roundtrip [.lit t0, pa, .lit t1, pb, .lit t2] [] ⟨fun c hc => h1 c (by simp [hc]), a4 _ (by
        simp only [textOf, Piece.text, List.append_assoc]; exact h2 _), fun c hc => h1 c (by simp [hc]), b4 _ (by
        simp only [textOf, Piece.text, List.append_nil]; exact h3), fun c hc => h1 c (by simp [hc]), trivial⟩
    have f1 : fmtOf [.lit t0, pa, .lit t1, pb, .lit t2] = t0 ++ p!"%f" ++ t1 ++ p!"%f" ++ t2 := by
      simp only [fmtOf, a3, b3]
      show t0 ++ (_ ++ (t1 ++ (_ ++ (t2 ++ [])))) = _
      simp
    have f2 : textOf [.lit t0, pa, .lit t1, pb, .lit t2] = t0 ++ a ++ t1 ++ b ++ t2 := by
      simp only [textOf, a1, b1]
      show t0 ++ (_ ++ (t1 ++ (_ ++ (t2 ++ [])))) = _
      simp
    have f3 : valsOf [.lit t0, pa, .lit t1, pb, .lit t2] = [.flt (.fin p), .flt (.fin q)] := by
      simp only [valsOf, a2, b2]
      rfl
    rwa [f1, f2, f3, List.append_nil] at this
  rcases h with rfl | rfl | rfl
  · have := key p!"#X " p!"Kohm (" p!"C)" (by decide) (by intro r c hc; simp at hc; subst hc; decide) (by intro c hc; simp at hc; subst hc; decide)
    unfold tempFormats tempScan
    have e : (p!"#X " ++ p!"%f" ++ p!"Kohm (" ++ p!"%f" ++ p!"C)" : Str) = p!"#X %fKohm (%fC)" := by decide
    rw [e] at this
    rw [this]
  · have := key p!"#X " p!" " [] (by decide) (by intro r c hc; simp at hc; subst hc; decide) (by intro c hc; simp at hc)
    have e : (p!"#X " ++ p!"%f" ++ p!" " ++ p!"%f" ++ [] : Str) = p!"#X %f %f" := by decide
    rw [e, List.append_nil] at this
    have n1 : scanfFresh p!"#X %fKohm (%fC)" (p!"#X " ++ a ++ p!" " ++ b) = .ok none := by
      refine scanf_none_of_lit (c := 'K') (by decide) ?_
      simp only [List.mem_append, not_or]
      exact ⟨⟨⟨by decide, ha.lacks.1⟩, by decide⟩, hb.lacks.1⟩
    unfold tempFormats tempScan
    rw [n1]
    simp only
    unfold tempScan
    rw [this]
  · have := key p!"#X Control: " p!"K  Sample: " p!"K" (by decide) (by intro r c hc; simp at hc; subst hc; decide) (by intro c hc; simp at hc; subst hc; decide)
    have e : (p!"#X Control: " ++ p!"%f" ++ p!"K  Sample: " ++ p!"%f" ++ p!"K" : Str) = p!"#X Control: %fK  Sample: %fK" := by decide
    rw [e] at this
    have n1 : scanfFresh p!"#X %fKohm (%fC)" (p!"#X Control: " ++ a ++ p!"K  Sample: " ++ b ++ p!"K") = .ok none := by
      refine scanf_none_of_lit (c := '(') (by decide) ?_
      simp only [List.mem_append, not_or]
      exact ⟨⟨⟨⟨by decide, ha.lacks.2⟩, by decide⟩, hb.lacks.2⟩, by decide⟩
    have n2 : scanfFresh p!"#X %f %f" (p!"#X Control: " ++ a ++ p!"K  Sample: " ++ b ++ p!"K") = .ok none := by
      refine scanf_none fun w g r e hl => ?_
      have ei : scanfItems p!"#X %f %f" = [.lit '#', .lit 'X', .lit ' ', .conv .f, .lit ' ', .conv .f] := by decide
      rw [ei] at hl
      simp only [itemsRe] at hl
      obtain ⟨s1, t1, g1, k1, rfl, rfl, h1, l1⟩ := Re.lang_seq.1 hl
      obtain ⟨⟨c1, rfl, hc1⟩, rfl⟩ := Re.lang_cls.1 h1
      obtain ⟨s2, t2, g2, k2, rfl, rfl, h2, l2⟩ := Re.lang_seq.1 l1
      obtain ⟨⟨c2, rfl, hc2⟩, rfl⟩ := Re.lang_cls.1 h2
      obtain ⟨s3, t3, g3, k3, rfl, rfl, h3, l3⟩ := Re.lang_seq.1 l2
      obtain ⟨⟨c3, rfl, hc3⟩, rfl⟩ := Re.lang_cls.1 h3
      obtain ⟨s4, t4, g4, k4, rfl, rfl, h4, l4⟩ := Re.lang_seq.1 l3
      obtain ⟨c, r', rfl, hc⟩ := lang_f_head h4
      simp at e
      obtain ⟨rfl, rfl, rfl, rfl, _⟩ := e
      revert hc
      decide
    unfold tempFormats tempScan
    rw [n1]
    simp only
    unfold tempScan
    rw [n2]
    simp only
    unfold tempScan
    rw [this]

section
variable [UniDB]

/-- C96: if the last #X line of a scan has one of the three forms, its numbers are the set points of the scan. -/
theorem C96_setpoints (env : Env) (reg : List HKey) (hr : reg.Perm HKey.all) (c : ScanCtx) (hf : Fresh c.scan)
    (hok : (interpretScan env reg c).2 = none) {l : Str} (hl : (ofKind .X (scanLines c.scan.raw)).getLast? = some l) {p q : Rat}
    (ht : TempLine l p q) : (interpretScan env reg c).1.scan.tempSP = some (.flt (.fin p)) ∧
      (interpretScan env reg c).1.scan.degcSP = some (.flt (.fin q)) := by
  have h := interp_kind env reg hr .X (by simp) (by simp) (fun x => (x.tempSP, x.degcSP))
    (fun l b => match tempScan tempFormats l with
      | .ok (some [a, d]) => (some a, some d)
      | _ => b)
    (by
      intro t c hc
      simp only [procScan, onScan, procObj, procX] at hc ⊢
      cases hm : tempScan tempFormats t with
      | error e => rw [hm] at hc; simp [Res.eval] at hc
      | ok o =>
        rw [hm] at hc
        simp only [Res.eval] at hc ⊢
        split at hc
        · rfl
        · rfl
        · simp [Res.raise] at hc)
    (fun k t c hk => by simp only [ps_tempSP env k t c hk, ps_degcSP env k t c hk])
    (fun f c => by simp only [pp_tempSP, pp_degcSP]) (fun _ _ => rfl) (fun _ _ => rfl) c
    (fresh_interpreted hf) hok
  obtain ⟨ls, hls⟩ : ∃ ls, ofKind .X (scanLines c.scan.raw) = ls ++ [l] := ⟨_, (List.dropLast_append_getLast? l hl).symm⟩
  rw [hls, List.foldl_append] at h
  simp only [List.foldl_cons, List.foldl_nil, tempScan_line ht, Prod.mk.injEq] at h
  exact h

/-- C96: the numbers of the last #X line of a scan are its set points of the temperature in its entry. -/
theorem C96_temperature {env : Env} {reg : List HKey} (hr : reg.Perm HKey.all) (hx : SchemaNames env) {texts : List Str} {s : Sdf}
    {ks : List Ref} {r : SState} (hc : Conversion env reg texts s ks r) {k : Ref} (hm : k ∈ ks) {x : Obj}
    (hk : s.getScan k = .ok (some x)) {l : Str} (hl : (ofKind .X (scanLines x.raw)).getLast? = some l) {p q : Rat}
    (ht : TempLine l p q) : TemperatureAt r.h5 (entryName k) (some (.flt (.fin p))) (some (.flt (.fin q))) := by
  obtain ⟨z, hdr, ar⟩ := arrived hr hx hc hm hk
  obtain ⟨v, hsv⟩ := hc.saved
  obtain ⟨L, hL⟩ := ar.labels
  obtain ⟨g1, g2⟩ := C96_setpoints env reg hr ⟨x, hdr⟩ ar.fresh ar.done hl ht
  have e1 : z.tempSP = some (.flt (.fin p)) := by rw [hL]; exact g1
  have e2 : z.degcSP = some (.flt (.fin q)) := by rw [hL]; exact g2
  exact (C87_temperature hr hx ar.savable hc.keys hsv hm ar.now (by rw [e1]; rfl) (by rw [e2]; rfl)).1

end
end S2N.Props
