import Verif.Props.Scanf
/-
scanf never raises, except for the conversions of octal and hexadecimal numbers.
-/
namespace S2N.Props
open S2N S2N.Py

theorem lang_plus {p : Char → Bool} {w : Str} {g : List Str} (h : Re.Lang (Re.plus p) w g) :
    w ≠ [] ∧ (∀ c ∈ w, p c = true) ∧ g = [] := by
  unfold Re.plus at h
  obtain ⟨s1, s2, g1, g2, rfl, rfl, h1, h2⟩ := Re.lang_seq.1 h
  obtain ⟨⟨c, rfl, hc⟩, rfl⟩ := Re.lang_cls.1 h1
  obtain ⟨h3, rfl⟩ := Re.lang_star.1 h2
  exact ⟨by simp, by simpa [hc] using h3, rfl⟩

theorem lang_opt {r : Re} {w : Str} {g : List Str} (h : Re.Lang (Re.opt r) w g) : Re.Lang r w g ∨ (w = [] ∧ g = []) := by
  rcases Re.lang_alt.1 h with h | h
  · exact .inl h
  · exact .inr (Re.lang_eps.1 h)

theorem lang_sign {w : Str} {g : List Str} (h : Re.Lang Conv.sign w g) : g = [] ∧ (w = [] ∨ w = ['+'] ∨ w = ['-']) := by
  rcases lang_opt h with h | ⟨rfl, rfl⟩
  · obtain ⟨⟨c, rfl, hc⟩, rfl⟩ := Re.lang_cls.1 h
    simp only [Bool.or_eq_true, beq_iff_eq] at hc
    rcases hc with rfl | rfl <;> simp
  · simp

/-- text of the mantissa -/
def IsMant (w : Str) : Prop :=
  (w ≠ [] ∧ ∀ c ∈ w, isDig c = true) ∨
  (∃ a b, w = a ++ '.' :: b ∧ (a ≠ [] ∨ b ≠ []) ∧ (∀ c ∈ a, isDig c = true) ∧ ∀ c ∈ b, isDig c = true)

theorem lang_mant {w : Str} {g : List Str} (h : Re.Lang Conv.mant w g) : g = [] ∧ IsMant w := by
  rcases Re.lang_alt.1 h with h | h
  · obtain ⟨s1, s2, g1, g2, rfl, rfl, h1, h2⟩ := Re.lang_seq.1 h
    obtain ⟨n1, d1, rfl⟩ := lang_plus h1
    rcases lang_opt h2 with h2 | ⟨rfl, rfl⟩
    · obtain ⟨s3, s4, g3, g4, rfl, rfl, h3, h4⟩ := Re.lang_seq.1 h2
      obtain ⟨⟨c, rfl, hc⟩, rfl⟩ := Re.lang_cls.1 h3
      obtain ⟨h5, rfl⟩ := Re.lang_star.1 h4
      simp only [beq_iff_eq] at hc
      subst hc
      exact ⟨rfl, .inr ⟨s1, s4, by simp, .inl n1, d1, h5⟩⟩
    · exact ⟨rfl, .inl ⟨by simpa using n1, by simpa using d1⟩⟩
  · obtain ⟨s3, s4, g3, g4, rfl, rfl, h3, h4⟩ := Re.lang_seq.1 h
    obtain ⟨⟨c, rfl, hc⟩, rfl⟩ := Re.lang_cls.1 h3
    obtain ⟨n1, d1, rfl⟩ := lang_plus h4
    simp only [beq_iff_eq] at hc
    subst hc
    exact ⟨rfl, .inr ⟨[], s4, by simp, .inr n1, by simp, d1⟩⟩

/-- text of the exponent -/
def IsExpo (w : Str) : Prop :=
  w = [] ∨ ∃ c sg ds, w = c :: (sg ++ ds) ∧ (c = 'e' ∨ c = 'E') ∧ (sg = [] ∨ sg = ['+'] ∨ sg = ['-']) ∧
    ds ≠ [] ∧ ∀ d ∈ ds, isDig d = true

theorem lang_expo {w : Str} {g : List Str} (h : Re.Lang Conv.expo w g) : g = [] ∧ IsExpo w := by
  rcases lang_opt h with h | ⟨rfl, rfl⟩
  · obtain ⟨s1, s2, g1, g2, rfl, rfl, h1, h2⟩ := Re.lang_seq.1 h
    obtain ⟨⟨c, rfl, hc⟩, rfl⟩ := Re.lang_cls.1 h1
    obtain ⟨s3, s4, g3, g4, rfl, rfl, h3, h4⟩ := Re.lang_seq.1 h2
    obtain ⟨rfl, hs⟩ := lang_sign h3
    obtain ⟨n1, d1, rfl⟩ := lang_plus h4
    simp only [Bool.or_eq_true, beq_iff_eq] at hc
    exact ⟨rfl, .inr ⟨c, s3, s4, by simp, hc, hs, n1, d1⟩⟩
  · exact ⟨rfl, .inl rfl⟩

theorem IsMant.chars {w : Str} (h : IsMant w) : ∀ c ∈ w, isDig c = true ∨ c = '.' := by
  rcases h with ⟨_, h⟩ | ⟨a, b, rfl, -, ha, hb⟩
  · exact fun c hc => .inl (h c hc)
  · intro c hc
    rcases List.mem_append.1 hc with h | h
    · exact .inl (ha c h)
    · rcases List.mem_cons.1 h with h | h
      · exact .inr h
      · exact .inl (hb c h)

theorem IsMant.ne {w : Str} (h : IsMant w) : w ≠ [] := by
  rcases h with ⟨h, _⟩ | ⟨a, b, rfl, -⟩
  · exact h
  · simp

theorem IsMant.parse {w : Str} (h : IsMant w) : ∃ q, parseMant w = some q := by
  rcases h with ⟨h1, h2⟩ | ⟨a, b, rfl, hne, ha, hb⟩
  · exact ⟨_, parseMant_digits w h2 h1⟩
  · by_cases he : a = []
    · subst he
      have hb' : b ≠ [] := by simpa using hne
      have dot : ∀ d ∈ b, (d == '.') = false := by
        intro d hd
        simp only [beq_eq_false_iff_ne]
        exact not_isDig_ne (hb d hd) (by decide)
      unfold parseMant splitC
      rw [splitP_append_sep _ [] '.' b (by simp) (by simp), splitP_of_none _ b dot]
      simp only [hb', and_false, if_false, digsOpt, if_true, digs_of_digits false b hb (.inl hb')]
      exact ⟨_, rfl⟩
    · exact ⟨_, parseMant_dec a b ha hb he⟩

theorem IsExpo.parse {m w : Str} (hm : IsMant m) (h : IsExpo w) : ∃ q, parseUFloat (m ++ w) = some q := by
  obtain ⟨q, hq⟩ := hm.parse
  have hme : ∀ d ∈ m, (decide (d = 'e') || decide (d = 'E')) = false := by
    intro d hd
    rcases hm.chars d hd with h | rfl
    · simp [not_isDig_ne h (show isDig 'e' = false by decide), not_isDig_ne h (show isDig 'E' = false by decide)]
    · decide
  rcases h with rfl | ⟨c, sg, ds, rfl, hc, hs, hne, hd⟩
  · rw [List.append_nil, parseUFloat_noexp _ (by
      intro d hd
      have := hme d hd
      simpa using this)]
    exact ⟨q, hq⟩
  · have hpe : ∃ k, parseExp (sg ++ ds) = some k := by
      rcases hs with rfl | rfl | rfl
      · simp only [List.nil_append]
        unfold parseExp
        split
        · exact absurd (hd '-' (by simp)) (by decide)
        · exact absurd (hd '+' (by simp)) (by decide)
        · rw [digs_of_digits false ds hd (.inl hne)]; exact ⟨_, rfl⟩
      · simp only [List.cons_append, List.nil_append, parseExp, digs_of_digits false ds hd (.inl hne)]; exact ⟨_, rfl⟩
      · simp only [List.cons_append, List.nil_append, parseExp, digs_of_digits false ds hd (.inl hne)]; exact ⟨_, rfl⟩
    obtain ⟨k, hk⟩ := hpe
    have hw : ∀ d ∈ sg ++ ds, (decide (d = 'e') || decide (d = 'E')) = false := by
      intro d h
      rcases List.mem_append.1 h with h | h
      · rcases hs with rfl | rfl | rfl
        · simp at h
        · simp only [List.mem_singleton] at h; subst h; decide
        · simp only [List.mem_singleton] at h; subst h; decide
      · have h := hd d h
        simp [not_isDig_ne h (show isDig 'e' = false by decide), not_isDig_ne h (show isDig 'E' = false by decide)]
    unfold parseUFloat
    rw [splitP_append_sep _ m c (sg ++ ds) hme (by rcases hc with rfl | rfl <;> simp), splitP_of_none _ _ hw]
    simp only [hq, hk]
    exact ⟨_, rfl⟩

theorem float_text {sg m w : Str} (hs : sg = [] ∨ sg = ['+'] ∨ sg = ['-']) (hm : IsMant m) (hw : IsExpo w) :
    ∃ q, Py.float (sg ++ (m ++ w)) = .ok (.fin q) := by
  obtain ⟨q, hq⟩ := hw.parse hm
  have sp : ∀ c ∈ m ++ w, isSpace c = false := by
    intro c hc
    rcases List.mem_append.1 hc with h | h
    · rcases hm.chars c h with h | rfl
      · exact isDig_not_space h
      · decide
    · rcases hw with rfl | ⟨e, sg, ds, rfl, he, hs, hne, hd⟩
      · simp at h
      · rcases List.mem_cons.1 h with rfl | h
        · rcases he with rfl | rfl <;> decide
        · rcases List.mem_append.1 h with h | h
          · rcases hs with rfl | rfl | rfl
            · simp at h
            · simp only [List.mem_singleton] at h; subst h; decide
            · simp only [List.mem_singleton] at h; subst h; decide
          · exact isDig_not_space (hd c h)
  obtain ⟨c, cs, em⟩ := List.exists_cons_of_ne_nil hm.ne
  have ec : m ++ w = c :: (cs ++ w) := by rw [em]; rfl
  have hc := hm.chars c (by rw [em]; simp)
  have hlow : lowerC c ≠ 'i' ∧ lowerC c ≠ 'n' := by
    rcases hc with h | rfl
    · exact isDig_lower_ne h
    · decide
  have hsg : c ≠ '+' ∧ c ≠ '-' := by
    rcases hc with h | rfl
    · exact isDig_ne_sign h
    · decide
  have hmag : ∀ neg, ∃ q, parseMag neg (m ++ w) = some (.fin q) := by
    intro neg
    rw [parseMag_of_head ec hlow.1 hlow.2, hq]
    exact ⟨_, rfl⟩
  unfold Py.float parseFloat
  rcases hs with rfl | rfl | rfl
  · rw [List.nil_append, strip_of_no_space _ sp]
    obtain ⟨v, hv⟩ := hmag false
    split
    · next x e =>
      split at e
      · next r e2 => rw [ec] at e2; exact absurd (List.cons.inj e2).1 hsg.2
      · next r e2 => rw [ec] at e2; exact absurd (List.cons.inj e2).1 hsg.1
      · rw [hv] at e; cases e; exact ⟨v, rfl⟩
    · next e =>
      split at e
      · next r e2 => rw [ec] at e2; exact absurd (List.cons.inj e2).1 hsg.2
      · next r e2 => rw [ec] at e2; exact absurd (List.cons.inj e2).1 hsg.1
      · rw [hv] at e; cases e
  · obtain ⟨v, hv⟩ := hmag false
    rw [strip_of_no_space _ (by
      intro d hd; rcases List.mem_cons.1 hd with rfl | hd
      · decide
      · exact sp d (by simpa using hd))]
    simp only [List.cons_append, List.nil_append, hv]
    exact ⟨v, rfl⟩
  · obtain ⟨v, hv⟩ := hmag true
    rw [strip_of_no_space _ (by
      intro d hd; rcases List.mem_cons.1 hd with rfl | hd
      · decide
      · exact sp d (by simpa using hd))]
    simp only [List.cons_append, List.nil_append, hv]
    exact ⟨v, rfl⟩

theorem int_text {sg ds : Str} (hs : sg = [] ∨ sg = ['+'] ∨ sg = ['-']) (hne : ds ≠ []) (hd : ∀ c ∈ ds, isDig c = true) :
    ∃ i, Py.int (sg ++ ds) = .ok i := by
  unfold Py.int
  rcases hs with rfl | rfl | rfl
  · rw [List.nil_append, parseInt_digits ds hd hne]; exact ⟨_, rfl⟩
  · unfold parseInt
    rw [strip_of_no_space _ (by
      intro d h; rcases List.mem_cons.1 h with rfl | h
      · decide
      · exact isDig_not_space (hd d (by simpa using h)))]
    simp only [List.cons_append, List.nil_append, digs_of_digits false ds hd (.inl hne)]
    exact ⟨_, rfl⟩
  · unfold parseInt
    rw [strip_of_no_space _ (by
      intro d h; rcases List.mem_cons.1 h with rfl | h
      · decide
      · exact isDig_not_space (hd d (by simpa using h)))]
    simp only [List.cons_append, List.nil_append, digs_of_digits false ds hd (.inl hne)]
    exact ⟨_, rfl⟩

theorem lang_rep {p : Char → Bool} : ∀ (k : Nat) {w : Str} {g : List Str}, Re.Lang (Conv.rep (.cls p) k) w g →
    w.length = k ∧ (∀ c ∈ w, p c = true) ∧ g = []
  | 0, w, g, h => by
    obtain ⟨rfl, rfl⟩ := Re.lang_eps.1 h
    simp
  | k + 1, w, g, h => by
    obtain ⟨s1, s2, g1, g2, rfl, rfl, h1, h2⟩ := Re.lang_seq.1 h
    obtain ⟨⟨c, rfl, hc⟩, rfl⟩ := Re.lang_cls.1 h1
    obtain ⟨e, h3, rfl⟩ := lang_rep k h2
    exact ⟨by simp [e], by simpa [hc] using h3, rfl⟩

/-- the conversions of decimal numbers, words and characters -/
def decimal : Conv → Bool
  | .o => false
  | .x _ => false
  | .nd 0 => false
  | _ => true

/-- the value of a conversion is of the type of the conversion -/
def typed : Conv → SVal → Bool
  | .c, .str _ => true
  | .nc _, .str _ => true
  | .s, .str _ => true
  | .d, .int _ => true
  | .nd _, .int _ => true
  | .u, .int _ => true
  | .f, .flt (.fin _) => true
  | .g, .flt (.fin _) => true
  | .o, .int _ => true
  | .x _, .int _ => true
  | _, _ => false

theorem cast_ok {k : Conv} {w : Str} {g : List Str} (hk : decimal k = true) (h : Re.Lang k.re w g) :
    ∃ t v, g = [t] ∧ k.cast t = .ok v ∧ typed k v = true := by
  cases k with
  | o => cases hk
  | x l => cases hk
  | c =>
    obtain ⟨g', e, h'⟩ := Re.lang_grp.1 h
    obtain ⟨-, rfl⟩ := Re.lang_cls.1 h'
    exact ⟨w, _, e, rfl, rfl⟩
  | nc n =>
    obtain ⟨g', e, h'⟩ := Re.lang_grp.1 h
    obtain ⟨-, -, rfl⟩ := lang_rep n h'
    exact ⟨w, _, e, rfl, rfl⟩
  | s =>
    obtain ⟨g', e, h'⟩ := Re.lang_grp.1 h
    obtain ⟨-, -, rfl⟩ := lang_plus h'
    exact ⟨w, _, e, rfl, rfl⟩
  | nd n =>
    obtain ⟨g', e, h'⟩ := Re.lang_grp.1 h
    obtain ⟨s1, s2, g1, g2, rfl, rfl, h1, h2⟩ := Re.lang_seq.1 h'
    obtain ⟨rfl, hs⟩ := lang_sign h1
    obtain ⟨hl, hd, rfl⟩ := lang_rep n h2
    have hne : s2 ≠ [] := by
      rintro rfl
      cases n with
      | zero => cases hk
      | succ n => simp at hl
    obtain ⟨i, hi⟩ := int_text hs hne hd
    exact ⟨s1 ++ s2, .int i, e, by simp [Conv.cast, hi, Except.map], rfl⟩
  | d =>
    obtain ⟨g', e, h'⟩ := Re.lang_grp.1 h
    obtain ⟨s1, s2, g1, g2, rfl, rfl, h1, h2⟩ := Re.lang_seq.1 h'
    obtain ⟨rfl, hs⟩ := lang_sign h1
    obtain ⟨hne, hd, rfl⟩ := lang_plus h2
    obtain ⟨i, hi⟩ := int_text hs hne hd
    exact ⟨s1 ++ s2, .int i, e, by simp [Conv.cast, hi, Except.map], rfl⟩
  | u =>
    obtain ⟨g', e, h'⟩ := Re.lang_grp.1 h
    obtain ⟨hne, hd, rfl⟩ := lang_plus h'
    obtain ⟨i, hi⟩ := int_text (.inl rfl) hne hd
    rw [List.nil_append] at hi
    exact ⟨w, .int i, e, by simp [Conv.cast, hi, Except.map], rfl⟩
  | f =>
    obtain ⟨g', e, h'⟩ := Re.lang_grp.1 h
    obtain ⟨s1, s2, g1, g2, rfl, rfl, h1, h2⟩ := Re.lang_seq.1 h'
    obtain ⟨rfl, hs⟩ := lang_sign h1
    obtain ⟨rfl, hm⟩ := lang_mant h2
    obtain ⟨q, hq⟩ := float_text hs hm (.inl rfl)
    rw [List.append_nil] at hq
    exact ⟨s1 ++ s2, .flt (.fin q), e, by simp [Conv.cast, hq, Except.map], rfl⟩
  | g =>
    obtain ⟨g', e, h'⟩ := Re.lang_grp.1 h
    obtain ⟨s1, s2, g1, g2, rfl, rfl, h1, h2⟩ := Re.lang_seq.1 h'
    obtain ⟨rfl, hs⟩ := lang_sign h1
    obtain ⟨s3, s4, g3, g4, rfl, rfl, h3, h4⟩ := Re.lang_seq.1 h2
    obtain ⟨rfl, hm⟩ := lang_mant h3
    obtain ⟨rfl, hw⟩ := lang_expo h4
    obtain ⟨q, hq⟩ := float_text hs hm hw
    exact ⟨s1 ++ (s3 ++ s4), .flt (.fin q), e, by simp [Conv.cast, hq, Except.map], rfl⟩

theorem casts_ok : ∀ (items : List FItem) (w : Str) (g : List Str), (∀ k ∈ itemsCasts items, decimal k = true) →
    Re.Lang (itemsRe items) w g → ∃ vs, applyCasts (itemsCasts items) g = .ok vs ∧
      List.Forall₂ (fun k v => typed k v = true) (itemsCasts items) vs
  | [], w, g, _, h => by
    obtain ⟨rfl, rfl⟩ := Re.lang_eps.1 h
    exact ⟨[], rfl, .nil⟩
  | .lit c :: r, w, g, hk, h => by
    obtain ⟨s1, s2, g1, g2, rfl, rfl, h1, h2⟩ := Re.lang_seq.1 h
    obtain ⟨-, rfl⟩ := Re.lang_cls.1 h1
    exact casts_ok r s2 g2 hk h2
  | .conv k :: r, w, g, hk, h => by
    obtain ⟨s1, s2, g1, g2, rfl, rfl, h1, h2⟩ := Re.lang_seq.1 h
    obtain ⟨t, v, rfl, hc, ht⟩ := cast_ok (hk k (by simp [itemsCasts])) h1
    obtain ⟨vs, hv, hf⟩ := casts_ok r s2 g2 (fun k' h' => hk k' (by simp [itemsCasts, h'])) h2
    refine ⟨v :: vs, ?_, .cons ht hf⟩
    simp only [itemsCasts, List.singleton_append, applyCasts, hc, hv]

/-- C48: `scanf` with a format without octal and hexadecimal numbers (and without the conversion `%0d`) does not raise; if the text
matches, there is one value for each conversion, of the type of the conversion, and the numbers are finite. -/
theorem C48_never_raises (fmt s : Str) (hk : ∀ k ∈ itemsCasts (scanfItems fmt), decimal k = true) :
    scanfFresh fmt s = .ok none ∨ ∃ vs, scanfFresh fmt s = .ok (some vs) ∧
      List.Forall₂ (fun k v => typed k v = true) (itemsCasts (scanfItems fmt)) vs := by
  unfold scanfFresh scanf
  have e : (scanfCompile [] fmt).2 = scanfTranslate fmt := rfl
  simp only [e, scanfTranslate]
  cases hf : Re.first (itemsRe (scanfItems fmt)) s with
  | none => exact .inl rfl
  | some x =>
    obtain ⟨g, r⟩ := x
    obtain ⟨w, rfl, hl⟩ := Re.first_sound hf
    obtain ⟨vs, h1, h2⟩ := casts_ok _ _ _ hk hl
    right
    exact ⟨vs, by simp only [h1], h2⟩

/-- C48: the exceptions are needed: `%x` accepts letters that are no hexadecimal digits, and `%0d` a sign without digits. -/
theorem C48_raises : scanfFresh p!"%X" p!"0XGG" = .error .ValueError ∧ scanfFresh p!"%0d" p!"abc" = .error .ValueError := by
  decide +kernel

theorem C48_never_raises_nonvacuous :
    (∀ k ∈ itemsCasts (scanfItems p!"#X Control: %fK  Sample: %fK"), decimal k = true) ∧
    scanfFresh p!"#X Control: %fK  Sample: %fK" p!"#X Control: 5.5K  Sample: .25K" = .ok (some [.flt (.fin (11/2)), .flt (.fin (1/4))]) ∧
    scanfFresh p!"#X Control: %fK  Sample: %fK" p!"#X 5.5" = .ok none := by decide +kernel

end S2N.Props
