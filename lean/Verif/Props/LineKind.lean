import Verif.Props.Registry
import Verif.Spec.Scan
/-
C16: which handler a line is given to, in plain terms.
-/
namespace S2N.Props
open S2N S2N.Py S2N.HKey S2N.Spec
section
variable [UniDB]

theorem lang_singles : ∀ (pre : Str) (t : Tail) (w : Str),
    (∃ g, Re.Lang (Pat.re ⟨pre.map (fun c => [c]), t⟩) w g) ↔
      ∃ u, w = pre ++ u ∧ ∃ g, Re.Lang t.re u g
  | [], t, w => by simp [Pat.re]
  | c :: pre, t, w => by
    constructor
    · rintro ⟨g, h⟩
      obtain ⟨d, cs, g', e, hd, h'⟩ := lang_pat_cons h
      obtain ⟨u, e', hu⟩ := (lang_singles pre t cs).1 ⟨g', h'⟩
      exact ⟨u, by simp_all, hu⟩
    · rintro ⟨u, e, hu⟩
      obtain ⟨g, h⟩ := (lang_singles pre t (pre ++ u)).2 ⟨u, rfl, hu⟩
      refine ⟨[] ++ g, ?_⟩
      rw [e]
      exact Re.Lang.seq (s := [c]) (Re.Lang.cls (by simp)) h

theorem firstEnd_nonl {r : Re} {w : Str} (hw : '\n' ∉ w) :
    (Re.firstEnd r w).isSome = true ↔ ∃ g, Re.Lang r w g := by
  rw [Re.firstEnd_isSome]
  constructor
  · rintro ⟨v, g, h | h, hl⟩
    · exact ⟨g, h ▸ hl⟩
    · exfalso; apply hw; rw [h]; simp
  · rintro ⟨g, h⟩; exact ⟨w, g, .inl rfl, h⟩

theorem startsWith_iff (s t : Str) : startsWith s t = true ↔ ∃ u, s = t ++ u := by
  unfold startsWith
  rw [List.isPrefixOf_iff_prefix]
  constructor
  · rintro ⟨u, h⟩; exact ⟨u, h.symm⟩
  · rintro ⟨u, h⟩; exact ⟨u, h.symm⟩

theorem numbered_iff (pre w : Str) :
    numbered pre w = true ↔ ∃ u, w = pre ++ u ∧ u ≠ [] ∧ ∀ c ∈ u, isDecU c = true := by
  unfold numbered
  simp only [Bool.and_eq_true, startsWith_iff, Bool.not_eq_true', List.isEmpty_eq_false_iff,
    List.all_eq_true]
  constructor
  · rintro ⟨⟨⟨u, e⟩, h1⟩, h2⟩
    subst e
    exact ⟨u, rfl, by simpa using h1, by simpa using h2⟩
  · rintro ⟨u, e, h1, h2⟩
    subst e
    exact ⟨⟨⟨u, rfl⟩, by simpa using h1⟩, by simpa using h2⟩

theorem starred_iff (p : Char → Bool) (pre w : Str) :
    (startsWith w pre && (w.drop pre.length).all p) = true ↔ ∃ u, w = pre ++ u ∧ ∀ c ∈ u, p c = true := by
  simp only [Bool.and_eq_true, startsWith_iff, List.all_eq_true]
  constructor
  · rintro ⟨⟨u, e⟩, h2⟩
    subst e
    exact ⟨u, rfl, by simpa using h2⟩
  · rintro ⟨u, e, h2⟩
    subst e
    exact ⟨⟨u, rfl⟩, by simpa using h2⟩

theorem matchKey_lit {h : HKey} {pre : Str} (hd : h ≠ .data)
    (e : pat h = ⟨pre.map (fun c => [c]), .none⟩) {w : Str} (hw : '\n' ∉ w) :
    matchKey h w = .ok true ↔ w = pre := by
  have : matchKey h w = .ok (Re.firstEnd (pat h).re w).isSome := by
    cases h <;> first | exact absurd rfl hd | rfl
  rw [this]
  simp only [Except.ok.injEq]
  rw [firstEnd_nonl hw, e, lang_singles]
  simp [Tail.re, Re.lang_eps]

theorem matchKey_numbered {h : HKey} {pre : Str} (hd : h ≠ .data)
    (e : pat h = ⟨pre.map (fun c => [c]), .digits1⟩) {w : Str} (hw : '\n' ∉ w) :
    matchKey h w = .ok true ↔ numbered pre w = true := by
  have : matchKey h w = .ok (Re.firstEnd (pat h).re w).isSome := by
    cases h <;> first | exact absurd rfl hd | rfl
  rw [this]
  simp only [Except.ok.injEq]
  rw [firstEnd_nonl hw, e, lang_singles, numbered_iff]
  simp [Tail.re, Re.lang_plus]

theorem matchKey_star {h : HKey} {pre : Str} (hd : h ≠ .data) {p : Char → Bool} {t : Tail}
    (ht : t.re = .star p) (e : pat h = ⟨pre.map (fun c => [c]), t⟩) {w : Str} (hw : '\n' ∉ w) :
    matchKey h w = .ok true ↔ (startsWith w pre && (w.drop pre.length).all p) = true := by
  have : matchKey h w = .ok (Re.firstEnd (pat h).re w).isSome := by
    cases h <;> first | exact absurd rfl hd | rfl
  rw [this]
  simp only [Except.ok.injEq]
  rw [firstEnd_nonl hw, e, lang_singles, starred_iff]
  simp [ht, Re.lang_star]

theorem lang_classes : ∀ (as : List (List Char)) (w : Str),
    (∃ g, Re.Lang (Pat.re ⟨as, .none⟩) w g) ↔ List.Forall₂ (fun c a => c ∈ a) w as
  | [], w => by
    simp only [Pat.re, Tail.re, List.foldr_nil, Re.lang_eps]
    constructor
    · rintro ⟨g, rfl, _⟩; exact .nil
    · intro h; cases h; exact ⟨[], rfl, rfl⟩
  | a :: as, w => by
    constructor
    · rintro ⟨g, h⟩
      obtain ⟨d, cs, g', e, hd, h'⟩ := lang_pat_cons h
      rw [e]
      exact .cons hd ((lang_classes as cs).1 ⟨g', h'⟩)
    · intro h
      cases h with
      | cons hd ht =>
        obtain ⟨g, h⟩ := (lang_classes as _).2 ht
        exact ⟨[] ++ g, Re.Lang.seq (s := [_]) (Re.Lang.cls (by simpa using hd)) h⟩

theorem matchKey_calib {w : Str} (hw : '\n' ∉ w) :
    matchKey .CALIB w = .ok true ↔ isCalib w = true := by
  have e : pat .CALIB = ⟨[['#'], ['@'], ['c', 'C'], ['a', 'A'], ['l', 'L'], ['i', 'I'], ['b', 'B']], .none⟩ := by
    decide +kernel
  have : matchKey .CALIB w = .ok (Re.firstEnd (pat .CALIB).re w).isSome := rfl
  rw [this]
  simp only [Except.ok.injEq]
  rw [firstEnd_nonl hw, e, lang_classes]
  constructor
  · intro h
    rcases h with _ | ⟨h1, h⟩; rcases h with _ | ⟨h2, h⟩; rcases h with _ | ⟨h3, h⟩
    rcases h with _ | ⟨h4, h⟩; rcases h with _ | ⟨h5, h⟩; rcases h with _ | ⟨h6, h⟩
    rcases h with _ | ⟨h7, h⟩; rcases h with _ | _
    simp only [List.mem_cons, List.not_mem_nil, or_false] at *
    subst h1 h2
    simp [isCalib, h3, h4, h5, h6, h7]
  · intro h
    unfold isCalib at h
    split at h
    · simp only [Bool.and_eq_true, Bool.or_eq_true, beq_iff_eq] at h
      simp [h]
    · cases h

theorem matchKey_data (w : Str) : matchKey .data w = .ok true ↔
    isNumber w = true := by
  simp only [matchKey, splitWs_strip, isNumber]
  cases splitWs w <;> simp

/-- the pattern test, in plain terms -/
theorem matchKey_wordIs (h : HKey) {w : Str} (hw : '\n' ∉ w) :
    (w = h.keyText ∨ matchKey h w = .ok true) ↔ wordIs h w = true := by
  have lit : ∀ (h : HKey) (hd : h ≠ .data) (e : pat h = ⟨h.keyText.map (fun c => [c]), .none⟩),
      (w = h.keyText ∨ matchKey h w = .ok true) ↔ w = h.keyText := by
    intro h hd e
    rw [matchKey_lit hd e hw, or_self]
  cases h
  case data => simp [wordIs, matchKey_data]
  case CALIB => simp only [wordIs, matchKey_calib hw, Bool.or_eq_true, beq_iff_eq]
  case A =>
    rw [matchKey_star (pre := p!"@A") (p := isDecU) (t := .digits0) (by simp) rfl (by decide +kernel) hw]
    simp only [wordIs, Bool.or_eq_true, beq_iff_eq]; rfl
  case MD =>
    rw [matchKey_star (pre := p!"#MD") (p := isWord) (t := .word0) (by simp) rfl (by decide +kernel) hw]
    simp only [wordIs, Bool.or_eq_true, beq_iff_eq]; rfl
  case UIM =>
    rw [matchKey_star (pre := p!"#UIM") (p := isWord) (t := .word0) (by simp) rfl (by decide +kernel) hw]
    simp only [wordIs, Bool.or_eq_true, beq_iff_eq]; rfl
  all_goals first
    | (rw [lit _ (by simp) (by decide +kernel)]; simp [wordIs])
    | (rw [matchKey_numbered (by simp) (pre := p!"#G") (by decide +kernel) hw]; simp [wordIs])
    | (rw [matchKey_numbered (by simp) (pre := p!"#J") (by decide +kernel) hw]; simp [wordIs])
    | (rw [matchKey_numbered (by simp) (pre := p!"#j") (by decide +kernel) hw]; simp [wordIs])
    | (rw [matchKey_numbered (by simp) (pre := p!"#O") (by decide +kernel) hw]; simp [wordIs])
    | (rw [matchKey_numbered (by simp) (pre := p!"#o") (by decide +kernel) hw]; simp [wordIs])
    | (rw [matchKey_numbered (by simp) (pre := p!"#P") (by decide +kernel) hw]; simp [wordIs])
    | (rw [matchKey_numbered (by simp) (pre := p!"#H") (by decide +kernel) hw]; simp [wordIs])
    | (rw [matchKey_numbered (by simp) (pre := p!"#V") (by decide +kernel) hw]; simp [wordIs])
    | (rw [matchKey_numbered (by simp) (pre := p!"#VA") (by decide +kernel) hw]; simp [wordIs])
    | (rw [matchKey_numbered (by simp) (pre := p!"#VD") (by decide +kernel) hw]; simp [wordIs])
    | (rw [matchKey_numbered (by simp) (pre := p!"#VE") (by decide +kernel) hw]; simp [wordIs])

omit [UniDB] in
theorem wordIs_ascii (d1 d2 : UniDB) (h : HKey) (w : Str) (hw : ∀ c ∈ w, c.toNat < 128) :
    @wordIs d1 h w = @wordIs d2 h w := by
  have hd : ∀ u : Str, (∀ c ∈ u, c ∈ w) → u.all (@isDecU d1) = u.all (@isDecU d2) := by
    intro u hu
    rw [Bool.eq_iff_iff]
    simp only [List.all_eq_true]
    constructor <;> intro h c hc <;> have := h c hc <;> simpa [isDecU, hw c (hu c hc)] using this
  have hwd : ∀ u : Str, (∀ c ∈ u, c ∈ w) → u.all (@isWord d1) = u.all (@isWord d2) := by
    intro u hu
    rw [Bool.eq_iff_iff]
    simp only [List.all_eq_true]
    constructor <;> intro h c hc <;> have := h c hc <;> simpa [isWord, hw c (hu c hc)] using this
  have hdr : ∀ n, ∀ c ∈ w.drop n, c ∈ w := fun n c hc => List.mem_of_mem_drop hc
  cases h <;> simp only [wordIs, numbered, hd _ (hdr _), hwd _ (hdr _)]

omit [UniDB] in
theorem keyTexts_apart : ∀ h ∈ HKey.all, ∀ k ∈ HKey.all, h ≠ k →
    @wordIs asciiDB h k.keyText = false := by decide +kernel

omit [UniDB] in
theorem keyTexts_ascii : ∀ k ∈ HKey.all, ∀ c ∈ k.keyText, c.toNat < 128 ∧ c ≠ '\n' := by decide +kernel

/-- C16: a line is given to the handler of kind `h` exactly when its first word says so. -/
theorem C16_kind (reg : List HKey) (hr : reg.Perm HKey.all) (line w rest : Str) (hs : ' ' ∉ w)
    (hn : '\n' ∉ w) (e : line = w ++ ' ' :: rest) (h : HKey) :
    getControlKey reg line = .ok (some h) ↔ wordIs h w = true := by
  have hf : findC ' ' line = some w.length := by
    rw [e, findC_append _ _ _ hs]
  have ht : line.take w.length = w := by rw [e]; simp
  unfold getControlKey
  rw [hf]
  simp only [ht]
  cases hq : reg.find? (fun h => h.keyText = w) with
  | some k =>
    have hk := ((find_keyText _ _ _).1 hq).2
    simp only [Except.ok.injEq, Option.some.injEq]
    constructor
    · rintro rfl; rw [← matchKey_wordIs k hn]; exact .inl hk.symm
    · intro h1
      by_contra hne
      have := keyTexts_apart h (all_mem h) k (all_mem k) (fun e => hne e.symm)
      rw [wordIs_ascii asciiDB inferInstance h _ (fun c hc => (keyTexts_ascii k (all_mem k) c hc).1), hk, h1] at this
      cases this
  | none =>
    have hnk : ∀ k : HKey, k.keyText ≠ w := by
      intro k hk
      have := List.find?_eq_none.1 hq k (hr.mem_iff.2 (all_mem k))
      simp [hk] at this
    rw [← matchKey_wordIs h hn]
    simp only
    constructor
    · intro h1; exact .inr (matchControlKey_some h1).2
    · rintro (h1 | h1)
      · exact absurd h1.symm (hnk h)
      · cases hm : matchControlKey reg w with
        | error e =>
          obtain ⟨_, _, hb⟩ := matchControlKey_error hm
          rw [blank_no_match hb] at h1
          split at h1 <;> cases h1
        | ok o =>
          cases o with
          | none => rw [matchControlKey_none hm h (hr.mem_iff.2 (all_mem h))] at h1; cases h1
          | some k => rw [C16_at_most_one w k h (matchControlKey_some hm).2 h1]

/-- lines which start with a word: the choice for each kind of line -/
theorem key_isKind (reg : List HKey) (hr : reg.Perm HKey.all) (line : Str) (hn : '\n' ∉ line)
    (h : HKey) :
    getControlKey reg (lstrip line) = .ok (some h) ↔ isKind h line = true := by
  unfold isKind leadWord
  have hn' : '\n' ∉ lstrip line := fun h => hn ((lstrip_suffix line).mem h)
  cases hf : findC ' ' (lstrip line) with
  | none => simp [getControlKey, hf]
  | some p =>
    obtain ⟨a, b, e, ha, hp⟩ : ∃ a b, lstrip line = a ++ ' ' :: b ∧ ' ' ∉ a ∧ p = a.length := by
      obtain ⟨a, b, e, ha⟩ := mem_split_first ' ' (lstrip line) (by
        by_contra hc
        rw [(findC_eq_none_iff _ _).2 hc] at hf; cases hf)
      refine ⟨a, b, e, ha, ?_⟩
      rw [e, findC_append _ _ _ ha] at hf
      simpa [findC] using hf.symm
    have hna : '\n' ∉ a := fun h => hn' (by rw [e]; simp [h])
    rw [C16_kind reg hr _ a b ha hna e h]
    simp [e, hp]

/-- the choice of a handler for a line of a scan never fails -/
theorem key_error (reg : List HKey) (line : Str) (e : PyErr)
    (he : getControlKey reg (lstrip line) = .error e) : False := by
  unfold getControlKey at he
  split at he
  · cases he
  · next p hf =>
    simp only at he
    split at he
    · cases he
    · obtain ⟨_, _, hb⟩ := matchControlKey_error he
      rw [splitWs_eq_nil_iff] at hb
      cases hl : lstrip line with
      | nil => rw [hl] at hf; simp [findC] at hf
      | cons c cs =>
        have hc : isSpace c = false := dropWhile_head isSpace line c (by
          have : line.dropWhile isSpace = c :: cs := hl
          rw [this]; rfl)
        rw [hl] at hf hb
        cases p with
        | zero =>
          have hne : c ≠ ' ' := by rintro rfl; exact absurd hc (by decide)
          simp [findC, hne] at hf
        | succ p =>
          have := hb c (by simp)
          rw [hc] at this; cases this

/-- a non-empty line is unknown exactly when `get_control_key` finds nothing -/
theorem key_none (reg : List HKey) (hr : reg.Perm HKey.all) (line : Str) (hn : '\n' ∉ line)
    (hne : line ≠ []) :
    getControlKey reg (lstrip line) = .ok none ↔ isUnknown line = true := by
  unfold isUnknown
  simp only [Bool.and_eq_true, Bool.not_eq_true', List.isEmpty_eq_false_iff, List.all_eq_true]
  constructor
  · intro h
    refine ⟨hne, fun k _ => ?_⟩
    by_contra hc
    rw [Bool.not_eq_false, ← key_isKind reg hr line hn, h] at hc
    cases hc
  · rintro ⟨_, h⟩
    cases hk : getControlKey reg (lstrip line) with
    | error e => exact (key_error reg line e hk).elim
    | ok o =>
      cases o with
      | none => rfl
      | some k =>
        have := (key_isKind reg hr line hn k).1 hk
        rw [h k (all_mem k)] at this; cases this

end

/-- C16 is not vacuous: a numbered line, a data line, a calibration line and an unknown line -/
theorem C16_kind_nonvacuous :
    @wordIs asciiDB .G p!"#G12" = true ∧ @wordIs asciiDB .data p!"-1.5e3" = true ∧
    @wordIs asciiDB .CALIB p!"#@Calib" = true ∧ @isUnknown asciiDB p!"#ZZ 1 2" = true ∧
    @isUnknown asciiDB p!"#C hello" = false := by decide +kernel

end S2N.Props
