import Verif.Model.Registry
import Verif.Py.StrLemmas
import Verif.Py.NumLemmas
import Mathlib.Data.List.Induction
/-
Properties C16 (dispatch is unambiguous) and C18 (registration)
-/
namespace S2N.Props
open S2N Py HKey

section C16
variable [UniDB]

/-- ASCII character `c` belongs to the class of tail `t` -/
def tailHas : Tail → Char → Bool
  | .none, _ => false
  | .digits1, c => isDig c
  | .digits0, c => isDig c
  | .word0, c => asciiWord c

/-- sufficient test that two patterns have no common text -/
def sepPat : List (List Char) → Tail → List (List Char) → Tail → Bool
  | a :: as, t, b :: bs, u => a.all (fun x => !b.contains x) || sepPat as t bs u
  | [], t, b :: _, _ => b.all (fun c => !tailHas t c)
  | a :: _, _, [], u => a.all (fun c => !tailHas u c)
  | [], t, [], u => (t == .none && u == .digits1) || (t == .digits1 && u == .none)

theorem tail_head {t : Tail} {c : Char} {cs : Str} {g : List Str} (hc : c.toNat < 128)
    (h : Re.Lang t.re (c :: cs) g) : tailHas t c = true := by
  have hd : isDecU c = true → isDig c = true := by simp [isDecU, hc]
  have hw : isWord c = true → asciiWord c = true := by simp [isWord, hc]
  cases t with
  | none => have := (Re.lang_eps.1 h).1; simp at this
  | digits1 => exact hd ((Re.lang_plus.1 h).2.1 c (by simp))
  | digits0 => exact hd ((Re.lang_star.1 h).1 c (by simp))
  | word0 => exact hw ((Re.lang_star.1 h).1 c (by simp))

theorem lang_pat_cons {a : List Char} {as : List (List Char)} {t : Tail} {w : Str} {g : List Str}
    (h : Re.Lang (Pat.re ⟨a :: as, t⟩) w g) :
    ∃ c cs g', w = c :: cs ∧ c ∈ a ∧ Re.Lang (Pat.re ⟨as, t⟩) cs g' := by
  obtain ⟨s1, s2, g1, g2, e, _, h1, h2⟩ := Re.lang_seq.1 h
  obtain ⟨⟨c, e1, hc⟩, _⟩ := Re.lang_cls.1 h1
  exact ⟨c, s2, g2, by simp [e, e1], by simpa using hc, h2⟩

theorem sepPat_sound : ∀ (as : List (List Char)) (t : Tail) (bs : List (List Char)) (u : Tail)
    (w : Str) (g1 g2 : List Str), sepPat as t bs u = true →
    (∀ a ∈ as, ∀ c ∈ a, c.toNat < 128) → (∀ b ∈ bs, ∀ c ∈ b, c.toNat < 128) →
    Re.Lang (Pat.re ⟨as, t⟩) w g1 → Re.Lang (Pat.re ⟨bs, u⟩) w g2 → False
  | a :: as, t, b :: bs, u, w, g1, g2, hs, ha, hb, h1, h2 => by
    obtain ⟨c, cs, g1', e1, hc1, h1'⟩ := lang_pat_cons h1
    obtain ⟨d, ds, g2', e2, hd1, h2'⟩ := lang_pat_cons h2
    rw [e1] at e2; cases e2
    simp only [sepPat, Bool.or_eq_true, List.all_eq_true, Bool.not_eq_true', List.contains_eq_mem,
      decide_eq_false_iff_not] at hs
    rcases hs with hs | hs
    · exact hs c hc1 hd1
    · exact sepPat_sound as t bs u cs g1' g2' hs (fun a h => ha a (by simp [h]))
        (fun b h => hb b (by simp [h])) h1' h2'
  | [], t, b :: bs, u, w, g1, g2, hs, ha, hb, h1, h2 => by
    obtain ⟨d, ds, g2', e2, hd1, h2'⟩ := lang_pat_cons h2
    subst e2
    simp only [sepPat, List.all_eq_true, Bool.not_eq_true'] at hs
    have := tail_head (hb b (by simp) d hd1) (show Re.Lang t.re (d :: ds) g1 from h1)
    rw [hs d hd1] at this; cases this
  | a :: as, t, [], u, w, g1, g2, hs, ha, hb, h1, h2 => by
    obtain ⟨d, ds, g1', e1, hd1, h1'⟩ := lang_pat_cons h1
    subst e1
    simp only [sepPat, List.all_eq_true, Bool.not_eq_true'] at hs
    have := tail_head (ha a (by simp) d hd1) (show Re.Lang u.re (d :: ds) g2 from h2)
    rw [hs d hd1] at this; cases this
  | [], t, [], u, w, g1, g2, hs, ha, hb, h1, h2 => by
    simp only [sepPat, Bool.or_eq_true, Bool.and_eq_true, beq_iff_eq] at hs
    rcases hs with ⟨rfl, rfl⟩ | ⟨rfl, rfl⟩
    · have e := (Re.lang_eps.1 h1).1
      exact (Re.lang_plus.1 h2).1 e
    · have e := (Re.lang_eps.1 h2).1
      exact (Re.lang_plus.1 h1).1 e

theorem tail_no_nl {t : Tail} {w : Str} {g : List Str} (h : Re.Lang t.re w g) : '\n' ∉ w := by
  have hd : isDecU '\n' = false := rfl
  have hw : isWord '\n' = false := rfl
  intro hm
  cases t with
  | none => rw [(Re.lang_eps.1 h).1] at hm; cases hm
  | digits1 => have := (Re.lang_plus.1 h).2.1 _ hm; rw [hd] at this; cases this
  | digits0 => have := (Re.lang_star.1 h).1 _ hm; rw [hd] at this; cases this
  | word0 => have := (Re.lang_star.1 h).1 _ hm; rw [hw] at this; cases this

theorem pat_no_nl : ∀ (as : List (List Char)) (t : Tail) (w : Str) (g : List Str),
    (∀ a ∈ as, '\n' ∉ a) → Re.Lang (Pat.re ⟨as, t⟩) w g → '\n' ∉ w
  | [], t, w, g, _, h => tail_no_nl (t := t) h
  | a :: as, t, w, g, hn, h => by
    obtain ⟨c, cs, g', e, hc, h'⟩ := lang_pat_cons h
    subst e
    have := pat_no_nl as t cs g' (fun x hx => hn x (by simp [hx])) h'
    have h2 := hn a (by simp)
    simp only [List.mem_cons, not_or]
    exact ⟨fun e => h2 (e ▸ hc), this⟩

/-- every key pattern is plain ASCII without a newline -/
theorem pats_ascii : ∀ h ∈ HKey.all, ∀ a ∈ (pat h).lit, ∀ c ∈ a, c.toNat < 128 ∧ c ≠ '\n' := by
  decide

theorem all_mem (h : HKey) : h ∈ HKey.all := by cases h <;> decide

/-- the key patterns of two different handlers never match the same text -/
theorem pats_separate : ∀ h ∈ HKey.all, ∀ k ∈ HKey.all, h ≠ k →
    sepPat (pat h).lit (pat h).tail (pat k).lit (pat k).tail = true := by decide +kernel

theorem matchKey_lang {h : HKey} {text : Str} (hd : h ≠ .data) (hm : matchKey h text = .ok true) :
    ∃ w g, (text = w ∨ text = w ++ ['\n']) ∧ Re.Lang (pat h).re w g := by
  have : (Re.firstEnd (pat h).re text).isSome = true := by
    cases h <;> first | exact absurd rfl hd | simpa [matchKey] using hm
  exact (Re.firstEnd_isSome _ _).1 this

/-- first characters of the key patterns -/
theorem pats_head : ∀ h ∈ HKey.all, h ≠ .data → h ≠ .unrec →
    ∃ a as, (pat h).lit = a :: as ∧ ∀ c ∈ a, c = '#' ∨ c = '@' := by
  intro h hh h1 h2
  cases h <;> first | exact absurd rfl h1 | exact absurd rfl h2 | exact ⟨_, _, rfl, by decide⟩

theorem data_match {text : Str} (h : matchKey .data text = .ok true) :
    ∃ w ws, splitWs text = w :: ws ∧ (parseFloat w).isSome = true := by
  simp only [matchKey] at h
  rw [splitWs_strip] at h
  split at h
  · cases h
  · next w ws e => exact ⟨w, ws, e, by simpa using h⟩

theorem splitWs_head_char {c : Char} {cs : Str} (hc : isSpace c = false) {w : Str} {ws : List Str}
    (h : splitWs (c :: cs) = w :: ws) : ∃ w', w = c :: w' := by
  unfold splitWs at h
  obtain ⟨v, vs, e⟩ := splitP_exists_cons isSpace cs
  rw [splitP_cons_false hc e] at h
  simp only [List.filter_cons, List.isEmpty_cons, Bool.not_false, if_true, List.cons.injEq] at h
  exact ⟨v, h.1.symm⟩

theorem lang_ones : ∀ (s w : Str) (g : List Str),
    Re.Lang (Pat.re ⟨s.map (fun c => [c]), .none⟩) w g → w = s
  | [], _, _, h => (Re.lang_eps.1 h).1
  | c :: cs, w, g, h => by
    obtain ⟨d, ds, g', e, hd, h'⟩ := lang_pat_cons h
    rw [e, lang_ones cs ds g' h']
    simp only [List.mem_singleton] at hd
    rw [hd]

/-- the data handler and the handlers with patterns exclude each other -/
theorem data_excludes {h : HKey} (hd : h ≠ .data) {text : Str}
    (h1 : matchKey h text = .ok true) (h2 : matchKey .data text = .ok true) : False := by
  obtain ⟨w, ws, e, hf⟩ := data_match h2
  by_cases hu : h = .unrec
  · subst hu
    obtain ⟨v, g, ht, hl⟩ := matchKey_lang hd h1
    have hv : v = p!"unrecognized_control_line" := by
      have e0 : pat .unrec = ⟨(p!"unrecognized_control_line").map (fun c => [c]), .none⟩ := by
        decide +kernel
      rw [e0] at hl
      exact lang_ones _ _ _ hl
    subst hv
    rcases ht with rfl | rfl
    · have : splitWs p!"unrecognized_control_line" = [p!"unrecognized_control_line"] := rfl
      rw [this] at e; cases e
      exact absurd hf (by decide +kernel)
    · have : splitWs (p!"unrecognized_control_line" ++ ['\n']) = [p!"unrecognized_control_line"] := rfl
      rw [this] at e; cases e
      exact absurd hf (by decide +kernel)
  · obtain ⟨v, g, ht, hl⟩ := matchKey_lang hd h1
    obtain ⟨a, as, ep, ha⟩ := pats_head h (all_mem h) hd hu
    have ep' : pat h = ⟨a :: as, (pat h).tail⟩ := by rw [← ep]
    rw [ep'] at hl
    obtain ⟨c, cs, _, ev, hc, _⟩ := lang_pat_cons hl
    have hcc := ha c hc
    have hsp : isSpace c = false := by rcases hcc with rfl | rfl <;> decide
    obtain ⟨rest, hrest⟩ : ∃ rest, text = c :: rest := by
      rcases ht with rfl | rfl
      · exact ⟨cs, ev⟩
      · exact ⟨cs ++ ['\n'], by rw [ev]; rfl⟩
    rw [hrest] at e
    obtain ⟨w', ew⟩ := splitWs_head_char hsp e
    have hw : ∀ d ∈ w, isSpace d = false := (splitWs_word (c :: rest) w (by rw [e]; simp)).2
    obtain ⟨x, hx⟩ := Option.isSome_iff_exists.1 hf
    have := parseFloat_hash w c w' (by rw [strip_of_no_space w hw, ew]) hcc
    rw [hx] at this; cases this

/-- C16: at most one packaged handler matches any first word. -/
theorem C16_at_most_one (text : Str) (h k : HKey)
    (h1 : matchKey h text = .ok true) (h2 : matchKey k text = .ok true) : h = k := by
  by_contra hne
  by_cases hd : h = .data
  · subst hd
    exact data_excludes (fun e => hne e.symm) h2 h1
  by_cases hk : k = .data
  · subst hk
    exact data_excludes hd h1 h2
  obtain ⟨v, g, hv, hl⟩ := matchKey_lang hd h1
  obtain ⟨w, g', hw, hl'⟩ := matchKey_lang hk h2
  have nl1 := pat_no_nl (pat h).lit (pat h).tail v g
    (fun a ha hc => (pats_ascii h (all_mem h) a ha _ hc).2 rfl) hl
  have nl2 := pat_no_nl (pat k).lit (pat k).tail w g'
    (fun a ha hc => (pats_ascii k (all_mem k) a ha _ hc).2 rfl) hl'
  have hvw : v = w := by
    rcases hv with rfl | rfl <;> rcases hw with hw | hw
    · exact hw
    · exact absurd (by rw [hw]; simp) nl1
    · exact absurd (by rw [← hw]; simp) nl2
    · exact List.append_cancel_right hw
  subst hvw
  exact sepPat_sound _ _ _ _ v g g' (pats_separate h (all_mem h) k (all_mem k) hne)
    (fun a ha c hc => (pats_ascii h (all_mem h) a ha c hc).1)
    (fun a ha c hc => (pats_ascii k (all_mem k) a ha c hc).1) hl hl'

theorem matchKey_error {h : HKey} {text : Str} {e : PyErr} (hm : matchKey h text = .error e) :
    h = .data ∧ e = .IndexError ∧ splitWs text = [] := by
  cases h <;> simp only [matchKey, reduceCtorEq] at hm
  rw [splitWs_strip] at hm
  split at hm
  · next he => cases hm; exact ⟨rfl, rfl, he⟩
  · cases hm

/-- only the scan-data handler can raise, and only on blank words, which nothing matches -/
theorem blank_no_match {h : HKey} {text : Str} (hb : splitWs text = []) :
    matchKey h text = if h = .data then .error .IndexError else .ok false := by
  by_cases hd : h = .data
  · subst hd; simp [matchKey, splitWs_strip, hb]
  · rw [if_neg hd]
    cases hm : matchKey h text with
    | error e => exact absurd (matchKey_error hm).1 hd
    | ok b =>
      cases b with
      | false => rfl
      | true =>
        obtain ⟨v, g, ht, hl⟩ := matchKey_lang hd hm
        have hsp := (splitWs_eq_nil_iff text).1 hb
        have hne : ∃ c cs, v = c :: cs ∧ isSpace c = false := by
          have hne : ∃ a as, (pat h).lit = a :: as ∧ ∀ c ∈ a, isSpace c = false := by
            cases h <;> first | exact absurd rfl hd | exact ⟨_, _, rfl, by decide⟩
          obtain ⟨a, as, ep, ha⟩ := hne
          have ep' : pat h = ⟨a :: as, (pat h).tail⟩ := by rw [← ep]
          rw [ep'] at hl
          obtain ⟨c, cs, _, ev, hc, _⟩ := lang_pat_cons hl
          exact ⟨c, cs, ev, ha c hc⟩
        obtain ⟨c, cs, ev, hc⟩ := hne
        have : c ∈ text := by rcases ht with rfl | rfl <;> simp [ev]
        rw [hsp c this] at hc; cases hc

theorem matchControlKey_some {reg : List HKey} {text : Str} {h : HKey}
    (hm : matchControlKey reg text = .ok (some h)) : h ∈ reg ∧ matchKey h text = .ok true := by
  induction reg with
  | nil => simp [matchControlKey] at hm
  | cons k ks ih =>
    unfold matchControlKey at hm
    split at hm
    · cases hm
    · next he => cases hm; exact ⟨by simp, he⟩
    · exact ⟨List.mem_cons_of_mem _ (ih hm).1, (ih hm).2⟩

theorem matchControlKey_none {reg : List HKey} {text : Str}
    (hm : matchControlKey reg text = .ok none) : ∀ h ∈ reg, matchKey h text = .ok false := by
  induction reg with
  | nil => simp
  | cons k ks ih =>
    unfold matchControlKey at hm
    split at hm
    · cases hm
    · cases hm
    · next he => intro h hh
                 rcases List.mem_cons.1 hh with rfl | hh
                 · exact he
                 · exact ih hm h hh

theorem matchControlKey_error {reg : List HKey} {text : Str} {e : PyErr}
    (hm : matchControlKey reg text = .error e) :
    .data ∈ reg ∧ e = .IndexError ∧ splitWs text = [] := by
  induction reg with
  | nil => simp [matchControlKey] at hm
  | cons k ks ih =>
    unfold matchControlKey at hm
    split at hm
    · next he =>
      cases hm
      have := matchKey_error he
      exact ⟨by simp [this.1], this.2⟩
    · cases hm
    · have := ih hm; exact ⟨List.mem_cons_of_mem _ this.1, this.2⟩

theorem matchControlKey_blank {reg : List HKey} {text : Str} (hd : .data ∈ reg)
    (hb : splitWs text = []) : matchControlKey reg text = .error .IndexError := by
  induction reg with
  | nil => cases hd
  | cons k ks ih =>
    unfold matchControlKey
    rw [blank_no_match hb]
    by_cases hk : k = .data
    · simp [hk]
    · simp only [hk, if_false]
      exact ih ((List.mem_cons.1 hd).resolve_left fun e => hk e.symm)

/-- C16: the choice by pattern does not depend on the order of the handlers. -/
theorem matchControlKey_perm {r1 r2 : List HKey} (hp : r1.Perm r2) (text : Str) :
    matchControlKey r1 text = matchControlKey r2 text := by
  cases h1 : matchControlKey r1 text with
  | error e =>
    obtain ⟨hd, rfl, hb⟩ := matchControlKey_error h1
    exact (matchControlKey_blank (hp.mem_iff.1 hd) hb).symm
  | ok o =>
    cases h2 : matchControlKey r2 text with
    | error e =>
      obtain ⟨hd, rfl, hb⟩ := matchControlKey_error h2
      rw [matchControlKey_blank (hp.mem_iff.2 hd) hb] at h1; cases h1
    | ok o2 =>
      cases o with
      | some h =>
        have m1 := matchControlKey_some h1
        cases o2 with
        | some k =>
          have m2 := matchControlKey_some h2
          rw [C16_at_most_one text h k m1.2 m2.2]
        | none =>
          have := matchControlKey_none h2 h (hp.mem_iff.1 m1.1)
          rw [m1.2] at this; cases this
      | none =>
        cases o2 with
        | none => rfl
        | some k =>
          have m2 := matchControlKey_some h2
          have := matchControlKey_none h1 k (hp.mem_iff.2 m2.1)
          rw [m2.2] at this; cases this

theorem keyText_injective : ∀ h ∈ HKey.all, ∀ k ∈ HKey.all, h.keyText = k.keyText → h = k := by
  decide +kernel

theorem find_keyText (reg : List HKey) (key : Str) (h : HKey) :
    reg.find? (fun h => h.keyText = key) = some h ↔ h ∈ reg ∧ h.keyText = key := by
  constructor
  · intro e
    exact ⟨List.mem_of_find?_eq_some e, by simpa using List.find?_some e⟩
  · rintro ⟨hm, e⟩
    cases hf : reg.find? (fun h => h.keyText = key) with
    | none => have := List.find?_eq_none.1 hf h hm; simp [e] at this
    | some k =>
      have : k.keyText = key := by simpa using List.find?_some hf
      rw [keyText_injective k (all_mem k) h (all_mem h) (by rw [this, e])]

/-- C16: the handler chosen for a line is the same whatever the order in which the packaged
handlers were loaded (any subset of them, any permutation). -/
theorem C16_load_order (r1 r2 : List HKey) (hp : r1.Perm r2) (line : Str) :
    getControlKey r1 line = getControlKey r2 line := by
  unfold getControlKey
  cases findC ' ' line with
  | none => rfl
  | some pos =>
    simp only
    have : r1.find? (fun h => h.keyText = line.take pos) = r2.find? (fun h => h.keyText = line.take pos) := by
      cases h1 : r1.find? (fun h => h.keyText = line.take pos) with
      | some h =>
        have := (find_keyText _ _ _).1 h1
        exact ((find_keyText r2 _ h).2 ⟨hp.mem_iff.1 this.1, this.2⟩).symm
      | none =>
        cases h2 : r2.find? (fun h => h.keyText = line.take pos) with
        | none => rfl
        | some k =>
          have := (find_keyText _ _ _).1 h2
          rw [(find_keyText r1 _ k).2 ⟨hp.mem_iff.2 this.1, this.2⟩] at h1; cases h1
    rw [this, matchControlKey_perm hp]

/-- C16: every documented key selects its own handler: a line whose first word is in the
language of the key of `h` and is not literally some key text is given to `h`. -/
theorem C16_selects (line w rest : Str) (hs : ' ' ∉ w) (e : line = w ++ ' ' :: rest)
    (h : HKey) (hm : matchKey h w = .ok true) (hlit : ∀ k : HKey, k.keyText ≠ w) (reg : List HKey)
    (hr : reg.Perm HKey.all) : getControlKey reg line = .ok (some h) := by
  rw [C16_load_order reg HKey.all hr]
  unfold getControlKey
  subst e
  rw [findC_append _ _ _ hs]
  have hf : HKey.all.find? (fun h => h.keyText = w) = none := by
    rw [List.find?_eq_none]; intro k _; simpa using hlit k
  have htake : (w ++ ' ' :: rest).take (w.length + 0) = w := by simp
  simp only [findC, if_true, Option.map_some, Nat.add_zero, Nat.zero_add] at *
  rw [show List.take w.length (w ++ ' ' :: rest) = w by simp, hf]
  simp only
  cases hc : matchControlKey HKey.all w with
  | error er =>
    obtain ⟨_, _, hb⟩ := matchControlKey_error hc
    rw [blank_no_match hb] at hm
    split at hm <;> cases hm
  | ok o =>
    cases o with
    | none => have := matchControlKey_none hc h (all_mem h); rw [hm] at this; cases this
    | some k => rw [C16_at_most_one w k h (matchControlKey_some hc).2 hm]

example : @getControlKey asciiDB HKey.all p!"#P12 1.0 2.0" = .ok (some .P) := by decide +kernel
example : @getControlKey asciiDB HKey.all p!"#XPCS dark" = .ok (some .XPCS) := by decide +kernel
example : @getControlKey asciiDB HKey.all p!"-1.5e3 2" = .ok (some .data) := by decide +kernel
example : @getControlKey asciiDB HKey.all p!"#ZZ 2" = .ok none := by decide +kernel
example : @getControlKey asciiDB HKey.all p!" 1 2" = .error .IndexError := by decide +kernel
end C16

section C18

theorem enrollAll_append (ps : List Plugin) (p : Plugin) :
    Mount.enrollAll (ps ++ [p]) = (Mount.enrollAll ps).enroll p := by
  simp [Mount.enrollAll]

theorem foldl_attrs (as l : List Str) (hl : l.Nodup) :
    (as.foldl (fun l a => if a ∈ l then l else l ++ [a]) l).Nodup ∧
    ∀ x, x ∈ as.foldl (fun l a => if a ∈ l then l else l ++ [a]) l ↔ x ∈ l ∨ x ∈ as := by
  induction as generalizing l with
  | nil => simp [hl]
  | cons a as ih =>
    simp only [List.foldl_cons]
    by_cases h : a ∈ l
    · simp only [h, if_true]
      refine ⟨(ih l hl).1, fun x => ?_⟩
      rw [(ih l hl).2 x]
      simp only [List.mem_cons]
      constructor
      · rintro (h1 | h1); exacts [.inl h1, .inr (.inr h1)]
      · rintro (h1 | rfl | h1); exacts [.inl h1, .inl h, .inr h1]
    · simp only [h, if_false]
      have hn : (l ++ [a]).Nodup := by
        rw [List.nodup_append]; exact ⟨hl, by simp, by intro x hx y hy; simp at hy; subst hy; rintro rfl; exact h hx⟩
      refine ⟨(ih _ hn).1, fun x => ?_⟩
      rw [(ih _ hn).2 x]
      simp only [List.mem_cons, List.mem_append, List.not_mem_nil, or_false]
      constructor
      · rintro ((h1 | h1) | h1); exacts [.inl h1, .inr (.inl h1), .inr (.inr h1)]
      · rintro (h1 | h1 | h1); exacts [.inl (.inl h1), .inl (.inr h1), .inr h1]

/-- C18: each key maps to the most recently registered plugin with that key. -/
theorem C18_last_wins (ps : List Plugin) (key : Str) :
    (Mount.enrollAll ps).knownKeys.get? key = ps.reverse.find? (fun p => p.key = key) := by
  induction ps using List.reverseRecOn with
  | nil => rfl
  | append_singleton ps p ih =>
    rw [enrollAll_append]
    simp only [Mount.enroll, List.reverse_append, List.reverse_cons, List.reverse_nil,
      List.nil_append, List.cons_append, List.find?_cons, Dict.get?_set, ih]
    by_cases h : p.key = key <;> simp [h]

/-- C18: each key appears once. -/
theorem C18_keys_once (ps : List Plugin) : ((Mount.enrollAll ps).knownKeys.keys).Nodup := by
  induction ps using List.reverseRecOn with
  | nil => simp [Mount.enrollAll, Dict.keys]
  | append_singleton ps p ih =>
    rw [enrollAll_append]
    exact Dict.nodup_keys_set _ _ _ ih

/-- C18: the known keys are exactly the registered ones. -/
theorem C18_keys_exact (ps : List Plugin) (key : Str) :
    key ∈ (Mount.enrollAll ps).knownKeys.keys ↔ ∃ p ∈ ps, p.key = key := by
  rw [← Dict.has_iff_mem, Dict.has, C18_last_wins, List.find?_isSome]
  simp

/-- C18: the lazy attributes are exactly those declared by some plugin, each once. -/
theorem C18_lazy_attributes (ps : List Plugin) :
    (Mount.enrollAll ps).lazyAttributes.Nodup ∧
    ∀ a, a ∈ (Mount.enrollAll ps).lazyAttributes ↔ ∃ p ∈ ps, a ∈ p.attrs := by
  induction ps using List.reverseRecOn with
  | nil => simp [Mount.enrollAll]
  | append_singleton ps p ih =>
    rw [enrollAll_append]
    have := foldl_attrs p.attrs _ ih.1
    refine ⟨this.1, fun a => ?_⟩
    have h2 := this.2 a
    simp only [Mount.enroll]
    rw [h2, ih.2 a]
    constructor
    · rintro (⟨q, hq, h⟩ | h)
      · exact ⟨q, by simp [hq], h⟩
      · exact ⟨p, by simp, h⟩
    · rintro ⟨q, hq, h⟩
      rcases List.mem_append.1 hq with hq | hq
      · exact .inl ⟨q, hq, h⟩
      · simp at hq; subst hq; exact .inr h

/-- C18: no instance is lost. -/
theorem C18_plugins (ps : List Plugin) : (Mount.enrollAll ps).plugins = ps := by
  induction ps using List.reverseRecOn with
  | nil => rfl
  | append_singleton ps p ih => rw [enrollAll_append]; simp [Mount.enroll, ih]

example : (Mount.enrollAll [⟨0, p!"#C", [p!"a", p!"b"]⟩, ⟨1, p!"#D", [p!"b"]⟩, ⟨2, p!"#C", [p!"c"]⟩])
    = ⟨[⟨0, p!"#C", [p!"a", p!"b"]⟩, ⟨1, p!"#D", [p!"b"]⟩, ⟨2, p!"#C", [p!"c"]⟩],
       [(p!"#C", ⟨2, p!"#C", [p!"c"]⟩), (p!"#D", ⟨1, p!"#D", [p!"b"]⟩)],
       [p!"a", p!"b", p!"c"]⟩ := rfl
end C18

end S2N.Props
