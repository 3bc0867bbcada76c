import Verif.Model.Utils
import Verif.Spec.Utils
import Verif.Py.StrLemmas
import Verif.Py.NumLemmas
/-
Properties C32-C36 about utils.py
-/
namespace S2N.Props
open S2N Py Spec

section C32
variable [UniDB]

theorem join_splitP_map (p : Char → Bool) (key : Str) :
    join ['_'] (splitP p key) = key.map (fun c => if p c then '_' else c) := by
  induction key with
  | nil => rfl
  | cons c cs ih =>
    by_cases h : p c = true
    · rw [splitP_cons_true h, join_cons _ _ _ (splitP_ne_nil p cs), ih]; simp [h]
    · have h : p c = false := by simpa using h
      obtain ⟨w, ws, e⟩ := splitP_exists_cons p cs
      rw [splitP_cons_false h e]
      rw [e] at ih
      cases ws with
      | nil => simp only [join, List.map_cons, h] at *; rw [ih]; simp
      | cons v vs =>
        rw [join_cons _ _ _ (by simp)] at *
        simp only [List.map_cons, h, ← ih]; simp

/-- the replacement of characters that clean_name makes, before the leading-digit rule -/
theorem cleanName_eq (key : Str) :
    cleanName key = match key.map (fun c => if isWord c then c else '_') with
      | [] => .error .IndexError
      | c :: cs => .ok (if isDigitU c then '_' :: c :: cs else c :: cs) := by
  have hp : (fun c => if (!(isWord c || c == '_')) = true then '_' else c)
      = (fun c => if isWord c = true then c else '_') := by
    funext c
    by_cases h : isWord c = true
    · simp [h]
    · by_cases h2 : c = '_'
      · subst h2; simp [isWord_underscore]
      · simp [h, h2]
  unfold cleanName
  rw [join_splitP_map, hp]
  rfl

/-- C32: for every string, `clean_name` raises (IndexError) exactly for the empty string. -/
theorem C32_raises_iff_empty (s : Str) :
    (∃ e, cleanName s = .error e) ↔ s = [] := by
  rw [cleanName_eq]
  cases s with
  | nil => simp
  | cons c cs => simp

theorem C32_empty : cleanName [] = .error .IndexError := rfl

/-- C32: the result is a valid NeXus name. -/
theorem C32_valid (s r : Str) (h : cleanName s = .ok r) : ValidName r := by
  rw [cleanName_eq] at h
  cases s with
  | nil => simp at h
  | cons c cs =>
    simp only [List.map_cons] at h
    generalize hd : (if isWord c then c else '_') = d at h
    have hw : isWord d = true := by
      rw [← hd]; split
      · assumption
      · exact isWord_underscore
    have hws : ∀ x ∈ cs.map (fun c => if isWord c then c else '_'), isWord x = true := by
      intro x hx
      obtain ⟨y, _, rfl⟩ := List.mem_map.1 hx
      split
      · assumption
      · exact isWord_underscore
    by_cases hdig : isDigitU d = true
    · simp only [hdig, if_true, Except.ok.injEq] at h
      subst h
      refine ⟨?_, '_', _, rfl, isDigitU_underscore⟩
      intro x hx
      rcases List.mem_cons.1 hx with rfl | hx
      · exact isWord_underscore
      rcases List.mem_cons.1 hx with rfl | hx
      · exact hw
      · exact hws x hx
    · have hdig : isDigitU d = false := by simpa using hdig
      simp only [hdig, Except.ok.injEq] at h
      subst h
      refine ⟨?_, d, _, rfl, hdig⟩
      intro x hx
      rcases List.mem_cons.1 hx with rfl | hx
      · exact hw
      · exact hws x hx

/-- C32: valid names are unchanged. -/
theorem C32_identity (s : Str) (h : ValidName s) : cleanName s = .ok s := by
  obtain ⟨hw, c, cs, rfl, hd⟩ := h
  rw [cleanName_eq]
  have : (c :: cs).map (fun c => if isWord c then c else '_') = c :: cs := by
    conv => rhs; rw [← List.map_id (c :: cs)]
    apply List.map_congr_left
    intro x hx
    simp [hw x hx]
  rw [this]
  simp [hd]

/-- C32: cleaning twice is cleaning once. -/
theorem C32_idempotent (s r : Str) (h : cleanName s = .ok r) : cleanName r = .ok r :=
  C32_identity r (C32_valid s r h)

/-- C32: each character is kept if it is a word character and replaced by `_` otherwise,
and one `_` is put in front exactly if the result would start with a digit. -/
theorem C32_characters (s r : Str) (h : cleanName s = .ok r) :
    r = s.map (fun c => if isWord c then c else '_') ∨
    (r = '_' :: s.map (fun c => if isWord c then c else '_') ∧
      ∃ c cs, s = c :: cs ∧ isDigitU c = true) := by
  rw [cleanName_eq] at h
  cases s with
  | nil => simp at h
  | cons c cs =>
    simp only [List.map_cons, Except.ok.injEq] at h
    by_cases hw : isWord c = true
    · simp only [hw, if_true] at h
      by_cases hd : isDigitU c = true
      · right; simp only [hd, if_true] at h; exact ⟨by simp [← h, hw], c, cs, rfl, hd⟩
      · left; simp only [hd] at h; simp [← h, hw]
    · left
      have hw : isWord c = false := by simpa using hw
      simp only [hw, Bool.false_eq_true, if_false, isDigitU_underscore] at h
      simp [← h, hw]

/-- C32: length of the result. -/
theorem C32_length (s r : Str) (h : cleanName s = .ok r) :
    r.length = s.length ∨ r.length = s.length + 1 := by
  rcases C32_characters s r h with e | ⟨e, _⟩ <;> simp [e]

/-- C32 on a concrete name -/
example : @cleanName asciiDB p!"2-theta (deg)" = .ok p!"_2_theta__deg_" := rfl
example : @ValidName asciiDB p!"two_theta" :=
  ⟨by decide, 't', p!"wo_theta", rfl, rfl⟩

/-- Distinct labels may be cleaned to the same name (so names written from labels can collide). -/
theorem C32_not_injective : ∃ a b : Str, a ≠ b ∧ cleanName a = cleanName b :=
  ⟨p!"a b", p!"a-b", by decide, rfl⟩
end C32

section C33
/-- C33: the text after the first space, stripped. -/
theorem C33_first_space (w t : Str) (h : ' ' ∉ w) : stripFirstWord (w ++ ' ' :: t) = strip t := by
  unfold stripFirstWord
  rw [findC_append ' ' w _ h]
  simp [findC, sliceFrom, strip, lstrip, isSpace]

/-- C33: without any space only the last character remains. -/
theorem C33_no_space (w : Str) (h : ' ' ∉ w) :
    stripFirstWord w = strip (w.drop (w.length - 1)) := by
  unfold stripFirstWord
  rw [(findC_eq_none_iff ' ' w).2 h]; rfl

/-- C33: the result is trimmed. -/
theorem C33_trimmed (s : Str) : Trimmed (stripFirstWord s) :=
  ⟨strip_head _, strip_getLast _⟩

/-- C33: every line falls under one of the two cases above. -/
theorem C33_total (s : Str) :
    (∃ w t, s = w ++ ' ' :: t ∧ ' ' ∉ w) ∨ ' ' ∉ s := by
  by_cases h : ' ' ∈ s
  · left
    obtain ⟨a, b, e, hn⟩ := mem_split_first ' ' s h
    exact ⟨a, b, e, hn⟩
  · exact .inr h

example : stripFirstWord p!"#S  12 ascan  th 1 2 " = p!"12 ascan  th 1 2" := rfl
example : stripFirstWord p!"#C" = p!"C" := rfl
end C33

section C34
theorem consHead_ne_nil (c : Char) (l : List Str) : consHead c l ≠ [] := by
  cases l <;> simp [consHead]

theorem splitDbl_ne_nil (b : Bool) (s : Str) : splitDbl b s ≠ [] := by
  fun_induction splitDbl b s <;> simp_all [consHead_ne_nil]

/-- no double space in `a ++ b` implies none in the parts -/
theorem not_double_tail {c : Char} {s : Str} (h : ¬ HasDouble (c :: s)) : ¬ HasDouble s := by
  rintro ⟨a, b, e⟩; exact h ⟨c :: a, b, by simp [e]⟩

theorem splitDbl_true_spaces (sp s : Str) (h : ∀ c ∈ sp, c = ' ') :
    splitDbl true (sp ++ s) = splitDbl true s := by
  induction sp with
  | nil => rfl
  | cons c cs ih =>
    have := h c (by simp)
    subst this
    simp only [List.cons_append, splitDbl, if_true]
    exact ih fun d hd => h d (by simp [hd])

theorem splitDbl_true_of_head (s : Str) (h : s.head? ≠ some ' ') :
    splitDbl true s = splitDbl false s := by
  cases s with
  | nil => rfl
  | cons c cs =>
    have hc : ¬ c = ' ' := by simpa using h
    cases cs with
    | nil => simp [splitDbl, hc, consHead]
    | cons d ds => simp [splitDbl, hc]

/-- a single label in front of a separator is split off -/
theorem splitDbl_label (l t : Str) (hne : l ≠ []) (hd : ¬ HasDouble l) (hl : l.getLast? ≠ some ' ') :
    splitDbl false (l ++ ' ' :: ' ' :: t) = l :: splitDbl true t := by
  induction l with
  | nil => exact absurd rfl hne
  | cons c cs ih =>
    cases cs with
    | nil =>
      have hc : ¬ c = ' ' := by simpa using hl
      simp [splitDbl, hc, consHead]
    | cons d ds =>
      have hcd : ¬ (c = ' ' ∧ d = ' ') := by
        rintro ⟨rfl, rfl⟩; exact hd ⟨[], ds, rfl⟩
      have := ih (by simp) (not_double_tail hd) (by simpa [List.getLast?_cons_cons] using hl)
      simp only [List.cons_append] at this ⊢
      rw [splitDbl, if_neg hcd, this]
      rfl

theorem splitDbl_last (l : Str) (hd : ¬ HasDouble l) : splitDbl false l = [l] := by
  induction l with
  | nil => rfl
  | cons c cs ih =>
    cases cs with
    | nil => rfl
    | cons d ds =>
      have hcd : ¬ (c = ' ' ∧ d = ' ') := by
        rintro ⟨rfl, rfl⟩; exact hd ⟨[], ds, rfl⟩
      rw [splitDbl, if_neg hcd, ih (not_double_tail hd)]
      rfl

theorem replaceC_append (c : Char) (n a b : Str) :
    replaceC c n (a ++ b) = replaceC c n a ++ replaceC c n b := by
  induction a with
  | nil => rfl
  | cons d ds ih => simp only [List.cons_append, replaceC, ih]; split <;> simp

theorem replaceC_of_not_mem (c : Char) (n a : Str) (h : c ∉ a) : replaceC c n a = a := by
  induction a with
  | nil => rfl
  | cons d ds ih =>
    simp only [List.mem_cons, not_or] at h
    have : ¬ d = c := fun e => h.1 e.symm
    simp [replaceC, this, ih h.2]

/-- a separator becomes two or more spaces -/
theorem replace_separator (s : Str) (h : Separator s) :
    ∃ sp, replaceC '\t' [' ', ' '] s = ' ' :: ' ' :: sp ∧ ∀ c ∈ sp, c = ' ' := by
  obtain ⟨h0, h1, h2⟩ := h
  have hall : ∀ s : Str, (∀ c ∈ s, c = ' ' ∨ c = '\t') →
      ∀ c ∈ replaceC '\t' [' ', ' '] s, c = ' ' := by
    intro s
    induction s with
    | nil => simp [replaceC]
    | cons d ds ih =>
      intro h c hc
      unfold replaceC at hc
      have ih := ih fun x hx => h x (by simp [hx])
      split at hc
      · simp only [List.cons_append, List.nil_append, List.mem_cons] at hc
        rcases hc with hc | hc | hc
        · exact hc
        · exact hc
        · exact ih c hc
      · next hd =>
        rcases List.mem_cons.1 hc with hc | hc
        · rw [hc]; exact (h d (by simp)).resolve_right hd
        · exact ih c hc
  cases s with
  | nil => exact absurd rfl h0
  | cons c cs =>
    rcases h2 c (by simp) with hc | hc
    · subst hc
      cases cs with
      | nil => exact absurd rfl h1
      | cons d ds =>
        have hds : ∀ x ∈ ds, x = ' ' ∨ x = '\t' := fun x hx => h2 x (by simp [hx])
        rcases h2 d (by simp) with hd | hd
        · subst hd
          exact ⟨replaceC '\t' [' ', ' '] ds, by simp [replaceC], hall ds hds⟩
        · subst hd
          refine ⟨' ' :: replaceC '\t' [' ', ' '] ds, by simp [replaceC], ?_⟩
          intro x hx
          rcases List.mem_cons.1 hx with hx | hx
          · exact hx
          · exact hall ds hds x hx
    · subst hc
      exact ⟨replaceC '\t' [' ', ' '] cs, by simp [replaceC], hall cs fun x hx => h2 x (by simp [hx])⟩

/-- C34: labels joined by separators are returned exactly, in order, whatever the separators. -/
theorem C34_inverts_joining (l : Str) (rest : List (Str × Str)) (hl : Label l)
    (hr : ∀ x ∈ rest, Separator x.1 ∧ Label x.2) :
    splitColumnLabels (labelLine l rest) = l :: rest.map (·.2) := by
  unfold splitColumnLabels
  induction rest generalizing l with
  | nil => simp [labelLine, replaceC_of_not_mem _ _ _ hl.notab, splitDbl_last l hl.nodbl]
  | cons x xs ih =>
    obtain ⟨hs, hx⟩ := hr x (by simp)
    have ih := ih x.2 hx fun y hy => hr y (by simp [hy])
    obtain ⟨sp, e, hsp⟩ := replace_separator x.1 hs
    have e1 : labelLine l (x :: xs) = l ++ (x.1 ++ labelLine x.2 xs) := by simp [labelLine]
    rw [e1, replaceC_append, replaceC_append, replaceC_of_not_mem _ _ _ hl.notab, e]
    simp only [List.cons_append]
    rw [splitDbl_label l _ hl.ne hl.nodbl hl.last, splitDbl_true_spaces _ _ hsp,
      splitDbl_true_of_head, ih]
    · simp
    · have : labelLine x.2 xs = x.2 ++ (xs.map (fun x => x.1 ++ x.2)).flatten := rfl
      rw [this, replaceC_append, replaceC_of_not_mem _ _ _ hx.notab]
      cases h2 : x.2 with
      | nil => exact absurd h2 hx.ne
      | cons c cs =>
        have := hx.first
        rw [h2] at this
        simpa using this

theorem mem_consHead {c : Char} {l : List Str} {w : Str} (h : w ∈ consHead c l) :
    (∃ v vs, l = v :: vs ∧ w = c :: v) ∨ (l = [] ∧ w = [c]) ∨ w ∈ l := by
  cases l with
  | nil => simp [consHead] at h; exact .inr (.inl ⟨rfl, h⟩)
  | cons v vs =>
    simp only [consHead, List.mem_cons] at h
    rcases h with h | h
    · exact .inl ⟨v, vs, rfl, h⟩
    · exact .inr (.inr (by simp [h]))

theorem splitDbl_head (s : Str) (v : Str) (vs : List Str) (h : splitDbl false s = v :: vs)
    (c : Char) (hc : v.head? = some c) : s.head? = some c := by
  cases s with
  | nil => simp only [splitDbl, List.cons.injEq] at h; simp [← h.1] at hc
  | cons d ds =>
    cases ds with
    | nil => simp only [splitDbl, List.cons.injEq] at h; simpa [← h.1] using hc
    | cons e es =>
      unfold splitDbl at h
      split at h
      · simp only [List.cons.injEq] at h; simp [← h.1] at hc
      · cases h2 : splitDbl false (e :: es) with
        | nil => exact absurd h2 (splitDbl_ne_nil _ _)
        | cons v' vs' => simp [h2, consHead] at h; simpa [← h.1] using hc

theorem double_cons {c : Char} {v : Str} (h : HasDouble (c :: v)) :
    HasDouble v ∨ (c = ' ' ∧ v.head? = some ' ') := by
  obtain ⟨a, b, e⟩ := h
  cases a with
  | nil => simp at e; exact .inr ⟨e.1, by simp [e.2]⟩
  | cons x xs => simp at e; exact .inl ⟨xs, b, e.2⟩

theorem splitDbl_no_double (b : Bool) (s : Str) : ∀ w ∈ splitDbl b s, ¬ HasDouble w := by
  fun_induction splitDbl b s with
  | case1 =>
    intro w hw; simp at hw; subst hw
    rintro ⟨a, b, e⟩; simp at e
  | case2 cs ih => exact ih
  | case3 c cs h ih =>
    intro w hw
    rcases mem_consHead hw with ⟨v, vs, e, rfl⟩ | ⟨e, rfl⟩ | hw
    · intro hd
      rcases double_cons hd with hd | ⟨hc, _⟩
      · exact ih v (by simp [e]) hd
      · exact h hc
    · rintro ⟨a, b, e⟩
      have := congrArg List.length e; simp at this; omega
    · exact ih w hw
  | case4 c =>
    intro w hw; simp at hw; subst hw
    rintro ⟨a, b, e⟩
    have := congrArg List.length e; simp at this; omega
  | case5 c d ds h ih =>
    intro w hw
    rcases List.mem_cons.1 hw with rfl | hw
    · rintro ⟨a, b, e⟩; simp at e
    · exact ih w hw
  | case6 c d ds h ih =>
    intro w hw
    rcases mem_consHead hw with ⟨v, vs, e, rfl⟩ | ⟨e, rfl⟩ | hw
    · intro hd
      rcases double_cons hd with hd | ⟨hc, hv⟩
      · exact ih v (by simp [e]) hd
      · have := splitDbl_head _ _ _ e _ hv
        simp at this
        exact h ⟨hc, this⟩
    · exact absurd e (splitDbl_ne_nil _ _)
    · exact ih w hw

/-- C34: no returned label contains two adjacent spaces. -/
theorem C34_no_double (text : Str) : ∀ w ∈ splitColumnLabels text, ¬ HasDouble w :=
  splitDbl_no_double false _

theorem splitDbl_mem (b : Bool) (s : Str) : ∀ w ∈ splitDbl b s, ∀ c ∈ w, c ∈ s := by
  fun_induction splitDbl b s with
  | case1 => simp
  | case2 cs ih => intro w hw d hd; exact List.mem_cons_of_mem _ (ih w hw d hd)
  | case3 c cs h ih =>
    intro w hw x hx
    rcases mem_consHead hw with ⟨v, vs, e, rfl⟩ | ⟨e, rfl⟩ | hw
    · rcases List.mem_cons.1 hx with rfl | hx
      · simp
      · exact List.mem_cons_of_mem _ (ih v (by simp [e]) x hx)
    · simp at hx; simp [hx]
    · exact List.mem_cons_of_mem _ (ih w hw x hx)
  | case4 c => intro w hw; simp at hw; simp [hw]
  | case5 c d ds h ih =>
    intro w hw x hx
    rcases List.mem_cons.1 hw with rfl | hw
    · simp at hx
    · simp [ih w hw x hx]
  | case6 c d ds h ih =>
    intro w hw x hx
    rcases mem_consHead hw with ⟨v, vs, e, rfl⟩ | ⟨e, rfl⟩ | hw
    · rcases List.mem_cons.1 hx with rfl | hx
      · simp
      · exact List.mem_cons_of_mem _ (ih v (by simp [e]) x hx)
    · simp at hx; simp [hx]
    · exact List.mem_cons_of_mem _ (ih w hw x hx)

theorem replaceC_tab_no_tab (s : Str) : '\t' ∉ replaceC '\t' [' ', ' '] s := by
  induction s with
  | nil => simp [replaceC]
  | cons c cs ih =>
    unfold replaceC
    split
    · simp [ih]
    · next h => simp only [List.mem_cons, not_or]; exact ⟨fun e => h e.symm, ih⟩

/-- C34: no returned label contains a tab. -/
theorem C34_no_tab (text : Str) : ∀ w ∈ splitColumnLabels text, '\t' ∉ w :=
  fun w hw h => replaceC_tab_no_tab text (splitDbl_mem false _ w hw _ h)

theorem splitDbl_content (b : Bool) (s : Str) :
    ((splitDbl b s).flatten).filter (· ≠ ' ') = s.filter (· ≠ ' ') := by
  have hc : ∀ (c : Char) (l : List Str), (consHead c l).flatten = c :: l.flatten := by
    intro c l; cases l <;> simp [consHead]
  fun_induction splitDbl b s with
  | case1 => rfl
  | case2 cs ih => rw [ih]; simp
  | case3 c cs h ih => rw [hc]; simp only [List.filter_cons, ih]
  | case4 c => simp
  | case5 c d ds h ih => rw [List.flatten_cons, List.nil_append, ih]; simp [h.1, h.2]
  | case6 c d ds h ih => rw [hc, List.filter_cons, ih]; conv => rhs; rw [List.filter_cons]

/-- C34: no character other than blanks and tabs is lost, added or moved. -/
theorem C34_content (text : Str) :
    ((splitColumnLabels text).flatten).filter (· ≠ ' ')
      = text.filter (fun c => c ≠ ' ' && c ≠ '\t') := by
  unfold splitColumnLabels
  rw [splitDbl_content]
  induction text with
  | nil => rfl
  | cons c cs ih =>
    unfold replaceC
    split
    · next h => subst h; simpa using ih
    · next h => simp only [List.filter_cons, ih]; simp [h]

example : Label p!"two theta" := by
  refine ⟨by decide, by decide, ?_, by decide, by decide⟩
  intro h
  have h2 : (splitDbl false p!"two theta").length ≠ 1 := by
    obtain ⟨a, b, e⟩ := h
    have hc : a.length ≤ 7 := by have := congrArg List.length e; simp at this; omega
    have : ∀ n, n ≤ 7 → (p!"two theta").drop n ≠ ' ' :: ' ' :: (p!"two theta").drop (n + 2) := by
      decide
    exfalso
    refine this a.length hc ?_
    rw [e, List.drop_left, List.drop_append]
    simp
  exact h2 rfl
example : splitColumnLabels p!"two theta  Epoch\tI0" = [p!"two theta", p!"Epoch", p!"I0"] := rfl
example : Separator p!"  " := ⟨by decide, by decide, by decide⟩
example : Separator p!"\t" := ⟨by decide, by decide, by decide⟩
end C34

section C35
theorem natStr_ne_dot (n : Nat) : '.' ∉ natStr n := by
  intro h; exact absurd (natStr_isDig n _ h) (by decide)

theorem rstrip_dot_natStr (a : Str) (n : Nat) : rstripP (· == '.') (a ++ natStr n) = a ++ natStr n := by
  apply rstripP_of_getLast
  intro c hc
  have : c ∈ natStr n := by
    rw [List.getLast?_append] at hc
    cases h : (natStr n).getLast? with
    | none => exact absurd (List.getLast?_eq_none_iff.1 h) (natStr_ne_nil n)
    | some d => rw [h] at hc; simp at hc; subst hc; exact List.mem_of_getLast? h
  simp; rintro rfl; exact natStr_ne_dot n this

/-- C35: a plain number. -/
theorem C35_plain (n : Nat) : splitScanNumberString (natStr n) = .ok [(n : Int), 0] := by
  have h1 := rstrip_dot_natStr [] n
  simp only [List.nil_append] at h1
  unfold splitScanNumberString
  rw [h1]
  have h2 : splitC '.' (natStr n) = [natStr n] :=
    splitP_of_none _ _ (fun c hc => by simp; rintro rfl; exact natStr_ne_dot n hc)
  rw [h2]
  simp [mapE, Py.int, parseInt_natStr]

/-- C35: a number with a repeat suffix. -/
theorem C35_suffix (n k : Nat) :
    splitScanNumberString (natStr n ++ p!"." ++ natStr k) = .ok [(n : Int), (k : Int)] := by
  have h1 := rstrip_dot_natStr (natStr n ++ p!".") k
  unfold splitScanNumberString
  rw [h1]
  have h2 : splitC '.' (natStr n ++ p!"." ++ natStr k) = [natStr n, natStr k] := by
    have := splitC_join '.' [natStr n, natStr k] (by simp)
      (by simp [natStr_ne_dot])
    simpa [join] using this
  rw [h2]
  simp [mapE, Py.int, parseInt_natStr]

/-- C35: scan names made from distinct (number, repeat) pairs are distinct. -/
theorem C35_names_injective (n k m j : Nat)
    (h : natStr n ++ p!"." ++ natStr k = natStr m ++ p!"." ++ natStr j) : n = m ∧ k = j := by
  have h1 := C35_suffix n k
  rw [h, C35_suffix m j] at h1
  simp at h1
  omega

/-- C35: a repeat name is never a plain name. -/
theorem C35_suffix_ne_plain (n k m : Nat) : natStr n ++ p!"." ++ natStr k ≠ natStr m := by
  intro h
  have : '.' ∈ natStr m := by rw [← h]; simp
  exact natStr_ne_dot m this

example : splitScanNumberString p!"12.3" = .ok [12, 3] := C35_suffix 12 3
example : splitScanNumberString p!"0." = .ok [0, 0] := rfl
end C35

section C36
variable {α : Type}

/-- C36: exactly `prod(shape)` values and the requested shape. -/
theorem C36_size (nan : α) (data : List α) (shape : List Nat) :
    (reshapeData nan data shape).flat.length = shape.prod ∧
    (reshapeData nan data shape).shape = shape := by
  unfold reshapeData
  refine ⟨?_, rfl⟩
  simp only
  split
  · assumption
  · split
    · simp; omega
    · simp; omega

/-- C36: the value at flat position `i` is the given one, or NaN beyond the end of the data. -/
theorem C36_values (nan : α) (data : List α) (shape : List Nat) (i : Nat) (hi : i < shape.prod) :
    (reshapeData nan data shape).flat[i]? = some (data.getD i nan) := by
  unfold reshapeData
  simp only
  split
  · next h => rw [List.getD_eq_getElem?_getD, List.getElem?_eq_getElem (by omega)]; simp
  · split
    · next h1 h2 =>
      rw [List.getElem?_append]
      split
      · next h3 => simp [List.getD_eq_getElem?_getD, List.getElem?_eq_getElem h3]
      · next h3 =>
        have : data[i]? = none := by simp; omega
        rw [List.getElem?_replicate, if_pos (by omega)]
        simp [List.getD_eq_getElem?_getD, this]
    · next h1 h2 =>
      rw [List.getElem?_take, if_pos hi, List.getD_eq_getElem?_getD, List.getElem?_eq_getElem (by omega)]
      simp

theorem offset_lt : ∀ (shape idx : List Nat) (k : Nat), offset shape idx = some k → k < shape.prod
  | [], [], k, h => by simp [offset] at h; simp [← h]
  | [], _ :: _, _, h => by simp [offset] at h
  | _ :: _, [], _, h => by simp [offset] at h
  | n :: ns, i :: is, k, h => by
    unfold offset at h
    split at h
    · next hi =>
      rw [Option.map_eq_some_iff] at h
      obtain ⟨k', hk, rfl⟩ := h
      have := offset_lt ns is k' hk
      simp only [List.prod_cons]
      have h2 : (i + 1) * ns.prod ≤ n * ns.prod := Nat.mul_le_mul_right _ hi
      rw [Nat.add_mul, Nat.one_mul] at h2
      omega
    · simp at h

/-- C36: reshaping is row-major: the element at a multi-index is the datum at its
row-major position (NaN if the data are too short). -/
theorem C36_row_major (nan : α) (data : List α) (shape idx : List Nat) (k : Nat)
    (h : offset shape idx = some k) :
    (reshapeData nan data shape).flat[k]? = some (data.getD k nan) :=
  C36_values nan data shape k (offset_lt shape idx k h)

/-- distinct in-range indices have distinct row-major positions -/
theorem C36_offset_injective : ∀ (shape a b : List Nat) (k : Nat),
    offset shape a = some k → offset shape b = some k → a = b
  | [], [], [], _, _, _ => rfl
  | [], [], _ :: _, _, _, h => by simp [offset] at h
  | [], _ :: _, _, _, h, _ => by simp [offset] at h
  | _ :: _, [], _, _, h, _ => by simp [offset] at h
  | _ :: _, _ :: _, [], _, _, h => by simp [offset] at h
  | n :: ns, i :: is, j :: js, k, h1, h2 => by
    unfold offset at h1 h2
    split at h1
    · split at h2
      · rw [Option.map_eq_some_iff] at h1 h2
        obtain ⟨a, ha, e1⟩ := h1
        obtain ⟨b, hb, e2⟩ := h2
        have la := offset_lt ns is a ha
        have lb := offset_lt ns js b hb
        have hp : 0 < ns.prod := by omega
        have hij : i = j := by
          have e : i * ns.prod + a = j * ns.prod + b := by omega
          have d1 : (i * ns.prod + a) / ns.prod = i := by
            rw [Nat.mul_comm, Nat.mul_add_div hp, Nat.div_eq_of_lt la]; simp
          have d2 : (j * ns.prod + b) / ns.prod = j := by
            rw [Nat.mul_comm, Nat.mul_add_div hp, Nat.div_eq_of_lt lb]; simp
          rw [← d1, e, d2]
        subst hij
        have hab : a = b := by omega
        subst hab
        rw [C36_offset_injective ns is js a ha hb]
      · simp at h2
    · simp at h1

example : reshapeData (0 : Int) [1, 2, 3, 4, 5] [2, 3] = ⟨[1, 2, 3, 4, 5, 0], [2, 3]⟩ := rfl
example : offset [2, 3] [1, 1] = some 4 := rfl
end C36

end S2N.Props
