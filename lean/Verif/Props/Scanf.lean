import Verif.Model.Scanf
import Verif.Py.NumLemmas
import Mathlib.Data.List.Induction
/-
C47, C48, C49: the scanf module.
-/
namespace S2N.Props
open S2N Py

/-! ### C47: the cache -/

/-- a history of calls: the cache after them -/
def cacheAfter : List (Str × Str) → Dict Compiled
  | [] => []
  | calls => calls.foldl (fun cache c => (scanf cache c.1 c.2).1) []

/-- every entry of a cache is what a translation without cache gives -/
def CacheOk (cache : Dict Compiled) : Prop :=
  ∀ fmt cpl, cache.get? fmt = some cpl → cpl = scanfTranslate fmt

theorem scanfCompile_result (cache : Dict Compiled) (h : CacheOk cache) (fmt : Str) :
    (scanfCompile cache fmt).2 = scanfTranslate fmt := by
  unfold scanfCompile
  split
  · next cpl e => exact h _ _ e
  · rfl

theorem scanfCompile_ok (cache : Dict Compiled) (h : CacheOk cache) (fmt : Str) :
    CacheOk (scanfCompile cache fmt).1 := by
  unfold scanfCompile
  split
  · exact h
  · intro f cpl hf
    simp only [Dict.get?_set] at hf
    split at hf
    · next e => subst e; exact (Option.some.inj hf).symm
    · split at hf
      · simp [Dict.get?_nil] at hf
      · exact h _ _ hf

theorem scanfCompile_length (cache : Dict Compiled) (h : cache.length ≤ scanfCacheSize + 1)
    (fmt : Str) : (scanfCompile cache fmt).1.length ≤ scanfCacheSize + 1 := by
  unfold scanfCompile
  split
  · exact h
  · next e =>
    have hn := (Dict.get?_eq_none_iff _ _).1 e
    split
    · simp [Dict.set]
    · next hl =>
      simp only
      rw [Dict.set_of_not_mem _ _ _ hn]
      simp only [List.length_append, List.length_cons, List.length_nil]
      omega

theorem scanf_cache (cache : Dict Compiled) (fmt s : Str) :
    (scanf cache fmt s).1 = (scanfCompile cache fmt).1 := rfl

theorem cacheAfter_eq (calls : List (Str × Str)) :
    cacheAfter calls = calls.foldl (fun cache c => (scanf cache c.1 c.2).1) [] := by
  cases calls <;> rfl

theorem cacheAfter_inv (calls : List (Str × Str)) :
    CacheOk (cacheAfter calls) ∧ (cacheAfter calls).length ≤ scanfCacheSize + 1 := by
  rw [cacheAfter_eq]
  suffices ∀ c0 : Dict Compiled, CacheOk c0 ∧ c0.length ≤ scanfCacheSize + 1 →
      CacheOk (calls.foldl (fun cache c => (scanf cache c.1 c.2).1) c0) ∧
      (calls.foldl (fun cache c => (scanf cache c.1 c.2).1) c0).length ≤ scanfCacheSize + 1 from
    this [] ⟨fun f c h => by simp [Dict.get?_nil] at h, by simp⟩
  induction calls with
  | nil => intro c0 h; exact h
  | cons c cs ih =>
    intro c0 h
    exact ih _ ⟨scanfCompile_ok _ h.1 _, scanfCompile_length _ h.2 _⟩

/-- C47: after any history of calls, `scanf(fmt, s)` gives what it gives in a fresh interpreter. -/
theorem C47_transparent (calls : List (Str × Str)) (fmt s : Str) :
    (scanf (cacheAfter calls) fmt s).2 = scanfFresh fmt s := by
  have h1 := scanfCompile_result _ (cacheAfter_inv calls).1 fmt
  have h2 := scanfCompile_result [] (fun f c h => by simp [Dict.get?_nil] at h) fmt
  unfold scanfFresh scanf
  simp only [h1, h2]

/-- C47: after any history of calls the cache holds at most 1001 formats, all distinct. -/
theorem C47_bounded (calls : List (Str × Str)) : (cacheAfter calls).length ≤ 1001 :=
  (cacheAfter_inv calls).2

theorem C47_nonvacuous :
    (cacheAfter [(p!"%d", p!"12"), (p!"%s", p!"ab"), (p!"%d", p!"7")]).length = 2 ∧
    (scanf (cacheAfter [(p!"%d", p!"12")]) (p!"%d") (p!"7 x")).2 = .ok (some [.int 7]) := by
  decide +kernel

/-! ### C48: conversions -/

/-- a piece of a formatted text: literal text, or a value printed by a conversion -/
inductive Piece
  | lit (t : Str)
  | int (i : Int)
  | nat (n : Nat)
  | word (w : Str)
  | fixed (neg : Bool) (a b : Str)
  | char (c : Char)
  | chars (k : Char) (t : Str)
  | digits (k : Char) (n : Nat)

namespace Piece
/-- the part of the format -/
def fmt : Piece → Str
  | lit t => t
  | int _ => p!"%d"
  | nat _ => p!"%u"
  | word _ => p!"%s"
  | fixed .. => p!"%f"
  | char _ => p!"%c"
  | chars k _ => ['%', k, 'c']
  | digits k _ => ['%', k, 'd']
/-- the part of the text -/
def text : Piece → Str
  | lit t => t
  | int i => intStr i
  | nat n => natStr n
  | word w => w
  | fixed neg a b => (if neg then p!"-" else []) ++ a ++ '.' :: b
  | char c => [c]
  | chars _ t => t
  | digits _ n => natStr n
/-- the values returned -/
def vals : Piece → List SVal
  | lit _ => []
  | int i => [.int i]
  | nat n => [.int n]
  | word w => [.str w]
  | fixed neg a b => [.flt (.fin (if neg then -decVal a b else decVal a b))]
  | char c => [.str [c]]
  | chars _ t => [.str t]
  | digits _ n => [.int n]
/-- the piece can be printed and read back when followed by `rest`: literals have no character with
a special meaning, words have no white space, digits are digits; a number is not followed by a digit
and a word is followed by white space or the end; the count of `%4c` and `%4d` is the length of the
text -/
def Ok (rest : Str) : Piece → Prop
  | lit t => ∀ c ∈ t, c ≠ '%' ∧ c ≠ '^' ∧ c ≠ '$' ∧ c ≠ '|'
  | int _ => ∀ c, rest.head? = some c → isDig c = false
  | nat _ => ∀ c, rest.head? = some c → isDig c = false
  | word w => w ≠ [] ∧ (∀ c ∈ w, isSpace c = false) ∧ ∀ c, rest.head? = some c → isSpace c = true
  | fixed _ a b => a ≠ [] ∧ (∀ c ∈ a, isDig c = true) ∧ (∀ c ∈ b, isDig c = true) ∧
      ∀ c, rest.head? = some c → isDig c = false
  | char c => c ≠ '\n'
  | chars k t => natStr t.length = [k] ∧ ∀ c ∈ t, c ≠ '\n'
  | digits k n => natStr (natStr n).length = [k]
end Piece

/-- format of a list of pieces -/
def fmtOf : List Piece → Str
  | [] => []
  | p :: ps => p.fmt ++ fmtOf ps
/-- text of a list of pieces -/
def textOf : List Piece → Str
  | [] => []
  | p :: ps => p.text ++ textOf ps
/-- values of a list of pieces -/
def valsOf : List Piece → List SVal
  | [] => []
  | p :: ps => p.vals ++ valsOf ps
/-- each piece is readable before what follows it (`tail` follows the last one) -/
def PiecesOk (tail : Str) : List Piece → Prop
  | [] => True
  | p :: ps => p.Ok (textOf ps ++ tail) ∧ PiecesOk tail ps

theorem scanfItems_lit (c : Char) (r : Str) (h : c ≠ '%') :
    scanfItems (c :: r) = .lit c :: scanfItems r := by
  rw [scanfItems] <;> (intros; first | exact h ‹_› | simp_all)

theorem scanfItems_lits (t r : Str) (h : ∀ c ∈ t, c ≠ '%') :
    scanfItems (t ++ r) = t.map .lit ++ scanfItems r := by
  induction t with
  | nil => rfl
  | cons c cs ih =>
    rw [List.cons_append, scanfItems_lit _ _ (h c (by simp)), ih fun d hd => h d (by simp [hd])]
    rfl

/-- the items of a piece -/
def Piece.items : Piece → List FItem
  | .lit t => t.map .lit
  | .int _ => [.conv .d]
  | .nat _ => [.conv .u]
  | .word _ => [.conv .s]
  | .fixed .. => [.conv .f]
  | .char _ => [.conv .c]
  | .chars k _ => [.conv (.nc (k.toNat - 48))]
  | .digits k _ => [.conv (.nd (k.toNat - 48))]

theorem scanfItems_count {k : Char} (hk : isDig k = true) (r : Str) :
    scanfItems ('%' :: k :: 'c' :: r) = .conv (.nc (k.toNat - 48)) :: scanfItems r ∧
    scanfItems ('%' :: k :: 'd' :: r) = .conv (.nd (k.toNat - 48)) :: scanfItems r := by
  have hne : ∀ d, isDig d = false → k ≠ d := fun d hd e => by rw [e, hd] at hk; cases hk
  constructor
  · rw [scanfItems] <;> first | exact hne _ (by decide) | skip
    rw [if_pos hk]
  · rw [scanfItems] <;> first | exact hne _ (by decide) | skip
    rw [if_pos hk]

/-- one digit is the number it stands for -/
theorem natStr_one {n : Nat} {k : Char} (h : natStr n = [k]) : k.toNat - 48 = n := by
  have h1 := natOf_natStr n
  rw [h] at h1
  simpa [natOf] using h1

theorem first_rep {p : Char → Bool} (t rest : Str) (h : ∀ c ∈ t, p c = true) :
    Re.first (Conv.rep (.cls p) t.length) (t ++ rest) = some ([], rest) := by
  induction t with
  | nil => rfl
  | cons c cs ih => exact Re.first_seq (Re.first_cls (h c (by simp))) (ih fun d hd => h d (by simp [hd]))

theorem scanfItems_piece (p : Piece) (rest r : Str) (h : p.Ok rest) :
    scanfItems (p.fmt ++ r) = p.items ++ scanfItems r := by
  cases p with
  | lit t => exact scanfItems_lits t r fun c hc => (h c hc).1
  | chars k t =>
    have hk := natStr_isDig t.length k (by rw [h.1]; simp)
    exact (scanfItems_count hk r).1
  | digits k n =>
    have hk := natStr_isDig (natStr n).length k (by rw [show natStr (natStr n).length = [k] from h]; simp)
    exact (scanfItems_count hk r).2
  | _ => simp [Piece.fmt, Piece.items, scanfItems]

theorem first_itemsLit (t s : Str) (items : List FItem) (x) (h : Re.first (itemsRe items) s = some x) :
    Re.first (itemsRe (t.map .lit ++ items)) (t ++ s) = some x := by
  induction t with
  | nil => exact h
  | cons c cs ih =>
    have h1 : Re.first (.cls (· == c)) (c :: (cs ++ s)) = some ([], cs ++ s) := Re.first_cls (by simp)
    have := Re.first_seq h1 ih
    simpa [itemsRe] using this

theorem itemsCasts_lit (t : Str) (items : List FItem) :
    itemsCasts (t.map .lit ++ items) = itemsCasts items := by
  induction t with
  | nil => rfl
  | cons c cs ih => simpa [itemsCasts] using ih

theorem first_sign_none (s : Str) (h : ∀ c, s.head? = some c → c ≠ '+' ∧ c ≠ '-') :
    Re.first Conv.sign s = some ([], s) := by
  unfold Conv.sign Re.opt
  rw [Re.first_altR]
  · rfl
  · cases s with
    | nil => rfl
    | cons c cs =>
      have := h c rfl
      simp [Re.first, Re.run, this]

theorem first_sign_some (c : Char) (s : Str) (h : c = '+' ∨ c = '-') :
    Re.first Conv.sign (c :: s) = some ([], s) := by
  unfold Conv.sign Re.opt
  exact Re.first_altL (Re.first_cls (by rcases h with h | h <;> simp [h]))

theorem isDig_ne_sign {c : Char} (h : isDig c = true) : c ≠ '+' ∧ c ≠ '-' :=
  ⟨not_isDig_ne h (by decide), not_isDig_ne h (by decide)⟩

theorem head_append_isDig {a b : Str} (ha : ∀ c ∈ a, isDig c = true) (hne : a ≠ []) :
    ∀ c, (a ++ b).head? = some c → isDig c = true := by
  cases a with
  | nil => exact absurd rfl hne
  | cons x xs => intro c hc; simp at hc; exact hc ▸ ha x (by simp)

theorem first_d (i : Int) (rest : Str) (h : ∀ c, rest.head? = some c → isDig c = false) :
    Re.first Conv.d.re (intStr i ++ rest) = some ([intStr i], rest) := by
  refine Re.first_grp ?_
  cases i with
  | ofNat n =>
    have h1 := first_sign_none (natStr n ++ rest) (fun c hc =>
      isDig_ne_sign (head_append_isDig (natStr_isDig n) (natStr_ne_nil n) c hc))
    have h2 := Re.first_plus (p := isDig) (natStr_ne_nil n) (natStr_isDig n) h
    exact Re.first_seq h1 h2
  | negSucc n =>
    have h1 := first_sign_some '-' (natStr (n+1) ++ rest) (.inr rfl)
    have h2 := Re.first_plus (p := isDig) (natStr_ne_nil (n+1)) (natStr_isDig (n+1)) h
    exact Re.first_seq h1 h2

theorem first_mant (a b rest : Str) (hne : a ≠ []) (ha : ∀ c ∈ a, isDig c = true)
    (hb : ∀ c ∈ b, isDig c = true) (h : ∀ c, rest.head? = some c → isDig c = false) :
    Re.first Conv.mant (a ++ '.' :: (b ++ rest)) = some ([], rest) := by
  refine Re.first_altL ?_
  have h1 := Re.first_plus (p := isDig) (t := '.' :: (b ++ rest)) hne ha (by
    intro c hc; simp at hc; subst hc; decide)
  have h2 : Re.first (.cls (· == '.')) ('.' :: (b ++ rest)) = some ([], b ++ rest) :=
    Re.first_cls (by simp)
  have h3 := Re.first_star (p := isDig) hb h
  exact Re.first_seq h1 (Re.first_altL (Re.first_seq h2 h3))

theorem first_f (neg : Bool) (a b rest : Str) (hne : a ≠ []) (ha : ∀ c ∈ a, isDig c = true)
    (hb : ∀ c ∈ b, isDig c = true) (h : ∀ c, rest.head? = some c → isDig c = false) :
    Re.first Conv.f.re ((Piece.fixed neg a b).text ++ rest)
      = some ([(Piece.fixed neg a b).text], rest) := by
  refine Re.first_grp ?_
  have h2 := first_mant a b rest hne ha hb h
  cases neg with
  | false =>
    have h1 := first_sign_none (a ++ '.' :: (b ++ rest)) (fun c hc =>
      isDig_ne_sign (head_append_isDig ha hne c hc))
    have := Re.first_seq h1 h2
    simpa [Piece.text] using this
  | true =>
    have h1 := first_sign_some '-' (a ++ '.' :: (b ++ rest)) (.inr rfl)
    have := Re.first_seq h1 h2
    simpa [Piece.text] using this

theorem parseFloat_neg (s : Str) (c : Char) (cs : Str) (e : s = c :: cs) (hc : isDig c = true)
    (hsp : ∀ d ∈ s, isSpace d = false) (q : Rat) (h : parseFloat s = some (.fin q)) :
    parseFloat ('-' :: s) = some (.fin (-q)) := by
  have s1 : strip ('-' :: s) = '-' :: s := strip_of_no_space _ (by
    intro d hd; rcases List.mem_cons.1 hd with rfl | hd
    · decide
    · exact hsp d hd)
  have s2 : strip s = s := strip_of_no_space _ hsp
  have hs := isDig_ne_sign hc
  have hl := isDig_lower_ne hc
  unfold parseFloat at *
  rw [s2] at h
  rw [s1]
  subst e
  split at h
  · next e => exact absurd (List.cons.inj e).1 hs.2
  · next e => exact absurd (List.cons.inj e).1 hs.1
  · simp only
    rw [parseMag_of_head rfl hl.1 hl.2] at h ⊢
    cases hu : parseUFloat (c :: cs) with
    | none => simp [hu] at h
    | some v => simp [hu] at h ⊢; rw [h]

theorem first_piece (p : Piece) (rest : Str) (h : p.Ok rest) (items : List FItem)
    (gs : List Str) (t : Str) (vs : List SVal)
    (hf : Re.first (itemsRe items) rest = some (gs, t))
    (hc : applyCasts (itemsCasts items) gs = .ok vs) :
    ∃ gs', Re.first (itemsRe (p.items ++ items)) (p.text ++ rest) = some (gs', t) ∧
      applyCasts (itemsCasts (p.items ++ items)) gs' = .ok (p.vals ++ vs) := by
  cases p with
  | lit l => exact ⟨gs, first_itemsLit _ _ _ _ hf, by rw [Piece.items, itemsCasts_lit]; exact hc⟩
  | int i =>
    refine ⟨intStr i :: gs, Re.first_seq (first_d i rest h) hf, ?_⟩
    simp [Piece.items, itemsCasts, applyCasts, Conv.cast, Py.int, parseInt_intStr, hc, Except.map,
      Piece.vals]
  | nat n =>
    have h1 : Re.first Conv.u.re (natStr n ++ rest) = some ([natStr n], rest) :=
      Re.first_grp (Re.first_plus (natStr_ne_nil n) (natStr_isDig n) h)
    refine ⟨natStr n :: gs, Re.first_seq h1 hf, ?_⟩
    simp [Piece.items, itemsCasts, applyCasts, Conv.cast, Py.int, parseInt_natStr, hc, Except.map,
      Piece.vals]
  | word w =>
    obtain ⟨h0, h1, h2⟩ := h
    have h1 : Re.first Conv.s.re (w ++ rest) = some ([w], rest) :=
      Re.first_grp (Re.first_plus h0 (by simpa using h1) (by simpa using h2))
    refine ⟨w :: gs, Re.first_seq h1 hf, ?_⟩
    simp [Piece.items, itemsCasts, applyCasts, Conv.cast, hc, Piece.vals]
  | fixed neg a b =>
    obtain ⟨h0, h1, h2, h3⟩ := h
    refine ⟨_ :: gs, Re.first_seq (first_f neg a b rest h0 h1 h2 h3) hf, ?_⟩
    have e : Py.float (Piece.fixed neg a b).text
        = .ok (.fin (if neg then -decVal a b else decVal a b)) := by
      have e0 := parseFloat_dec a b h1 h2 h0
      cases neg with
      | false => simp [Py.float, Piece.text, e0]
      | true =>
        cases a with
        | nil => exact absurd rfl h0
        | cons c cs =>
          have hsp : ∀ d ∈ (c :: cs) ++ '.' :: b, isSpace d = false := by
            intro d hd
            rcases List.mem_append.1 hd with hd | hd
            · exact isDig_not_space (h1 d hd)
            · rcases List.mem_cons.1 hd with rfl | hd
              · decide
              · exact isDig_not_space (h2 d hd)
          have := parseFloat_neg _ c (cs ++ '.' :: b) rfl (h1 c (by simp)) hsp _ e0
          have e1 : (Piece.fixed true (c :: cs) b).text = '-' :: ((c :: cs) ++ '.' :: b) := rfl
          rw [Py.float, e1]
          erw [this]
          rfl
    simp [Piece.items, itemsCasts, applyCasts, Conv.cast, hc, e, Except.map, Piece.vals]
  | char c =>
    have hp : c ≠ '\n' := h
    have h1 : Re.first Conv.c.re ([c] ++ rest) = some ([[c]], rest) :=
      Re.first_grp (Re.first_cls (by simpa using hp))
    refine ⟨[c] :: gs, Re.first_seq h1 hf, ?_⟩
    simp [Piece.items, itemsCasts, applyCasts, Conv.cast, hc, Piece.vals]
  | chars k l =>
    have h1 : Re.first (Conv.nc (k.toNat - 48)).re (l ++ rest) = some ([l], rest) := by
      rw [natStr_one h.1]
      exact Re.first_grp (first_rep l rest (by simpa using h.2))
    refine ⟨l :: gs, Re.first_seq h1 hf, ?_⟩
    simp [Piece.items, itemsCasts, applyCasts, Conv.cast, hc, Piece.vals]
  | digits k n =>
    have h1 : Re.first (Conv.nd (k.toNat - 48)).re (natStr n ++ rest) = some ([natStr n], rest) := by
      rw [natStr_one h]
      refine Re.first_grp ?_
      have h1 := first_sign_none (natStr n ++ rest) (fun c hc =>
        isDig_ne_sign (head_append_isDig (natStr_isDig n) (natStr_ne_nil n) c hc))
      exact Re.first_seq h1 (first_rep _ rest (natStr_isDig n))
    refine ⟨natStr n :: gs, Re.first_seq h1 hf, ?_⟩
    simp [Piece.items, itemsCasts, applyCasts, Conv.cast, Py.int, parseInt_natStr, hc, Except.map,
      Piece.vals]

theorem first_pieces (ps : List Piece) (tail : Str) (h : PiecesOk tail ps) :
    ∃ gs, Re.first (itemsRe (scanfItems (fmtOf ps))) (textOf ps ++ tail) = some (gs, tail) ∧
      applyCasts (itemsCasts (scanfItems (fmtOf ps))) gs = .ok (valsOf ps) := by
  induction ps with
  | nil => exact ⟨[], by simp [fmtOf, textOf, scanfItems, itemsRe, Re.first, Re.run], by
      simp [fmtOf, scanfItems, applyCasts, valsOf]⟩
  | cons p ps ih =>
    obtain ⟨gs, h1, h2⟩ := ih h.2
    obtain ⟨gs', h3, h4⟩ := first_piece p _ h.1 _ gs tail _ h1 h2
    refine ⟨gs', ?_, ?_⟩
    · rw [fmtOf, textOf, scanfItems_piece p _ _ h.1, List.append_assoc]; exact h3
    · rw [fmtOf, scanfItems_piece p _ _ h.1]; exact h4

/-- C48: reading back a printed text returns the printed values: for every list of pieces (literal
text, integers by `%d` and `%4d`, unsigned by `%u`, words by `%s`, fixed point numbers by `%f`, characters by
`%c` and `%4c`), of any length, followed by any text. -/
theorem C48_roundtrip (ps : List Piece) (tail : Str) (h : PiecesOk tail ps) :
    scanfFresh (fmtOf ps) (textOf ps ++ tail) = .ok (some (valsOf ps)) := by
  obtain ⟨gs, h1, h2⟩ := first_pieces ps tail h
  unfold scanfFresh scanf
  have e : (scanfCompile [] (fmtOf ps)).2 = scanfTranslate (fmtOf ps) := rfl
  simp only [e, scanfTranslate, h1, h2]

/-- C48: one integer. -/
theorem C48_int (i : Int) : scanfFresh p!"%d" (intStr i) = .ok (some [.int i]) := by
  have := C48_roundtrip [.int i] [] ⟨by intro c hc; simp [textOf] at hc, trivial⟩
  simpa [fmtOf, textOf, valsOf, Piece.fmt, Piece.text, Piece.vals] using this

theorem C48_nonvacuous :
    PiecesOk p!" and more" [.word p!"x/y", .lit p!" - ", .int (-12), .lit p!" errors ",
      .fixed true p!"1" p!"50"] ∧
    fmtOf [.word p!"x/y", .lit p!" - ", .int (-12), .lit p!" errors ", .fixed true p!"1" p!"50"]
      = p!"%s - %d errors %f" ∧
    scanfFresh p!"%s - %d errors %f" p!"x/y - -12 errors -1.50 and more"
      = .ok (some [.str p!"x/y", .int (-12), .flt (.fin (-3/2))]) := by
  refine ⟨?_, by decide, by decide +kernel⟩
  simp only [PiecesOk, Piece.Ok, textOf, Piece.text]
  decide

theorem lang_itemsLit (t w : Str) (g : List Str) :
    Re.Lang (itemsRe (t.map .lit)) w g ↔ w = t ∧ g = [] := by
  induction t generalizing w g with
  | nil => exact Re.lang_eps
  | cons c cs ih =>
    simp only [List.map_cons, itemsRe, Re.lang_seq, Re.lang_cls, ih]
    constructor
    · rintro ⟨s1, s2, g1, g2, rfl, rfl, ⟨⟨d, rfl, hd⟩, rfl⟩, rfl, rfl⟩
      simp only [beq_iff_eq] at hd
      simp [hd]
    · rintro ⟨rfl, rfl⟩
      exact ⟨[c], cs, [], [], by simp⟩

/-- C48: a format of literal text matches exactly the texts that begin with it; otherwise None. -/
theorem C48_literal (t s : Str) (h : ∀ c ∈ t, c ≠ '%' ∧ c ≠ '^' ∧ c ≠ '$' ∧ c ≠ '|') :
    scanfFresh t s = if startsWith s t then .ok (some []) else .ok none := by
  have ei : scanfItems t = t.map .lit := by
    have := scanfItems_lits t [] fun c hc => (h c hc).1
    simpa [scanfItems] using this
  have ec : itemsCasts (t.map .lit) = [] := by simpa [itemsCasts] using itemsCasts_lit t []
  have e : (scanfCompile [] t).2 = scanfTranslate t := rfl
  unfold scanfFresh scanf
  simp only [e, scanfTranslate, ei, ec]
  cases hf : Re.first (itemsRe (t.map .lit)) s with
  | none =>
    rw [if_neg]
    intro hp
    have hp : t <+: s := by simpa [startsWith] using hp
    obtain ⟨r, rfl⟩ := hp
    have := (Re.first_isSome (itemsRe (t.map .lit)) (t ++ r)).2
      ⟨t, r, [], rfl, (lang_itemsLit _ _ _).2 ⟨rfl, rfl⟩⟩
    simp [hf] at this
  | some x =>
    obtain ⟨g, r⟩ := x
    obtain ⟨w, rfl, hl⟩ := Re.first_sound hf
    obtain ⟨rfl, rfl⟩ := (lang_itemsLit _ _ _).1 hl
    rw [if_pos (by simp [startsWith])]
    simp [applyCasts]

/-- C48: `%d` returns None exactly when the text does not begin with an optionally signed digit. -/
theorem C48_mismatch (s : Str) :
    scanfFresh p!"%d" s = .ok none ↔
      ¬ ∃ sg c r, s = sg ++ c :: r ∧ (sg = [] ∨ sg = p!"+" ∨ sg = p!"-") ∧ isDig c = true := by
  have e : (scanfCompile [] p!"%d").2 = ⟨.seq Conv.d.re .eps, [.d]⟩ := rfl
  have key : (Re.first (.seq Conv.d.re .eps) s).isSome = true ↔
      ∃ sg c r, s = sg ++ c :: r ∧ (sg = [] ∨ sg = p!"+" ∨ sg = p!"-") ∧ isDig c = true := by
    rw [Re.first_isSome]
    simp only [Conv.re, Re.lang_seq, Re.lang_grp, Re.lang_eps, Conv.sign, Re.opt, Re.lang_alt,
      Re.lang_plus, Re.lang_cls]
    constructor
    · rintro ⟨w, t, g, rfl, s1, s2, g1, g2, rfl, rfl, ⟨g', rfl, s3, s4, g3, g4, rfl, rfl, h1, h2, h3, rfl⟩,
        rfl, rfl⟩
      cases s4 with
      | nil => exact absurd rfl h2
      | cons c cs =>
        refine ⟨s3, c, cs ++ t, by simp, ?_, h3 c (by simp)⟩
        rcases h1 with ⟨⟨d, rfl, hd⟩, -⟩ | ⟨rfl, -⟩
        · simp only [Bool.or_eq_true, beq_iff_eq] at hd
          rcases hd with rfl | rfl <;> simp
        · simp
    · rintro ⟨sg, c, r, rfl, hs, hc⟩
      refine ⟨sg ++ [c], r, [sg ++ [c]], by simp, sg ++ [c], [], [sg ++ [c]], [], by simp, by simp,
        ⟨[], rfl, sg, [c], [], [], rfl, rfl, ?_, by simp, by simpa using hc, rfl⟩, rfl, rfl⟩
      rcases hs with rfl | rfl | rfl
      · right; simp
      · left; exact ⟨⟨_, rfl, by decide⟩, rfl⟩
      · left; exact ⟨⟨_, rfl, by decide⟩, rfl⟩
  unfold scanfFresh scanf
  simp only [e]
  rw [← key]
  cases hf : Re.first (.seq Conv.d.re .eps) s with
  | none => simp
  | some x =>
    simp only [Option.isSome_some, not_true_eq_false, iff_false]
    split <;> simp

/-! ### C49: octal -/

/-- value of a string of octal digits -/
def octVal (s : Str) : Nat := s.foldl (fun n c => 8 * n + (c.toNat - 48)) 0

/-- octal digit -/
def isOct (c : Char) : Bool := 48 ≤ c.toNat && c.toNat ≤ 55

theorem scanf_octal (r : Str) (h : ∀ c ∈ r, isOct c = true) :
    scanfFresh p!"%o" ('0' :: r) =
      match Conv.intBase 7 ('0' :: r) with
      | .ok v => .ok (some [.int v])
      | .error e => .error e := by
  have e : (scanfCompile [] p!"%o").2 = ⟨.seq Conv.o.re .eps, [.o]⟩ := rfl
  have h1 : Re.first (.cls (· == '0')) ('0' :: (r ++ [])) = some ([], r ++ []) := Re.first_cls (by simp)
  have h2 := Re.first_star (p := fun ch => 48 ≤ ch.toNat && ch.toNat ≤ 55) (w := r) (t := []) h (by simp)
  have h3 : Re.first Conv.o.re (('0' :: r) ++ []) = some (['0' :: r], []) :=
    Re.first_grp (Re.first_seq h1 h2)
  have h4 : Re.first (.seq Conv.o.re .eps) ('0' :: r) = some (['0' :: r], []) := by
    have h5 : Re.first .eps [] = some (([] : List Str), ([] : Str)) := rfl
    have := Re.first_seq h3 h5
    simpa using this
  unfold scanfFresh scanf
  simp only [e, h4]
  cases hc : Conv.intBase 7 ('0' :: r) with
  | ok v => simp [applyCasts, Conv.cast, hc, Except.map]
  | error v => simp [applyCasts, Conv.cast, hc, Except.map]

/-- C49 does not hold: `scanf("%o", "012")` gives 9 (octal 12 is 10) and `scanf("%o", "017")`
raises ValueError, because the cast uses base 7. -/
theorem C49_false :
    ¬ ∀ r : Str, (∀ c ∈ r, isOct c = true) →
      scanfFresh p!"%o" ('0' :: r) = .ok (some [.int (octVal ('0' :: r))]) := by
  intro h
  have := h p!"12" (by decide)
  revert this
  decide +kernel

theorem C49_raises : scanfFresh p!"%o" p!"017" = .error .ValueError := by decide +kernel

theorem octVal_fold (b : Nat) (s : Str) (n : Nat) :
    s.foldl (fun n c => b * n + (c.toNat - 48)) n
      = b ^ s.length * n + s.foldl (fun n c => b * n + (c.toNat - 48)) 0 := by
  induction s generalizing n with
  | nil => simp
  | cons c cs ih =>
    simp only [List.foldl_cons]
    rw [ih (b * n + _), ih (b * 0 + _)]
    simp only [List.length_cons, Nat.pow_succ]
    rw [Nat.mul_add, Nat.mul_zero, Nat.zero_add, ← Nat.add_assoc, Nat.mul_assoc]

theorem digitVal_oct {c : Char} (h : isOct c = true) : Conv.digitVal c = c.toNat - 48 := by
  have : isDig c = true := by
    simp only [isOct, isDig, Bool.and_eq_true, decide_eq_true_eq] at *; omega
  simp [Conv.digitVal, this]

/-- base 7 and base 8 agree only on numbers below 7 -/
theorem base7_lt_base8 (s : Str) (h : ∀ c ∈ s, isOct c = true ∧ c.toNat - 48 < 7) :
    let v7 := s.foldl (fun n c => 7 * n + (c.toNat - 48)) 0
    v7 ≤ octVal s ∧ (v7 = octVal s ↔ octVal s < 7) := by
  induction s using List.reverseRecOn with
  | nil => decide
  | append_singleton s c ih =>
    have ih := ih fun d hd => h d (by simp [hd])
    have hc := (h c (by simp)).2
    simp only [octVal, List.foldl_append, List.foldl_cons, List.foldl_nil] at ih ⊢
    obtain ⟨h1, h2⟩ := ih
    generalize List.foldl (fun n c => 7 * n + (c.toNat - 48)) 0 s = v7 at *
    generalize List.foldl (fun n c => 8 * n + (c.toNat - 48)) 0 s = v8 at *
    refine ⟨by omega, ?_⟩
    constructor
    · intro e
      have : v8 = 0 := by omega
      omega
    · intro e; have : v8 = 0 := by omega
      have : v7 = 0 := by omega
      omega

/-- C49, what holds: the octal value is returned exactly when it is less than 7.  Missing: all other
octal strings give a wrong number or ValueError (`C49_false`). -/
theorem C49_partial (r : Str) (h : ∀ c ∈ r, isOct c = true) :
    scanfFresh p!"%o" ('0' :: r) = .ok (some [.int (octVal ('0' :: r))]) ↔ octVal ('0' :: r) < 7 := by
  have ho : ∀ c ∈ '0' :: r, isOct c = true := by
    intro c hc; rcases List.mem_cons.1 hc with rfl | hc
    · decide
    · exact h c hc
  rw [scanf_octal r h]
  unfold Conv.intBase
  rw [if_neg (by simp)]
  by_cases e : (('0' :: r).all fun ch => decide (Conv.digitVal ch < 7)) = true
  · rw [if_pos e]
    have hall : ∀ c ∈ '0' :: r, isOct c = true ∧ c.toNat - 48 < 7 := by
      intro c hc
      refine ⟨ho c hc, ?_⟩
      have := List.all_eq_true.1 e c hc
      rw [digitVal_oct (ho c hc)] at this
      simpa using this
    have hf : ('0' :: r).foldl (fun n ch => 7 * n + Conv.digitVal ch) 0
        = ('0' :: r).foldl (fun n c => 7 * n + (c.toNat - 48)) 0 := by
      have : ∀ (l : Str) (n : Nat), (∀ c ∈ l, isOct c = true) →
          l.foldl (fun n ch => 7 * n + Conv.digitVal ch) n
            = l.foldl (fun n c => 7 * n + (c.toNat - 48)) n := by
        intro l
        induction l with
        | nil => intros; rfl
        | cons c cs ih =>
          intro n hl
          simp only [List.foldl_cons]
          rw [digitVal_oct (hl c (by simp)), ih _ fun d hd => hl d (by simp [hd])]
      exact this _ _ ho
    have hb := (base7_lt_base8 _ hall).2
    rw [← hb]
    simp only [hf]
    simp only [Except.ok.injEq, Option.some.injEq, List.cons.injEq, SVal.int.injEq, and_true]
    exact Int.ofNat_inj
  · rw [if_neg e]
    simp only [reduceCtorEq, false_iff, Nat.not_lt]
    -- a digit 7 occurs
    have : ∃ c ∈ '0' :: r, ¬ Conv.digitVal c < 7 := by
      simp only [List.all_eq_true, decide_eq_true_eq] at e
      exact Classical.byContradiction fun hn => e fun c hc =>
        Classical.byContradiction fun hd => hn ⟨c, hc, hd⟩
    obtain ⟨c, hc, hd⟩ := this
    rw [digitVal_oct (ho c hc)] at hd
    have big : ∀ (l : Str) (n : Nat), c ∈ l →
        7 ≤ l.foldl (fun n c => 8 * n + (c.toNat - 48)) n := by
      intro l
      induction l with
      | nil => intro n h; simp at h
      | cons d ds ih =>
        intro n hm
        rcases List.mem_cons.1 hm with rfl | hm
        · simp only [List.foldl_cons]
          rw [octVal_fold]
          have : 1 ≤ 8 ^ ds.length := Nat.pow_pos (by omega)
          have : 1 * (8 * n + (c.toNat - 48)) ≤ 8 ^ ds.length * (8 * n + (c.toNat - 48)) :=
            Nat.mul_le_mul_right _ this
          omega
        · exact ih _ hm
    exact big _ 0 hc

theorem C49_nonvacuous : scanfFresh p!"%o" p!"006" = .ok (some [.int 6]) := by decide +kernel

end S2N.Props
