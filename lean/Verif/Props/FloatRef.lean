import Verif.Props.Slices
import Verif.Props.Read
/-
Scans referred to by floats.
-/
namespace S2N.Props
open S2N Py Spec

theorem tdiv_trunc (q : Rat) (h : q < 1) : Int.tdiv q.num q.den = if 0 ≤ q then 0 else q.ceil := by
  have hd : (0 : Int) < q.den := by exact_mod_cast q.den_pos
  by_cases h0 : 0 ≤ q
  · rw [if_pos h0]
    have hn : 0 ≤ q.num := Rat.num_nonneg.2 h0
    have := (one_le_tdiv q).not.2 (Rat.not_le.2 h)
    have h2 : 0 ≤ Int.tdiv q.num q.den := Int.tdiv_nonneg hn (by omega)
    omega
  · rw [if_neg h0]
    have hn : ¬ 0 ≤ q.num := fun e => h0 (Rat.num_nonneg.1 e)
    rw [Rat.ceil_eq_neg_floor_neg, Rat.floor_def]
    show _ = -((-q).num / ((-q).den : Int))
    rw [Rat.neg_num, Rat.neg_den, ← Int.tdiv_eq_ediv_of_nonneg (by omega), Int.neg_tdiv]
    omega

/-- C11: a float of at least 1 refers to the scan that the text of the float names, as the text itself does. -/
theorem C11_float_name (s : Sdf) (t : Str) (h : Positive t) : s.getScan (.flt t) = s.getScan (.str t) := by
  rw [getScan_pos s (.flt t) h, getScan_pos s (.str t) h]
  rfl

/-- C11: a float below 1 is a position like the integer it becomes without its fraction. -/
theorem C11_float_position (s : Sdf) (t : Str) (q : Rat) (h : parseFloat t = some (.fin q)) (h1 : q < 1) :
    s.getScan (.flt t) = s.getScan (.int (if 0 ≤ q then 0 else q.ceil)) := by
  have e1 : Sdf.refInt (.flt t) = .ok (if 0 ≤ q then 0 else q.ceil) := by
    simp only [Sdf.refInt, (float_ok t _).2 h, PyFloat.toInt, tdiv_trunc q h1]
  have e2 : Sdf.refIndex (.flt t) = .ok (if 0 ≤ q then 0 else q.ceil) := by
    simp only [Sdf.refIndex, (float_ok t _).2 h, PyFloat.toInt, tdiv_trunc q h1]
  have hlt : (if 0 ≤ q then 0 else q.ceil) < (1 : Int) := by
    split
    · omega
    · have := (one_le_tdiv q).not.2 (Rat.not_le.2 h1)
      rw [tdiv_trunc q h1, if_neg (by assumption)] at this
      omega
  unfold Sdf.getScan
  rw [e1, e2]
  simp only [Sdf.refInt, Sdf.refIndex, if_pos hlt]

/-- what follows the last point of a text -/
theorem after_point {a a' b b' : Str} (h : a ++ '.' :: b = a' ++ '.' :: b') (hb : '.' ∉ b) (hb' : '.' ∉ b') : b = b' := by
  rcases List.append_eq_append_iff.1 h with ⟨c, h1, h2⟩ | ⟨c, h1, h2⟩
  · cases c with
    | nil => simpa using h2
    | cons x c =>
      injection h2 with h2 h3
      rw [h3] at hb
      exact absurd (by simp) hb
  · cases c with
    | nil => simpa using h2.symm
    | cons x c =>
      injection h2 with h2 h3
      rw [h3] at hb'
      exact absurd (by simp) hb'

theorem natStr_point (n : Nat) : '.' ∉ natStr n := fun h => absurd (natStr_isDig n _ h) (by decide)

/-- C11: a float with an integral value refers to no scan, even if there is a scan of this number: `getScan(1.0)` looks
for a scan named "1.0" (in a file where no number on a #S line has a point, names are numbers, or numbers
with .1, .2, ...: C04). -/
theorem C11_float_whole (s : Sdf) (hw : WellNamed s)
    (hk : ∀ k ∈ s.scans.keys, '.' ∉ k ∨ ∃ n m, k = natStr n ++ '.' :: natStr (m + 1))
    (a : Str) (h : Positive (a ++ p!".0")) : s.getScan (.flt (a ++ p!".0")) = .ok none := by
  rcases C11_by_name s hw (.flt (a ++ p!".0")) h with ⟨x, h1, -⟩ | ⟨-, h2⟩
  · have hm : a ++ p!".0" ∈ s.scans.keys := List.mem_map.2 ⟨_, h1, rfl⟩
    rcases hk _ hm with e | ⟨n, m, e⟩
    · exact absurd (by simp) e
    · have := after_point e (by decide) (natStr_point _)
      have h0 : natStr 0 = natStr (m + 1) := this
      exact absurd (natStr_injective h0) (by omega)
  · exact h2

theorem natStr_ten (m : Nat) (h : 0 < m) : natStr (10 * m) = natStr m ++ ['0'] := by
  unfold natStr
  rw [Nat.toDigits_of_base_le (by omega) (by omega)]
  have h1 : 10 * m / 10 = m := by omega
  have h2 : 10 * m % 10 = 0 := by omega
  rw [h1, h2]
  rfl

/-- C11: no float refers to the tenth, twentieth, ... repetition of a scan: the float 1.10 is the float 1.1, which
refers to the first one. -/
theorem C11_float_tenth (s : Sdf) (hw : WellNamed s) (t : Str) (ht : FloatText t) (h : Positive t) (x : Obj)
    (hx : s.getScan (.flt t) = .ok (some x)) (a : Str) (m : Nat) (hm : 0 < m) : x.scanNum ≠ a ++ '.' :: natStr (10 * m) := by
  intro hn
  rcases C11_by_name s hw (.flt t) h with ⟨y, h1, h2⟩ | ⟨-, h2⟩
  · rw [hx] at h2
    injection h2 with h2
    injection h2 with h2
    subst h2
    have h3 : x.scanNum = t := hw.named _ h1
    obtain ⟨c, d, e1, e2, e3⟩ := ht
    rw [hn, e1] at h3
    have := after_point h3 (natStr_point _) e2
    rw [natStr_ten m hm] at this
    rcases e3 with e | ⟨c, e, e'⟩
    · rw [e] at this
      cases hs : natStr m with
      | nil => exact natStr_ne_nil m hs
      | cons y ys =>
        rw [hs] at this
        simp at this
    · rw [← this] at e
      simp at e
      exact e' e.symm
  · rw [hx] at h2; cases h2

/-- C14: a float index that is not negative is the scan number, as in `getScan`; a negative one is refused, although
a negative integer is not. -/
theorem C14_float (s : Sdf) (t : Str) (q : Rat) (hq : parseFloat t = some (.fin q)) :
    (0 ≤ q → ∀ x, s.getScan (.flt t) = .ok x → s.getItem (.ref (.flt t)) = .ok (.one x)) ∧
    (¬ 0 ≤ q → ∀ l, s.getScanNumbersChronological = .ok l → s.getItem (.ref (.flt t)) = .error .TypeError) := by
  constructor
  · intro h x hx
    rw [Sdf.getItem, Sdf.getPlain]
    simp only [(float_ok t _).2 hq, PyFloat.le, decide_eq_true h, if_true, hx]
  · intro h l hl
    rw [Sdf.getItem, Sdf.getPlain]
    simp only [(float_ok t _).2 hq, PyFloat.le, decide_eq_false h, hl]
    rfl

/-- C11: the float 1.1 meets the hypotheses. -/
theorem C11_float_nonvacuous : FloatText p!"1.1" ∧ Positive p!"1.1" ∧ Positive (p!"1" ++ p!".0") :=
  ⟨⟨p!"1", p!"1", rfl, by decide, .inr ⟨'1', rfl, by decide⟩⟩, ⟨11 / 10, by decide +kernel, by decide +kernel⟩,
    ⟨1, by decide +kernel, by decide +kernel⟩⟩

/-- a file with eleven scans of the number 1 -/
def elevenText : Str := ((List.range 11).map (fun i => p!"#S 1 a" ++ natStr i ++ p!"\n#D Wed Jun 16 18:24:36 2010\n")).flatten

/-- C11: the eleven scans of a file; the float 1.1 (and 1.10) is the second one, the float 1.0 is none, and the text 1.10
is the eleventh -/
theorem C11_float_example :
    (match demoOpen elevenText with
    | .error _ => false
    | .ok s => decide (s.scans.keys = p!"1" :: (List.range 10).map (fun i => p!"1." ++ natStr (i + 1))) &&
      ([Ref.flt p!"1.1", .flt p!"1.0", .str p!"1.10", .int 1].map (fun r =>
        match s.getScan r with
        | .ok (some x) => some x.S
        | _ => none) == [some p!"1 a1", none, some p!"1 a10", some p!"1 a0"])) = true := by decide +kernel

end S2N.Props
