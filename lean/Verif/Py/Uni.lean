import Verif.Py.Str
/-
The parts of the Unicode character database that /repo relies on through
`\w` (re) and `str.isdigit`, for non-ASCII characters, as parameters.
-/
namespace S2N

/-- Unicode data for non-ASCII characters: `\w`, `str.isdigit` and `\d`;
every digit is a word character. -/
class UniDB where
  uword : Char → Bool
  udigit : Char → Bool
  udec : Char → Bool
  dec_digit : ∀ c, udec c = true → udigit c = true
  digit_word : ∀ c, udigit c = true → uword c = true

/-- the database in which no non-ASCII character is a word character
(used for concrete examples; the theorems hold for every instance) -/
def asciiDB : UniDB := ⟨fun _ => false, fun _ => false, fun _ => false, fun _ h => h, fun _ h => h⟩

namespace Py
variable [UniDB]

/-- ASCII letter, digit or underscore -/
def asciiWord (c : Char) : Bool :=
  let n := c.toNat
  (48 ≤ n && n ≤ 57) || (65 ≤ n && n ≤ 90) || (97 ≤ n && n ≤ 122) || n == 95

/-- `\w` -/
def isWord (c : Char) : Bool := if c.toNat < 128 then asciiWord c else UniDB.uword c

/-- `str.isdigit` of one character -/
def isDigitU (c : Char) : Bool := if c.toNat < 128 then isDig c else UniDB.udigit c

/-- `\d` -/
def isDecU (c : Char) : Bool := if c.toNat < 128 then isDig c else UniDB.udec c

theorem isDigitU_isWord {c : Char} (h : isDigitU c = true) : isWord c = true := by
  unfold isDigitU at h
  unfold isWord
  by_cases hc : c.toNat < 128
  · simp only [hc, if_true, isDig, asciiWord, Bool.and_eq_true, Bool.or_eq_true,
      decide_eq_true_eq, beq_iff_eq] at *
    omega
  · simp only [hc, if_false] at *
    exact UniDB.digit_word c h

theorem isWord_underscore : isWord '_' = true := rfl
theorem isDigitU_underscore : isDigitU '_' = false := rfl

end Py
end S2N
