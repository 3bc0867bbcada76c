import Verif.Py.NumLemmas
/-
Vocabulary for #X lines.
-/
namespace S2N.Spec
open S2N S2N.Py

/-- `t` is the number `q` in fixed point: digits, a point, digits, perhaps after a minus -/
def FixedPoint (t : Str) (q : Rat) : Prop :=
  ∃ (neg : Bool) (a b : Str), a ≠ [] ∧ (∀ c ∈ a ++ b, isDig c = true) ∧ t = (if neg then p!"-" else []) ++ a ++ '.' :: b ∧
    q = if neg then -decVal a b else decVal a b

/-- the three forms of a line with the two set points of the temperature -/
def TempLine (l : Str) (p q : Rat) : Prop :=
  ∃ a b, FixedPoint a p ∧ FixedPoint b q ∧
    (l = p!"#X " ++ a ++ p!"Kohm (" ++ b ++ p!"C)" ∨ l = p!"#X " ++ a ++ p!" " ++ b ∨
      l = p!"#X Control: " ++ a ++ p!"K  Sample: " ++ b ++ p!"K")

end S2N.Spec
