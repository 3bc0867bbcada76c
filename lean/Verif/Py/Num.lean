import Verif.Py.Str
/-
`int(text)`, `float(text)` and the float values.
Simplifications (see DESIGN.md): only ASCII digits; a finite float is the exact
rational denoted by the text (no binary64 rounding, no overflow); -0.0 = 0.0;
the 4300-digit limit of `int()` is ignored.
-/
namespace S2N

/-- A Python float without rounding. -/
inductive PyFloat
  | nan
  | inf (neg : Bool)
  | fin (q : Rat)
  deriving DecidableEq, Repr

/-- A Python number as produced by `int()` or `float()`. -/
inductive Num
  | int (i : Int)
  | flt (f : PyFloat)
  deriving DecidableEq, Repr

namespace PyFloat

/-- `a < b` of Python floats (False if either is nan). -/
def lt : PyFloat → PyFloat → Bool
  | .nan, _ => false
  | _, .nan => false
  | .inf true, .inf true => false
  | .inf true, _ => true
  | .inf false, _ => false
  | .fin _, .inf n => !n
  | .fin a, .fin b => decide (a < b)

/-- `a <= b` of Python floats. -/
def le : PyFloat → PyFloat → Bool
  | .nan, _ => false
  | _, .nan => false
  | .inf true, _ => true
  | .inf false, .inf false => true
  | .inf false, _ => false
  | .fin _, .inf n => !n
  | .fin a, .fin b => decide (a ≤ b)

/-- `int(x)` of a float: truncation toward zero. -/
def toInt : PyFloat → Except PyErr Int
  | .nan => .error .ValueError
  | .inf _ => .error .OverflowError
  | .fin q => .ok (Int.tdiv q.num q.den)

end PyFloat

namespace Py

/-- digit string with single underscores allowed between digits; the Bool says
whether the previous character was a digit. Returns the digits. -/
def digs : Bool → Str → Option Str
  | prev, [] => if prev then some [] else none
  | prev, c :: cs =>
    if isDig c then (digs true cs).map (c :: ·)
    else if c = '_' ∧ prev = true then digs false cs
    else none

/-- value of a string of decimal digits. -/
def natOf (ds : Str) : Nat := ds.foldl (fun n c => 10 * n + (c.toNat - 48)) 0

/-- `int(s)`; `none` is ValueError. -/
def parseInt (s : Str) : Option Int :=
  match strip s with
  | '-' :: r => (digs false r).map (fun d => - (natOf d : Int))
  | '+' :: r => (digs false r).map (fun d => (natOf d : Int))
  | r => (digs false r).map (fun d => (natOf d : Int))

/-- `10 ** e`. -/
def pow10 : Int → Rat
  | .ofNat k => (10 : Rat) ^ k
  | .negSucc k => 1 / (10 : Rat) ^ (k + 1)

/-- digits that may be missing altogether. -/
def digsOpt (s : Str) : Option Str := if s = [] then some [] else digs false s

/-- mantissa of a float literal: `digits`, `digits.`, `digits.digits` or `.digits`. -/
def parseMant (s : Str) : Option Rat :=
  match splitC '.' s with
  | [a] => (digs false a).map (fun d => (natOf d : Rat))
  | [a, b] =>
    if a = [] ∧ b = [] then none
    else match digsOpt a, digsOpt b with
      | some da, some db => some ((natOf (da ++ db) : Rat) / (10 : Rat) ^ db.length)
      | _, _ => none
  | _ => none

/-- exponent: optional sign and digits. -/
def parseExp : Str → Option Int
  | '-' :: r => (digs false r).map (fun d => - (natOf d : Int))
  | '+' :: r => (digs false r).map (fun d => (natOf d : Int))
  | r => (digs false r).map (fun d => (natOf d : Int))

/-- unsigned finite float literal. -/
def parseUFloat (s : Str) : Option Rat :=
  match splitP (fun c => c = 'e' || c = 'E') s with
  | [m] => parseMant m
  | [m, e] =>
    match parseMant m, parseExp e with
    | some q, some k => some (q * pow10 k)
    | _, _ => none
  | _ => none

/-- float literal after removal of the sign. -/
def parseMag (neg : Bool) (s : Str) : Option PyFloat :=
  if lower s = p!"inf" ∨ lower s = p!"infinity" then some (.inf neg)
  else if lower s = p!"nan" then some .nan
  else (parseUFloat s).map (fun q => .fin (if neg then -q else q))

/-- `float(s)`; `none` is ValueError. -/
def parseFloat (s : Str) : Option PyFloat :=
  match strip s with
  | '-' :: r => parseMag true r
  | '+' :: r => parseMag false r
  | r => parseMag false r

/-- `int(s)` as an exception-raising function. -/
def int (s : Str) : Except PyErr Int :=
  match parseInt s with
  | some i => .ok i
  | none => .error .ValueError

/-- `float(s)` as an exception-raising function. -/
def float (s : Str) : Except PyErr PyFloat :=
  match parseFloat s with
  | some i => .ok i
  | none => .error .ValueError

/-- `list(map(f, xs))` where `f` may raise. -/
def mapE {α β : Type} (f : α → Except PyErr β) : List α → Except PyErr (List β)
  | [] => .ok []
  | a :: as =>
    match f a with
    | .error e => .error e
    | .ok b =>
      match mapE f as with
      | .error e => .error e
      | .ok bs => .ok (b :: bs)

end Py
end S2N
