import Verif.Py.Uni
import Verif.Py.Num
/-
Specification vocabulary for the properties of utils.py (C32-C37), independent of the model.
-/
namespace S2N.Spec
open S2N Py

/-- a valid NeXus name: word characters only, not empty, does not start with a digit -/
def ValidName [UniDB] (s : Str) : Prop :=
  (∀ c ∈ s, isWord c = true) ∧ ∃ c cs, s = c :: cs ∧ isDigitU c = false

/-- text has no leading or trailing whitespace -/
def Trimmed (s : Str) : Prop :=
  (∀ c, s.head? = some c → isSpace c = false) ∧ (∀ c, s.getLast? = some c → isSpace c = false)

/-- two adjacent spaces occur in `s` -/
def HasDouble (s : Str) : Prop := ∃ a b, s = a ++ ' ' :: ' ' :: b

/-- a column label as SPEC writes it: not empty, no tab, no double space, and
neither begins nor ends with a space -/
structure Label (s : Str) : Prop where
  ne : s ≠ []
  notab : '\t' ∉ s
  nodbl : ¬ HasDouble s
  first : s.head? ≠ some ' '
  last : s.getLast? ≠ some ' '

/-- a separator between labels: two or more spaces, or one or more tabs, or any mixture -/
def Separator (s : Str) : Prop := s ≠ [] ∧ s ≠ [' '] ∧ ∀ c ∈ s, c = ' ' ∨ c = '\t'

/-- the label line made of a first label and (separator, label) pairs -/
def labelLine (l : Str) (rest : List (Str × Str)) : Str :=
  l ++ (rest.map (fun x => x.1 ++ x.2)).flatten

/-- row-major position of a multi-index in an array of the given shape;
`none` if the index is out of range -/
def offset : List Nat → List Nat → Option Nat
  | [], [] => some 0
  | n :: ns, i :: is => if i < n then (offset ns is).map (fun k => i * ns.prod + k) else none
  | _, _ => none

/-- abbreviated English weekday names, Monday first -/
def Days : List Str := [p!"Mon", p!"Tue", p!"Wed", p!"Thu", p!"Fri", p!"Sat", p!"Sun"]
/-- abbreviated English month names -/
def Months : List Str :=
  [p!"Jan", p!"Feb", p!"Mar", p!"Apr", p!"May", p!"Jun", p!"Jul", p!"Aug", p!"Sep", p!"Oct",
   p!"Nov", p!"Dec"]

/-- two decimal digits -/
def dd (n : Nat) : Str := [Nat.digitChar (n / 10), Nat.digitChar (n % 10)]
/-- four decimal digits -/
def dddd (n : Nat) : Str :=
  [Nat.digitChar (n / 1000), Nat.digitChar (n / 100 % 10), Nat.digitChar (n / 10 % 10),
   Nat.digitChar (n % 10)]

/-- number of days of a month of the Gregorian calendar -/
def monthDays (y m : Nat) : Nat :=
  if m = 2 then (if y % 400 = 0 ∨ (y % 4 = 0 ∧ y % 100 ≠ 0) then 29 else 28)
  else if m = 4 ∨ m = 6 ∨ m = 9 ∨ m = 11 then 30 else 31

/-- an existing date and time (seconds up to 61 for leap seconds) -/
structure ValidTime (y mo d h mi s : Nat) : Prop where
  month : 1 ≤ mo ∧ mo ≤ 12
  day : 1 ≤ d ∧ d ≤ monthDays y mo
  hour : h < 24
  minute : mi < 60
  second : s < 62

/-- SPEC's date format, e.g. `Wed Nov 03 13:39:34 2010` -/
def specDate (wd y mo d h mi s : Nat) : Str :=
  Days.getD wd [] ++ p!" " ++ Months.getD (mo - 1) [] ++ p!" " ++ dd d ++ p!" " ++ dd h ++ p!":"
    ++ dd mi ++ p!":" ++ dd s ++ p!" " ++ dddd y

/-- SPOCK's date format, e.g. `09/15/17 04:39:10` -/
def spockDate (yy mo d h mi s : Nat) : Str :=
  dd mo ++ p!"/" ++ dd d ++ p!"/" ++ dd yy ++ p!" " ++ dd h ++ p!":" ++ dd mi ++ p!":" ++ dd s

/-- ISO 8601 date and time -/
def isoDate (y mo d h mi s : Nat) : Str :=
  dddd y ++ p!"-" ++ dd mo ++ p!"-" ++ dd d ++ p!"T" ++ dd h ++ p!":" ++ dd mi ++ p!":" ++ dd s

end S2N.Spec
