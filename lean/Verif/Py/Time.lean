import Verif.Py.Regex
/-
`time.strptime` for the two formats used in /repo and `time.strftime` for the
ISO format, following CPython's `_strptime.py` (C locale).
Simplifications: only ASCII digits and ASCII case folding are recognised.
-/
namespace S2N
namespace Py

/-- the `time.struct_time` fields used; compared as tuples in this order
(`tm_yday` is a function of the date and `tm_isdst` is always -1). -/
structure Tm where
  year : Nat
  mon : Nat
  day : Nat
  hour : Nat
  min : Nat
  sec : Nat
  wday : Nat
  deriving DecidableEq, Repr

namespace Tm
/-- tuple of the fields in comparison order -/
def toList (t : Tm) : List Nat := [t.year, t.mon, t.day, t.hour, t.min, t.sec, t.wday]

/-- lexicographic `<=` of lists of equal length -/
def lexLe : List Nat → List Nat → Bool
  | [], _ => true
  | _ :: _, [] => false
  | a :: as, b :: bs => if a < b then true else if b < a then false else lexLe as bs

/-- `t1 <= t2` of struct_time -/
def le (a b : Tm) : Bool := lexLe a.toList b.toList
end Tm

/-- abbreviated weekday names of the C locale, Monday first -/
def dayNames : List Str :=
  [p!"mon", p!"tue", p!"wed", p!"thu", p!"fri", p!"sat", p!"sun"]

/-- abbreviated month names of the C locale -/
def monNames : List Str :=
  [p!"jan", p!"feb", p!"mar", p!"apr", p!"may", p!"jun", p!"jul", p!"aug", p!"sep", p!"oct",
   p!"nov", p!"dec"]

namespace Re
/-- literal text, ignoring ASCII case -/
def litI : Str → Re
  | [] => eps
  | c :: cs => seq (cls (fun d => lowerC d == c)) (litI cs)
/-- `[a-b]` -/
def rng (a b : Char) : Re := cls (fun c => a.toNat ≤ c.toNat && c.toNat ≤ b.toNat)
/-- one character -/
def ch (a : Char) : Re := cls (· == a)
/-- `\d` -/
def dig : Re := cls isDig
/-- `\s+` -/
def ws : Re := plus isSpace
/-- `%a` -/
def fA : Re := grp (alts (dayNames.map litI))
/-- `%b` -/
def fB : Re := grp (alts (monNames.map litI))
/-- `%d`: `3[0-1]|[1-2]\d|0[1-9]|[1-9]| [1-9]` -/
def fD : Re := grp (alts [seq (ch '3') (rng '0' '1'), seq (rng '1' '2') dig,
  seq (ch '0') (rng '1' '9'), rng '1' '9', seq (ch ' ') (rng '1' '9')])
/-- `%H`: `2[0-3]|[0-1]\d|\d` -/
def fH : Re := grp (alts [seq (ch '2') (rng '0' '3'), seq (rng '0' '1') dig, dig])
/-- `%M`: `[0-5]\d|\d` -/
def fM : Re := grp (alts [seq (rng '0' '5') dig, dig])
/-- `%S`: `6[0-1]|[0-5]\d|\d` -/
def fS : Re := grp (alts [seq (ch '6') (rng '0' '1'), seq (rng '0' '5') dig, dig])
/-- `%Y`: `\d\d\d\d` -/
def fY : Re := grp (cat [dig, dig, dig, dig])
/-- `%m`: `1[0-2]|0[1-9]|[1-9]` -/
def fMon : Re := grp (alts [seq (ch '1') (rng '0' '2'), seq (ch '0') (rng '1' '9'), rng '1' '9'])
/-- `%y`: `\d\d` -/
def fYY : Re := grp (cat [dig, dig])
/-- `%a %b %d %H:%M:%S %Y` -/
def specFmt : Re := cat [fA, ws, fB, ws, fD, ws, fH, ch ':', fM, ch ':', fS, ws, fY]
/-- `%m/%d/%y %H:%M:%S` -/
def spockFmt : Re := cat [fMon, ch '/', fD, ch '/', fYY, ws, fH, ch ':', fM, ch ':', fS]
end Re

/-- leap year of the proleptic Gregorian calendar -/
def isLeap (y : Nat) : Bool := y % 4 == 0 && (y % 100 != 0 || y % 400 == 0)

/-- days in a month -/
def daysIn (y m : Nat) : Nat :=
  if m == 2 then (if isLeap y then 29 else 28)
  else if m == 4 || m == 6 || m == 9 || m == 11 then 30 else 31

/-- 1-based `list.index(name.lower())` -/
def nameIdx (names : List Str) (s : Str) : Nat := names.idxOf (lower s)

/-- value of a matched numeric field (`int(found["d"])` accepts a leading blank) -/
def fieldVal (s : Str) : Nat := natOf (strip s)

/-- weekday (Monday = 0) of a date: `datetime.date.weekday` -/
def weekdayOf (y m d : Nat) : Nat :=
  let y1 := y - 1
  let dby := y1 * 365 + y1 / 4 - y1 / 100 + y1 / 400
  let dbm := ((List.range (m - 1)).map (fun i => daysIn y (i + 1))).sum
  (dby + dbm + d + 6) % 7

/-- `time.strptime(s, "%a %b %d %H:%M:%S %Y")`; `none` is ValueError
(no match, unconverted data, or impossible date). -/
def strptimeSpec (s : Str) : Option Tm :=
  match Re.first Re.specFmt s with
  | some ([a, b, d, h, m, sec, y], []) =>
    let t : Tm := ⟨fieldVal y, nameIdx monNames b + 1, fieldVal d, fieldVal h, fieldVal m,
      fieldVal sec, nameIdx dayNames a⟩
    if 1 ≤ t.year ∧ t.day ≤ daysIn t.year t.mon then some t else none
  | _ => none

/-- `time.strptime(s, "%m/%d/%y %H:%M:%S")`; two-digit years 00-68 are 20xx. -/
def strptimeSpock (s : Str) : Option Tm :=
  match Re.first Re.spockFmt s with
  | some ([mo, d, y, h, m, sec], []) =>
    let yy := fieldVal y
    let year := if yy ≤ 68 then 2000 + yy else 1900 + yy
    let t : Tm := ⟨year, fieldVal mo, fieldVal d, fieldVal h, fieldVal m, fieldVal sec,
      weekdayOf year (fieldVal mo) (fieldVal d)⟩
    if t.day ≤ daysIn t.year t.mon then some t else none
  | _ => none

/-- two-digit zero-padded number (`%02d`), for numbers below 100 -/
def two (n : Nat) : Str := [Char.ofNat (48 + n / 10 % 10), Char.ofNat (48 + n % 10)]

/-- four-digit zero-padded number -/
def four (n : Nat) : Str := two (n / 100) ++ two (n % 100)

/-- `time.strftime("%Y-%m-%dT%H:%M:%S", t)`.  Years below 1000 are not padded (glibc). -/
def strftimeIso (t : Tm) : Str :=
  natStr t.year ++ p!"-" ++ two t.mon ++ p!"-" ++ two t.day ++ p!"T" ++ two t.hour ++ p!":"
    ++ two t.min ++ p!":" ++ two t.sec

end Py
end S2N
