import Verif.Model.SpecFile
/-
Vocabulary for properties about SPEC data files as a whole.
-/
namespace S2N.Spec
open S2N S2N.Py

/-- the first word of a text (white space before it does not matter) is `w` -/
def firstWordIs (w text : Str) : Prop := (splitWs text).head? = some w

/-- A line that starts a section: its first word is `#E`, `#F` or `#S`. -/
def StartsSection (line : Str) : Prop :=
  firstWordIs p!"#E" line ∨ firstWordIs p!"#F" line ∨ firstWordIs p!"#S" line

/-- A group of lines that makes one section: a line that starts a section, then lines that don't. -/
def IsSection (lines : List Str) : Prop :=
  ∃ first rest, lines = first :: rest ∧ StartsSection first ∧ ∀ l ∈ rest, ¬ StartsSection l

/-- The lines of a text file: text as `open(...).read()` gives it, cut at every line break
character. -/
def fileLines (content : Str) : List Str := splitlines (universalNewlines content)

/-- `texts` are the sections of the lines: the lines are some leading lines that start no section
followed by the groups of lines of the sections, each text being one group joined by newlines. -/
def SectionsOf (lines texts : List Str) : Prop :=
  ∃ lead groups, lines = lead ++ List.flatten groups ∧ (∀ l ∈ lead, ¬ StartsSection l) ∧
    (∀ g ∈ groups, IsSection g) ∧ texts = groups.map (join ['\n'])

/-- the first four lines (as `readlines` counts lines) start with `#F `, `#E `, `#D `, `#C ` -/
def FourLineHeader (content : Str) : Prop :=
  ∃ a b c d rest, readlines (universalNewlines content) =
    (p!"#F " ++ a) :: (p!"#E " ++ b) :: (p!"#D " ++ c) :: (p!"#C " ++ d) :: rest

/-- some line (as `readlines` counts lines) starts with `#S ` -/
def HasScanLine (content : Str) : Prop :=
  ∃ a, (p!"#S " ++ a) ∈ readlines (universalNewlines content)

end S2N.Spec

namespace S2N.Spec
open S2N S2N.Py

/-- the section is a scan: its first word is `#S` -/
def isScanText (text : Str) : Bool := (splitWs text).head? == some p!"#S"

/-- the section is a header: its first word is `#E` -/
def isHeaderText (text : Str) : Bool := (splitWs text).head? == some p!"#E"

/-- The scan number written in a scan section: the second word of its first line.  (For a first
line without a second word the code takes the letter `S`.) -/
def scanNumber (text : Str) : Str :=
  match splitWs ((splitlines text).headD []) with
  | _ :: n :: _ => n
  | _ => ['S']

/-- The name of a scan numbered `w` after scans numbered `before`: the number itself the first
time, then with the suffix .1, .2, ... -/
def nameAfter (before : List Str) (w : Str) : Str :=
  if before.count w = 0 then w else w ++ ['.'] ++ natStr (before.count w)

/-- keep the first of the texts that are equal up to white space at their ends -/
def distinctTexts (texts : List Str) : List Str :=
  texts.foldl (fun acc t => if acc.any (fun u => strip u == strip t) then acc else acc ++ [t]) []

end S2N.Spec

namespace S2N.Spec
open S2N S2N.Py

/-- compare two texts by what `key` makes of them; false if one of them has no key -/
def byKey {α κ : Type} (key : α → Option κ) (le : κ → κ → Bool) (a b : α) : Bool :=
  match key a, key b with
  | some x, some y => le x y
  | _, _ => false

/-- the integer value of the first text is at most that of the second -/
def intLe : Str → Str → Bool := byKey parseInt (fun a b => decide (a ≤ b))

/-- the numeric value of the first text is at most that of the second -/
def numLe : Str → Str → Bool := byKey parseFloat PyFloat.le

/-- the text is a number other than `nan` -/
def IsNumber (t : Str) : Prop := ∃ x, parseFloat t = some x ∧ x ≠ .nan

/-- the first scan was started no later than the second (both dates being valid) -/
def notLater (p q : Str × Obj) : Bool := byKey (fun p => strptimeSpec p.2.date) Tm.le p q

/-- the scan has a date in the form `Thu Nov 19 10:00:00 2020` -/
def HasDate (p : Str × Obj) : Prop := ∃ t, strptimeSpec p.2.date = some t

/-- scan names are different and every scan is stored under its own name -/
structure WellNamed (s : Sdf) : Prop where
  nodup : s.scans.keys.Nodup
  named : ∀ p ∈ s.scans, p.2.scanNum = p.1

/-- the text is a number that is at least one -/
def Positive (t : Str) : Prop := ∃ q : Rat, parseFloat t = some (.fin q) ∧ 1 ≤ q

/-- the texts that `repr` makes of floats, if it uses no exponent: a point, and no 0 at the end unless it is the only
digit after the point -/
def FloatText (t : Str) : Prop :=
  ∃ a b, t = a ++ '.' :: b ∧ '.' ∉ b ∧ (b = ['0'] ∨ ∃ c, b.getLast? = some c ∧ c ≠ '0')

/-- position `i` of a list of length `n` in Python: counted from the end if negative -/
def Position (n : Nat) (i : Int) (j : Nat) : Prop :=
  j < n ∧ (if i < 0 then i + n = (j : Int) else i = (j : Int))

/-- `r` is the list of scans (with their names) in chronological order -/
structure Chronological (s : Sdf) (r : List (Str × Obj)) : Prop where
  sorted : IsStableSort notLater s.scans r
  listed : s.getScanNumbersChronological = .ok (r.map (·.1))

/-- the text is a number x with a <= x < b -/
def numberIn (a b : Rat) (t : Str) : Bool :=
  match parseFloat t with
  | some (.fin q) => decide (a ≤ q) && decide (q < b)
  | _ => false

/-- the number that a bound of a slice stands for: an integer, a text or a float (given by its `repr`) -/
def BoundIs : Ref → Rat → Prop
  | .int i, q => q = i
  | .str t, q => parseFloat t = some (.fin q)
  | .flt t, q => parseFloat t = some (.fin q)

/-- the integer that a step stands for: an integer, its text, or a float without fraction -/
def StepIs : Ref → Int → Prop
  | .int j, i => i = j
  | .str t, i => t = intStr i
  | .flt t, i => parseFloat t = some (.fin i)

/-- the name of the occurrence `w` (0, 1, 2, ...) of scan number `n` in a file -/
def repeatName (n w : Nat) : Str :=
  if w = 0 then natStr n else natStr n ++ ['.'] ++ natStr w

/-- What a user sees of the scans of a file: name, text (up to white space at its ends), command and
the text of the header, in order. -/
def scanView (s : Sdf) : List (Str × Str × Str × Str) :=
  s.scans.map (fun p => (p.1, strip p.2.raw, p.2.scanCmd,
    (s.headers.getD p.2.hdrIdx (Obj.newHeader [] [])).raw))

/-- the control lines among the first five lines of a scan -/
def opening (t : Str) : List Str :=
  ((splitlines (strip t)).take 5).filter (fun l => startsWith l ['#'])

/-- What is asked of a file that grows from `T` to `T ++ more` for the file object `s` to follow it:
the old text ends with a newline; its last section is a scan with at least six lines (or else what
is appended starts with a new section); that scan is the latest by date, which `last_scan` names;
no two scans of the grown file have the same control lines among their first five lines. -/
structure Safe (T more : Str) (s : Sdf) : Prop where
  newline : ∃ a, T = a ++ ['\n']
  ends : ∀ texts, SectionsOf (fileLines T) texts → ∃ pre l, texts = pre ++ [l] ∧
    isScanText l = true ∧ (6 ≤ (splitlines (strip l)).length ∨
      ∀ first rest, fileLines more = first :: rest → StartsSection first)
  last : ∃ n x, s.scans.getLast? = some (n, x) ∧ s.lastScan = some (.str n) ∧ Positive n
  distinct : ∀ texts, SectionsOf (fileLines (T ++ more)) texts →
    (texts.filter isScanText).Pairwise (fun t u => opening t ≠ opening u)

/-- Histories of a file object: the file `name` is opened when its content is `T`; attributes of
scans are read (which may interpret scans) and, when the file has grown, it is refreshed. -/
inductive Reached [UniDB] (env : Env) (reg : List HKey) (name : Str) : Str → Sdf → Prop
  | opened (T : Str) (f stat : FileSt) (s : Sdf) : f.node = .file (some T) →
      Sdf.openFile env reg name f stat = .ok s → Reached env reg name T s
  | accessed (T : Str) (s : Sdf) (n attr : Str) : Reached env reg name T s →
      Reached env reg name T (s.access env reg n attr).1
  | unchanged (T : Str) (s : Sdf) (f stat : FileSt) : Reached env reg name T s →
      s.updateAvailable f = .ok false →
      Reached env reg name T (s.refresh env reg f stat).1.1
  | refreshed (T more : Str) (s : Sdf) (f stat : FileSt) : Reached env reg name T s →
      f.node = .file (some (T ++ more)) → Safe T more s →
      s.updateAvailable f = .ok true → (s.refresh env reg f stat).1.2 = none →
      Reached env reg name (T ++ more) (s.refresh env reg f stat).1.1

end S2N.Spec
