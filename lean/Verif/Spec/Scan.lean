import Verif.Model.Handlers
/-
Vocabulary for properties about the text of a scan: what kind of line a line is, in plain terms.
-/
namespace S2N.Spec
open S2N S2N.Py
section
variable [UniDB]

/-- `pre` followed by at least one decimal digit and nothing else, as `#G0`, `#O12` -/
def numbered (pre w : Str) : Bool :=
  startsWith w pre && !(w.drop pre.length).isEmpty && (w.drop pre.length).all isDecU

/-- `#@CALIB` in any mixture of upper and lower case -/
def isCalib : Str → Bool
  | ['#', '@', c, a, l, i, b] =>
    (c == 'c' || c == 'C') && (a == 'a' || a == 'A') && (l == 'l' || l == 'L') &&
    (i == 'i' || i == 'I') && (b == 'b' || b == 'B')
  | _ => false

/-- the text starts with a number (up to white space) -/
def isNumber (w : Str) : Bool :=
  match splitWs w with
  | [] => false
  | u :: _ => (parseFloat u).isSome

/-- The first word `w` of a line makes it a line of kind `h`.  A number makes a data line.
(Each handler also answers to the text of its own pattern.) -/
def wordIs (h : HKey) (w : Str) : Bool :=
  w == h.keyText ||
  match h with
  | .G => numbered p!"#G" w
  | .J => numbered p!"#J" w
  | .j => numbered p!"#j" w
  | .O => numbered p!"#O" w
  | .o => numbered p!"#o" w
  | .P => numbered p!"#P" w
  | .H => numbered p!"#H" w
  | .V => numbered p!"#V" w
  | .VA => numbered p!"#VA" w
  | .VD => numbered p!"#VD" w
  | .VE => numbered p!"#VE" w
  | .A => startsWith w p!"@A" && (w.drop 2).all isDecU
  | .MD => startsWith w p!"#MD" && (w.drop 3).all isWord
  | .UIM => startsWith w p!"#UIM" && (w.drop 4).all isWord
  | .CALIB => isCalib w
  | .data => isNumber w
  | _ => false

/-- the text before the first space of a line, if there is a space -/
def leadWord (line : Str) : Option Str := (findC ' ' line).map (fun p => line.take p)

/-- A line of a scan is of kind `h` (leading white space does not matter). -/
def isKind (h : HKey) (line : Str) : Bool :=
  match leadWord (lstrip line) with
  | some w => wordIs h w
  | none => false

/-- lines of kind `h`, in order -/
def ofKind (h : HKey) (lines : List Str) : List Str := lines.filter (isKind h)

/-- no handler recognises the line, and it is not empty -/
def isUnknown (line : Str) : Bool :=
  !line.isEmpty && HKey.all.all (fun h => !isKind h line)

end

/-- the words of a list in the order of first appearance -/
def firstOcc (l : List Str) : List Str := l.foldl (fun acc k => if k ∈ acc then acc else acc ++ [k]) []

/-- the dictionary holds, for each key, the value of the last pair with that key; keys are in
the order of first appearance -/
structure LastWins {α : Type} (d : Dict α) (pairs : List (Str × α)) : Prop where
  value : ∀ k, d.get? k = List.lookup k pairs.reverse
  order : d.keys = firstOcc (pairs.map (·.1))

/-- A scan object as `SpecDataFile.read()` leaves it: created from its text, with number, command
and possibly its date, and not interpreted. -/
def Fresh (x : Obj) : Prop :=
  ∃ fileName idx raw S num cmd date epoch h5,
    x = { Obj.newScan fileName idx raw with
            S := S, scanNum := num, scanCmd := cmd, date := date, epoch := epoch, h5 := h5 }

/-- a file line continued over several text lines -/
def continued (ps : List Str) : Str := join ['\\', '\n'] ps

/-- the text lines can be the parts of a continued line: at least one, no line break characters
inside, and the last does not end in a backslash -/
def Parts (ps : List Str) : Prop :=
  ps ≠ [] ∧ (∀ p ∈ ps, ∀ c ∈ p, isLineBreak c = false) ∧
    ∀ p, ps.getLast? = some p → p.getLast? ≠ some '\\'

/-- A scan object without what belongs to the comments: its text, the list of comments, the note
that the scan was aborted, and the writer of the comments. -/
def noComments (x : Obj) : Obj :=
  { x with raw := [], comments := [], aborted := none, h5 := x.h5.filter (fun p => p.1 != p!"#C") }

/-- the line has, after its key, at least three words that are these numbers -/
def ThreeNumbers (l : Str) (v : PyFloat × PyFloat × PyFloat) : Prop :=
  ∃ w1 w2 w3 more, splitWs (stripFirstWord l) = w1 :: w2 :: w3 :: more ∧
    parseFloat w1 = some v.1 ∧ parseFloat w2 = some v.2.1 ∧ parseFloat w3 = some v.2.2

/-- the line has, after its key, three integers, and its last word is a number -/
def Channels (l : Str) (v : Int × Int × Int × PyFloat) : Prop :=
  ∃ w1 w2 w3 more w, splitWs (stripFirstWord l) = w1 :: w2 :: w3 :: more ∧
    (w1 :: w2 :: w3 :: more).getLast? = some w ∧
    parseInt w1 = some v.1 ∧ parseInt w2 = some v.2.1 ∧ parseInt w3 = some v.2.2.1 ∧
    parseFloat w = some v.2.2.2

/-- a line `#MD key = value` -/
def mdLine (k v : Str) : Str := p!"#MD " ++ k ++ p!" = " ++ v

end S2N.Spec
