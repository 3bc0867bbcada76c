import Verif.Spec.Fits
import Verif.Spec.File
import Verif.Props.Xref
/-
When a file can be opened: what its sections must look like so that nothing raises while the file is read.
-/
namespace S2N.Spec
open S2N S2N.Py

section
variable [UniDB]

/-- kinds of lines that belong to scans; a header has none of them -/
def scanOnly : List HKey := [.S, .G, .I, .L, .N, .P, .Q, .data, .A, .CALIB, .CHANN, .CTIME, .ROI, .V, .XPCS, .CCD]

/-- The number on the first line of a header, after #E: the time in seconds. -/
def EpochFits (env : Env) (line : Str) : Prop :=
  ('.' ∈ line ∧ ∃ f, Py.float (stripFirstWord line) = .ok f ∧ TimeFits env (.flt f)) ∨
  ('.' ∉ line ∧ ∃ i, Py.int (stripFirstWord line) = .ok i ∧ TimeFits env (.int i))

/-- The words of the lines of one kind of a header. -/
def wordTable (k : HKey) (lines : List Str) : List (List Str) := (hOfKind k lines).map wordsOf

/-- The text of a header section is as it must be: the first line has the time, a #D line has a date.  No line is indented, and none
belongs to scans.  There is a name for each mnemonic of a counter (if there are names at all), and of a positioner.  The
UXML document is valid. -/
structure HeaderFits (env : Env) (text : Str) : Prop where
  epoch : ∀ l, (splitlines text).head? = some l → EpochFits env (strip l)
  dates : ∀ l ∈ splitlines text, hKind .D l = true → DateFits env (stripFirstWord l)
  flush : ∀ l ∈ splitlines text, ∀ c, l.head? = some c → isSpace c = false
  kinds : ∀ l ∈ splitlines text, ∀ k ∈ scanOnly, hKind k l = false
  counters : hOfKind .J (splitlines text) ≠ [] → Covers (wordTable .j (splitlines text)) (wordTable .J (splitlines text))
  positioners : Covers (wordTable .o (splitlines text)) (namesTable (hOfKind .O (splitlines text)))
  uxml : hOfKind .UXML (splitlines text) ≠ [] → ∃ root, env.xmlParse (join ['\n'] ((hOfKind .UXML (splitlines text)).map stripFirstWord)) = .ok root ∧
    env.xmlValid root = true

/-- The text of a scan section has a date: there is a #D line (with a time or a date as `DateFits` says), and no line of white space
before it. -/
def ScanDated (env : Env) (text : Str) : Prop :=
  ∃ pre d post, (splitlines text).tail = pre ++ d :: post ∧ (∀ l ∈ pre, l = [] ∨ (splitWs l ≠ [] ∧ ¬ firstWordIs p!"#D" l)) ∧
    firstWordIs p!"#D" d ∧ DateFits env (stripFirstWord d)

/-- The sections of a file are as they must be: each starts with #F, #E or #S and a space; and headers and scans are as said above. -/
structure FileFits (env : Env) (texts : List Str) : Prop where
  starts : ∀ t ∈ texts, ∃ r, t = p!"#F " ++ r ∨ t = p!"#E " ++ r ∨ t = p!"#S " ++ r
  headers : ∀ t ∈ texts, isHeaderText t = true → HeaderFits env t
  scans : ∀ t ∈ texts, isScanText t = true → ScanDated env t

/-- The local clock writes a time as a date that can be read. -/
def ClockReads (env : Env) : Prop := ∀ f s, env.fromTimestamp f = .ok s → ∃ tm, strptimeSpec s = some tm

/-- The header has the names and comments that its text states. -/
structure HeaderSays (x : Obj) : Prop where
  O : x.O = some (namesTable (hOfKind .O (splitlines x.raw)))
  H : x.H = some ((hOfKind .H (splitlines x.raw)).map (fun l => splitDbl false (stripFirstWord l)))
  comments : x.comments = (hOfKind .C (splitlines x.raw)).map stripFirstWord
  o : x.o = if hOfKind .o (splitlines x.raw) = [] then none else some (wordTable .o (splitlines x.raw))

end
end S2N.Spec

namespace S2N.Spec
open S2N S2N.Py

section
variable [UniDB]

/-- a header object with what the text of a header states -/
def statedHeader (text : Str) : Obj :=
  { Obj.newHeader [] text with
    O := some (namesTable (hOfKind .O (splitlines text)))
    H := some ((hOfKind .H (splitlines text)).map (fun l => splitDbl false (stripFirstWord l)))
    comments := (hOfKind .C (splitlines text)).map stripFirstWord
    o := if hOfKind .o (splitlines text) = [] then none else some (wordTable .o (splitlines text)) }

/-- The text of a scan, below a header of the text `header`, is as it must be for the scan to be interpreted (see `ScanFits`). -/
def ScanTextFits (env : Env) (header scan : Str) : Prop := ScanFits env (statedHeader header) (Obj.newScan [] 0 scan)

end
end S2N.Spec
