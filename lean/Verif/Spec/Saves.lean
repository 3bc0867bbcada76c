import Verif.Spec.Opens
import Verif.Spec.Total
import Verif.Spec.Arrive
/-
When the text of a SPEC data file can be converted: what its sections must look like so that nothing raises when its scans
are saved.
-/
namespace S2N.Spec
open S2N S2N.Py

section
variable [UniDB]

/-- A line of a header or of a scan, `kind` saying of which kinds it is: the values of #M and #T are numbers, mnemonics of counters and
positioners have no "/". -/
structure LineSaves (kind : HKey → Bool) (l : Str) : Prop where
  monitor : kind .M = true → Numeric (tmValue l)
  time : kind .T = true → Numeric (tmValue l)
  names : kind .j = true ∨ kind .o = true → ∀ w ∈ wordsOf l, NoSlash w

/-- The text of a header: its lines are as said above; names of positioners and labels of metadata are not empty; if there are mnemonics
of positioners, they differ, and there are as many as names.  A UXML document has elements that can be written. -/
structure HeaderSaves (env : Env) (text : Str) : Prop where
  lines : ∀ l ∈ splitlines text, LineSaves (hKind · l) l
  names : ∀ row ∈ namesTable (hOfKind .O (splitlines text)), ∀ n ∈ row, n ≠ []
  labels : ∀ l ∈ hOfKind .H (splitlines text), ∀ n ∈ splitDbl false (stripFirstWord l), n ≠ []
  mnemonics : hOfKind .o (splitlines text) ≠ [] → (wordTable .o (splitlines text)).flatten.Nodup ∧
    (namesTable (hOfKind .O (splitlines text))).flatten.length ≤ (wordTable .o (splitlines text)).flatten.length
  uxml : ∀ root, hOfKind .UXML (splitlines text) ≠ [] → env.xmlParse (join ['\n'] ((hOfKind .UXML (splitlines text)).map stripFirstWord)) = .ok root →
    DocumentFits (some root)

/-- Of each of these groups of kinds of lines, either the header or the scan has none. -/
def Apart (header scan : List Str) : Prop :=
  ∀ g ∈ [[HKey.J, .j], [.o], [.MD], [.UXML], [.VA], [.VD], [.VE]], (∀ k ∈ g, hOfKind k header = []) ∨ (∀ k ∈ g, ofKind k scan = [])

/-- The data of a scan: there are labels; none is empty or `_mca_`; the MCA lines of a detector have the same number of words. -/
structure DataSaves (lines : List Str) : Prop where
  labels : ∀ L, StatedLabels lines L → L ≠ [] ∧ ∀ l ∈ L, l ≠ [] ∧ l ≠ p!"_mca_"
  spectra : ∀ l ∈ dataLinesOf lines, ∀ l' ∈ dataLinesOf lines, isMcaLine l = true → isMcaLine l' = true → mcaName l = mcaName l' →
    (splitWs l).length = (splitWs l').length

/-- the label of the axis number `i` of a mesh: the word of the command, if it is the name of a column, or the name of column number `i` -/
def axisOf (names : List Str) (word : Str) (i : Nat) : Option Str := if word ∈ names then some word else names[i]?

/-- The text of a mesh with data: the command has both axes, each with start, end and number of intervals, and the counting
time; these numbers are integers, that of the first axis is positive.  There are at least two columns, and the axes are different ones.  A mesh in
reciprocal space has the columns H, K and L.  If there are spectra, there are at least as many points as intervals of the first axis. -/
def MeshSaves (cmd : Str) (lines : List Str) : Prop :=
  ∃ m w1 s1 e1 n1 w2 s2 e2 n2 t i1 i2, splitWs cmd = [m, w1, s1, e1, n1, w2, s2, e2, n2, t] ∧ Py.int n1 = .ok i1 ∧ Py.int n2 = .ok i2 ∧
    0 < i1 ∧ w1 ≠ p!"_mca_" ∧ w2 ≠ p!"_mca_" ∧
    (∀ L names, StatedLabels lines L → Renamed L names → 2 ≤ names.length ∧ axisOf names w1 0 ≠ axisOf names w2 1 ∧
      (startsWith cmd p!"hkl" = true → ∀ k ∈ [p!"H", p!"K", p!"L"], k ∈ names)) ∧
    ((∃ l ∈ dataLinesOf lines, isMcaLine l = true) → ∀ L nm all, StatedLabels lines L → ColumnNumbers lines nm → CombinedBy nm (dataLinesOf lines) all →
      i1 ≤ (all.filter (isCompleteRow L.length)).length)

/-- A scan of a file that was opened, below a header of the text `header`: its number is one (or several, with dots), its lines are as said above,
the command is one; a mesh with data is as said above; if it is a scan in reciprocal space then with start and end of h, k and l; there are no cross
references, #MD, #VA, #VD, #VE lines or UXML documents in both header and scan.  If there are temperatures (#X), there is
a line #G1 of the unit cell, with numbers. -/
structure ScanSaves (env : Env) (header : Str) (x : Obj) : Prop where
  number : ∃ l, splitScanNumberString x.scanNum = .ok l
  lines : ∀ l ∈ scanLines x.raw, LineSaves (isKind · l) l
  command : splitWs x.scanCmd ≠ []
  mesh : (∃ m ∈ meshMacros, macroOf x = some m) → dataLinesOf (scanLines x.raw) ≠ [] → MeshSaves x.scanCmd (scanLines x.raw)
  hkl : (∃ m ∈ hklMacros, macroOf x = some m) → 7 ≤ (splitWs x.scanCmd).length
  data : dataLinesOf (scanLines x.raw) ≠ [] → DataSaves (scanLines x.raw)
  apart : Apart (splitlines header) (scanLines x.raw)
  uxml : ∀ root, ofKind .UXML (scanLines x.raw) ≠ [] → env.xmlParse (join ['\n'] ((ofKind .UXML (scanLines x.raw)).map stripFirstWord)) = .ok root →
    DocumentFits (some root)
  sample : hOfKind .X (splitlines header) ≠ [] ∨ ofKind .X (scanLines x.raw) ≠ [] → (∃ l ∈ ofKind .G (scanLines x.raw), gName l = p!"G1") ∧
    ∀ l ∈ ofKind .G (scanLines x.raw), gName l = p!"G1" → 2 ≤ (wordsOf l).length

/-- The first header of a file that was opened has a date: its text has a #D line, or there is a scan below it. -/
def FirstDated (s : Sdf) : Prop :=
  ∃ h, s.headers.head? = some h ∧ (hOfKind .D (splitlines h.raw) ≠ [] ∨ ∃ p ∈ s.scans, s.headerOf p.2 = h)

end
end S2N.Spec
