import Verif.Spec.Total
import Verif.Spec.Data
/-
When a scan can be interpreted: what the lines of a scan must look like so that no line, and no later step, raises.
-/
namespace S2N.Spec
open S2N S2N.Py

/-- the text reads as an integer -/
def Integral (t : Str) : Prop := ∃ i, Py.int t = .ok i

/-- the text reads as a finite number -/
def Finite (t : Str) : Prop := ∃ q, Py.float t = .ok (.fin q)

/-- the words of a control line, without the key -/
def wordsOf (line : Str) : List Str := splitWs (stripFirstWord line)

/-- The time (in seconds) is finite, and it is in the range of the local clock. -/
def TimeFits (env : Env) (e : Num) : Prop := (∃ n, e.toIntE = .ok n) ∧ ∃ s, env.fromTimestamp e.toFlt = .ok s

/-- The text of a #D line: either a time in seconds, without spaces, or a date as SPEC writes it. -/
def DateFits (env : Env) (t : Str) : Prop :=
  (' ' ∉ t ∧ ∃ f n, Py.float t = .ok f ∧ f.toInt = .ok n ∧ (∃ s, env.fromTimestamp f = .ok s) ∧ TimeFits env (.int n)) ∨
  (' ' ∈ t ∧ ∃ tm e, strptimeSpec t = some tm ∧ env.mktime tm = .ok e ∧ TimeFits env e)

section
variable [UniDB]

/-- The line of a scan is as its kind demands. -/
structure LineFits (env : Env) (l : Str) : Prop where
  date : isKind .D l = true → DateFits env (stripFirstWord l)
  normal : isKind .I l = true → Numeric (stripFirstWord l)
  hkl : isKind .Q l = true → ∀ w ∈ wordsOf l, Numeric w
  columns : isKind .N l = true → wordsOf l ≠ [] ∧ ∀ w ∈ wordsOf l, Integral w
  calib : isKind .CALIB l = true → 3 ≤ (wordsOf l).length ∧ ∀ w ∈ (wordsOf l).take 3, Numeric w
  chann : isKind .CHANN l = true → 3 ≤ (wordsOf l).length ∧ (∀ w ∈ (wordsOf l).take 3, Integral w) ∧
    ∀ w, (wordsOf l).getLast? = some w → Numeric w
  ctime : isKind .CTIME l = true → (wordsOf l).length = 3 ∧ ∀ w ∈ wordsOf l, Numeric w
  roi : isKind .ROI l = true → ∃ name a b, stripFirstWord l = name ++ ' ' :: (a ++ ' ' :: b) ∧ ' ' ∉ a ∧ ' ' ∉ b ∧
    Integral a ∧ Integral b
  xpcs : isKind .XPCS l = true → wordsOf l ≠ []
  ccd : isKind .CCD l = true → wordsOf l ≠ []
  noE : isKind .E l = false
  noO : isKind .O l = false
  noH : isKind .H l = false

/-- the name of a #G line, as `G1`: its first word, without # -/
def gName (line : Str) : Str := lstripC '#' ((splitWs line).headD [])

/-- The #G lines have finite numbers only.  The unit cell and the orientation, #G1, are absent, or they are complete (32 numbers; or 11, if
the header states that the geometry is twoc).  The geometry which the header states is not the name of a variant. -/
structure GeometryFits (hdr : Obj) (lines : List Str) : Prop where
  numbers : ∀ l ∈ ofKind .G lines, ∀ w ∈ wordsOf l, Finite w
  cell : ∀ l ∈ ofKind .G lines, gName l = p!"G1" → (wordsOf l).length ≤ 1 ∨ 32 ≤ (wordsOf l).length ∨
    (11 ≤ (wordsOf l).length ∧ ∃ c cs x y, hdr.comments = c :: cs ∧ splitWs c = [p!"twoc", p!"User", x, y])
  stated : ∀ c g u x y, hdr.comments.head? = some c → splitWs c = [g, u, x, y] → '.' ∉ g

/-- The data lines of a scan: there is a #N line, with one or two numbers.  With two numbers, there are no rows of data after MCA
data.  A row has not more words than there are labels; there are at most 1000 labels, and a single label has no space in it.
MCA lines have numbers only (integers, if there is no dot in the line). -/
structure DataFits (lines : List Str) : Prop where
  columns : ∃ nm, ColumnNumbers lines nm ∧ (nm.length = 1 ∨ nm.length = 2)
  order : ∀ nm, ColumnNumbers lines nm → nm.length = 2 → ∃ a b, dataLinesOf lines = a ++ b ∧ (∀ l ∈ a, isMcaLine l = false) ∧
    ∀ l ∈ b, isMcaLine l = true
  rows : ∀ nm ls L, ColumnNumbers lines nm → CombinedBy nm (dataLinesOf lines) ls → StatedLabels lines L → ∀ l ∈ ls, isMcaLine l = false →
    (splitWs l).length ≤ L.length
  labels : ∀ L, StatedLabels lines L → L.length ≤ 1000 ∧ (∀ l, L = [l] → ' ' ∉ l) ∧ ((∃ l ∈ dataLinesOf lines, isMcaLine l = true) → p!"_mca_" ∉ L)
  spectra : ∀ l ∈ dataLinesOf lines, isMcaLine l = true → ∃ xs, SpectrumOf l xs

/-- The scan `x`, with the header `hdr`, can be interpreted: each line is as its kind demands.  A #L line comes after a #N line.  The dates
of scan and header can be compared.  There are labels (#H, of the header) for the values of each #V line, names for the mnemonics of
counters; and the values of positioners (with names in the header) are numbers.  The UXML document is valid. -/
structure ScanFits (env : Env) (hdr x : Obj) : Prop where
  lines : ∀ l ∈ scanLines x.raw, LineFits env l
  labels : ∀ pre l post, scanLines x.raw = pre ++ l :: post → isKind .L l = true → ∃ n ∈ pre, isKind .N n = true
  dates : (∃ l ∈ scanLines x.raw, isKind .D l = true) → (∀ e, x.epoch = some e → TimeFits env e) ∧
    (strip hdr.date = [] ∨ ∃ e, hdr.epoch = some e ∧ TimeFits env e)
  metadata : ∀ (i : Nat) (l : Str), (ofKind .V (scanLines x.raw))[i]? = some l → ∃ (H : List (List Str)) (labels : List Str), hdr.H = some H ∧ H[i]? = some labels ∧
    ((splitTwo (stripFirstWord l)).length = labels.length ∨ (splitC ' ' (stripFirstWord l)).length ≤ labels.length)
  counters : ofKind .J (scanLines x.raw) ≠ [] → ∀ (i : Nat) (l : Str), (ofKind .j (scanLines x.raw))[i]? = some l → ∃ l', (ofKind .J (scanLines x.raw))[i]? = some l' ∧
    (wordsOf l).length ≤ (wordsOf l').length
  positions : ∀ (i : Nat) (l : Str) (O : List (List Str)) (names : List Str), (ofKind .P (scanLines x.raw))[i]? = some l → hdr.O = some O → O[i]? = some names →
    ∀ w ∈ (wordsOf l).take names.length, Numeric w
  geometry : ofKind .G (scanLines x.raw) ≠ [] → GeometryFits hdr (scanLines x.raw)
  data : dataLinesOf (scanLines x.raw) ≠ [] → DataFits (scanLines x.raw)
  uxml : ofKind .UXML (scanLines x.raw) ≠ [] → ∃ root, env.xmlParse (join ['\n'] ((ofKind .UXML (scanLines x.raw)).map stripFirstWord)) = .ok root ∧
    env.xmlValid root = true

end
end S2N.Spec
