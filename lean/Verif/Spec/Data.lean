import Mathlib.Data.List.Forall2
import Verif.Spec.Scan
/-
Vocabulary for properties about the data table of a scan.
-/
namespace S2N.Spec
open S2N S2N.Py

/-- `label`, then `label_1`, `label_2`, … -/
def candidate (label : Str) : Nat → Str
  | 0 => label
  | n + 1 => label ++ '_' :: natStr (n + 1)

/-- `k` is the first of the candidates for `label` that is not used yet -/
def FirstFree (label : Str) (used : List Str) (k : Str) : Prop :=
  ∃ n, k = candidate label n ∧ k ∉ used ∧ ∀ m < n, candidate label m ∈ used

/-- Columns labelled `labels` are renamed to `names`: one after the other, each gets the first free
name. -/
structure Renamed (labels names : List Str) : Prop where
  length : names.length = labels.length
  name : ∀ (i : Nat) (l k : Str), labels[i]? = some l → names[i]? = some k →
    FirstFree l (names.take i) k

/-- The words of a line are numbers, these ones. -/
def NumbersOf (line : Str) (xs : List PyFloat) : Prop :=
  List.Forall₂ (fun w x => parseFloat w = some x) (splitWs line) xs

/-- a line of MCA data -/
def isMcaLine (line : Str) : Bool := startsWith line p!"@A"

/-- a data line with `n` words, all numbers -/
def isCompleteRow (n : Nat) (line : Str) : Bool :=
  !isMcaLine line && (splitWs line).length == n && (splitWs line).all (fun w => (parseFloat w).isSome)

/-- the key of a line of MCA data: `@A` is `mca`, `@A1` is `mca1`, … -/
def mcaName (line : Str) : Str := p!"mca" ++ ((splitWs line).headD []).drop 2

/-- The numbers of an MCA line: floats if there is a dot in the line, else integers. -/
def SpectrumOf (line : Str) (xs : List Num) : Prop :=
  List.Forall₂ (fun w x => if '.' ∈ line then ∃ f, parseFloat w = some f ∧ x = .flt f
    else ∃ i, parseInt w = some i ∧ x = .int i) (splitWs line).tail xs

/-- MCA lines `ls` give the spectra `s`: by name, each name with its spectra in the order of the
lines, the names in order of first appearance. -/
structure McaOf (ls : List Str) (s : Dict (List (List Num))) : Prop where
  names : s.keys = firstOcc (ls.map mcaName)
  spectra : ∀ n, n ∈ ls.map mcaName → ∃ sp, s.get? n = some sp ∧
    List.Forall₂ SpectrumOf (ls.filter (fun l => mcaName l == n)) sp

/-- The data dictionary `d` is the table with columns `names` and rows `rows`, in this order, and,
if there are any, the spectra under the key `_mca_`. -/
structure TableOf (names : List Str) (rows : List (List PyFloat))
    (spectra : Option (Dict (List (List Num)))) (d : Dict DCol) : Prop where
  keys : d.keys = names ++ (if spectra.isSome then [p!"_mca_"] else [])
  width : ∀ r ∈ rows, r.length = names.length
  column : ∀ (i : Nat) (n : Str), names[i]? = some n →
    d.get? n = some (.col (rows.map (fun r => r.getD i .nan)))
  mca : ∀ s, spectra = some s → d.get? p!"_mca_" = some (.mca s)

/-- number of words of some lines together -/
def wordsIn (g : List Str) : Nat := (g.map (fun l => (splitWs l).length)).sum

/-- `g` holds no MCA line, and no non-empty part of it taken from its beginning has `N` words. -/
def Incomplete (N : Int) (g : List Str) : Prop :=
  (∀ l ∈ g, isMcaLine l = false) ∧ ∀ m, 0 < m → m ≤ g.length → (wordsIn (g.take m) : Int) ≠ N

/-- Lines `ls` of a scan with `#N N M`, combined to rows `out`: a row is made of the words of the
lines up to the one which completes `N` words.  MCA lines may only come last; they are kept as they
are, and incomplete lines are put together before them or else dropped. -/
inductive Combined (N : Int) : List Str → List Str → Prop
  | rest {g : List Str} : Incomplete N g → Combined N g []
  | row {g : List Str} {l row : Str} {ls out : List Str} : Incomplete N g → isMcaLine l = false →
      (wordsIn (g ++ [l]) : Int) = N → splitWs row = (g ++ [l]).flatMap splitWs →
      Combined N ls out → Combined N (g ++ l :: ls) (row :: out)
  | mca {g ms pre : List Str} : Incomplete N g → ms ≠ [] → (∀ l ∈ ms, isMcaLine l = true) →
      (pre = [] ∧ (∀ l ∈ g, l = []) ∨ ∃ row, pre = [row] ∧ splitWs row = g.flatMap splitWs) →
      Combined N (g ++ ms) (pre ++ ms)

/-- Lines of a scan with column numbers `nm` (of the #N line) combined to rows. -/
def CombinedBy : List Int → List Str → List Str → Prop
  | [_], ls, out => out = ls
  | [N, _], ls, out => Combined N ls out
  | _, _, _ => False

/-- The labels on a #L line, if `n` is the number of columns stated before it: labels are separated
by two spaces (or a tab).  If this gives a single label only, but the line has exactly `n > 1` words,
the labels are the words. -/
def labelsOn (n : Option Int) (line : Str) : List Str :=
  let t := stripFirstWord line
  match n with
  | some k => if (splitColumnLabels t).length = 1 ∧ k > 1 ∧ ((splitWs t).length : Int) = k
      then splitWs t else splitColumnLabels t
  | none => splitColumnLabels t

section
variable [UniDB]

/-- lines which hold data: those that start with a number, and those that start with `@A` -/
def dataLinesOf (lines : List Str) : List Str := lines.filter (fun l => isKind .data l || isKind .A l)

/-- `line` is the last line of kind `k` -/
def IsLast (k : HKey) (lines : List Str) (line : Str) : Prop :=
  ∃ pre post, lines = pre ++ line :: post ∧ isKind k line = true ∧ ∀ l ∈ post, isKind k l = false

/-- The numbers on the last #N line are `nm`. -/
def ColumnNumbers (lines : List Str) (nm : List Int) : Prop :=
  ∃ l, IsLast .N lines l ∧
    List.Forall₂ (fun w i => parseInt w = some i) (splitWs (stripFirstWord l)) nm

/-- The labels stated in the scan are `L`: those of the last #L line, given the last #N line
before it; none without #L line. -/
def StatedLabels (lines : List Str) (L : List Str) : Prop :=
  (L = [] ∧ ∀ l ∈ lines, isKind .L l = false) ∨
  ∃ pre l post, lines = pre ++ l :: post ∧ isKind .L l = true ∧ (∀ x ∈ post, isKind .L x = false) ∧
    ((∃ nm n, ColumnNumbers pre nm ∧ nm.head? = some n ∧ L = labelsOn (some n) l) ∨
      (L = labelsOn none l ∧ L.length ≠ 1))

end
end S2N.Spec
