import Verif.Model.Cli
import Verif.Spec.Data
/-
Vocabulary for properties about the command-line programs.
-/
namespace S2N.Spec
open S2N S2N.Py

/-- what a term of a list of scan numbers means: a number, or all numbers from one to another -/
inductive Term
  | one (n : Int)
  | range (a b : Int)
  deriving DecidableEq, Repr

/-- `k` is among the numbers -/
def Term.has : Term → Int → Prop
  | .one n, k => k = n
  | .range a b, k => a ≤ k ∧ k ≤ b

/-- a text of the form `n` or `a-b`, and its meaning -/
inductive Stands : Str → Term → Prop
  | one {t : Str} {n : Int} : '-' ∉ t → parseInt t = some n → Stands t (.one n)
  | range {t u : Str} {a b : Int} : '-' ∉ t → '-' ∉ u → parseInt t = some a → parseInt u = some b →
      Stands (t ++ '-' :: u) (.range a b)

/-- `l` holds the decimal texts of the numbers from `a` to `b`, in increasing order -/
structure Counts (a b : Int) (l : List Str) : Prop where
  length : (l.length : Int) = max 0 (b + 1 - a)
  value : ∀ (i : Nat) (t : Str), l[i]? = some t → t = intStr (a + i)

/-- what a term of the option `-s` of extractSpecScan is replaced by: a range by its numbers, and a
text without a dash, or with a leading dash, by itself -/
inductive Expands : Str → List Str → Prop
  | negative {t : Str} : Expands ('-' :: t) ['-' :: t]
  | plain {t : Str} : '-' ∉ t → Expands t [t]
  | range {t u : Str} {a b : Int} {l : List Str} : '-' ∉ t → '-' ∉ u → parseInt t = some a →
      parseInt u = some b → Counts a b l → Expands (t ++ '-' :: u) l

/-- the file under the name `n` is the same in both states -/
def SameFile (d d' : Fs) (n : Str) : Prop := d'.at? n = d.at? n

/-- `x` is what saving the selected scans of the SPEC file `infile` in `d` gives -/
def Converted [UniDB] (env : Env) (reg : List HKey) (v : Writer.Versions) (scans : Option (List Int))
    (d : Fs) (infile : Str) (x : H5) : Prop :=
  ∃ sdf all s, Sdf.openFile env reg infile (Stored.file (d.at? infile)) (Stored.file (d.at? infile)) = .ok sdf ∧
    sdf.getScanNumbers = .ok all ∧
    Writer.save env reg v ((Nexus.pickScans all scans).map .str) sdf = (s, none) ∧ x = s.h5

/-- `text` is the output of extractSpecScan for a scan with columns `names` and rows `rows`: comment
lines, which begin with the names of the file and the scan, then a line with the labels asked for
(unless switched off), then for each row a line with the values in the columns asked for, in the
order in which they were asked for, separated by tabs. -/
def RowsText (show_ : PyFloat → Str) (a : Extract.Args) (scanNum : Str) (names : List Str)
    (rows : List (List PyFloat)) (text : Str) : Prop :=
  ∃ more : List Str, (∀ l ∈ more, startsWith l p!"#" = true) ∧
    text = join p!"\n" ([p!"# file: " ++ a.specFile, p!"# scan: " ++ scanNum] ++ more) ++ p!"\n" ++
      join p!"\n" ((if a.labels then [p!"# " ++ join p!"\t" a.column] else []) ++
        rows.map (fun r => join p!"\t" (a.column.map (fun l => show_ (r.getD (names.idxOf l) .nan)))))

/-- the same for a scan without data points: comments only -/
def EmptyText (a : Extract.Args) (scanNum : Str) (text : Str) : Prop :=
  ∃ more : List Str, (∀ l ∈ more, startsWith l p!"#" = true) ∧
    text = join p!"\n" ([p!"# file: " ++ a.specFile, p!"# scan: " ++ scanNum] ++ more)

/-- `lines` lists the entries of the dictionary `d`, by name in alphabetical order: in each line the
tag, the name and the value, separated by tabs -/
def Listing {α : Type} (tag : Str) (text : α → Str) (d : Dict α) (lines : List Str) : Prop :=
  ∃ items : List (Str × α), items.Perm d ∧ items.Pairwise (fun p q => strLe p.1 q.1 = true) ∧
    lines = items.map (fun p => tag ++ p!"\t" ++ p.1 ++ p!"\t" ++ text p.2)

/-- `lines` is what extractSpecScan says of the heading of the scan `x`: the geometry parameters with
-G (spaces replaced by tabs), the positioners with -P, h k l with -Q (if the scan has it), the metadata
with -V, and nothing else -/
def Heading (show_ : PyFloat → Str) (a : Extract.Args) (x : Obj) (lines : List Str) : Prop :=
  ∃ g p q v, lines = g ++ p ++ q ++ v ∧
    (if a.G then Listing p!"#G" (fun t => t.map (fun c => if c = ' ' then '\t' else c)) (x.G.getD []) g else g = []) ∧
    (if a.P then Listing p!"#P" show_ x.positioner p else p = []) ∧
    (q = if a.Q ∧ (x.Q.getD []) ≠ [] then [p!"#Q\t" ++ join p!"\t" ((x.Q.getD []).map show_)] else []) ∧
    (if a.V then Listing p!"#V" (fun v : MVal => match v with | .num n => show_ n | .str s => s) (x.metadata.getD []) v
      else v = [])

/-- the comment lines around the lines of the heading; without such lines there is none -/
def framed (lines : List Str) : List Str :=
  if lines = [] then [] else
    [p!"#", p!"# data from scan heading"] ++ lines ++ [p!"#", p!"# scan data:", p!"#"]

section
variable [UniDB]

/-- the names of the columns of a scan with data lines and text `raw`: its labels, made unique -/
def ColumnNames (raw : Str) (names : List Str) : Prop :=
  ∃ labels, StatedLabels (scanLines raw) labels ∧ Renamed labels names

/-- the rows of the table of the scan with columns `names`: the complete lines of its data lines, put
together as the #N line says -/
def ScanRows (raw : Str) (names : List Str) (rows : List (List PyFloat)) : Prop :=
  ∃ nm lines, ColumnNumbers (scanLines raw) nm ∧ CombinedBy nm (dataLinesOf (scanLines raw)) lines ∧
    List.Forall₂ NumbersOf (lines.filter (isCompleteRow names.length)) rows

end

end S2N.Spec
