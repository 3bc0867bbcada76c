import Verif.Model.Gallery
import Verif.Spec.File
import Verif.Spec.Utils
/-
Vocabulary for the properties of the gallery of plots.
-/
namespace S2N.Spec
open S2N S2N.Py S2N.Gallery S2N.Plot

/-- a scan name as SPEC and spec2nexus write it: no spaces or slashes, something before the dot, and no zero in
front of another digit -/
structure PlainName (n : Str) : Prop where
  ne : n ≠ []
  noSpace : ' ' ∉ n
  noSlash : '/' ∉ n
  noDot : n.head? ≠ some '.'
  noZero : ∀ c t, n = '0' :: c :: t → c = '.'

/-- the gallery directory of a file: base, year, month, name of the file without its extension -/
def galleryDir (base : Str) (year month : Nat) (root : Str) : Str :=
  base ++ p!"/" ++ dddd year ++ p!"/" ++ dd month ++ p!"/" ++ root

/-- the file begins with a line #F, a line #E and a line #D with this text -/
def Dated (content date : Str) : Prop :=
  ∃ a b sp rest, (∀ c ∈ sp, isSpace c = true) ∧ readlines (universalNewlines content) =
    (p!"#F " ++ a) :: (p!"#E " ++ b) :: (p!"#D " ++ date ++ sp) :: rest

/-- the file begins with a line #F, a line #E and a line #D -/
def Begins (content : Str) : Prop :=
  ∃ a b c rest, readlines (universalNewlines content) =
    (p!"#F " ++ a) :: (p!"#E " ++ b) :: (p!"#D " ++ c) :: rest

/-- the time and the size of the file that the cache of the gallery holds, both 0 if it holds none -/
def Holds (cfg : Cfg) (d : Disk) (fname : Str) (mtime size : Int) : Prop :=
  (d.get? (cachePath cfg) = none ∧ mtime = 0 ∧ size = 0) ∨
  ∃ c, d.get? (cachePath cfg) = some (.cache (some c)) ∧
    (c.get? fname = some (mtime, size) ∨ (c.get? fname = none ∧ mtime = 0 ∧ size = 0))

/-- nothing but the thing under this path is different -/
def SameBut (path : Str) (d d' : Disk) : Prop := ∀ p, p ≠ path → d'.get? p = d.get? p

/-- there is a plot file with this name in the directory -/
def IsPlotFile (d : Disk) (path name : Str) : Prop :=
  '/' ∉ name ∧ (∃ stem, name = stem ++ p!".svg") ∧ d.get? (pathJoin path name) ≠ none

/-- after the first `n` characters and white space the text goes on with a new scan -/
def NewScanNext (text : Str) (n : Nat) : Prop :=
  ∃ sp t, (∀ c ∈ sp, isSpace c = true) ∧ text.drop n = sp ++ p!"#S " ++ t

/-- the plots that are removed when the size of the file was `old` and is `new`: all if it is smaller; if
it is larger and the scan at the old end of the file goes on, the plot whose name is the last one in the
order of the names -/
def Outdated (d : Disk) (path text : Str) (old new : Int) (name : Str) : Prop :=
  0 < new ∧ (new < old ∨
    (old < new ∧ ¬ NewScanNext text old.toNat ∧ ∀ other, IsPlotFile d path other → strLe other name = true))

/-- `sdf` is what is read from the SPEC data file `fname` with this content, its scans have plain names
(at least 1), and `path` is its gallery directory; the file is not itself named like a plot or an index
page -/
structure Galleried [UniDB] (env : Env) (reg : List HKey) (cfg : Cfg) (fname content : Str) (sdf : Sdf) (path : Str) :
    Prop where
  file : (cfg.files fname).node = .file (some content)
  opened : Sdf.openFile env reg fname (cfg.files fname) (cfg.files fname) = .ok sdf
  headers : sdf.headers ≠ []
  dir : getPlotDir cfg.plotDir fname (.file (some content)) = .ok (some path)
  notPlot : (¬ ∃ stem, baseName fname = stem ++ p!".svg") ∧ baseName fname ≠ p!"index.html" ∧
    baseName fname ≠ []
  names : ∀ n ∈ sdf.scans.keys, Positive n ∧ PlainName n

/-- the selector of image makers after it was asked about these scans -/
def asked (sel : Selector) (xs : List Obj) : Selector := xs.foldl (fun s x => (Selector.auto (some x) s).1) sel

/-- what comes of plotting a scan to a new file: the image maker is chosen, it finds the data, the picture
is drawn.  No picture means that the scan has nothing to show. -/
def attempt [UniDB] (env : Env) (reg : List HKey) (cfg : Cfg) (fname : Str) (sel : Selector) (c : ScanCtx) :
    Except PyErr (Option Picture) :=
  match (Selector.auto (some c.scan) sel).2 with
  | .error e => .error e
  | .ok maker =>
    match (plotScan env reg maker {} fname (some (cfg.files fname).mtime) none c).2 with
    | .error e => .error e
    | .ok none => .ok none
    | .ok (some pic) =>
      match cfg.draw pic with
      | .error e => .error e
      | .ok () => .ok (some pic)

/-- the scan after this -/
def attempted [UniDB] (env : Env) (reg : List HKey) (cfg : Cfg) (fname : Str) (sel : Selector) (c : ScanCtx) : Obj :=
  match (Selector.auto (some c.scan) sel).2 with
  | .error _ => c.scan
  | .ok maker => (plotScan env reg maker {} fname (some (cfg.files fname).mtime) none c).1.scan

/-- what came of a scan in a run: nothing was done because its plot existed, or it was plotted -/
abbrev Out := Option (Except PyErr (Option Picture))

/-- the error of a scan that could not be plotted -/
def Out.error : Out → Option PyErr
  | some (.error e) => some e
  | _ => none

/-- the scan was plotted without an error -/
def Out.fine : Out → Bool
  | some (.ok _) => true
  | _ => false

/-- the plot file afterwards -/
def Out.file (now : Int) (before : Option GNode) : Out → Option GNode
  | none => before
  | some (.ok (some pic)) => some (.plot (some pic) now)
  | some _ => none

/-- what must come of the scan `n` of a file when the gallery was `d` and the size of the file was `old`: a
plot which exists and is not outdated is kept, otherwise the scan is plotted from what was read from the file -/
def Outcome [UniDB] (env : Env) (reg : List HKey) (cfg : Cfg) (fname path text : Str) (d : Disk) (old : Int)
    (sel : Selector) (n : Str) (x : Obj) (o : Out) (after : Obj) : Prop :=
  ((IsPlotFile d path (plotName n) ∧ ¬ Outdated d path text old (cfg.files fname).size (plotName n)) →
    o = none ∧ after = x) ∧
  (¬ (IsPlotFile d path (plotName n) ∧ ¬ Outdated d path text old (cfg.files fname).size (plotName n)) →
    ∃ xs hdr, o = some (attempt env reg cfg fname (asked sel xs) ⟨x, hdr⟩) ∧
      after = attempted env reg cfg fname (asked sel xs) ⟨x, hdr⟩)

/-- the run for the file `fname`, begun with the gallery in the state `s`, leaves it as `d` if it is
killed at some time, or at its end -/
def LeftBy [UniDB] (env : Env) (reg : List HKey) (cfg : Cfg) (fname : Str) (s : GS) (d : Disk) : Prop :=
  ∃ changes, (plotAllScans env reg cfg fname s).1.past = s.past ++ changes ∧ d ∈ s.disk :: changes

/-- the time of the first scan is not later than that of the second; the other way round if `reversed` -/
def byTime (reversed : Bool) (scan : Str → Obj) : Str → Str → Bool :=
  byKey (fun n => (scan n).epoch.map Num.toFlt) (fun a b => if reversed then PyFloat.le b a else PyFloat.le a b)

/-- the index page `page` of the file: the plots that exist, in the order of the times of the scans (or the
reverse; scans of the same time in the order of their numbers), and the scans with problems in the order of
their numbers -/
def IsPage (cfg : Cfg) (fname path : Str) (scans : Dict Obj) (after : Str → Obj) (out : Str → Out) (d : Disk)
    (page : Index) : Prop :=
  ∃ numbers order : List Str, IsStableSort Spec.numLe scans.keys numbers ∧ order.Perm numbers ∧
    ((∀ n ∈ scans.keys, ∀ t, (after n).epoch = some t → t.toFlt ≠ .nan) →
      IsStableSort (byTime cfg.reversed after) numbers order) ∧
    page.specFile = fname ∧
    page.plotted = (order.filter (fun n => d.has (pathJoin path (plotName n)))).map
      (fun n => (plotName n, p!"#" ++ n ++ p!": " ++ ((scans.get? n).map Obj.scanCmd).getD [])) ∧
    page.problems = numbers.filterMap (fun n => (Out.error (out n)).map fun e => (e, n))

end S2N.Spec
