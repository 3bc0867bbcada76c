import Verif.Model.GalleryPage
import Verif.Spec.Gallery
/-
Specification of the index page (C101) and of the gallery command (C102): how a reader takes the links and the
problems out of the text of a page, and which files the command works on.
-/
namespace S2N.Spec
open S2N Py Gallery

/-- the text after `pre` -/
def after? (pre s : Str) : Option Str := if pre.isPrefixOf s then some (s.drop pre.length) else none

/-- the text up to the next character `c`, and the text after this character -/
def until? (c : Char) : Str → Option (Str × Str)
  | [] => none
  | d :: t => if d = c then some ([], t) else (until? c t).map fun r => (d :: r.1, r.2)

/-- a link of the page, as a browser reads it (an attribute ends at the next quote): the target of the link, the image,
and the text shown for the image.  The line holds nothing else. -/
def readLink (line : Str) : Option (Str × Str × Str) := do
  let r ← after? p!"<a href=\"" line
  let (href, r) ← until? '"' r
  let r ← after? p!"><img src=\"" r
  let (src, r) ← until? '"' r
  let r ← after? p!" width=\"150\" height=\"75\" alt=\"" r
  let (alt, r) ← until? '"' r
  if r = p!"/></a>" then some (href, src, alt) else none

/-- an item of the list of problems: the kind of the error and the number of the scan -/
def readProblem (line : Str) : Option (Str × Str) := do
  let r ← after? p!"    <li><b>" line
  let (kind, r) ← until? '<' r
  let r ← after? p!"/b>: <tt>#S " r
  let (number, r) ← until? '<' r
  if r = p!"/tt></li>" then some (kind, number) else none

/-- the number in the heading of the plots, and in the heading of the problems -/
def readHeading (what line : Str) : Option Str := do
  let r ← after? p!"    <h2>" line
  let (number, r) ← until? ' ' r
  if r = what then some number else none

/-- the link to the copy of the data file: its target and its text -/
def readSource (line : Str) : Option (Str × Str) := do
  let r ← after? p!"    spec file: <a href='" line
  let (href, r) ← until? '\'' r
  let r ← after? p!">" r
  let (text, r) ← until? '<' r
  if r = p!"/a>" then some (href, text) else none

/-- the lines of a page -/
def pageLines (html : Str) : List Str := splitC '\n' html

/-- the machine and the names of exceptions are as usual: no line ends, and no `<` in the name of a class -/
structure HostPlain (h : Host) : Prop where
  program : '\n' ∉ h.program
  date : '\n' ∉ h.date
  workstation : '\n' ∉ h.workstation
  username : '\n' ∉ h.username
  version : '\n' ∉ h.version
  now : '\n' ∉ h.now
  classes : ∀ e, '\n' ∉ h.className e ∧ '<' ∉ h.className e

/-- a text without line ends and quotes -/
def Quotable (t : Str) : Prop := '\n' ∉ t ∧ '"' ∉ t

/-- the texts of the page do not get in the way of its marks: no line ends; no quotes in the names of plots and the
texts of links, no `<` in the numbers of scans with problems -/
structure PagePlain (i : Index) : Prop where
  file : '\n' ∉ i.specFile
  plots : ∀ p ∈ i.plotted, Quotable p.1 ∧ Quotable p.2
  problems : ∀ p ∈ i.problems, '\n' ∉ p.2 ∧ '<' ∉ p.2

/-- what the text `html` of a page tells to its reader is what `i` says: the links, in order, each to the image which
it shows; the problems, in order, with the names of the exceptions; the numbers of both; the copy of the file -/
structure Tells (className : PyErr → Str) (html : Str) (i : Index) : Prop where
  links : (pageLines html).filterMap readLink = i.plotted.map fun p => (p.1, p.1, p.2)
  problems : (pageLines html).filterMap readProblem = i.problems.map fun p => (className p.1, p.2)
  plotCount : (pageLines html).filterMap (readHeading p!"plotted scan(s)</h2>") = [natStr i.plotted.length]
  problemCount : (pageLines html).filterMap (readHeading p!"scan(s) with plotting problems</h2>") =
    if i.problems = [] then [] else [natStr i.problems.length]

/-- what is asked of the names of the scans and of their commands: no quotes (and no `<` and no line ends in the names) -/
def PlainScans (scans : Dict Obj) : Prop :=
  ∀ n x, (n, x) ∈ scans → ('\n' ∉ n ∧ '"' ∉ n ∧ '<' ∉ n) ∧ '"' ∉ x.scanCmd

/-! ### The command -/

/-- the files of a path given to the command: the file itself if it is a SPEC data file, the SPEC data files directly in it
if it is a directory (in the order of the directory), none if it does not exist -/
inductive FilesOf (t : Tree) : Str → List Str → Prop
  | missing {p : Str} (h : t.node p = .missing) : FilesOf t p []
  | file {p : Str} {c : Option Str} (h : t.node p = .file c) (hs : isSpecFile (t.node p) = true) : FilesOf t p [p]
  | other {p : Str} {c : Option Str} (h : t.node p = .file c) (hs : isSpecFile (t.node p) = false) : FilesOf t p []
  | dir {p : Str} (h : t.node p = .dir) :
    FilesOf t p (((t.names p).map (pathJoin p)).filter fun q => isSpecFile (t.node q))

/-- the files of all paths, one path after the other -/
inductive FilesOfAll (t : Tree) : List Str → List Str → Prop
  | nil : FilesOfAll t [] []
  | cons {p : Str} {ps fs gs : List Str} (h1 : FilesOf t p fs) (h2 : FilesOfAll t ps gs) : FilesOfAll t (p :: ps) (fs ++ gs)

/-- every file has a gallery directory below the base directory, and plain scans, as in C51 -/
def AllGalleried [UniDB] (env : Env) (reg : List HKey) (cfg : Cfg) (fs : List Str) : Prop :=
  ∀ f ∈ fs, ∃ content sdf path, Galleried env reg cfg f content sdf path

/-- `p` is the cache of file times, the gallery directory of one of the files, or is in one of these directories -/
def Reserved [UniDB] (env : Env) (reg : List HKey) (cfg : Cfg) (fs : List Str) (p : Str) : Prop :=
  p = cachePath cfg ∨ ∃ f ∈ fs, ∃ content sdf path, Galleried env reg cfg f content sdf path ∧
    (p = path ∨ ∃ name, '/' ∉ name ∧ p = pathJoin path name)

end S2N.Spec
