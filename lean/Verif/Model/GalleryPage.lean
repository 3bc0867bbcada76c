import Verif.Model.Gallery
/-
Model of the rest of spec2nexus/specplot_gallery.py: the text of the index page, and the command (main).

`Model/Gallery.lean` keeps what an index page tells (`Index`); here is the text that is written for it.  What the page
says about the process (name of the program, date, host, user, version, process number) are parameters.  The log file,
`global SPECPLOTS_DIR` (which main declares and does not use) and argparse's own messages are not modelled.
-/
namespace S2N
namespace Gallery
open Py Plot

/-- DOC_URL — specplot_gallery.py:70 -/
def docUrl : Str := p!"https://prjemian.github.io/spec2nexus/specplot_gallery.html"

/-- what the page says about the process that made it — specplot_gallery.py:433-438, 472: `sys.argv[0]`,
`timestamp()`, the host, the user, the version, the process number and `datetime.datetime.now()`; and the name of
the class of an exception (line 214) -/
structure Host where
  program : Str
  date : Str
  workstation : Str
  username : Str
  version : Str
  pid : Int
  now : Str
  className : PyErr → Str

/-- `href_format(basePlotFile, altText)` — specplot_gallery.py:272-278 -/
def hrefFormat (basePlotFile altText : Str) : Str :=
  p!"<a href=\"" ++ basePlotFile ++ p!"\">" ++
  (p!"<img src=\"" ++ basePlotFile ++ p!"\"") ++
  p!" width=\"150\" height=\"75\"" ++
  (p!" alt=\"" ++ altText ++ p!"\"/>") ++
  p!"</a>"

/-- the message about a scan that was not plotted — specplot_gallery.py:214-219 -/
def problemText (h : Host) (e : PyErr) (scanNum : Str) : Str :=
  (p!"<b>" ++ h.className e ++ p!"</b>") ++ (p!": <tt>#S " ++ scanNum ++ p!"</tt>")

/-- the comment of the page — specplot_gallery.py:432-438 -/
def pageComment (h : Host) : Str :=
  p!"\n" ++ (p!"   written by: " ++ h.program ++ p!"\n") ++ (p!"   date: " ++ h.date ++ p!"\n") ++
  (p!"   workstation: " ++ h.workstation ++ p!"\n") ++ (p!"   username: " ++ h.username ++ p!"\n") ++
  (p!"   version: " ++ h.version ++ p!"\n") ++ (p!"   pid: " ++ intStr h.pid ++ p!"\n")

/-- `buildIndexHtml(specFile, plotted_scans, problem_scans)` — specplot_gallery.py:422-482 -/
def buildIndexHtml (h : Host) (specFile : Str) (plotted problems : List Str) : Str :=
  let href := p!"<a href='" ++ baseName specFile ++ p!"'>" ++ specFile ++ p!"</a>"
  p!"<html>\n" ++ p!"  <head>\n" ++
  (p!"    <title>SPEC scans from " ++ baseName specFile ++ p!"</title>\n") ++
  (p!"    <!-- " ++ pageComment h ++ p!" -->\n") ++
  p!"  </head>\n" ++ p!"  <body>\n" ++
  (p!"    <h1>SPEC scans from: " ++ baseName specFile ++ p!"</h1>\n") ++
  p!"\n" ++ (p!"    spec file: " ++ href ++ p!"\n") ++ p!"    <br />\n" ++ p!"\n" ++
  (if 0 < problems.length then
    (p!"    <h2>" ++ natStr problems.length ++ p!" scan(s) with plotting problems</h2>\n") ++ p!"\n" ++
    p!"    <ul>\n" ++ problems.flatMap (fun item => p!"    <li>" ++ item ++ p!"</li>\n") ++ p!"    </ul>\n"
   else []) ++
  p!"\n" ++ (p!"    <h2>" ++ natStr plotted.length ++ p!" plotted scan(s)</h2>\n") ++ p!"\n" ++
  join p!"\n" plotted ++ p!"\n" ++ p!"\n" ++ p!"    <hr />\n" ++
  (p!"    <center><small>" ++ (p!"page created: " ++ h.now ++
    (p!", specplot_gallery documentation: <a href=\"" ++ docUrl ++ p!"\">" ++ docUrl ++ p!"</a>")) ++
    p!"</small></center>\n") ++
  p!"\n" ++ p!"  </body>\n" ++ p!"</html>\n"

/-- the text that is written for an index page — specplot_gallery.py:154, 214-219, 230-240 -/
def Index.html (h : Host) (i : Index) : Str :=
  buildIndexHtml h i.specFile (i.plotted.map fun p => hrefFormat p.1 p.2)
    (i.problems.map fun p => problemText h p.1 p.2)

/-! ### The command -/

/-- a path given to the command, with what `os.listdir` gives for it (in any order) if it is a directory -/
structure Tree where
  node : Str → FNode
  names : Str → List Str

/-- `only_accept_spec_files(fname)` — specplot_gallery.py:538-540: what it appends -/
def onlyAcceptSpecFiles (t : Tree) (fname : Str) : List Str :=
  if (t.node fname).exists && isSpecFile (t.node fname) then [fname] else []

/-- the loop over the paths — specplot_gallery.py:536-548: the list of files.  Every node is missing, a file or a
directory. -/
def fileList (t : Tree) (paths : List Str) : List Str :=
  paths.flatMap fun item =>
    if (t.node item).exists then
      if (t.node item).isFile then onlyAcceptSpecFiles t item
      else (t.names item).flatMap fun subitem => onlyAcceptSpecFiles t (pathJoin item subitem)
    else []

/-- what the command is given: `-d`, the working directory, the paths -/
structure Args where
  dir : Option Str
  pwd : Str
  paths : List Str
  reversed : Bool

/-- `args.dir or pwd` — specplot_gallery.py:530 -/
def Args.base (a : Args) : Str :=
  match a.dir with
  | none => a.pwd
  | some [] => a.pwd
  | some d => d

/-- the configuration of the run — specplot_gallery.py:555-559, 99-105: `plotDir or os.getcwd()` is the base directory
as it exists -/
def Args.cfg (a : Args) (files : Str → FileSt) (now : Int) (draw : Picture → Except PyErr Unit) : Cfg :=
  { plotDir := a.base, reversed := a.reversed, files := files, now := now, draw := draw }

section
variable [UniDB]

/-- how the command ends: it refuses the base directory, or the run ends -/
inductive Ends
  | noDirectory
  | notDirectory
  | ran (failed : Option PyErr)
  deriving DecidableEq, Repr

/-- `main()` — specplot_gallery.py:489-560 -/
def main (env : Env) (reg : List HKey) (a : Args) (files : Str → FileSt) (names : Str → List Str) (now : Int)
    (draw : Picture → Except PyErr Unit) (s : GS) : GS × Ends :=
  if (files a.base).node.exists = false then (s, .noDirectory)
  else if (files a.base).node ≠ .dir then (s, .notDirectory)
  else
    let r := run env reg (a.cfg files now draw) (fileList ⟨fun p => (files p).node, names⟩ a.paths) s
    (r.1, .ran r.2)

end
end Gallery
end S2N
