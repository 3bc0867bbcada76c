import Verif.Model.Charts
/-
The command `specplot specFile scan_number plotFile` — specplot.py:792-816.
The parsing of the arguments (argparse) is not modelled.  The plot file is its time and what was drawn in it, or any other content.
An image is written in one step.
-/
namespace S2N.Charts
open S2N.Plot

/-- what is in a file at the path of the plot -/
inductive PlotContent
  | drawn (d : Drawing)
  | other (t : Str)
  deriving DecidableEq, Repr

/-- a file at the path of the plot -/
structure PlotFile where
  content : PlotContent
  mtime : Int
  deriving DecidableEq, Repr

section
variable [UniDB]

/-- `main()` — specplot.py:800-816, in a new process (so `Selector()` is new — C54): the file at the path of the plot afterwards,
and the exception.  `f` is the data file, `now` the time given to a file written now. -/
def specplot (env : Env) (reg : List HKey) (ln : Rat → Rat) (specFile : Str) (f : FileSt) (scanNumber : Str) (now : Int)
    (plot : Option PlotFile) : Option PlotFile × Option PyErr :=
  match Sdf.openFile env reg specFile f f with
  | .error e => (plot, some e)
  | .ok s =>
    match s.getScan (.str scanNumber) with
    | .error e => (plot, some e)
    | .ok scan =>
      match (Selector.auto scan Selector.new).2, scan with
      | .error e, _ => (plot, some e)
      | .ok _, none => (plot, some .UnexpectedObjectTypeError)
      | .ok maker, some x =>
        match (plotScan env reg maker {} s.fileName (some f.mtime) (plot.map PlotFile.mtime) ⟨x, s.headerOf x⟩).2 with
        | .error e => (plot, some e)
        | .ok none => (plot, none)
        | .ok (some pic) =>
          match draw ln pic with
          | .error e => (plot, some e)
          | .ok d => (some ⟨.drawn d, now⟩, none)

end
end S2N.Charts
