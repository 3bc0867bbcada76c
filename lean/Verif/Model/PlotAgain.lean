import Verif.Model.Plot
/-
Model of one image maker of /repo/spec2nexus/specplot.py that is used for several scans: what stays in the object between the calls
of `plot_scan`.
-/
namespace S2N
open Py
namespace Plot

section
variable [UniDB]

/-- the settings after `make_image`: a mesh plotter sets three of them, when it draws an image — specplot.py:625-633 -/
def imaged (m : Maker) (s : St) : St :=
  match m, image m s with
  | .mesh, .ok (some (.image _ _ set)) => { s with set := set }
  | _, _ => s

/-- the rest of `plot_scan`, when `retrieve_plot_data` is done — specplot.py:382-395 -/
def drawn (m : Maker) (data plot : Option Int) (r : Res St) : St × Except PyErr (Option Picture) :=
  match r.2 with
  | some .KeyError => (r.1, .error (if r.1.ctx.scan.aborted.isSome then .ScanAborted else .KeyError))
  | some e => (r.1, .error e)
  | none =>
    let o := options m r.1
    match o.2 with
    | some e => (o.1, .error e)
    | none =>
      match plottable m o.1 with
      | .error e => (o.1, .error e)
      | .ok false => (o.1, .ok none)
      | .ok true =>
        match newer data plot with
        | .error e => (o.1, .error e)
        | .ok false => (o.1, .ok none)
        | .ok true => (imaged m o.1, image m o.1)

/-- `plot_scan(scan, plotFile)` of an image maker that is in the state `s` (of which the scan does not matter: it is set anew) —
specplot.py:357-395.  The object afterwards, and what is drawn. -/
def plotOn (env : Env) (reg : List HKey) (m : Maker) (dataFile : Str) (data plot : Option Int) (c : ScanCtx) (s : St) :
    St × Except PyErr (Option Picture) :=
  if c.scan.aborted = some abortText then ({ s with ctx := c }, .error .ScanAborted)
  else drawn m data plot (retrieved env reg m (titles dataFile { s with ctx := c }))

/-- one call of `plot_scan`: the scan, the name and time of its data file, the time of the plot file -/
structure Job where
  ctx : ScanCtx
  dataFile : Str
  data : Option Int
  plot : Option Int

/-- the object after calls of `plot_scan`, with or without exceptions; `c` stands for the scan that a new object does not have -/
def afterJobs (env : Env) (reg : List HKey) (m : Maker) (jobs : List Job) (s : St) : St :=
  jobs.foldl (fun s j => (plotOn env reg m j.dataFile j.data j.plot j.ctx s).1) s

end
end Plot
end S2N
