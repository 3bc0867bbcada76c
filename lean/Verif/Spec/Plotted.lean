import Verif.Spec.History
import Verif.Model.PlotAgain
/-
What may have been done with an open data file, plotting included.
-/
namespace S2N.Spec
open S2N Py

section
variable [UniDB]

/-- `maker.plot_scan(file.scans[n], plotFile)` with an image maker in the state `o`: the file afterwards (its scan and the header of
that may have been changed), the object afterwards, and what was drawn -/
def plotIn (env : Env) (reg : List HKey) (m : Plot.Maker) (o : Plot.St) (data plot : Option Int) (n : Str) (s : Sdf) :
    Sdf × Plot.St × Except PyErr (Option Plot.Picture) :=
  match s.scans.get? n with
  | none => (s, o, .error .KeyError)
  | some x =>
    let r := Plot.plotOn env reg m s.fileName data plot ⟨x, s.headerOf x⟩ o
    ({ s with scans := s.scans.set n r.1.ctx.scan, headers := s.headers.set x.hdrIdx r.1.ctx.hdr }, r.1, r.2)

/-- The file was opened as `s`; then attributes of scans were read, scans were saved to NeXus files, and scans were plotted by line
plotters (new ones, or ones that were used before), in any order, with or without an exception; now the object is `t`.  The scans that
were used can be interpreted, and no mesh was saved. -/
inductive Uses (env : Env) (reg : List HKey) (s : Sdf) : Sdf → Prop
  | opened : Uses env reg s s
  | read {t : Sdf} (n attr : Str) (h : Uses env reg s t)
      (hn : ∀ x, s.scans.get? n = some x → (interpretScan env reg ⟨x, s.headerOf x⟩).2 = none) :
      Uses env reg s (t.access env reg n attr).1
  | saved {t : Sdf} (v : Writer.Versions) (ks : List Ref) (h : Uses env reg s t)
      (hk : ∀ k ∈ ks, ∀ x, s.getScan k = .ok (some x) →
        (interpretScan env reg ⟨x, s.headerOf x⟩).2 = none ∧ NotBy x meshMacros) :
      Uses env reg s (Writer.save env reg v ks t).1.sdf
  | plotted {t : Sdf} (n : Str) (o : Plot.St) (data plot : Option Int) (h : Uses env reg s t)
      (hn : ∀ x, s.scans.get? n = some x → (interpretScan env reg ⟨x, s.headerOf x⟩).2 = none) :
      Uses env reg s (plotIn env reg .line o data plot n t).1

end
end S2N.Spec
