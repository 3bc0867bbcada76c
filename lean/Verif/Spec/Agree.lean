import Verif.Spec.Arrive
import Verif.Spec.Plot
import Verif.Spec.Cli
/-
Vocabulary for the agreement of the tools on the data of a scan.
-/
namespace S2N.Spec
open S2N S2N.Py

section
variable [UniDB]

/-- The columns of a scan with this text can be told apart in a NeXus file: there are labels, none of the columns is named like the
key of the spectra, and the labels of all datasets have different cleaned names. -/
def ClearColumns (raw : Str) : Prop :=
  ∀ labels names, StatedLabels (scanLines raw) labels → Renamed labels names →
    labels ≠ [] ∧ p!"_mca_" ∉ names ∧ ((allLabels raw names).map cleanName).Nodup

/-- In the file, the group `data` of the entry of the scan `k` holds the dataset `name` with exactly these values; it was made of
the column with this label. -/
def HoldsColumn (h5 : H5) (k : Ref) (name label : Str) (values : List PyFloat) : Prop :=
  ∃ a, datasetAt h5 [entryName k, p!"data", name] = some (.nums ⟨values.map .flt, [values.length]⟩, a) ∧
    a.get? p!"spec_name" = some (.str label)

end
end S2N.Spec
