import Verif.Spec.Entry
import Verif.Spec.Data
import Verif.Spec.Save
import Verif.Lemmas.Header
/-
Vocabulary for the properties from the text of a SPEC data file to the NeXus file.
-/
namespace S2N.Spec
open S2N S2N.Py

section
variable [UniDB]

/-- The sections of a SPEC data file: headers have no #P lines, and no mnemonic on a #j or #o line starts with "/". -/
structure PlainSections (texts : List Str) : Prop where
  noP : ∀ t ∈ texts, isHeaderText t = true → ∀ l ∈ splitlines t, hKind .P l = false
  headers : ∀ t ∈ texts, isHeaderText t = true → ∀ l ∈ splitlines t, hKind .j l = true ∨ hKind .o l = true →
    ∀ w ∈ splitWs (stripFirstWord l), Relative w
  scans : ∀ t ∈ texts, isScanText t = true → ∀ l ∈ scanLines t, isKind .j l = true ∨ isKind .o l = true →
    ∀ w ∈ splitWs (stripFirstWord l), Relative w

/-- The file with these sections was opened as `s`, and the scans `ks` of it were saved as `r`. -/
structure Conversion (env : Env) (reg : List HKey) (texts : List Str) (s : Sdf) (ks : List Ref) (r : Writer.SState) : Prop where
  opened : ∃ name f stat, Sdf.openFile env reg name f stat = .ok s ∧ dissectFile f.node = .ok texts
  plain : PlainSections texts
  keys : ∀ k ∈ ks, PlainText k.text
  saved : ∃ v, Writer.save env reg v ks s = (r, none)

/-- the lines of a scan with MCA data -/
def mcaLines (text : Str) : List Str := (dataLinesOf (scanLines text)).filter isMcaLine

/-- the labels of the datasets of a scan, given those of its columns -/
def allLabels (text : Str) (names : List Str) : List Str :=
  names ++ (firstOcc ((mcaLines text).map mcaName)).flatMap mcaLabels

end
end S2N.Spec
