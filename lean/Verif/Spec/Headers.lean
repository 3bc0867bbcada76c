import Verif.Spec.Opens
/-
Vocabulary for the properties from the text of a header to the NeXus file.
-/
namespace S2N.Spec
open S2N S2N.Py

section
variable [UniDB]

/-- no handler recognizes the line of a header, and it is not empty -/
def hUnknown (line : Str) : Bool := !line.isEmpty && HKey.all.all (fun h => !hKind h line)

/-- the lines of a header that nothing recognizes -/
def hUnrecognized (text : Str) : List Str := (splitlines text).filter (fun l => hUnknown l || hKind .unrec l)

/-- what the lines of kind `k` of a header say -/
def hTexts (k : HKey) (text : Str) : List Str := (hOfKind k (splitlines text)).map stripFirstWord

/-- some texts, or no attribute at all -/
def textsOrNone (l : List Str) : Option (List Str) := if l = [] then none else some l

/-- the attributes of a header are what its text says -/
structure HeaderStates (x : Obj) : Prop where
  tables : HeaderSays x
  R : x.R = textsOrNone (hTexts .R x.raw)
  U : x.U = textsOrNone (hTexts .U x.raw)
  unrecognized : x.unrecognized = textsOrNone (hUnrecognized x.raw)
  counters : hOfKind .j (splitlines x.raw) ≠ [] → hOfKind .J (splitlines x.raw) ≠ [] →
    ∃ d, x.counterXref = some d ∧ LastWins d (pairTables (wordTable .j (splitlines x.raw)) (wordTable .J (splitlines x.raw)))
  noCounters : hOfKind .j (splitlines x.raw) = [] ∨ hOfKind .J (splitlines x.raw) = [] → x.counterXref = none
  positioners : hOfKind .o (splitlines x.raw) ≠ [] →
    ∃ d, x.positionerXref = some d ∧ LastWins d (pairTables (wordTable .o (splitlines x.raw)) (namesTable (hOfKind .O (splitlines x.raw))))
  noPositioners : hOfKind .o (splitlines x.raw) = [] → x.positionerXref = none

end
end S2N.Spec
