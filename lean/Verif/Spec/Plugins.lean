import Verif.Spec.Headers
import Verif.Spec.Entry
import Verif.Spec.SetPoint
import Verif.Spec.Data
/-
Vocabulary for the lines of plug-ins in headers: #VA, #VD, #VE, #MD, #UXML, #X and #@.
-/
namespace S2N.Spec
open S2N S2N.Py

/-- a dictionary with the last value of each key, or no attribute at all -/
def DictOrNone {α : Type} (o : Option (Dict α)) (items : List (Str × α)) : Prop :=
  (items = [] → o = none) ∧ (items ≠ [] → ∃ d, o = some d ∧ LastWins d items)

/-- the kind of the lines of parameters -/
def Xpcs.kind : Xpcs → HKey
  | .VA => .VA
  | .VD => .VD
  | .VE => .VE

/-- what a line states, or nothing without a line -/
def StatedBy {α : Type} (l : Option Str) (P : Str → α → Prop) (o : Option α) : Prop :=
  match l with
  | none => o = none
  | some l => ∃ v, o = some v ∧ P l v

section
variable [UniDB]

/-- the keys and texts of the lines of kind `k` of a header -/
def keyedLines (k : HKey) (text : Str) : List (Str × Str) :=
  (hOfKind k (splitlines text)).map (fun l => (lstripC '#' ((splitWs l).headD []), stripFirstWord l))

/-- the XML text of some #UXML lines -/
def xmlText (ls : List Str) : Str := join ['\n'] (ls.map stripFirstWord)

/-- the attributes that plug-ins give to a header are what its text says -/
structure HeaderPlugins (env : Env) (x : Obj) : Prop where
  parameters : ∀ i : Xpcs, DictOrNone (i.of x) (keyedLines i.kind x.raw)
  noMetadata : hOfKind .MD (splitlines x.raw) = [] → x.MD = none
  someMetadata : hOfKind .MD (splitlines x.raw) ≠ [] → x.MD.getD [] ≠ []
  metadata : ∀ items : List (Str × Str), items ≠ [] → (∀ kv ∈ items, kv.1 ≠ [] ∧ ∀ ch ∈ kv.1, isSpace ch = false ∧ ch ≠ '=') →
    hOfKind .MD (splitlines x.raw) = items.map (fun kv => mdLine kv.1 kv.2) →
    ∃ d, x.MD = some d ∧ LastWins d (items.map (fun kv => (kv.1, strip kv.2)))
  noDocument : hOfKind .UXML (splitlines x.raw) = [] → x.uxmlRoot = none
  document : hOfKind .UXML (splitlines x.raw) ≠ [] →
    ∃ root, env.xmlParse (xmlText (hOfKind .UXML (splitlines x.raw))) = .ok root ∧ x.uxmlRoot = some root
  noSetpoints : hOfKind .X (splitlines x.raw) = [] → x.tempSP = none ∧ x.degcSP = none
  setpoints : ∀ l p q, (hOfKind .X (splitlines x.raw)).getLast? = some l → TempLine l p q →
    x.tempSP = some (.flt (.fin p)) ∧ x.degcSP = some (.flt (.fin q))
  calib : StatedBy (hOfKind .CALIB (splitlines x.raw)).getLast? ThreeNumbers (x.mca.bind (·.calib))
  chann : StatedBy (hOfKind .CHANN (splitlines x.raw)).getLast? Channels (x.mca.bind (·.chann))
  ctime : StatedBy (hOfKind .CTIME (splitlines x.raw)).getLast? (fun l v => NumbersOf (stripFirstWord l) [v.1, v.2.1, v.2.2]) (x.mca.bind (·.ctime))
  noMca : (∀ l ∈ splitlines x.raw, hKind .CALIB l = false ∧ hKind .CHANN l = false ∧ hKind .CTIME l = false ∧ hKind .ROI l = false) → x.mca = none

end
end S2N.Spec
