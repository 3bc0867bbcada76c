import Verif.Spec.H5
/-
Vocabulary for the statements about UXML metadata: the elements of the document with their places in
the file, and what is written for an element.
-/
namespace S2N.Spec
open S2N Py

/-- the tag of an element -/
def tagOf : XmlNode → Str
  | .mk tag _ _ _ => tag

/-- an attribute of an element -/
def attrOf (n : XmlNode) (k : Str) : Option Str :=
  match n with
  | .mk _ attrib _ _ => attrib.get? k

/-- the text of an element -/
def textOf : XmlNode → Option Str
  | .mk _ _ text _ => text

/-- the name of the object that an element describes -/
def nameIn (n : XmlNode) : Str := (attrOf n p!"name").getD []

mutual
/-- The element and, for a group, the elements in it, in the order of the document, each with the path of
its object, if the object of the enclosing element has the path `p`. -/
def places (p : List Str) : XmlNode → List (List Str × XmlNode)
  | .mk tag attrib text children =>
    (p ++ [nameIn (.mk tag attrib text children)], .mk tag attrib text children) ::
      (if tag = p!"group" then placesAll (p ++ [nameIn (.mk tag attrib text children)]) children else [])
/-- the same for several elements -/
def placesAll (p : List Str) : List XmlNode → List (List Str × XmlNode)
  | [] => []
  | n :: ns => places p n ++ placesAll p ns
end

/-- every element has a name, which is a simple ASCII name, and no attribute twice -/
def NodeOk (n : XmlNode) : Prop :=
  (∃ nm, attrOf n p!"name" = some nm ∧ nm ≠ [] ∧ nm ≠ ['.'] ∧ ∀ c ∈ nm, c ≠ '/' ∧ c.toNat < 128) ∧
  match n with
  | .mk _ attrib _ _ => attrib.keys.Nodup

/-- the id by which hard links refer to the object of a dataset or group element -/
def idOf (n : XmlNode) : Option Str :=
  if tagOf n = p!"dataset" ∨ tagOf n = p!"group" then attrOf n p!"unique_id" else none

/-- the id to which a hard link refers -/
def linkTo (n : XmlNode) : Option Str :=
  if tagOf n = p!"hardlink" then attrOf n p!"target_id" else none

/-- the place of the last element for which `f` is `t` -/
def lastPlace (f : XmlNode → Option Str) (t : Str) (els : List (List Str × XmlNode)) : Option (List Str) :=
  ((els.filter (fun e => decide (f e.2 = some t))).getLast?).map (·.1)

/-- `v` is the value of a dataset element: an integer, a float or (by default) a text -/
def XmlValue (n : XmlNode) (v : HData) : Prop :=
  ((attrOf n p!"type").getD p!"str" = p!"int" ∧
    ∃ t i, textOf n = some t ∧ parseInt t = some i ∧ v = .nums ⟨[.int i], [1]⟩) ∨
  ((attrOf n p!"type").getD p!"str" = p!"float" ∧
    ∃ t x, textOf n = some t ∧ parseFloat t = some x ∧ v = .nums ⟨[.flt x], [1]⟩) ∨
  ((attrOf n p!"type").getD p!"str" = p!"str" ∧ v = .text [ascii ((textOf n).getD p!"None")])

/-- `a` are the attributes of the element except those in `out`; besides there may be an attribute
"target", given to the objects of hard links -/
def XmlAttrs (n : XmlNode) (out : List Str) (a : Dict AVal) : Prop :=
  ∀ k, (∀ v, attrOf n k = some v → k ∉ out → a.get? k = some (.str v)) ∧
    ((attrOf n k = none ∨ k ∈ out) → k ≠ p!"target" → a.get? k = none)

/-- The object of an element is at this place of the file. -/
def Element (s : H5) (path : List Str) (n : XmlNode) : Prop :=
  (tagOf n = p!"dataset" → ∃ v a, datasetAt s path = some (v, a) ∧ XmlValue n v ∧
    XmlAttrs n [p!"name", p!"type", p!"unique_id"] a) ∧
  (tagOf n = p!"group" → ∃ a, groupAt s path = some a ∧ (attrOf n p!"NX_class").isSome ∧
    XmlAttrs n [p!"name", p!"unique_id"] a)

/-- the elements of a document, with their places below the group "UXML" -/
def elements : XmlNode → List (List Str × XmlNode)
  | .mk _ _ _ children => placesAll [] children

/-- every element of the document of an object is acceptable -/
def DocumentOk (d : Option XmlNode) : Prop := ∀ root, d = some root → ∀ e ∈ elements root, NodeOk e.2

/-- both paths lead to the same object -/
def SameObject (s : H5) (p q : List Str) : Prop := ∃ j, H5.walk s 0 p = some j ∧ H5.walk s 0 q = some j

/-- the group "UXML" of the entry -/
def UxmlGroup (s : H5) (E : Str) : Prop :=
  ∃ a, groupAt s [E, p!"UXML"] = some a ∧ a.get? p!"NX_class" = some (.str p!"NXnote") ∧
    a.get? p!"desc" = some (.str p!"UXML metadata")

end S2N.Spec
