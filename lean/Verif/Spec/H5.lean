import Verif.Model.Writer
/-
Vocabulary for the statements about HDF5 files.
-/
namespace S2N.Spec
open S2N Py

/-- the object at `/c1/c2/...` -/
def objAt (s : H5) (path : List Str) : Option HNode :=
  match H5.walk s 0 path with
  | some i => s[i]?
  | none => none

/-- contents and attributes of the dataset at a path -/
def datasetAt (s : H5) (path : List Str) : Option (HData × Dict AVal) :=
  match objAt s path with
  | some (.dset d a) => some (d, a)
  | _ => none

/-- attributes of the group at a path -/
def groupAt (s : H5) (path : List Str) : Option (Dict AVal) :=
  match objAt s path with
  | some (.group _ a) => some a
  | _ => none

/-- names of the children of the group at a path -/
def childrenAt (s : H5) (path : List Str) : List Str :=
  match objAt s path with
  | some (.group ch _) => ch.keys
  | _ => []

/-- the attribute of an object -/
def attrAt (s : H5) (path : List Str) (k : Str) : Option AVal :=
  match objAt s path with
  | some n => n.attrs.get? k
  | none => none

/-- every object other than `i` is as it was -/
def OnlyChanged (s s' : H5) (i : Nat) : Prop :=
  ∀ j, j < s.length → j ≠ i → s'[j]? = s[j]?

/-- the same value, or the same children -/
def SameContents : HNode → HNode → Prop
  | .group ch _, .group ch' _ => ch = ch'
  | .dset d _, .dset d' _ => d = d'
  | _, _ => False

/-- the operations of eznx.py that add something -/
inductive EzOp
  | addAttributes (h : HRef) (attr : Dict AVal)
  | makeGroup (h : HRef) (name cls : Str) (attr : Dict AVal)
  | openGroup (h : HRef) (name cls : Str) (attr : Dict AVal)
  | makeDataset (h : HRef) (name : Str) (d : PData) (attr : Dict AVal)
  | makeLink (h src : HRef) (target : Str)

/-- one operation -/
def runOp : EzOp → HM Unit
  | .addAttributes h a => Eznx.addAttributes h a
  | .makeGroup h n c a => HM.andThen (Eznx.makeGroup h n c a) fun _ => HM.ret ()
  | .openGroup h n c a => HM.andThen (Eznx.openGroup h n c a) fun _ => HM.ret ()
  | .makeDataset h n d a => HM.andThen (Eznx.makeDataset h n d a) fun _ => HM.ret ()
  | .makeLink h src t => Eznx.makeLink h src t

/-- the file after some operations, with or without success -/
def history : List EzOp → H5 → H5
  | [], s => s
  | op :: ops, s => history ops (runOp op s).1

/-- rows of different lengths -/
def Ragged (l : List (List Num)) : Prop := ∃ r1 ∈ l, ∃ r2 ∈ l, r1.length ≠ r2.length

/-- the numbers of an array have one type: floats if there is a float among them -/
def sameType (l : List Num) : List Num :=
  match l.filter (fun n => match n with | .flt _ => true | .int _ => false) with
  | [] => l
  | _ :: _ => l.map (fun n => .flt (match n with | .flt x => x | .int i => .fin i))

/-- what reading a dataset gives after data `d` were written: a single value for a list with one
element, None is read as the empty text, a list of texts as an array of byte strings; an empty list
and an array of more than one dimension cannot be read -/
def readBack : PData → Except PyErr Eznx.Field
  | .none => .ok (.str [])
  | .str s => .ok (.str (ascii s))
  | .num n => .ok (.num n)
  | .strs [] => .error .IndexError
  | .strs [s] => .ok (.str (ascii s))
  | .strs l => .ok (.bytes (l.map ascii))
  | .nums [] => .error .IndexError
  | .nums [n] => .ok (.num n)
  | .nums l => .ok (.nums (sameType l))
  | .nd ⟨_, 0 :: _⟩ => .error .IndexError
  | .nd ⟨flat, _ :: _ :: _⟩ => .error .RuntimeError
  | .nd ⟨flat, _⟩ =>
    match flat with
    | [] => .error .IndexError
    | [n] => .ok (.num n)
    | l => .ok (.nums l)
  | .rows [] => .error .IndexError
  | .rows (_ :: _) => .error .RuntimeError
  | .range _ => .error .RuntimeError

/-- a name that does not start with "/" -/
def Relative (name : Str) : Prop := startsWith name ['/'] = false

instance (name : Str) : Decidable (Relative name) := inferInstanceAs (Decidable (_ = _))

mutual
/-- the `name` attributes of an element and of the elements in it have no "/", as the XML schema
(`xs:NCName`) requires -/
def XmlOk : XmlNode → Prop
  | .mk _ attrib _ children => (∀ n, attrib.get? p!"name" = some n → '/' ∉ n) ∧ XmlsOk children
/-- `XmlOk` for a list of elements -/
def XmlsOk : List XmlNode → Prop
  | [] => True
  | n :: ns => XmlOk n ∧ XmlsOk ns
end

/-- the angles of a reflection -/
def angles : Reflection → Dict PyFloat
  | .three _ _ _ _ a => a
  | .two _ _ _ a => a

/-- a name without "/" -/
def NoSlash (k : Str) : Prop := k ≠ [] ∧ k ≠ ['.'] ∧ '/' ∉ k

instance (k : Str) : Decidable (NoSlash k) := inferInstanceAs (Decidable (_ ∧ _ ∧ _))

/-- the names of the other fields of an orientation reflection -/
def reflNames : List Str := [p!"h", p!"k", p!"l", p!"wavelength"]

/-- the names of the parameters of a diffractometer, and those of the angles of a reflection, are different names
without "/"; there are parameters; a matrix among them has three columns -/
structure GeoNames (d : Diff) : Prop where
  params : ∀ k ∈ d.gpar.keys, NoSlash k
  distinct : d.gpar.keys.Nodup
  angles : ∀ r ∈ d.reflections, (angles r).keys.Nodup ∧ ∀ k ∈ (angles r).keys, NoSlash k ∧ k ∉ reflNames
  some : d.gpar ≠ []
  matrices : ∀ k rows, (k, GVal.mat rows) ∈ d.gpar → ∀ r ∈ rows, r.length = 3

/-- the names that a header or scan uses for objects of the HDF5 file as they are do not start at
the root of the file: the counter and positioner mnemonics of the data file, the names of geometry
parameters and angles (all of them names of the package's tables) and the names in UXML lines -/
structure RelNames (x : Obj) : Prop where
  counters : ∀ k ∈ Dict.keys (x.counterXref.getD []), Relative k
  positioners : ∀ k ∈ Dict.keys (x.positionerXref.getD []), Relative k
  geometry : ∀ d, x.diff = some d → (∀ k ∈ d.gpar.keys, Relative k) ∧
    ∀ r ∈ d.reflections, ∀ k ∈ (angles r).keys, Relative k
  fields : ∀ d, x.diff = some d → GeoNames d
  xml : ∀ t a v ch, x.uxmlRoot = some (.mk t a v ch) → XmlsOk ch

end S2N.Spec
