import Verif.Model.Utils
import Verif.Model.Handlers
import Verif.Py.Sort
/-
Model of /repo/spec2nexus/eznx.py, on a model of the part of h5py (HDF5) it uses.

The HDF5 file is a heap of nodes (groups and datasets) with hard links as names of children; node
0 is the root.  A node that is not linked any more stays in the heap but no path leads to it.

Simplifications about h5py: numbers are exact (no int64/float64 limits), trailing NUL characters of
texts are kept, an operation that fails changes nothing (HDF5 may leave intermediate groups of a
path behind), creating a name that exists is a ValueError for groups, datasets and links alike, and
a path operation on a dataset instead of a group is an AttributeError or finds nothing.
-/
namespace S2N
open Py

/-- values of HDF5 attributes -/
inductive AVal
  | str (s : Str)
  | strs (l : List Str)
  | num (n : Num)
  | nums (l : List Num)
  deriving DecidableEq, Repr

/-- contents of a dataset: a 1-D array of byte strings, a scalar string, or a numeric array -/
inductive HData
  | text (l : List Str)
  | scalar (s : Str)
  | nums (a : NdArray Num)
  deriving DecidableEq, Repr

/-- an object of the file -/
inductive HNode
  | group (children : Dict Nat) (attrs : Dict AVal)
  | dset (data : HData) (attrs : Dict AVal)
  deriving DecidableEq, Repr

/-- the objects of a file; the position is the identity of the object, 0 is the root -/
abbrev H5 := List HNode

/-- an h5py object: the node and the path by which it was created or opened -/
structure HRef where
  id : Nat
  path : List Str
  deriving DecidableEq, Repr

namespace H5

/-- `h5py.File(name, "w")` before attributes are set -/
def empty : H5 := [.group [] []]

/-- the file object -/
def root : HRef := ⟨0, []⟩

/-- the components of a path: separated by "/", empty ones and "." have no effect -/
def comps (name : Str) : List Str :=
  (splitC '/' name).filter (fun c => !(c == [] || c == ['.']))

/-- does the path start at the root? -/
def absolute (name : Str) : Bool := startsWith name ['/']

/-- the object where the path starts -/
def base (h : HRef) (name : Str) : HRef := if absolute name then root else h

/-- `obj.name` -/
def nameOf (h : HRef) : Str := '/' :: join ['/'] h.path

/-- follow the hard links -/
def walk (s : H5) : Nat → List Str → Option Nat
  | i, [] => some i
  | i, c :: cs =>
    match s[i]? with
    | some (.group ch _) =>
      match ch.get? c with
      | some j => walk s j cs
      | none => none
    | _ => none

/-- attributes of a node -/
def _root_.S2N.HNode.attrs : HNode → Dict AVal
  | .group _ a => a
  | .dset _ a => a

/-- the node with other attributes -/
def _root_.S2N.HNode.withAttrs (a : Dict AVal) : HNode → HNode
  | .group ch _ => .group ch a
  | .dset d _ => .dset d a

/-- add the hard link to `target` at path `cs` from node `i`, making the groups on the way -/
def link (target : Nat) : H5 → Nat → List Str → Except PyErr H5
  | _, _, [] => .error .ValueError
  | s, i, [c] =>
    match s[i]? with
    | some (.group ch a) =>
      if ch.has c then .error .ValueError else .ok (s.set i (.group (ch.set c target) a))
    | _ => .error .AttributeError
  | s, i, c :: d :: cs =>
    match s[i]? with
    | some (.group ch a) =>
      match ch.get? c with
      | some j => link target s j (d :: cs)
      | none =>
        link target ((s.set i (.group (ch.set c s.length) a)) ++ [.group [] []]) s.length (d :: cs)
    | _ => .error .AttributeError

/-- remove the hard link at path `cs` from node `i` -/
def unlink : H5 → Nat → List Str → Except PyErr H5
  | _, _, [] => .error .KeyError
  | s, i, [c] =>
    match s[i]? with
    | some (.group ch a) =>
      if ch.has c then .ok (s.set i (.group (ch.del c) a)) else .error .KeyError
    | _ => .error .KeyError
  | s, i, c :: d :: cs =>
    match s[i]? with
    | some (.group ch _) =>
      match ch.get? c with
      | some j => unlink s j (d :: cs)
      | none => .error .KeyError
    | _ => .error .KeyError

end H5

/-- a computation on the open file: the file is changed also if an exception is raised -/
def HM (α : Type) := H5 → H5 × Except PyErr α

namespace HM
variable {α β : Type}

/-- the value `a` -/
def ret (a : α) : HM α := fun s => (s, .ok a)

/-- one computation after the other -/
def andThen (m : HM α) (f : α → HM β) : HM β := fun s =>
  match m s with
  | (s', .ok a) => f a s'
  | (s', .error e) => (s', .error e)

instance : Monad HM where
  pure := ret
  bind := andThen

/-- raise an exception -/
def raise (e : PyErr) : HM α := fun s => (s, .error e)

/-- the value of an expression that may raise -/
def lift (x : Except PyErr α) : HM α := fun s => (s, x)

/-- a value read from the file -/
def look (f : H5 → α) : HM α := fun s => (s, .ok (f s))

/-- a value read from the file that may raise -/
def lookE (f : H5 → Except PyErr α) : HM α := fun s => (s, f s)

/-- change the file, or raise without a change -/
def change (f : H5 → Except PyErr H5) : HM Unit := fun s =>
  match f s with
  | .ok s' => (s', .ok ())
  | .error e => (s, .error e)

/-- `for a in l: f(a)` -/
def each (f : α → HM Unit) : List α → HM Unit
  | [] => ret ()
  | a :: as => andThen (f a) fun _ => each f as

/-- `if b: m` -/
def onlyIf (b : Bool) (m : HM Unit) : HM Unit := if b then m else ret ()

/-- `if o is not None: f(o)` -/
def ifSome (o : Option α) (f : α → HM Unit) : HM Unit :=
  match o with
  | some a => f a
  | none => ret ()

end HM

namespace H5

/-- `name in parent` -/
def contains (h : HRef) (name : Str) : HM Bool :=
  HM.look fun s => (walk s (base h name).id (comps name)).isSome

/-- `parent[name]` -/
def get (h : HRef) (name : Str) : HM HRef :=
  HM.lookE fun s =>
    match walk s (base h name).id (comps name) with
    | some i => .ok ⟨i, (base h name).path ++ comps name⟩
    | none => .error .KeyError

/-- a new object at a path -/
def create (h : HRef) (name : Str) (node : HNode) : HM HRef := fun s =>
  match link s.length (s ++ [node]) (base h name).id (comps name) with
  | .ok s' => (s', .ok ⟨s.length, (base h name).path ++ comps name⟩)
  | .error e => (s, .error e)

/-- `parent.create_group(name)` -/
def createGroup (h : HRef) (name : Str) : HM HRef := create h name (.group [] [])

/-- `del parent[name]` -/
def del (h : HRef) (name : Str) : HM Unit :=
  HM.change fun s => unlink s (base h name).id (comps name)

/-- `parent[name] = obj` (every handle refers to a node: the first case does not happen) -/
def setLink (h : HRef) (name : Str) (obj : HRef) : HM Unit :=
  HM.change fun s =>
    match s[obj.id]? with
    | none => .error .RuntimeError
    | some _ => link obj.id s (base h name).id (comps name)

/-- `obj.attrs[k] = v` -/
def setAttr (h : HRef) (k : Str) (v : AVal) : HM Unit :=
  HM.change fun s =>
    match s[h.id]? with
    | some n => .ok (s.set h.id (n.withAttrs (n.attrs.set k v)))
    | none => .error .RuntimeError

/-- `k in obj.attrs` -/
def hasAttr (h : HRef) (k : Str) : HM Bool :=
  HM.look fun s =>
    match s[h.id]? with
    | some n => n.attrs.has k
    | none => false

end H5

/-- the Python values given as data -/
inductive PData
  | none
  | str (s : Str)
  | num (n : Num)
  | strs (l : List Str)
  | nums (l : List Num)
  | nd (a : NdArray Num)
  | rows (l : List (List Num))
  /-- `range(1, n + 1)` -/
  | range (n : Nat)
  deriving DecidableEq, Repr

/-- `value.encode("ascii", "ignore")` -/
def ascii (s : Str) : Str := s.filter (fun c => decide (c.toNat < 128))

/-- a list of numbers as a numpy array: floats if there is a float among them -/
def unify (l : List Num) : List Num :=
  if l.any (fun n => match n with | .flt _ => true | .int _ => false) then
    l.map (fun n => .flt n.toFlt)
  else l

/-- the integers 1..n -/
def upTo (n : Nat) : List Num := (List.range n).map (fun i => .int (i + 1 : Nat))

/-- what `create_dataset(name, data=list(map(encoder, data)))` stores — eznx.py:132-148 -/
def PData.toH : PData → Except PyErr HData
  | .none => .ok (.scalar [])
  | .str s => .ok (.text [ascii s])
  | .num n => .ok (.nums ⟨[n], [1]⟩)
  | .strs [] => .ok (.nums ⟨[], [0]⟩)
  | .strs l => .ok (.text (l.map ascii))
  | .nums l => .ok (.nums ⟨unify l, [l.length]⟩)
  | .nd ⟨_, 0 :: _⟩ => .ok (.nums ⟨[], [0]⟩)
  | .nd a => .ok (.nums a)
  | .rows [] => .ok (.nums ⟨[], [0]⟩)
  | .rows (r :: rs) =>
    if rs.all (fun r' => r'.length == r.length) then
      .ok (.nums ⟨unify (r :: rs).flatten, [rs.length + 1, r.length]⟩)
    else .error .ValueError
  | .range n => .ok (.nums ⟨upTo n, [1, n]⟩)

namespace Eznx
open H5

/-- `addAttributes(parent, **attr)` — eznx.py:208-218 -/
def addAttributes (h : HRef) (attr : Dict AVal) : HM Unit :=
  HM.each (fun kv => setAttr h kv.1 kv.2) attr

/-- `makeFile(filename, **attr)` — eznx.py:65-79: the new file object -/
def makeFile (attr : Dict AVal) : H5 × Except PyErr HRef :=
  (do addAttributes root attr; pure root : HM HRef) H5.empty

/-- `makeGroup(parent, name, nxclass, **attr)` — eznx.py:82-100 -/
def makeGroup (h : HRef) (name nxclass : Str) (attr : Dict AVal) : HM HRef := do
  let g ← createGroup h name
  setAttr g p!"NX_class" (.str nxclass)
  addAttributes g attr
  pure g

/-- `openGroup(parent, name, nx_class, **attr)` — eznx.py:103-116.  Setting attributes raises no
KeyError, so only the lookup decides. -/
def openGroup (h : HRef) (name nxclass : Str) (attr : Dict AVal) : HM HRef := do
  if ← contains h name then
    let g ← get h name
    addAttributes g attr
    pure g
  else makeGroup h name nxclass attr

/-- `makeDataset(parent, name, data, **attr)` — eznx.py:119-150 -/
def makeDataset (h : HRef) (name : Str) (data : PData) (attr : Dict AVal) : HM HRef := do
  let d ← HM.lift data.toH
  let ds ← create h name (.dset d [])
  addAttributes ds (match data with
    | .none => attr.set p!"NOTE" (.str p!"no data supplied, value set to empty string")
    | _ => attr)
  pure ds

/-- `write_dataset(parent, name, data, **attr)` — eznx.py:153-166 -/
def writeDataset (h : HRef) (name : Str) (data : PData) (attr : Dict AVal) : HM HRef := do
  HM.andThen (contains h name) fun b => HM.onlyIf b (del h name)
  makeDataset h name data attr

/-- `makeLink(parent, sourceObject, targetName)` — eznx.py:169-183 -/
def makeLink (h : HRef) (src : HRef) (targetName : Str) : HM Unit := do
  HM.andThen (hasAttr src p!"target") fun b =>
    HM.onlyIf (!b) (setAttr src p!"target" (.str (nameOf src)))
  let obj ← get h (ascii (nameOf src))
  setLink h (ascii targetName) obj

/-- what `read_nexus_field` returns: None, a text, a number, an array of bytes or of numbers -/
inductive Field
  | none
  | str (s : Str)
  | num (n : Num)
  | bytes (l : List Str)
  | nums (l : List Num)
  deriving DecidableEq, Repr

/-- the value of a dataset — eznx.py:231-251.  Byte strings of an array are not decoded (their
type is `S`, not `O`). -/
def fieldOf : HData → Except PyErr Field
  | .scalar s => .ok (.str s)
  | .text [] => .error .IndexError
  | .text [s] => .ok (.str s)
  | .text l => .ok (.bytes l)
  | .nums a =>
    if a.shape.length > 1 then .error .RuntimeError
    else
      match a.flat with
      | [] => .error .IndexError
      | [n] => .ok (.num n)
      | l => .ok (.nums l)

/-- `read_nexus_field(parent, dataset_name)` — eznx.py:221-251, without `astype`; a group has no
`shape` (AttributeError) -/
def readNexusField (h : HRef) (name : Str) : HM Field := do
  if ← contains h name then
    let ds ← get h name
    HM.lookE fun s =>
      match s[ds.id]? with
      | some (.dset d _) => fieldOf d
      | _ => .error .AttributeError
  else pure Field.none

/-- `read_nexus_group_fields(parent, name, fields)` — eznx.py:254-268; a repeated field name is
one key of the result -/
def readNexusGroupFields (h : HRef) (name : Str) (fields : List Str) : HM (Dict Field) := do
  let g ← get h name
  let rec go : List Str → Dict Field → HM (Dict Field)
    | [], d => HM.ret d
    | k :: ks, d => HM.andThen (readNexusField g k) fun v => go ks (d.set k v)
  go fields []

end Eznx
end S2N
