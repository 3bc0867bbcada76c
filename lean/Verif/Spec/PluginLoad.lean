import Verif.Model.PluginLoad
/-
What the names of a directory of plugins say, and what it means that a handler knows the first word of a line.
-/
namespace S2N.Spec
open S2N S2N.Py S2N.Load

/-- the files that are imported: those of the suffix .py whose name does not start with an underscore -/
def Loadable (name : Str) : Bool := !startsWith name p!"_" && suffix name == p!".py"

/-- `names` lists the directory of the packaged plugins, in any order: each packaged file is there, once, and all other
files (`__init__.py`, README.md, uxml.xsd, …) are none that is imported -/
structure DirListing (names : List Str) : Prop where
  once : names.Nodup
  complete : ∀ p ∈ packaged, p.1 ∈ names
  others : ∀ n ∈ names, n ∈ packaged.map (·.1) ∨ Loadable n = false

/-- `mk` is `match_key` of the handlers: for the packaged ones it is the one that C16 describes -/
def MatchKeys [UniDB] (mk : Plugin → Str → Except PyErr Bool) : Prop := ∀ h t, mk (plug h) t = HKey.matchKey h t

/-- the handlers `us` are registered after the packaged ones, which were loaded in the order `reg` -/
def After (reg : List HKey) (us : List Plugin) (m : Mount) : Prop := m = Mount.enrollAll (reg.map plug ++ us)

end S2N.Spec
