import Verif.Model.Registry
/-
Model of how plugins are loaded: /repo/spec2nexus/control_lines.py (`ControlLines.__init__`, dispatch over whatever handlers are
registered) and plugin_core.py (`install_user_plugin`).

A Python file is modelled by what importing it does: the subclasses of ControlLineBase it defines, in order, and the exception
which it raises after that, if any.  `pathlib`'s names are taken apart as texts.  Only the loader of `.py` files is
modelled (Python can load compiled files, too).  A class without a `key` of its own is not modelled (its key would be an `object()`).
-/
namespace S2N
open Py
namespace Load

/-- what importing a Python file does: the plugin classes it defines, one after the other, until it ends or raises -/
structure PyFile where
  classes : List Plugin
  raises : Option PyErr := none
  deriving DecidableEq, Repr

/-- why a plugin file is not loaded: `FileExistsError` (sic), `AttributeError` of `module_from_spec(None)`, or what the file raises -/
inductive LoadErr
  | fileExists
  | noLoader
  | raised (e : PyErr)
  deriving DecidableEq, Repr

/-- the state: the mount point of the plugins, and `sys.modules` (names of modules with the file they come from) -/
structure Py3 where
  mount : Mount := {}
  modules : Dict Str := []
  deriving DecidableEq, Repr

/-- `PurePath.suffix`: from the last dot, which is neither first nor last character -/
def suffix (name : Str) : Str :=
  match rfindC '.' name with
  | none => []
  | some i => if 0 < i ∧ i < name.length - 1 then name.drop i else []

/-- `PurePath.stem` -/
def stem (name : Str) : Str :=
  match rfindC '.' name with
  | none => name
  | some i => if 0 < i ∧ i < name.length - 1 then name.take i else name

/-- `install_user_plugin(plugin_file)` — plugin_core.py:32-47; `files` are the files of the directory, by their names -/
def installUserPlugin (files : Str → Option PyFile) (name : Str) (s : Py3) : Py3 × Option LoadErr :=
  match files name with
  | none => (s, some .fileExists)
  | some f =>
    if suffix name ≠ p!".py" then (s, some .noLoader)
    else
      ({ mount := f.classes.foldl Mount.enroll s.mount, modules := s.modules.set (stem name) name },
        f.raises.map .raised)

/-- `ControlLines.__init__` — control_lines.py:13-32: for the names that `iterdir` gives, in that order -/
def loadAll (files : Str → Option PyFile) : List Str → Py3 → Py3 × Option LoadErr
  | [], s => (s, none)
  | name :: names, s =>
    if startsWith name p!"_" then loadAll files names s
    else if suffix name ≠ p!".py" then loadAll files names s
    else
      match installUserPlugin files name s with
      | (s, some e) => (s, some e)
      | (s, none) => loadAll files names s

/-! ### Dispatch, whatever is registered -/

/-- `match_control_key(text)` — control_lines.py:66-83: over the dictionary of the handlers; `mk` is `match_key` of a handler -/
def matchControlKey (mk : Plugin → Str → Except PyErr Bool) (text : Str) : Dict Plugin → Except PyErr (Option Str)
  | [] => .ok none
  | (key, p) :: d =>
    match mk p text with
    | .error e => .error e
    | .ok true => .ok (some key)
    | .ok false => matchControlKey mk text d

/-- `get_control_key(spec_data_file_line)` — control_lines.py:47-64 -/
def getControlKey (mk : Plugin → Str → Except PyErr Bool) (m : Mount) (line : Str) : Except PyErr (Option Str) :=
  match findC ' ' line with
  | none => .ok none
  | some pos =>
    let key := line.take pos
    if m.knownKeys.has key then .ok (some key) else matchControlKey mk key m.knownKeys

/-! ### The packaged files -/

/-- the plugin instance of a packaged handler: its class attributes — plugins/*.py -/
def plug (h : HKey) : Plugin := ⟨HKey.all.idxOf h, h.keyText, h.attrs⟩

/-- the packaged files (/repo/spec2nexus/plugins) with the handlers they define, in the order of the classes: XPCS.py:19-126,
apstools_specwriter.py:26-64, fallback.py:13-48, spec_common.py:47-1524, uim.py:37-46, unicat.py:17-140, uxml.py:28-168 -/
def packaged : List (Str × List HKey) :=
  [(p!"XPCS.py", [.VA, .VD, .VE, .XPCS, .CCD]),
   (p!"apstools_specwriter.py", [.MD]),
   (p!"fallback.py", [.unrec]),
   (p!"spec_common.py", [.F, .E, .D, .C, .S, .G, .I, .J, .j, .L, .M, .N, .O, .o, .P, .Q, .R, .T, .U, .X, .data, .MCA, .A, .CALIB,
     .CHANN, .CTIME, .ROI]),
   (p!"uim.py", [.UIM]),
   (p!"unicat.py", [.H, .V]),
   (p!"uxml.py", [.UXML])]

/-- the directory of the packaged plugins: the files above, and whatever other files `others` are there -/
def packagedFiles (others : Str → Option PyFile) (name : Str) : Option PyFile :=
  match packaged.find? (fun p => p.1 == name) with
  | some p => some { classes := p.2.map plug }
  | none => others name

end Load
end S2N
