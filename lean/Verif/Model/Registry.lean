import Verif.Py.Uni
import Verif.Py.Regex
import Verif.Py.Dict
/-
Model of /repo/spec2nexus/plugin_core.py and control_lines.py, and the keys
of the packaged plugins in /repo/spec2nexus/plugins/.
-/
namespace S2N
open Py

/-! ## Generic registration -/

/-- What registration looks at in a plugin instance: `key`, `scan_attributes_defined`;
`ident` identifies the instance. -/
structure Plugin where
  ident : Nat
  key : Str
  attrs : List Str
  deriving DecidableEq, Repr

/-- class attributes of the plugin mount point — plugin_core.py:63-75 -/
structure Mount where
  plugins : List Plugin := []
  knownKeys : Dict Plugin := []
  lazyAttributes : List Str := []
  deriving DecidableEq, Repr

/-- `PluginMounter._enroll` — plugin_core.py:77-97 -/
def Mount.enroll (m : Mount) (p : Plugin) : Mount :=
  { plugins := m.plugins ++ [p]
    knownKeys := m.knownKeys.set p.key p
    lazyAttributes :=
      p.attrs.foldl (fun l a => if a ∈ l then l else l ++ [a]) m.lazyAttributes }

/-- importing plugin classes one after another -/
def Mount.enrollAll (ps : List Plugin) : Mount := ps.foldl Mount.enroll {}

/-! ## The packaged handlers -/

/-- One constructor per packaged handler class (plugins/*.py). -/
inductive HKey
  | F | E | D | C | S | G | I | J | j | L | M | N | O | o | P | Q | R | T | U | X
  | data | MCA | A | CALIB | CHANN | CTIME | ROI
  | unrec | MD | UIM | H | V | VA | VD | VE | XPCS | CCD | UXML
  deriving DecidableEq, Repr

namespace HKey

/-- the class attribute `key` of each handler: a regular expression (cited per plugin file:
spec_common.py:64-1471, fallback.py:17, apstools_specwriter.py:30, uim.py:41, unicat.py:42,80,
XPCS.py:22,46,71,96,114, uxml.py:61). -/
def keyText : HKey → Str
  | F => p!"#F" | E => p!"#E" | D => p!"#D" | C => p!"#C" | S => p!"#S"
  | G => p!"#G\\d+" | I => p!"#I" | J => p!"#J\\d+" | j => p!"#j\\d+" | L => p!"#L"
  | M => p!"#M" | N => p!"#N" | O => p!"#O\\d+" | o => p!"#o\\d+" | P => p!"#P\\d+"
  | Q => p!"#Q" | R => p!"#R" | T => p!"#T" | U => p!"#U" | X => p!"#X"
  | data => p!"scan_data" | MCA => p!"#@MCA" | A => p!"@A\\d*"
  | CALIB => p!"#@[cC][aA][lL][iI][bB]" | CHANN => p!"#@CHANN" | CTIME => p!"#@CTIME"
  | ROI => p!"#@ROI" | unrec => p!"unrecognized_control_line" | MD => p!"#MD\\w*"
  | UIM => p!"#UIM\\w*" | H => p!"#H\\d+" | V => p!"#V\\d+" | VA => p!"#VA\\d+"
  | VD => p!"#VD\\d+" | VE => p!"#VE\\d+" | XPCS => p!"#XPCS" | CCD => p!"#CCD"
  | UXML => p!"#UXML"

/-- all packaged handlers -/
def all : List HKey :=
  [F, E, D, C, S, G, I, J, j, L, M, N, O, o, P, Q, R, T, U, X, data, MCA, A, CALIB, CHANN,
   CTIME, ROI, unrec, MD, UIM, H, V, VA, VD, VE, XPCS, CCD, UXML]

/-- what follows the literal part of a key pattern -/
inductive Tail
  | none | digits1 | digits0 | word0
  deriving DecidableEq, Repr

/-- key pattern as literal part (a list of allowed characters per position) and tail -/
structure Pat where
  lit : List (List Char)
  tail : Tail
  deriving DecidableEq, Repr

/-- parse the regular expressions used as keys: characters, two-character classes
`[cC]`, and a final `\d+`, `\d*` or `\w*` -/
def parsePat : Str → Pat
  | [] => ⟨[], .none⟩
  | ['\\', 'd', '+'] => ⟨[], .digits1⟩
  | ['\\', 'd', '*'] => ⟨[], .digits0⟩
  | ['\\', 'w', '*'] => ⟨[], .word0⟩
  | '[' :: a :: b :: ']' :: r => ⟨[a, b] :: (parsePat r).lit, (parsePat r).tail⟩
  | c :: r => ⟨[c] :: (parsePat r).lit, (parsePat r).tail⟩

/-- the key of a handler as a pattern -/
def pat (h : HKey) : Pat := parsePat h.keyText

/-- `scan_attributes_defined` of each handler -/
def attrs : HKey → List Str
  | F | E | D | S => []
  | C => [p!"comments"] | G => [p!"G", p!"diffractometer"] | I => [p!"I"] | J => [p!"J"]
  | j => [p!"j"] | L => [p!"L", p!"column_first", p!"column_last"] | M => [p!"M", p!"monitor_name"]
  | N => [p!"N"] | O => [p!"O"] | o => [p!"o"] | P => [p!"P", p!"positioner"] | Q => [p!"Q"]
  | R => [p!"R"] | T => [p!"T", p!"time_name"] | U => [p!"U"] | X => [p!"TEMP_SP", p!"DEGC_SP"]
  | data => [p!"data", p!"data_lines"] | MCA => [] | A => [p!"data_lines"] | CALIB => [p!"MCA"]
  | CHANN => [p!"MCA"] | CTIME => [p!"MCA"] | ROI => [p!"MCA"] | unrec => [p!"_unrecognized"]
  | MD => [p!"MD"] | UIM => [p!"UIM"] | H => [p!"H"] | V => [p!"V", p!"metadata"] | VA => [p!"VA"]
  | VD => [p!"VD"] | VE => [p!"VE"] | XPCS => [p!"XPCS"] | CCD => [p!"CCD"]
  | UXML => [p!"UXML", p!"UXML_root"]

section
variable [UniDB]

/-- regular expression of the tail -/
def Tail.re : Tail → Re
  | .none => .eps
  | .digits1 => Re.plus isDecU
  | .digits0 => .star isDecU
  | .word0 => .star isWord

/-- regular expression of a pattern -/
def Pat.re (p : Pat) : Re := p.lit.foldr (fun cs r => .seq (.cls (fun c => c ∈ cs)) r) p.tail.re

/-- `handler.match_key(text)` — plugin_core.py:195-221 (`^key$`, non-empty match); the scan
data handler tries `float(text.strip().split()[0])` — spec_common.py:1172-1180 (IndexError when
the text is blank). -/
def matchKey (h : HKey) (text : Str) : Except PyErr Bool :=
  match h with
  | data =>
    match splitWs (strip text) with
    | [] => .error .IndexError
    | w :: _ => .ok (parseFloat w).isSome
  | h => .ok ((Re.firstEnd (pat h).re text).isSome)

end
end HKey

section
variable [UniDB]

/-- `ControlLines.match_control_key(text)` — control_lines.py:66-83, for handlers registered in
the order `reg`. -/
def matchControlKey : List HKey → Str → Except PyErr (Option HKey)
  | [], _ => .ok none
  | h :: hs, text =>
    match HKey.matchKey h text with
    | .error e => .error e
    | .ok true => .ok (some h)
    | .ok false => matchControlKey hs text

/-- `ControlLines.get_control_key(line)` — control_lines.py:47-64. -/
def getControlKey (reg : List HKey) (line : Str) : Except PyErr (Option HKey) :=
  match findC ' ' line with
  | none => .ok none
  | some pos =>
    let key := line.take pos
    match reg.find? (fun h => h.keyText = key) with
    | some h => .ok (some h)
    | none => matchControlKey reg key
end

end S2N
