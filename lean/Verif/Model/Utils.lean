import Verif.Py.Uni
import Verif.Py.Time
/-
Model of /repo/spec2nexus/utils.py
-/
namespace S2N
open Py

section
variable [UniDB]

/-- `clean_name(key)` — utils.py:27-50.  `"_".join(re.split(r"[^\w_]", key))`, then
`txt[0].isdigit()` (IndexError on the empty string). -/
def cleanName (key : Str) : Except PyErr Str :=
  let txt := join ['_'] (splitP (fun c => !(isWord c || c == '_')) key)
  match txt with
  | [] => .error .IndexError
  | c :: cs => .ok (if isDigitU c then '_' :: c :: cs else c :: cs)

/-- `sanitize_name(group, key)` — utils.py:116-133. -/
def sanitizeName {γ : Type} (_group : γ) (key : Str) : Except PyErr Str := cleanName key
end

/-- `iso8601(date)` — utils.py:53-76. -/
def iso8601 (date : Str) : Except PyErr Str :=
  match strptimeSpec date with
  | some t => .ok (strftimeIso t)
  | none =>
    match strptimeSpock date with
    | some t => .ok (strftimeIso t)
    | none => .error .ValueError

/-- `strip_first_word(line)` — utils.py:79-83.  `line[pos:]` with `pos = line.find(" ")`
(-1 if there is no space). -/
def stripFirstWord (line : Str) : Str := strip (sliceFrom (findC ' ' line) line)

/-- prepend a character to the first string of a list of strings -/
def consHead (c : Char) : List Str → List Str
  | [] => [[c]]
  | w :: ws => (c :: w) :: ws

/-- `re.split("  +", s)`; the Bool says that the previous characters are a separator
(two or more spaces), which extends over further spaces. -/
def splitDbl : Bool → Str → List Str
  | _, [] => [[]]
  | true, c :: cs => if c = ' ' then splitDbl true cs else consHead c (splitDbl false cs)
  | false, [c] => [[c]]
  | false, c :: d :: ds =>
    if c = ' ' ∧ d = ' ' then [] :: splitDbl true ds else consHead c (splitDbl false (d :: ds))

/-- `split_column_labels(text)` — utils.py:86-88. -/
def splitColumnLabels (text : Str) : List Str :=
  splitDbl false (replaceC '\t' [' ', ' '] text)

/-- `split_scan_number_string(key)` — utils.py:91-113.  The result tuple is a list
(it has more than two items if the text has more than one dot). -/
def splitScanNumberString (key : Str) : Except PyErr (List Int) :=
  match mapE Py.int (splitC '.' (rstripP (· == '.') key)) with
  | .error e => .error e
  | .ok parts =>
    let parts := if parts.length = 0 then [0] else parts
    .ok (if parts.length = 1 then parts ++ [0] else parts)

/-- A numpy array: row-major values and shape. -/
structure NdArray (α : Type) where
  flat : List α
  shape : List Nat
  deriving DecidableEq, Repr

/-- `reshape_data(scan_data, scan_shape)` — utils.py:136-157, on the raveled data.
`nan` is the fill value. -/
def reshapeData {α : Type} (nan : α) (data : List α) (shape : List Nat) : NdArray α :=
  let n := shape.prod
  let d :=
    if data.length = n then data
    else if data.length < n then data ++ List.replicate (n - data.length) nan
    else data.take n
  ⟨d, shape⟩

end S2N
