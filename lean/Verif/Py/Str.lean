/-
Python `str` as `List Char`, and the `str` methods used by spec2nexus.
Semantics follow the CPython documentation of each method.
-/
namespace S2N

/-- A Python `str`: a list of code points. -/
abbrev Str := List Char

open Lean in
/-- `p!"abc"` is the literal `['a','b','c']`. -/
syntax:max "p!" str : term
open Lean in
macro_rules
  | `(p! $s:str) => do
    let cs : Array (TSyntax `term) := s.getString.toList.toArray.map (fun c => Syntax.mkCharLit c)
    `(([ $cs,* ] : List Char))

/-- Python's exceptions that the modelled code can raise. -/
inductive PyErr
  | ValueError | IndexError | KeyError | TypeError | AttributeError | RuntimeError
  | NotASpecDataFile | SpecDataFileNotFound | DuplicateSpecScanNumber
  | NotImplementedError | UnboundLocalError | OSError | UXMLError | UnexpectedObjectTypeError
  | NoDataToPlot | NotPlottable | ScanAborted | ZeroDivisionError | OverflowError
  | UnicodeDecodeError | DirectoryNotFoundError | XMLSyntaxError | AssertionError
  | SpecDataFileCouldNotOpen
  deriving DecidableEq, Repr

namespace Py

/-- `str.isspace` for one character (the full CPython set). -/
def isSpace (c : Char) : Bool :=
  let n := c.toNat
  (9 ≤ n && n ≤ 13) || (28 ≤ n && n ≤ 32) || n == 0x85 || n == 0xA0 || n == 0x1680
    || (0x2000 ≤ n && n ≤ 0x200A) || n == 0x2028 || n == 0x2029 || n == 0x202F
    || n == 0x205F || n == 0x3000

/-- characters at which `str.splitlines` breaks a line (`\r\n` counts once). -/
def isLineBreak (c : Char) : Bool :=
  let n := c.toNat
  (10 ≤ n && n ≤ 13) || (28 ≤ n && n ≤ 30) || n == 0x85 || n == 0x2028 || n == 0x2029

/-- ASCII decimal digit. -/
def isDig (c : Char) : Bool := 48 ≤ c.toNat && c.toNat ≤ 57

/-- ASCII lower case conversion of a character (`str.lower` on ASCII; other characters unchanged). -/
def lowerC (c : Char) : Char :=
  if 65 ≤ c.toNat && c.toNat ≤ 90 then Char.ofNat (c.toNat + 32) else c

/-- `s.lower()` (ASCII letters only). -/
def lower (s : Str) : Str := s.map lowerC

/-- `s.lstrip()`. -/
def lstrip (s : Str) : Str := s.dropWhile isSpace

/-- strip from the right the characters satisfying `p`. -/
def rstripP (p : Char → Bool) (s : Str) : Str := (s.reverse.dropWhile p).reverse

/-- `s.rstrip()`. -/
def rstrip (s : Str) : Str := rstripP isSpace s

/-- `s.strip()`. -/
def strip (s : Str) : Str := rstrip (lstrip s)

/-- split at every character satisfying `p`, keeping empty fields (never returns `[]`). -/
def splitP (p : Char → Bool) : Str → List Str
  | [] => [[]]
  | c :: cs =>
    if p c then [] :: splitP p cs
    else match splitP p cs with
      | [] => [[c]]
      | w :: ws => (c :: w) :: ws

/-- `s.split(c)` for a one-character separator. -/
def splitC (c : Char) (s : Str) : List Str := splitP (· == c) s

/-- `s.split()`: maximal runs of non-whitespace. -/
def splitWs (s : Str) : List Str := (splitP isSpace s).filter (fun w => !w.isEmpty)

/-- `s.startswith(t)`. -/
def startsWith (s t : Str) : Bool := t.isPrefixOf s

/-- `s.endswith(t)`. -/
def endsWith (s t : Str) : Bool := t.isSuffixOf s

/-- `s.find(c)` for a one character pattern: `none` is Python's -1. -/
def findC (c : Char) : Str → Option Nat
  | [] => none
  | d :: ds => if d = c then some 0 else (findC c ds).map (· + 1)

/-- `s.find(t)`: position of the first occurrence of `t`. -/
def findS (t : Str) : Str → Option Nat
  | [] => if t = [] then some 0 else none
  | d :: ds => if t.isPrefixOf (d :: ds) then some 0 else (findS t ds).map (· + 1)

/-- `s.rfind(c)` for a one character pattern. -/
def rfindC (c : Char) (s : Str) : Option Nat :=
  (findC c s.reverse).map (fun i => s.length - 1 - i)

/-- `t in s` for strings. -/
def contains (t s : Str) : Bool := (findS t s).isSome

/-- `s[pos:]` where `pos` is a `find` result; `none` stands for -1, i.e. the last character. -/
def sliceFrom (pos : Option Nat) (s : Str) : Str :=
  match pos with
  | some i => s.drop i
  | none => s.drop (s.length - 1)

/-- `s[:pos]` where `pos` is a `find` result; `none` stands for -1, i.e. all but the last character. -/
def sliceTo (pos : Option Nat) (s : Str) : Str :=
  match pos with
  | some i => s.take i
  | none => s.take (s.length - 1)

/-- `sep.join(parts)`. -/
def join (sep : Str) : List Str → Str
  | [] => []
  | [w] => w
  | w :: ws => w ++ sep ++ join sep ws

/-- Auxiliary of `splitlines`: `cur` is the current line reversed,
`open_` says whether the current line has been started (a final empty line is not reported). -/
def splitlinesAux : Str → Str → Bool → List Str
  | [], cur, started => if started then [cur.reverse] else []
  | '\r' :: '\n' :: cs, cur, _ => cur.reverse :: splitlinesAux cs [] false
  | c :: cs, cur, _ =>
    if isLineBreak c then cur.reverse :: splitlinesAux cs [] false
    else splitlinesAux cs (c :: cur) true

/-- `s.splitlines()`. -/
def splitlines (s : Str) : List Str := splitlinesAux s [] false

/-- Universal newline translation done by `open(name, "r")` (newline=None):
`\r\n` and `\r` become `\n`. -/
def universalNewlines : Str → Str
  | [] => []
  | '\r' :: '\n' :: cs => '\n' :: universalNewlines cs
  | '\r' :: cs => '\n' :: universalNewlines cs
  | c :: cs => c :: universalNewlines cs

/-- `fp.readlines()` in text mode, without the trailing `\n` of each line:
breaks only at `\n`, and reports no empty last line. -/
def readlines (s : Str) : List Str :=
  let ls := splitC '\n' s
  if ls.getLast? = some [] then ls.dropLast else ls

/-- `s.replace(c, new)` for a one character pattern. -/
def replaceC (c : Char) (new : Str) : Str → Str
  | [] => []
  | d :: ds => if d = c then new ++ replaceC c new ds else d :: replaceC c new ds

/-- `s.replace(a+b, new)` for a two-character pattern (left to right, non-overlapping). -/
def replace2 (a b : Char) (new : Str) : Str → Str
  | [] => []
  | [c] => [c]
  | c :: d :: ds =>
    if c = a ∧ d = b then new ++ replace2 a b new ds
    else c :: replace2 a b new (d :: ds)

/-- `str(n)` for a natural number. -/
def natStr (n : Nat) : Str := Nat.toDigits 10 n

/-- `str(n)` for an integer. -/
def intStr (n : Int) : Str :=
  match n with
  | .ofNat k => natStr k
  | .negSucc k => '-' :: natStr (k + 1)

end Py
end S2N
