import Verif.Py.Regex
import Verif.Py.Dict
/-
Model of /repo/spec2nexus/scanf.py
Simplifications: `\d` is ASCII; in the literal part of a format the characters
`^`, `$` and `|`, which the code does not escape, are taken literally (theorems about formats
say when they exclude them); `s` is always a string.
-/
namespace S2N
open Py

/-- conversions of the table `scanf_translate` — scanf.py:34-57 -/
inductive Conv
  | c | nc (k : Nat) | nd (k : Nat) | d | u | f | g | s | x (l : Char) | o
  deriving DecidableEq, Repr

/-- a compiled format item -/
inductive FItem
  | lit (c : Char)
  | conv (k : Conv)
  deriving DecidableEq, Repr

/-- values of casts -/
inductive SVal
  | str (s : Str)
  | int (i : Int)
  | flt (x : PyFloat)
  deriving DecidableEq, Repr

/-- translate a format, item by item: the first table entry that matches at the position,
else a literal character — scanf.py:80-104 -/
def scanfItems : Str → List FItem
  | [] => []
  | '%' :: 'c' :: r => .conv .c :: scanfItems r
  | '%' :: 'd' :: r => .conv .d :: scanfItems r
  | '%' :: 'i' :: r => .conv .d :: scanfItems r
  | '%' :: 'u' :: r => .conv .u :: scanfItems r
  | '%' :: 'f' :: r => .conv .f :: scanfItems r
  | '%' :: 'g' :: r => .conv .g :: scanfItems r
  | '%' :: 'e' :: r => .conv .g :: scanfItems r
  | '%' :: 'E' :: r => .conv .g :: scanfItems r
  | '%' :: 's' :: r => .conv .s :: scanfItems r
  | '%' :: 'x' :: r => .conv (.x 'x') :: scanfItems r
  | '%' :: 'X' :: r => .conv (.x 'X') :: scanfItems r
  | '%' :: 'o' :: r => .conv .o :: scanfItems r
  | '%' :: k :: 'c' :: r =>
    if isDig k then .conv (.nc (k.toNat - 48)) :: scanfItems r
    else .lit '%' :: scanfItems (k :: 'c' :: r)
  | '%' :: k :: 'd' :: r =>
    if isDig k then .conv (.nd (k.toNat - 48)) :: scanfItems r
    else .lit '%' :: scanfItems (k :: 'd' :: r)
  | '%' :: k :: 'i' :: r =>
    if isDig k then .conv (.nd (k.toNat - 48)) :: scanfItems r
    else .lit '%' :: scanfItems (k :: 'i' :: r)
  | ch :: r => .lit ch :: scanfItems r

namespace Conv
/-- `[+-]?` -/
def sign : Re := .opt (.cls (fun c => c == '+' || c == '-'))
/-- `r{k}` -/
def rep (r : Re) : Nat → Re
  | 0 => .eps
  | k + 1 => .seq r (rep r k)
/-- `(?:\d+(?:\.\d*)?|\.\d+)` -/
def mant : Re :=
  .alt (.seq (.plus isDig) (.opt (.seq (.cls (· == '.')) (.star isDig))))
    (.seq (.cls (· == '.')) (.plus isDig))
/-- `(?:[eE][-+]?\d+)?` -/
def expo : Re := .opt (.seq (.cls (fun c => c == 'e' || c == 'E')) (.seq sign (.plus isDig)))

/-- regular expression of a conversion (one capturing group) — scanf.py:37-55 -/
def re : Conv → Re
  | c => .grp (.cls (· != '\n'))
  | nc k => .grp (rep (.cls (· != '\n')) k)
  | nd k => .grp (.seq sign (rep (.cls isDig) k))
  | d => .grp (.seq sign (.plus isDig))
  | u => .grp (.plus isDig)
  | f => .grp (.seq sign mant)
  | g => .grp (.seq sign (.seq mant expo))
  | s => .grp (.plus (fun ch => !isSpace ch))
  | x l => .grp (.seq (.cls (· == '0')) (.seq (.cls (· == l)) (.plus (fun ch =>
      isDig ch || (65 ≤ ch.toNat && ch.toNat ≤ 90) || (97 ≤ ch.toNat && ch.toNat ≤ 102)))))
  | o => .grp (.seq (.cls (· == '0')) (.star (fun ch => 48 ≤ ch.toNat && ch.toNat ≤ 55)))

/-- digit value in `int(text, base)` -/
def digitVal (ch : Char) : Nat :=
  if isDig ch then ch.toNat - 48
  else if 97 ≤ (lowerC ch).toNat && (lowerC ch).toNat ≤ 122 then (lowerC ch).toNat - 87 else 99

/-- `int(text, base)` for a text of digits without sign -/
def intBase (b : Nat) (s : Str) : Except PyErr Int :=
  if s = [] then .error .ValueError
  else if s.all (fun ch => digitVal ch < b) then
    .ok ((s.foldl (fun n ch => b * n + digitVal ch) 0 : Nat) : Int)
  else .error .ValueError

/-- the cast functions — scanf.py:37-55.  `int(x, 16)` accepts the prefix `0x`;
`%o` uses base 7. -/
def cast : Conv → Str → Except PyErr SVal
  | .c, t => .ok (.str t)
  | .nc _, t => .ok (.str t)
  | .nd _, t => (Py.int t).map .int
  | .d, t => (Py.int t).map .int
  | .u, t => (Py.int t).map .int
  | .f, t => (Py.float t).map .flt
  | .g, t => (Py.float t).map .flt
  | .s, t => .ok (.str t)
  | .x _, t => (intBase 16 (t.drop 2)).map .int
  | .o, t => (intBase 7 t).map .int
end Conv

/-- a compiled format: regular expression and casts -/
structure Compiled where
  re : Re
  casts : List Conv

/-- regular expression of a list of items -/
def itemsRe : List FItem → Re
  | [] => .eps
  | .lit c :: r => .seq (.cls (· == c)) (itemsRe r)
  | .conv k :: r => .seq k.re (itemsRe r)

/-- casts of a list of items -/
def itemsCasts : List FItem → List Conv
  | [] => []
  | .lit _ :: r => itemsCasts r
  | .conv k :: r => k :: itemsCasts r

/-- translation without the cache — scanf.py:80-107 -/
def scanfTranslate (fmt : Str) : Compiled :=
  ⟨itemsRe (scanfItems fmt), itemsCasts (scanfItems fmt)⟩

/-- `SCANF_CACHE_SIZE` — scanf.py:61 -/
def scanfCacheSize : Nat := 1000

/-- `_scanf_compile(fmt)` with the module-level cache — scanf.py:65-112 -/
def scanfCompile (cache : Dict Compiled) (fmt : Str) : Dict Compiled × Compiled :=
  match cache.get? fmt with
  | some cpl => (cache, cpl)
  | none =>
    let cpl := scanfTranslate fmt
    let cache := if cache.length > scanfCacheSize then [] else cache
    (Dict.set cache fmt cpl, cpl)

/-- apply the casts to the groups, `[casts[i](groups[i]) for i in range(len(groups))]` -/
def applyCasts : List Conv → List Str → Except PyErr (List SVal)
  | _, [] => .ok []
  | [], _ :: _ => .error .IndexError
  | k :: ks, g :: gs =>
    match k.cast g with
    | .error e => .error e
    | .ok v =>
      match applyCasts ks gs with
      | .error e => .error e
      | .ok vs => .ok (v :: vs)

/-- `scanf(fmt, s)` on a string — scanf.py:115-151.  Returns the new cache and the tuple,
`None`, or an exception from a cast. -/
def scanf (cache : Dict Compiled) (fmt s : Str) :
    Dict Compiled × Except PyErr (Option (List SVal)) :=
  let (cache, cpl) := scanfCompile cache fmt
  (cache, match Re.first cpl.re s with
    | none => .ok none
    | some (gs, _) =>
      match applyCasts cpl.casts gs with
      | .error e => .error e
      | .ok vs => .ok (some vs))

/-- the result of `scanf` in a fresh interpreter (empty cache) -/
def scanfFresh (fmt s : Str) : Except PyErr (Option (List SVal)) := (scanf [] fmt s).2

end S2N
