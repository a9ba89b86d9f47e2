/-
The fragment of Python used by the dsps data loaders: strings, `namedtuple`, `dict`, exceptions, text files,
the file system and hdf5 containers.

Strings are lists of Unicode scalar values (lone surrogates are not modelled).  Exceptions are values of
`Except PyErr`.
-/
import Mathlib.Data.Real.Basic
import Mathlib.Algebra.Order.Field.Rat
import Mathlib.Data.List.Basic
import Mathlib.Data.List.Nodup
import Mathlib.Data.List.Dedup

namespace Py

/-- Python `str`. -/
abbrev Str := List Char

/-- `chars! "abc"` is the list `['a', 'b', 'c']`, built while elaborating so that the kernel sees a plain list. -/
macro "chars!" s:str : term => do
  let cs := s.getString.toList.toArray.map fun c => (⟨Lean.Syntax.mkCharLit c⟩ : Lean.TSyntax `term)
  `(([$cs,*] : List Char))

/-- The exception classes that the modelled code can raise. -/
inductive PyErr
  | valueError | keyError | assertionError | typeError | attributeError | indexError | nameError | osError
  | unicodeError
  deriving DecidableEq, Repr

/-- `s.replace(c, new)` for a pattern `c` of one character. -/
def replace (s : Str) (c : Char) (new : Str) : Str := s.flatMap fun d => if d = c then new else [d]

/-- `str.isspace` for one character (the characters removed by `str.strip()`). -/
def isSpace (c : Char) : Bool :=
  let n := c.toNat
  (9 ≤ n ∧ n ≤ 13) ∨ (28 ≤ n ∧ n ≤ 32) ∨ n = 0x85 ∨ n = 0xa0 ∨ n = 0x1680 ∨ (0x2000 ≤ n ∧ n ≤ 0x200a) ∨
    n = 0x2028 ∨ n = 0x2029 ∨ n = 0x202f ∨ n = 0x205f ∨ n = 0x3000

/-- `s.strip()` -/
def strip (s : Str) : Str := ((s.dropWhile isSpace).reverse.dropWhile isSpace).reverse

/-- `s.split(c)` for a separator of one character: always at least one piece. -/
def split (s : Str) (c : Char) : List Str := s.splitOn c

/-- Text-mode newline translation: `\r\n` and lone `\r` become `\n`. -/
def universalNewlines : Str → Str
  | [] => []
  | '\r' :: '\n' :: s => '\n' :: universalNewlines s
  | '\r' :: s => '\n' :: universalNewlines s
  | c :: s => c :: universalNewlines s

/-- Iterating over a text file: the lines, each with its terminating newline if it has one; no empty last line. -/
def fileLines (contents : Str) : List Str := go (universalNewlines contents)
where
  /-- split after every newline -/
  go : Str → List Str
    | [] => []
    | c :: s =>
      if c = '\n' then [c] :: go s
      else match go s with
        | [] => [[c]]
        | l :: ls => (c :: l) :: ls

/-- The value of a string of decimal digits. -/
def digitsValue (s : Str) : ℕ := s.foldl (fun n c => 10 * n + (c.toNat - '0'.toNat)) 0

/-- `float(s)` on plain decimal literals `digits` and `digits.digits` (the only forms in the shipped line table), as an exact
rational.  Simplification: signs, exponents, `nan`, surrounding blanks and underscores, all accepted by Python, are rejected;
rounding to float64 is not modelled. -/
def parseDecimal (s : Str) : Except PyErr ℚ :=
  let isDig := fun c : Char => decide ('0'.toNat ≤ c.toNat ∧ c.toNat ≤ '9'.toNat)
  match s.splitOn '.' with
  | [a] => if a ≠ [] ∧ a.all isDig then .ok (digitsValue a) else .error .valueError
  | [a, b] => if a ++ b ≠ [] ∧ (a ++ b).all isDig then .ok (digitsValue (a ++ b) / 10 ^ b.length) else .error .valueError
  | _ => .error .valueError

/-- Python keywords (Python 3.13, `keyword.kwlist`). -/
def keywords : List Str :=
  [chars! "False", chars! "None", chars! "True", chars! "and", chars! "as", chars! "assert", chars! "async",
   chars! "await", chars! "break", chars! "class", chars! "continue", chars! "def", chars! "del", chars! "elif",
   chars! "else", chars! "except", chars! "finally", chars! "for", chars! "from", chars! "global", chars! "if",
   chars! "import", chars! "in", chars! "is", chars! "lambda", chars! "nonlocal", chars! "not", chars! "or",
   chars! "pass", chars! "raise", chars! "return", chars! "try", chars! "while", chars! "with", chars! "yield"]

/-- The non-ASCII part of the Unicode identifier tables (`XID_Start`, `XID_Continue`), left open: theorems hold for
every choice. -/
class XID where
  start : Char → Bool
  cont : Char → Bool

def isAlpha (c : Char) : Bool := ('a'.toNat ≤ c.toNat ∧ c.toNat ≤ 'z'.toNat) ∨ ('A'.toNat ≤ c.toNat ∧ c.toNat ≤ 'Z'.toNat)
def isDigit (c : Char) : Bool := '0'.toNat ≤ c.toNat ∧ c.toNat ≤ '9'.toNat
def isAscii (c : Char) : Bool := c.toNat < 128

def idStart [XID] (c : Char) : Bool := if isAscii c then isAlpha c || c == '_' else XID.start c
def idCont [XID] (c : Char) : Bool := if isAscii c then isAlpha c || isDigit c || c == '_' else XID.cont c

/-- `s.isidentifier()` -/
def isIdentifier [XID] (s : Str) : Bool :=
  match s with
  | [] => false
  | c :: cs => idStart c && cs.all idCont

/-- The conditions `collections.namedtuple` puts on one field name: an identifier, not a keyword, no leading underscore. -/
def isFieldName [XID] (s : Str) : Bool := isIdentifier s && !(keywords.contains s) && s.head? != some '_'

/-- An instance of a `namedtuple` class whose values are floats. -/
structure NamedTuple where
  fields : List Str
  values : List ℝ

/-- The `ValueError`s of `namedtuple("T", names)`: an invalid or repeated field name. -/
def namedtupleType [XID] (names : List Str) : Except PyErr (List Str) :=
  if names.all isFieldName && decide names.Nodup then .ok names else .error .valueError

/-- `T(*values)`: `TypeError` unless there is one value per field. -/
def construct (names : List Str) (values : List ℝ) : Except PyErr NamedTuple :=
  if values.length = names.length then .ok ⟨names, values⟩ else .error .typeError

/-- `getattr(nt, name)` -/
def NamedTuple.getattr (nt : NamedTuple) (name : Str) : Except PyErr ℝ :=
  match (nt.fields.zip nt.values).lookup name with
  | some v => .ok v
  | none => .error .attributeError

/-- What every `namedtuple` instance satisfies. -/
structure NamedTuple.WF [XID] (nt : NamedTuple) : Prop where
  valid : ∀ f ∈ nt.fields, isFieldName f = true
  nodup : nt.fields.Nodup
  len : nt.values.length = nt.fields.length

/-- `dict[key] = v`: an existing key keeps its position, a new key goes last. -/
def dictSet {α : Type*} (d : List (Str × α)) (k : Str) (v : α) : List (Str × α) :=
  match d with
  | [] => [(k, v)]
  | (k', v') :: d => if k' = k then (k', v) :: d else (k', v') :: dictSet d k v

/-- `tuple.index(x)`: position of the first occurrence, `ValueError` if there is none. -/
def index (l : List Str) (x : Str) : Except PyErr ℕ := if x ∈ l then .ok (l.idxOf x) else .error .valueError

/-- posix `os.path.join(a, b)` -/
def pathJoin (a b : Str) : Str :=
  if b.head? = some '/' then b
  else if a = [] ∨ a.getLast? = some '/' then a ++ b
  else a ++ '/' :: b

/-- A dataset of an hdf5 file, as read with `[...]`. -/
inductive Dset
  /-- one-dimensional array of floats -/
  | d1 (a : List ℝ)
  /-- three-dimensional array of floats -/
  | d3 (a : List (List (List ℝ)))
  /-- one-dimensional array of fixed-width byte strings -/
  | bytes (width : ℕ) (a : List (List ℕ))

/-- An hdf5 file: named datasets. -/
abbrev Hdf := List (Str × Dset)

/-- `hdf[key]` -/
def Hdf.get (h : Hdf) (k : Str) : Except PyErr Dset :=
  match h.lookup k with
  | some d => .ok d
  | none => .error .keyError

/-- `hdf[key] = data` / `create_dataset`: refuses to replace an existing dataset. -/
def Hdf.create (h : Hdf) (k : Str) (d : Dset) : Except PyErr Hdf :=
  if (h.lookup k).isSome then .error .valueError else .ok (h ++ [(k, d)])

/-- The environment and file system seen by the loaders. -/
structure World where
  environ : Str → Option Str
  isdir : Str → Bool
  isfile : Str → Bool
  glob : Str → List Str
  /-- contents of an hdf5 file; `none` if the file is not one -/
  hdf : Str → Option Hdf

end Py
