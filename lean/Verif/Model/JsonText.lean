import Verif.Model.Document

/-!
# The text of the metadata file

What `json.dump(value, f, indent=2)` writes, character by character (`src/torchrir/io/metadata.py` 148,
`src/torchrir/datasets/dynamic_cmu_arctic.py` 751). `json` is in the standard library: the writer follows
`_make_iterencode` and `py_encode_basestring_ascii` of `json.encoder` with the defaults of `json.dump`. `repr` of a
finite float is a parameter. The depth of the recursion is not limited.
-/

namespace Torchrir.Model

/-- A Python string: its code points, lone surrogates included. -/
abbrev PyText := List ℕ

/-- The code points of a string without surrogates. -/
def codePoints (s : String) : PyText := s.toList.map Char.toNat

/-- A hexadecimal digit. -/
def hexDigit (d : ℕ) : Char := Char.ofNat (if d < 10 then 48 + d else 87 + d)

/-- `'{0:04x}'.format(u)` for `u` below 65536. -/
def hex4 (u : ℕ) : List Char := [hexDigit (u / 4096 % 16), hexDigit (u / 256 % 16), hexDigit (u / 16 % 16), hexDigit (u % 16)]

/-- How a code point below 65536 is written: printable ASCII as it is, all others escaped. -/
def encodeUnit (u : ℕ) : List Char :=
  if u = 34 then ['\\', '"']
  else if u = 92 then ['\\', '\\']
  else if u = 8 then ['\\', 'b']
  else if u = 12 then ['\\', 'f']
  else if u = 10 then ['\\', 'n']
  else if u = 13 then ['\\', 'r']
  else if u = 9 then ['\\', 't']
  else if 32 ≤ u ∧ u ≤ 126 then [Char.ofNat u]
  else '\\' :: 'u' :: hex4 u

/-- A code point above is written as two surrogates. -/
def unitsOf (c : ℕ) : List ℕ :=
  if c < 65536 then [c] else [55296 + (c - 65536) / 1024, 56320 + (c - 65536) % 1024]

/-- `py_encode_basestring_ascii`. -/
def encodeText (t : PyText) : List Char := '"' :: ((t.flatMap unitsOf).flatMap encodeUnit ++ ['"'])

/-- The decimal digits of a natural number. -/
def decimalDigits (n : ℕ) : List Char :=
  if n < 10 then [Char.ofNat (48 + n)] else decimalDigits (n / 10) ++ [Char.ofNat (48 + n % 10)]

/-- `int.__repr__`. -/
def intText (z : ℤ) : List Char := if z < 0 then '-' :: decimalDigits z.natAbs else decimalDigits z.natAbs

/-- `floatstr` and `int.__repr__`; `repr` of a finite float is a parameter. -/
def numText (repr : ℝ → List Char) : PyNum → List Char
  | .int z => intText z
  | .float (.fin x) => repr x
  | .float .nan => "NaN".toList
  | .float .posInf => "Infinity".toList
  | .float .negInf => "-Infinity".toList

/-- What was written, and the exception if writing stopped. -/
abbrev Written := List Char × Option String

/-- Write a piece of text. -/
def say (t : List Char) : Written := (t, none)

/-- Write, then write more, unless there was an exception. -/
def Written.andThen (a b : Written) : Written :=
  match a.2 with
  | none => (a.1 ++ b.1, b.2)
  | some e => (a.1, some e)

/-- A new line and the indentation of two blanks for every level. -/
def newline (level : ℕ) : List Char := '\n' :: List.replicate (2 * level) ' '

/-- A key and the separator `": "`. -/
def keyText (s : String) : List Char := encodeText (codePoints s) ++ [':', ' ']

mutual
/-- `_iterencode` at a level of indentation. -/
def writeVal (repr : ℝ → List Char) (level : ℕ) : PyVal → Written
  | .none => say "null".toList
  | .bool b => say (if b then "true".toList else "false".toList)
  | .num x => say (numText repr x)
  | .str s => say (encodeText (codePoints s))
  | .tensor _ => ([], some "TypeError: Object of type Tensor is not JSON serializable")
  | .path _ => ([], some "TypeError: Object of type PosixPath is not JSON serializable")
  | .dict [] => say ['{', '}']
  | .dict ((k, v) :: rest) =>
    (say ('{' :: newline (level + 1))).andThen <|
      match k.text with
      | .error e => ([], some e)
      | .ok s => (say (keyText s)).andThen <| (writeVal repr (level + 1) v).andThen <|
          (writeRestEntries repr (level + 1) rest).andThen <| say (newline level ++ ['}'])
  | .list [] => say ['[', ']']
  | .list (v :: rest) =>
    (say ('[' :: newline (level + 1))).andThen <| (writeVal repr (level + 1) v).andThen <|
      (writeRestItems repr (level + 1) rest).andThen <| say (newline level ++ [']'])
  | .tuple [] => say ['[', ']']
  | .tuple (v :: rest) =>
    (say ('[' :: newline (level + 1))).andThen <| (writeVal repr (level + 1) v).andThen <|
      (writeRestItems repr (level + 1) rest).andThen <| say (newline level ++ [']'])
  | .other type => ([], some ("TypeError: Object of type " ++ type ++ " is not JSON serializable"))

/-- The items of `_iterencode_list` after the first. -/
def writeRestItems (repr : ℝ → List Char) (level : ℕ) : List PyVal → Written
  | [] => say []
  | v :: rest => (say (',' :: newline level)).andThen <| (writeVal repr level v).andThen <| writeRestItems repr level rest

/-- The entries of `_iterencode_dict` after the first; the key is looked at before the comma is written. -/
def writeRestEntries (repr : ℝ → List Char) (level : ℕ) : List (PyKey × PyVal) → Written
  | [] => say []
  | (k, v) :: rest =>
    match k.text with
    | .error e => ([], some e)
    | .ok s => (say (',' :: newline level)).andThen <| (say (keyText s)).andThen <|
        (writeVal repr level v).andThen <| writeRestEntries repr level rest
end

/-- `json.dump(value, f, indent=2)` on an empty file (metadata.py 147-148). -/
def dumpText (repr : ℝ → List Char) (value : PyVal) : Written := writeVal repr 0 value

end Torchrir.Model
