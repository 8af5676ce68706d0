import Verif.Spec.Floating
import Verif.Model.JsonText

/-!
# Specification: reading JSON text

`json.loads`, written from the grammar of JSON and the documentation of Python (`NaN`, `Infinity` and `-Infinity` are
accepted, integers and floats are distinguished, a string may contain lone surrogates).
-/

namespace Torchrir.Spec

open Torchrir.Model (PyText PyNum PyVal PyKey Flt Json codePoints)

/-- A value that was read. The members of an object are listed as they come. -/
inductive JVal where
  | null
  | bool (b : Bool)
  | num (x : PyNum)
  | str (s : PyText)
  | arr (items : List JVal)
  | obj (members : List (PyText × JVal))

mutual
/-- The same value without text. -/
def JVal.ofJson : Json → JVal
  | .null => .null
  | .bool b => .bool b
  | .num x => .num x
  | .str s => .str (codePoints s)
  | .arr items => .arr (ofItems items)
  | .obj entries => .obj (ofEntries entries)

/-- The items of an array. -/
def JVal.ofItems : List Json → List JVal
  | [] => []
  | j :: rest => JVal.ofJson j :: ofItems rest

/-- The members of an object. -/
def JVal.ofEntries : List (String × Json) → List (PyText × JVal)
  | [] => []
  | (s, j) :: rest => (codePoints s, JVal.ofJson j) :: ofEntries rest
end

/-- Blank, tabulator, new line, carriage return. -/
def isBlank (c : Char) : Bool := c = ' ' || c = '\t' || c = '\n' || c = '\r'

/-- The text after the blanks. -/
def skipBlanks (cs : List Char) : List Char := cs.dropWhile isBlank

/-- The value of a hexadecimal digit. -/
def hexDigitValue (c : Char) : Option ℕ :=
  if '0' ≤ c ∧ c ≤ '9' then some (c.toNat - 48)
  else if 'a' ≤ c ∧ c ≤ 'f' then some (c.toNat - 87)
  else if 'A' ≤ c ∧ c ≤ 'F' then some (c.toNat - 55)
  else none

/-- The value of four hexadecimal digits. -/
def hexValue (a b c d : Char) : Option ℕ := do
  let a ← hexDigitValue a
  let b ← hexDigitValue b
  let c ← hexDigitValue c
  let d ← hexDigitValue d
  return ((a * 16 + b) * 16 + c) * 16 + d

/-- The escapes of one character. -/
def simpleEscape (c : Char) : Option ℕ :=
  if c = '"' then some 34
  else if c = '\\' then some 92
  else if c = '/' then some 47
  else if c = 'b' then some 8
  else if c = 'f' then some 12
  else if c = 'n' then some 10
  else if c = 'r' then some 13
  else if c = 't' then some 9
  else none

/-- A string after its opening quote: characters and escapes, and the text after its closing quote. -/
def scanString : List Char → Option (List ℕ × List Char)
  | [] => none
  | c :: rest =>
    if c = '"' then some ([], rest)
    else if c = '\\' then
      match rest with
      | [] => none
      | e :: rest =>
        if e = 'u' then
          match rest with
          | a :: b :: c :: d :: rest =>
            (hexValue a b c d).bind fun u => (scanString rest).map fun x => (u :: x.1, x.2)
          | _ => none
        else (simpleEscape e).bind fun u => (scanString rest).map fun x => (u :: x.1, x.2)
    else if c.toNat < 32 then none
    else (scanString rest).map fun x => (c.toNat :: x.1, x.2)

/-- A high and a low surrogate side by side are one character. -/
def joinSurrogates : List ℕ → PyText
  | [] => []
  | [u] => [u]
  | u :: v :: rest =>
    if 55296 ≤ u ∧ u ≤ 56319 ∧ 56320 ≤ v ∧ v ≤ 57343 then
      (65536 + ((u - 55296) * 1024 + (v - 56320))) :: joinSurrogates rest
    else u :: joinSurrogates (v :: rest)

/-- The value of decimal digits. -/
def digitsValue (ds : List Char) : ℕ := ds.foldl (fun a c => 10 * a + (c.toNat - 48)) 0

/-- With a sign. -/
def signed (neg : Bool) (n : ℕ) : ℤ := if neg then -n else n

/-- The part before the point: a single zero, or digits that do not begin with one. -/
def readInt : List Char → Option (List Char × List Char)
  | [] => none
  | c :: cs =>
    if c = '0' then some (['0'], cs)
    else if c.isDigit then some (c :: cs.takeWhile Char.isDigit, cs.dropWhile Char.isDigit)
    else none

/-- A point and the digits after it, if there are any. -/
def readFraction : List Char → List Char × List Char
  | [] => ([], [])
  | c :: cs =>
    if c = '.' ∧ cs.takeWhile Char.isDigit ≠ [] then (cs.takeWhile Char.isDigit, cs.dropWhile Char.isDigit)
    else ([], c :: cs)

/-- The sign of an exponent. -/
def readSign : List Char → Bool × List Char
  | [] => (false, [])
  | c :: cs => if c = '-' then (true, cs) else if c = '+' then (false, cs) else (false, c :: cs)

/-- An exponent, if there is one. -/
def readExponent : List Char → Option ℤ × List Char
  | [] => (none, [])
  | c :: cs =>
    if (c = 'e' ∨ c = 'E') ∧ (readSign cs).2.takeWhile Char.isDigit ≠ [] then
      (some (signed (readSign cs).1 (digitsValue ((readSign cs).2.takeWhile Char.isDigit))), (readSign cs).2.dropWhile Char.isDigit)
    else (none, c :: cs)

/-- The number of a decimal text; a float is rounded. -/
noncomputable def numberOf (fl : ℝ → ℝ) (neg : Bool) (ip fp : List Char) (ex : Option ℤ) : PyNum :=
  if fp = [] ∧ ex = none then .int (signed neg (digitsValue ip))
  else .float (.fin (fl ((signed neg (digitsValue (ip ++ fp)) : ℝ) * (10 : ℝ) ^ (ex.getD 0 - fp.length))))

/-- A number without its sign. -/
noncomputable def readUnsigned (fl : ℝ → ℝ) (neg : Bool) (cs : List Char) : Option (PyNum × List Char) :=
  (readInt cs).map fun x =>
    let y := readFraction x.2
    let z := readExponent y.2
    (numberOf fl neg x.1 y.1 z.1, z.2)

/-- A number. -/
noncomputable def readNumber (fl : ℝ → ℝ) : List Char → Option (PyNum × List Char)
  | [] => none
  | c :: cs => if c = '-' then readUnsigned fl true cs else readUnsigned fl false (c :: cs)

/-- The text after a given beginning. -/
def stripText : List Char → List Char → Option (List Char)
  | [], cs => some cs
  | _ :: _, [] => none
  | w :: ws, c :: cs => if w = c then stripText ws cs else none

/-- Literals and numbers. -/
noncomputable def readScalar (fl : ℝ → ℝ) : List Char → Option (JVal × List Char)
  | [] => none
  | c :: cs =>
    if c = 'n' then (stripText "ull".toList cs).map fun r => (.null, r)
    else if c = 't' then (stripText "rue".toList cs).map fun r => (.bool true, r)
    else if c = 'f' then (stripText "alse".toList cs).map fun r => (.bool false, r)
    else if c = 'N' then (stripText "aN".toList cs).map fun r => (.num (.float .nan), r)
    else if c = 'I' then (stripText "nfinity".toList cs).map fun r => (.num (.float .posInf), r)
    else match readNumber fl (c :: cs) with
      | some (x, r) => some (.num x, r)
      | none => if c = '-' then (stripText "Infinity".toList cs).map fun r => (.num (.float .negInf), r) else none

mutual
/-- A value at the beginning of a text and what comes after it, with at most so many nested steps. -/
noncomputable def readValue (fl : ℝ → ℝ) : ℕ → List Char → Option (JVal × List Char)
  | 0, _ => none
  | _ + 1, [] => none
  | n + 1, c :: cs =>
    if c = '"' then (scanString cs).map fun x => (.str (joinSurrogates x.1), x.2)
    else if c = '{' then
      match skipBlanks cs with
      | [] => none
      | d :: r =>
        if d = '}' then some (.obj [], r)
        else if d = '"' then (readMembers fl n r).map fun x => (.obj x.1, x.2)
        else none
    else if c = '[' then
      match skipBlanks cs with
      | [] => none
      | d :: r => if d = ']' then some (.arr [], r) else (readItems fl n (d :: r)).map fun x => (.arr x.1, x.2)
    else readScalar fl (c :: cs)

/-- The items of an array, from the first character of an item on. -/
noncomputable def readItems (fl : ℝ → ℝ) : ℕ → List Char → Option (List JVal × List Char)
  | 0, _ => none
  | n + 1, cs => (readValue fl n cs).bind fun x =>
    match skipBlanks x.2 with
    | [] => none
    | d :: r =>
      if d = ']' then some ([x.1], r)
      else if d = ',' then (readItems fl n (skipBlanks r)).map fun y => (x.1 :: y.1, y.2)
      else none

/-- The members of an object, from the opening quote of a name on. -/
noncomputable def readMembers (fl : ℝ → ℝ) : ℕ → List Char → Option (List (PyText × JVal) × List Char)
  | 0, _ => none
  | n + 1, cs => (scanString cs).bind fun k =>
    match skipBlanks k.2 with
    | [] => none
    | d :: r =>
      if d = ':' then (readValue fl n (skipBlanks r)).bind fun x =>
        match skipBlanks x.2 with
        | [] => none
        | d :: r =>
          if d = '}' then some ([(joinSurrogates k.1, x.1)], r)
          else if d = ',' then
            match skipBlanks r with
            | [] => none
            | d :: r =>
              if d = '"' then (readMembers fl n r).map fun y => ((joinSurrogates k.1, x.1) :: y.1, y.2) else none
          else none
      else none
end

/-- `json.loads`: a text is one value with blanks around it. -/
def ReadsAs (fl : ℝ → ℝ) (text : List Char) (j : JVal) : Prop :=
  ∃ n r, readValue fl n (skipBlanks text) = some (j, r) ∧ skipBlanks r = []

/-- `json.loads` raises. -/
def Unreadable (fl : ℝ → ℝ) (text : List Char) : Prop := ∀ j, ¬ ReadsAs fl text j

/-- A decimal number as Python writes floats: a point or an exponent, which has a sign, or both. -/
structure DecimalText where
  neg : Bool
  ip : List Char
  fp : List Char
  ex : Option (Bool × List Char)

/-- The text of the exponent. -/
def exponentText : Option (Bool × List Char) → List Char
  | none => []
  | some (neg, ds) => 'e' :: (if neg then '-' else '+') :: ds

/-- The text. -/
def DecimalText.text (D : DecimalText) : List Char :=
  (if D.neg then ['-'] else []) ++ (D.ip ++ ((if D.fp = [] then [] else '.' :: D.fp) ++ exponentText D.ex))

/-- The exponent, if there is one. -/
def DecimalText.exponent (D : DecimalText) : Option ℤ := D.ex.map fun e => signed e.1 (digitsValue e.2)

/-- The number. -/
noncomputable def DecimalText.value (D : DecimalText) : ℝ :=
  (signed D.neg (digitsValue (D.ip ++ D.fp)) : ℝ) * (10 : ℝ) ^ (D.exponent.getD 0 - (D.fp.length : ℤ))

/-- Digits where digits belong, no leading zeros, and not an integer. -/
structure DecimalText.Valid (D : DecimalText) : Prop where
  ip : ∀ c ∈ D.ip, c.isDigit
  lead : D.ip = ['0'] ∨ ∃ c cs, D.ip = c :: cs ∧ c ≠ '0'
  fp : ∀ c ∈ D.fp, c.isDigit
  ex : ∀ neg ds, D.ex = some (neg, ds) → ds ≠ [] ∧ ∀ c ∈ ds, c.isDigit
  float : D.fp ≠ [] ∨ D.ex ≠ none

/-- `repr` of a float of the machine (`F`) is a decimal number that is read as this float. -/
def ReprFloat (F : ℝ → Prop) (fl : ℝ → ℝ) (repr : ℝ → List Char) : Prop :=
  ∀ x, F x → ∃ D : DecimalText, D.Valid ∧ repr x = D.text ∧ fl D.value = x

mutual
/-- All finite floats in a value are floats of the machine. -/
def FloatsOf (F : ℝ → Prop) : PyVal → Prop
  | .num (.float (.fin x)) => F x
  | .dict entries => FloatsEntries F entries
  | .list items => FloatsItems F items
  | .tuple items => FloatsItems F items
  | _ => True

/-- In all items. -/
def FloatsItems (F : ℝ → Prop) : List PyVal → Prop
  | [] => True
  | v :: rest => FloatsOf F v ∧ FloatsItems F rest

/-- In all entries. -/
def FloatsEntries (F : ℝ → Prop) : List (PyKey × PyVal) → Prop
  | [] => True
  | (_, v) :: rest => FloatsOf F v ∧ FloatsEntries F rest
end

/-- A dictionary, a list or a tuple. -/
def IsContainer : PyVal → Prop
  | .dict _ => True
  | .list _ => True
  | .tuple _ => True
  | _ => False

end Torchrir.Spec
