import Verif.Model.LogTree

/-!
# Names below the package and printed lines
-/

namespace Torchrir.Spec

open Torchrir.Model

/-- A name in the package: `torchrir`, or such a name followed by a dot and a word that is not empty. -/
inductive InTree : List Char → Prop
  | package : InTree "torchrir".toList
  | child {base word : List Char} (h : InTree base) (hne : word ≠ []) (hdot : '.' ∉ word) : InTree (base ++ '.' :: word)

/-- The levels that have a name. -/
def namedLevels : List (ℤ × String) :=
  [(0, "NOTSET"), (10, "DEBUG"), (20, "INFO"), (30, "WARNING"), (40, "ERROR"), (50, "CRITICAL")]

/-- The text for a level. -/
def levelText (level : ℤ) : List Char :=
  match namedLevels.lookup level with
  | some s => s.toList
  | none => "Level ".toList ++ (toString level).toList

/-- The line of the default format: level, name and message with colons between them. -/
def logLine (level : ℤ) (name message : List Char) : List Char :=
  levelText level ++ ':' :: name ++ ':' :: message

/-- What a format is made of. -/
inductive FormatPiece
  | char (c : Char)
  | percent
  | level
  | name
  | message

/-- How a piece is written in a format. -/
def FormatPiece.code : FormatPiece → List Char
  | .char c => [c]
  | .percent => "%%".toList
  | .level => "%(levelname)s".toList
  | .name => "%(name)s".toList
  | .message => "%(message)s".toList

/-- What is printed for a piece. -/
def FormatPiece.text (lev : ℤ) (nam mes : List Char) : FormatPiece → List Char
  | .char c => [c]
  | .percent => ['%']
  | .level => levelText lev
  | .name => nam
  | .message => mes

end Torchrir.Spec
