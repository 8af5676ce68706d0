import Verif.Spec.Cli
import Verif.Model.ConfigText

/-!
# Specification: configuration files as text
-/

namespace Torchrir.Spec

open Torchrir.Model

/-- A value that JSON has: no path, no mapping inside, and all its floats are floats of the machine (`F`). -/
inductive JsonVal (F : ℝ → Prop) : Val → Prop
  | none : JsonVal F .none
  | bool (b : Bool) : JsonVal F (.bool b)
  | int (z : ℤ) : JsonVal F (.int z)
  | str (s : String) : JsonVal F (.str s)
  | float (x : ℝ) (h : F x) : JsonVal F (.float (.fin x))
  | special (x : Flt) (h : ∀ r, x ≠ .fin r) : JsonVal F (.float x)
  | list (l : List Val) (h : ∀ v ∈ l, JsonVal F v) : JsonVal F (.list l)

/-- The last member with a name has the value `x`. -/
def LastMember (members : List (PyText × JVal)) (name : String) (x : JVal) : Prop :=
  ∃ pre post, members = pre ++ (codePoints name, x) :: post ∧ ∀ m ∈ post, m.1 ≠ codePoints name

/-- The text that `_dump_config` is to write to a file that is not YAML. -/
def configText (io : ConfigIO) (config : List (String × Val)) : List Char := (dumpText io.repr (configDict io config)).1

end Torchrir.Spec
