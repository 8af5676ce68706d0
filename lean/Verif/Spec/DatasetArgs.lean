import Verif.Model.DatasetArgs
import Verif.Spec.Argv
import Verif.Spec.ScriptCli

/-!
# Specification: the command line of a dataset from its metadata
-/

namespace Torchrir.Spec

open Torchrir.Model

/-- The option for a name of an argument, e.g. `--num-scenes` for `num_scenes`. -/
def optionName (key : String) : String := "--" ++ String.ofList (key.toList.map fun c => if c = '_' then '-' else c)

/-- The numbers that a float option can have: those that some text stands for, and the defaults of the script. -/
def FloatValue (cv : Conversions) (x : Flt) : Prop :=
  (∃ s, cv.float s = some x) ∨ x = .fin 6 ∨ x = .fin 4 ∨ x = .fin 3 ∨ x = .fin 0.4

/-- How numbers are typed such that they are read as the same numbers, as `repr` does. -/
structure Typing (cv : Conversions) where
  int : ℤ → String
  float : Flt → String
  int_read : ∀ z, cv.int (int z) = some z
  float_read : ∀ x, FloatValue cv x → cv.float (float x) = some x

/-- A number as it is typed. -/
def Typing.num {cv : Conversions} (ty : Typing cv) : PyVal → String
  | .num (.int z) => ty.int z
  | .num (.float x) => ty.float x
  | _ => ""

/-- One argument as it is typed. -/
def Typing.option {cv : Conversions} (ty : Typing cv) (key : String) : PyVal → List String
  | .str s => [optionName key ++ "=" ++ s]
  | .num x => [optionName key ++ "=" ++ ty.num (.num x)]
  | .bool b => if b then [optionName key] else []
  | .list items => optionName key :: items.map ty.num
  | _ => []

/-- The arguments of a dataset as a command line. -/
def Typing.words {cv : Conversions} (ty : Typing cv) : PyVal → List String
  | .dict entries => entries.flatMap fun e => match e.1 with
    | .str key => ty.option key e.2
    | _ => []
  | _ => []

end Torchrir.Spec
