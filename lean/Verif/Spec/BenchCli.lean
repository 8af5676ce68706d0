import Verif.Model.BenchCli
import Verif.Spec.Argv

/-!
# Specification: the options of the benchmark script
-/

namespace Torchrir.Spec

open Torchrir.Model

/-- What one option does. -/
inductive BenchSets (cv : Conversions) : Given → BenchArgs → BenchArgs → Prop where
  | repeats (a : BenchArgs) (s : String) (z : ℤ) (h : cv.int s = some z) :
      BenchSets cv ⟨"--repeats", [s]⟩ a { a with repeats := z }
  | gpu (a : BenchArgs) (s : String) : BenchSets cv ⟨"--gpu", [s]⟩ a { a with gpu := s }
  | dynamic (a : BenchArgs) : BenchSets cv ⟨"--dynamic", []⟩ a { a with dynamic := true }
  | level (a : BenchArgs) (s : String) : BenchSets cv ⟨"--log-level", [s]⟩ a { a with logLevel := s }

/-- The arguments after the options of a command line, one after the other. Without options there are five repetitions,
the device is chosen automatically, nothing moves, and the level is `INFO`. -/
inductive BenchReads (cv : Conversions) : List Given → BenchArgs → Prop where
  | start : BenchReads cv [] ⟨5, "auto", false, "INFO"⟩
  | next (l : List Given) (g : Given) (a a' : BenchArgs) : BenchReads cv l a → BenchSets cv g a a' → BenchReads cv (l ++ [g]) a'

/-- The arguments that a command line means. -/
def BenchMeans (cv : Conversions) (argv : List String) (a : BenchArgs) : Prop :=
  ∃ given, TypedAs benchParser argv given ∧ BenchReads cv given a

end Torchrir.Spec
