import Verif.Model.Tensor

/-!
# Configuration

Model of `src/torchrir/config.py`.
-/

namespace Torchrir.Model

/-- A directivity argument: one name, or a list/tuple of names. -/
inductive DirArg where
  | one (name : String)
  | tuple (names : List String)
deriving DecidableEq

/-- `rir_hpf_kwargs` (config.py 37-39): the `"n"` entry and the remaining entries. -/
structure HpfKwargs where
  n : Option ℤ
  rest : List (String × String)
deriving DecidableEq

/-- `SimulationConfig` (config.py 22-39). -/
structure Config where
  fs : Option ℝ := none
  maxOrder : Option ℤ := none
  tmax : Option ℝ := none
  directivity : Option DirArg := none
  device : Option String := none
  seed : Option ℤ := none
  useLut : Bool := true
  mixedPrecision : Bool := false
  fracDelayLength : ℤ := 81
  sincLutGranularity : ℤ := 20
  imageChunkSize : ℤ := 2048
  accumulateChunkSize : ℤ := 4096
  useCompile : Bool := false
  rirHpfEnable : Bool := true
  rirHpfFc : ℝ := 10
  rirHpfKwargs : HpfKwargs := ⟨some 2, [("rp", "5.0"), ("rs", "60.0"), ("type", "butter")]⟩

open Classical in
/-- `SimulationConfig.validate` (config.py 41-62). -/
noncomputable def Config.validate (c : Config) : Except String Unit := do
  raiseIf (∃ f, c.fs = some f ∧ f ≤ 0) "fs must be positive"
  raiseIf (∃ m, c.maxOrder = some m ∧ m < 0) "max_order must be non-negative"
  raiseIf (∃ t, c.tmax = some t ∧ t ≤ 0) "tmax must be positive"
  raiseIf (∃ s, c.seed = some s ∧ s < 0) "seed must be non-negative"
  raiseIf (c.fracDelayLength ≤ 0 ∨ c.fracDelayLength % 2 = 0)
    "frac_delay_length must be a positive odd integer"
  raiseIf (c.sincLutGranularity ≤ 0) "sinc_lut_granularity must be positive"
  raiseIf (c.imageChunkSize ≤ 0) "image_chunk_size must be positive"
  raiseIf (c.accumulateChunkSize ≤ 0) "accumulate_chunk_size must be positive"
  raiseIf (c.rirHpfFc ≤ 0) "rir_hpf_fc must be positive"
  raiseIf (∃ n, c.rirHpfKwargs.n = some n ∧ n ≤ 0) "rir_hpf_kwargs['n'] must be positive"

end Torchrir.Model
