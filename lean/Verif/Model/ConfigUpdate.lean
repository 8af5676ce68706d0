import Verif.Model.Room

/-!
# Configuration updates

Model of `SimulationConfig.validate` and `SimulationConfig.replace` (`src/torchrir/config.py`) on
floats including NaN and the infinities. `Config` in `Verif.Model.Config` is the part the simulation
model uses, with finite floats only.
-/

namespace Torchrir.Model

/-- `SimulationConfig` (config.py 22-39). The value of `rir_hpf_kwargs["n"]` is the result of `int()`
(config.py 61). -/
structure ConfigF where
  fs : Option Flt := none
  maxOrder : Option ℤ := none
  tmax : Option Flt := none
  directivity : Option DirArg := none
  device : Option String := none
  seed : Option ℤ := none
  useLut : Bool := true
  mixedPrecision : Bool := false
  fracDelayLength : ℤ := 81
  sincLutGranularity : ℤ := 20
  imageChunkSize : ℤ := 2048
  accumulateChunkSize : ℤ := 4096
  useCompile : Bool := false
  rirHpfEnable : Bool := true
  rirHpfFc : Flt := .fin 10
  rirHpfKwargs : HpfKwargs := ⟨some 2, [("rp", "5.0"), ("rs", "60.0"), ("type", "butter")]⟩

open Classical in
/-- `SimulationConfig.validate` (config.py 41-62). -/
noncomputable def ConfigF.validate (c : ConfigF) : Except String Unit := do
  raiseIf (∃ f, c.fs = some f ∧ f.leZero) "fs must be positive"
  raiseIf (∃ m, c.maxOrder = some m ∧ m < 0) "max_order must be non-negative"
  raiseIf (∃ t, c.tmax = some t ∧ t.leZero) "tmax must be positive"
  raiseIf (∃ s, c.seed = some s ∧ s < 0) "seed must be non-negative"
  raiseIf (c.fracDelayLength ≤ 0 ∨ c.fracDelayLength % 2 = 0)
    "frac_delay_length must be a positive odd integer"
  raiseIf (c.sincLutGranularity ≤ 0) "sinc_lut_granularity must be positive"
  raiseIf (c.imageChunkSize ≤ 0) "image_chunk_size must be positive"
  raiseIf (c.accumulateChunkSize ≤ 0) "accumulate_chunk_size must be positive"
  raiseIf c.rirHpfFc.leZero "rir_hpf_fc must be positive"
  raiseIf (∃ n, c.rirHpfKwargs.n = some n ∧ n ≤ 0) "rir_hpf_kwargs['n'] must be positive"

/-- The keyword arguments of `SimulationConfig.replace`: the fields that are given. -/
structure ConfigUpdate where
  fs : Option (Option Flt) := none
  maxOrder : Option (Option ℤ) := none
  tmax : Option (Option Flt) := none
  directivity : Option (Option DirArg) := none
  device : Option (Option String) := none
  seed : Option (Option ℤ) := none
  useLut : Option Bool := none
  mixedPrecision : Option Bool := none
  fracDelayLength : Option ℤ := none
  sincLutGranularity : Option ℤ := none
  imageChunkSize : Option ℤ := none
  accumulateChunkSize : Option ℤ := none
  useCompile : Option Bool := none
  rirHpfEnable : Option Bool := none
  rirHpfFc : Option Flt := none
  rirHpfKwargs : Option HpfKwargs := none

/-- `dataclasses.replace(self, **kwargs)` (config.py 66). -/
def ConfigF.merge (c : ConfigF) (u : ConfigUpdate) : ConfigF where
  fs := u.fs.getD c.fs
  maxOrder := u.maxOrder.getD c.maxOrder
  tmax := u.tmax.getD c.tmax
  directivity := u.directivity.getD c.directivity
  device := u.device.getD c.device
  seed := u.seed.getD c.seed
  useLut := u.useLut.getD c.useLut
  mixedPrecision := u.mixedPrecision.getD c.mixedPrecision
  fracDelayLength := u.fracDelayLength.getD c.fracDelayLength
  sincLutGranularity := u.sincLutGranularity.getD c.sincLutGranularity
  imageChunkSize := u.imageChunkSize.getD c.imageChunkSize
  accumulateChunkSize := u.accumulateChunkSize.getD c.accumulateChunkSize
  useCompile := u.useCompile.getD c.useCompile
  rirHpfEnable := u.rirHpfEnable.getD c.rirHpfEnable
  rirHpfFc := u.rirHpfFc.getD c.rirHpfFc
  rirHpfKwargs := u.rirHpfKwargs.getD c.rirHpfKwargs

/-- `SimulationConfig.replace` (config.py 64-68). -/
noncomputable def ConfigF.replace (c : ConfigF) (u : ConfigUpdate) : Except String ConfigF := do
  let new := c.merge u
  new.validate
  return new

/-- `default_config` (config.py 71-81). -/
noncomputable def defaultConfigF : Except String ConfigF := do
  let cfg : ConfigF := {}
  cfg.validate
  return cfg

/-- The configuration as the simulation sees it, for finite floats. -/
def ConfigF.toConfig (c : ConfigF) : Config where
  fs := c.fs.map Flt.toReal
  maxOrder := c.maxOrder
  tmax := c.tmax.map Flt.toReal
  directivity := c.directivity
  device := c.device
  seed := c.seed
  useLut := c.useLut
  mixedPrecision := c.mixedPrecision
  fracDelayLength := c.fracDelayLength
  sincLutGranularity := c.sincLutGranularity
  imageChunkSize := c.imageChunkSize
  accumulateChunkSize := c.accumulateChunkSize
  useCompile := c.useCompile
  rirHpfEnable := c.rirHpfEnable
  rirHpfFc := c.rirHpfFc.toReal
  rirHpfKwargs := c.rirHpfKwargs

end Torchrir.Model
