import Verif.Model.ConfigUpdate
import Verif.Spec.Room

/-!
# Acceptable configurations
-/

namespace Torchrir.Spec

open Torchrir.Model

/-- What every configuration must satisfy. -/
structure AcceptableConfig (c : ConfigF) : Prop where
  fs : ∀ f, c.fs = some f → Positive f
  maxOrder : ∀ m, c.maxOrder = some m → 0 ≤ m
  tmax : ∀ t, c.tmax = some t → Positive t
  seed : ∀ s, c.seed = some s → 0 ≤ s
  kernel : 0 < c.fracDelayLength ∧ Odd c.fracDelayLength
  granularity : 0 < c.sincLutGranularity
  imageChunk : 0 < c.imageChunkSize
  accumulateChunk : 0 < c.accumulateChunkSize
  cutoff : Positive c.rirHpfFc
  order : ∀ n, c.rirHpfKwargs.n = some n → 0 < n

/-- No float of the configuration is NaN. -/
def ConfigF.NoNan (c : ConfigF) : Prop := c.fs ≠ some .nan ∧ c.tmax ≠ some .nan ∧ c.rirHpfFc ≠ .nan

/-- No float of the update is NaN. -/
def ConfigUpdate.NoNan (u : ConfigUpdate) : Prop :=
  u.fs ≠ some (some .nan) ∧ u.tmax ≠ some (some .nan) ∧ u.rirHpfFc ≠ some .nan

end Torchrir.Spec
