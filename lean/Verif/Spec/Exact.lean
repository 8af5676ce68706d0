import Verif.Spec.Config

/-!
# What validation really checks

The comparisons of the code are false for NaN, and reflection coefficients are compared after the
conversion to the type of the room size. The definitions here say what is compared.
-/

namespace Torchrir.Spec

open Torchrir.Model

/-- A NaN counts as a positive number. -/
def nanAsOne : Flt → Flt
  | .nan => .fin 1
  | f => f

/-- The configuration with every NaN taken for a positive number. -/
def configAsCompared (c : ConfigF) : ConfigF :=
  { c with fs := c.fs.map nanAsOne, tmax := c.tmax.map nanAsOne, rirHpfFc := nanAsOne c.rirHpfFc }

/-- A field after a replacement: the given value, or the old one if none is given. -/
def Replaced {α : Type} (old : α) (given : Option α) (new : α) : Prop :=
  (∀ v, given = some v → new = v) ∧ (given = none → new = old)

/-- Every field that is given has the new value, every other field the old one. -/
structure IsReplaced (c : ConfigF) (u : ConfigUpdate) (c' : ConfigF) : Prop where
  fs : Replaced c.fs u.fs c'.fs
  maxOrder : Replaced c.maxOrder u.maxOrder c'.maxOrder
  tmax : Replaced c.tmax u.tmax c'.tmax
  directivity : Replaced c.directivity u.directivity c'.directivity
  device : Replaced c.device u.device c'.device
  seed : Replaced c.seed u.seed c'.seed
  useLut : Replaced c.useLut u.useLut c'.useLut
  mixedPrecision : Replaced c.mixedPrecision u.mixedPrecision c'.mixedPrecision
  fracDelayLength : Replaced c.fracDelayLength u.fracDelayLength c'.fracDelayLength
  sincLutGranularity : Replaced c.sincLutGranularity u.sincLutGranularity c'.sincLutGranularity
  imageChunkSize : Replaced c.imageChunkSize u.imageChunkSize c'.imageChunkSize
  accumulateChunkSize : Replaced c.accumulateChunkSize u.accumulateChunkSize c'.accumulateChunkSize
  useCompile : Replaced c.useCompile u.useCompile c'.useCompile
  rirHpfEnable : Replaced c.rirHpfEnable u.rirHpfEnable c'.rirHpfEnable
  rirHpfFc : Replaced c.rirHpfFc u.rirHpfFc c'.rirHpfFc
  rirHpfKwargs : Replaced c.rirHpfKwargs u.rirHpfKwargs c'.rirHpfKwargs

/-- The room with every NaN scalar taken for a positive number, and with the coefficients as they are
after the conversion to the type of the size. -/
noncomputable def roomAsCompared (conv : Flt → ℤ) (r : RoomObj) : RoomObj :=
  { size := r.size, fs := nanAsOne r.fs, c := nanAsOne r.c, t60 := r.t60.map nanAsOne,
    beta := r.beta.map (castTo conv r.size.dtype) }

end Torchrir.Spec
