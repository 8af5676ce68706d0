import Verif.Model.Config

/-!
# Directivity patterns

Model of `src/torchrir/sim/directivity.py`.
-/

namespace Torchrir.Model

/-- `directivity_gain` for one value of `cos_theta` (directivity.py 9-24). -/
noncomputable def directivityGain (pattern : String) (c : ℝ) : Except String ℝ :=
  let p := pattern.toLower
  if p ∈ ["omni", "omnidirectional"] then .ok 1
  else if p ∈ ["homni", "halfomni", "half-omni"] then .ok (if 0 < c then 1 else 0)
  else if p ∈ ["subcardioid", "subcard"] then .ok (0.75 + 0.25 * c)
  else if p ∈ ["cardioid", "card"] then .ok (0.5 + 0.5 * c)
  else if p ∈ ["hypercardioid", "hypcard"] then .ok (0.25 + 0.75 * c)
  else if p ∈ ["bidir", "bidirectional", "figure8", "figure-8"] then .ok c
  else .error ("unsupported directivity pattern: " ++ p)

/-- `directivity_gain` where `cos_theta` is NaN (directivity.py 9-24): the omnidirectional pattern does not look at it
and the comparison of the half-omnidirectional one is false.  The others yield NaN, which the model makes visible as an
error. -/
def directivityGainNaN (pattern : String) : Except String ℝ :=
  let p := pattern.toLower
  if p ∈ ["omni", "omnidirectional"] then .ok 1
  else if p ∈ ["homni", "halfomni", "half-omni"] then .ok 0
  else .error "NaN: image source coincides with microphone"

/-- `directivity_gain` for one value of `cos_theta`; `none` is NaN. -/
noncomputable def gainAt (pattern : String) : Option ℝ → Except String ℝ
  | some c => directivityGain pattern c
  | none => directivityGainNaN pattern

/-- `split_directivity` (directivity.py 27-33). -/
def splitDirectivity : DirArg → Except String (String × String)
  | .tuple [a, b] => .ok (a, b)
  | .tuple _ => .error "directivity tuple must have length 2"
  | .one s => .ok (s, s)

end Torchrir.Model
