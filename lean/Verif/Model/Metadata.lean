import Verif.Model.Tensor
import Verif.Model.Room
import Mathlib.Analysis.SpecialFunctions.Complex.Arg

/-!
# Metadata of a simulation

Model of `build_metadata` in `src/torchrir/io/metadata.py`. Parts of the arguments that are only copied into the
dictionary (room size, speed of sound, reflection coefficients, reverberation time, orientations, `source_info`,
`extra`) are left out; tensors are turned into nested lists as `_to_serializable` does (209-220).
-/

namespace Torchrir.Model

/-- `_normalize_traj` (metadata.py 151-166). -/
def normalizeTraj (traj : Option (Tensor ℝ)) (pos : Tensor ℝ) (dim : ℕ) : Except String (Tensor ℝ) :=
  match traj with
  | none =>
    match pos.shape with
    | [_, k] => if k ≠ dim then .error "default positions must have shape (N, dim)" else .ok pos.unsqueeze0
    | _ => .error "default positions must have shape (N, dim)"
  | some t =>
    match t.shape with
    | [_, k] => if k ≠ dim then .error "traj must have shape (T, dim)" else .ok t.unsqueeze1
    | [_, _, k] => if k ≠ dim then .error "traj must have shape (T, N, dim)" else .ok t
    | _ => .error "traj must have shape (T, N, dim)"

/-- `traj.expand(t_steps, -1, -1)` of a trajectory with one step if there are more steps (metadata.py 71-74). -/
def expandSteps (traj : Tensor ℝ) (steps : ℕ) : Tensor ℝ :=
  if traj.shape.getD 0 0 = 1 ∧ 1 < steps then
    ⟨steps :: traj.shape.tail, (List.replicate steps traj.data).flatten⟩
  else traj

/-- `torch.atan2(y, x)`. -/
noncomputable def atan2 (y x : ℝ) : ℝ := Complex.arg ⟨x, y⟩

/-- The azimuth of a difference vector (metadata.py 171-173). -/
noncomputable def azimuthOf (v : Vec) : ℝ := atan2 (v.getD 1 0) (v.getD 0 0)

/-- The elevation of a difference vector (metadata.py 174-179). -/
noncomputable def elevationOf (v : Vec) : ℝ :=
  if v.length < 3 then 0 else atan2 (v.getD 2 0) (Real.sqrt (v.getD 0 0 ^ 2 + v.getD 1 0 ^ 2))

/-- One number per step, source and microphone from the difference of the positions (metadata.py 170). -/
def perPair (f : Vec → ℝ) (src mic : Tensor ℝ) : List (List (List ℝ)) :=
  List.zipWith (fun ps qs => ps.map fun p => qs.map fun q => f (vsub p q)) src.planes mic.planes

/-- `_array_attributes(mics).center` (metadata.py 192): the mean over the microphones; not a number without
microphones, an error for integer positions. -/
noncomputable def arrayCenter (pos : Tensor ℝ) (type : NumType) : Except String (Option Vec) :=
  if type = .int64 then .error "mean(): could not infer output dtype"
  else .ok (if pos.rows.length = 0 then none
    else some ((List.range (pos.shape.getD 1 0)).map fun i => (pos.rows.map fun p => p.getD i 0).sum / pos.rows.length))

/-- The positive entries of `torch.cdist(pos, pos)` (metadata.py 195-196). -/
noncomputable def pairDistances (pos : Tensor ℝ) : List ℝ :=
  (pos.rows.flatMap fun p => pos.rows.map fun q => norm2 (vsub p q)).filter fun x => 0 < x

/-- `_array_attributes(mics).spacing` (metadata.py 193-198). -/
noncomputable def arraySpacing (pos : Tensor ℝ) : Option ℝ :=
  if 2 ≤ pos.rows.length then (pairDistances pos).min? else none

/-- `_array_attributes(mics).geometry_name` (metadata.py 185-191). -/
def arrayGeometry (pos : Tensor ℝ) : String :=
  if pos.rows.length = 1 then "single" else if pos.rows.length = 2 then "binaural" else "custom"

/-- The timestamps (metadata.py 86-91). -/
noncomputable def metadataTimestamps (timestamps : Option (Tensor ℝ)) (signalLen : Option ℤ) (steps : ℕ) (fs : ℝ) :
    Option (Tensor ℝ) :=
  match timestamps, signalLen with
  | some t, _ => some t
  | none, some n => if 1 < steps then some ⟨[steps], linspace 0 (max 0 ((n - 1) / fs)) steps⟩ else none
  | none, none => none

/-- The dictionary that `build_metadata` returns. -/
structure Metadata where
  fs : ℝ
  nsample : ℕ
  time : List ℝ
  sourcePositions : List Vec
  micPositions : List Vec
  sourceTraj : Option (List (List Vec))
  micTraj : Option (List (List Vec))
  azimuth : List (List (List ℝ))
  elevation : List (List (List ℝ))
  timestamps : Option (Tensor ℝ)
  geometry : String
  center : Option Vec
  spacing : Option ℝ
  rirsShape : List ℕ
  dynamic : Bool

/-- `build_metadata` (metadata.py 28-135) for a room with the given number of axes and sampling rate. -/
noncomputable def buildMetadata (dim : ℕ) (fs : ℝ) (srcPos micPos : Tensor ℝ) (micType : NumType) (rirsShape : List ℕ)
    (srcTraj micTraj : Option (Tensor ℝ) := none) (timestamps : Option (Tensor ℝ) := none)
    (signalLen : Option ℤ := none) : Except String Metadata := do
  raiseIf (rirsShape = []) "IndexError: tuple index out of range"
  let nsample := rirsShape.getLastD 0
  let src ← normalizeTraj srcTraj srcPos dim
  let mic ← normalizeTraj micTraj micPos dim
  let steps := max (src.shape.getD 0 0) (mic.shape.getD 0 0)
  let src := expandSteps src steps
  let mic := expandSteps mic steps
  raiseIf (src.shape.getD 0 0 ≠ mic.shape.getD 0 0) "src_traj and mic_traj must have matching time steps"
  raiseIf (dim < 2) "IndexError: index 1 is out of bounds"
  let center ← arrayCenter micPos micType
  return {
    fs := fs
    nsample := nsample
    time := (List.range nsample).map fun (k : ℕ) => (k : ℝ) / fs
    sourcePositions := srcPos.rows
    micPositions := micPos.rows
    sourceTraj := if 1 < steps then some src.planes else none
    micTraj := if 1 < steps then some mic.planes else none
    azimuth := perPair azimuthOf src mic
    elevation := perPair elevationOf src mic
    timestamps := metadataTimestamps timestamps signalLen steps fs
    geometry := arrayGeometry micPos
    center := center
    spacing := arraySpacing micPos
    rirsShape := rirsShape
    dynamic := decide (1 < steps) }

end Torchrir.Model
