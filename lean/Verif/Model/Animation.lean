import Verif.Model.Ism
import Mathlib.Algebra.Order.Round

/-!
# Animations

Model of the frame arithmetic of `_build_scene_animation` in `src/torchrir/viz/animation.py`.
-/

namespace Torchrir.Model

/-- `round(x)` of Python: halves go to the even neighbour. -/
noncomputable def roundHalfEven (x : ℝ) : ℤ :=
  if Int.fract x < 1 / 2 then ⌊x⌋ else if 1 / 2 < Int.fract x then ⌊x⌋ + 1
  else if Even ⌊x⌋ then ⌊x⌋ else ⌊x⌋ + 1

/-- The number of frames (animation.py 283); `//` rounds down. -/
def frameCount (steps : ℕ) (step : ℤ) : Except String ℤ :=
  if step = 0 then .error "integer division or modulo by zero"
  else .ok (max 1 (((steps : ℤ) + step - 1).fdiv step))

/-- The trajectory index shown in frame `i` (animation.py 232). -/
def frameIndex (steps : ℕ) (step : ℤ) (i : ℕ) : ℤ := min (i * step) ((steps : ℤ) - 1)

/-- `duration_s` (animation.py 228-229). -/
noncomputable def animationDuration (duration : Option ℝ) (signalLen : Option ℕ) (fs : Option ℝ) :
    Except String (Option ℝ) :=
  match duration, signalLen, fs with
  | some d, _, _ => .ok (some d)
  | none, some n, some f => if f = 0 then .error "float division by zero" else .ok (some (n / f))
  | none, _, _ => .ok none

/-- `fps` (animation.py 284-288). -/
noncomputable def animationFps (fps : Option ℝ) (frames : ℤ) (duration : Option ℝ) : ℝ :=
  match fps with
  | some f => if 0 < f then f else derived
  | none => derived
where
  derived : ℝ :=
    match duration with
    | some d => if 0 < d then frames / d else 6
    | none => 6

/-- `_traj_steps` (viz/utils.py 52-59) after the check that there is a trajectory (animation.py 172-175). -/
def animationSteps (src mic : Option ℕ) : Except String ℕ :=
  match src, mic with
  | some n, _ => .ok n
  | none, some n => .ok n
  | none, none => .error "at least one trajectory is required for animation"

/-- The trajectory index of every frame, in order, and the frame rate (animation.py 170-298, and the frames as
`anim.save` asks for them). `src` and `mic` are the numbers of steps of the trajectories that are given. -/
noncomputable def animation (src mic : Option ℕ) (step : ℤ := 1) (fps : Option ℝ := none)
    (signalLen : Option ℕ := none) (fs duration : Option ℝ := none) : Except String (List ℤ × ℤ) := do
  let steps ← animationSteps src mic
  let duration ← animationDuration duration signalLen fs
  let frames ← frameCount steps step
  let out := max 1 (roundHalfEven (animationFps fps frames duration))
  let indices := (List.range frames.toNat).map (frameIndex steps step)
  raiseIf (steps = 0) "index -1 is out of bounds for dimension 0 with size 0"
  raiseIf (∃ i ∈ indices, ((mic.getD steps : ℕ) : ℤ) ≤ i) "index is out of bounds for dimension 0"
  return (indices, out)

end Torchrir.Model
