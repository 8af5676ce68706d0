import Verif.Model.Animation
import Verif.Model.Plot

/-!
# Frames of animations, and saving images

Model of `_build_scene_animation` in `src/torchrir/viz/animation.py`: what is on the axes in every
frame, and of the `save_scene_*` functions in `src/torchrir/viz/io.py`, which save until something
raises and then only log a warning. Simplified: axis limits, colours, fonts and annotation lines are
left out; the title is the time it shows, before formatting; a trajectory must have at least as many
coordinates as the view.
-/

namespace Torchrir.Model

/-- What one frame shows. -/
structure Frame where
  srcDots : List Vec
  micDots : List Vec
  srcTrails : List (List Vec)
  micTrails : List (List Vec)
  labels : List (Vec × String)
  title : Option ℝ

/-- `frame[:, k, :]` for every entity (animation.py 242-246, 263-270). -/
def trailsOf (traj : List (List Vec)) (i : ℕ) : List (List Vec) :=
  (List.range (traj.getD 0 []).length).map fun k => (traj.take (i + 1)).map fun points => points.getD k []

/-- `_frame` for the trajectory index `idx` (animation.py 231-281). -/
noncomputable def frameAt (src mic : List (List Vec)) (steps : ℕ) (duration : Option ℝ) (annotate : Bool)
    (i : ℕ) : Frame where
  srcDots := src.getD i []
  micDots := mic.getD i []
  srcTrails := trailsOf src i
  micTrails := trailsOf mic i
  labels := if annotate then (src.getD i []).zipIdx.map fun p => (p.1, "S" ++ toString p.2) else []
  title :=
    match duration with
    | none => none
    | some d => if 1 < steps then some (i / (steps - 1) * d) else none

/-- `view_dim` (animation.py 167). -/
def viewDim (dim : ℕ) (plot3d : Bool) : ℕ := if plot3d ∧ dim = 3 then 3 else 2

/-- `_build_scene_animation` (animation.py 140-298): all frames and the frame rate. -/
noncomputable def animateScene (room sources mics : Tensor ℝ) (srcTraj micTraj : Option (Tensor ℝ))
    (step : ℤ := 1) (fps : Option ℝ := none) (signalLen : Option ℕ := none) (fs duration : Option ℝ := none)
    (plot2d : Bool := true) (plot3d : Bool := false) (annotate : Bool := true) :
    Except String (List Frame × ℤ) := do
  raiseIf (plot2d = false ∧ plot3d = false) "Either plot_2d or plot_3d must be True"
  raiseIf (srcTraj = none ∧ micTraj = none) "at least one trajectory is required for animation"
  let steps ← vizSteps srcTraj micTraj
  let st ← trajectoryToCpu srcTraj (positionsToCpu sources) steps
  let mt ← trajectoryToCpu micTraj (positionsToCpu mics) steps
  let src ← plotTrajectory (viewDim room.numel plot3d) (sliceLast (viewDim room.numel plot3d) st)
  let mic ← plotTrajectory (viewDim room.numel plot3d) (sliceLast (viewDim room.numel plot3d) mt)
  let length ← animationDuration duration signalLen fs
  let shown ← animation (some src.length) (some mic.length) step fps signalLen fs duration
  return (shown.1.map fun i => frameAt src mic steps length annotate i.toNat, shown.2)

/-! ## Saving -/

/-- `try: … except Exception: logger.warning(…)` around a sequence of renderings that are saved one
after the other: what was saved, and the warning if one was logged. -/
def saveUntilError {α : Type} : List (Except String α) → List α × Option String
  | [] => ([], none)
  | .error e :: _ => ([], some e)
  | .ok a :: rest => (a :: (saveUntilError rest).1, (saveUntilError rest).2)

/-- What is on a layout image (viz/io.py 296-319, 324-341). -/
noncomputable def layoutMarks (room src mic : Tensor ℝ) (annotate : Bool) (view : ℕ) :
    Option (Tensor ℝ × Tensor ℝ) → Except String (List Mark)
  | some (st, mt) => plotDynamic (sliceLast view room) (sliceLast view st) (sliceLast view mt) 1
      (some (sliceLast view src)) (some (sliceLast view mic)) annotate
  | none => plotStatic (sliceLast view room) (sliceLast view src) (sliceLast view mic) annotate

/-- One layout image (viz/io.py 295-345). -/
noncomputable def layoutImage (room src mic : Tensor ℝ) (traj : Option (Tensor ℝ × Tensor ℝ))
    (annotate : Bool) (view : ℕ) : Except String Image := do
  let marks ← layoutMarks room src mic annotate view traj
  return ("room_layout_" ++ toString view ++ "d.png", marks)

/-- `has_traj`, `src_traj_t`, `mic_traj_t` (viz/io.py 285-291). -/
def layoutTrajectories (srcTraj micTraj : Option (Tensor ℝ)) (src mic : Tensor ℝ) :
    Except String (Option (Tensor ℝ × Tensor ℝ)) :=
  match srcTraj, micTraj with
  | none, none => .ok none
  | _, _ => do
    let steps ← vizSteps srcTraj micTraj
    let st ← trajectoryToCpu srcTraj src steps
    let mt ← trajectoryToCpu micTraj mic steps
    return some (st, mt)

/-- `save_scene_layout_images` (viz/io.py 261-347). -/
noncomputable def saveLayoutImages (room sources mics : Tensor ℝ) (srcTraj micTraj : Option (Tensor ℝ) := none)
    (save2d save3d annotate : Bool := true) : List Image × Option String :=
  match layoutTrajectories srcTraj micTraj (positionsToCpu sources) (positionsToCpu mics) with
  | .error e => ([], some e)
  | .ok traj => saveUntilError (
      (if save2d ∧ 2 ≤ room.numel then
        [layoutImage room (positionsToCpu sources) (positionsToCpu mics) traj annotate 2] else []) ++
      (if save3d ∧ 3 ≤ room.numel then
        [layoutImage room (positionsToCpu sources) (positionsToCpu mics) traj annotate 3] else []))

/-- A saved animation: its name, its frames and its frame rate. -/
structure Movie where
  name : String
  frames : List Frame
  rate : ℤ

/-- One call of `animate_scene_gif` or, without sound, `animate_scene_mp4` (animation.py 33-139). -/
noncomputable def renderMovie (name : String) (shown : Except String (List Frame × ℤ)) : Except String Movie := do
  let f ← shown
  return ⟨name, f.1, f.2⟩

/-- `save_scene_gifs` (viz/io.py 137-189). -/
noncomputable def saveGifs (room sources mics : Tensor ℝ) (srcTraj micTraj : Option (Tensor ℝ)) (pre : String)
    (signalLen : ℕ) (fs : ℝ) (gifFps : ℤ) (annotate : Bool := true) : List Movie × Option String :=
  saveUntilError (
    [renderMovie (pre ++ ".gif") (animateScene room sources mics srcTraj micTraj 1
      (if 0 < gifFps then some (gifFps : ℝ) else none) (some signalLen) (some fs) none true false annotate)] ++
    (if room.numel = 3 then
      [renderMovie (pre ++ "_3d.gif") (animateScene room sources mics srcTraj micTraj 1
        (if 0 < gifFps then some (gifFps : ℝ) else none) (some signalLen) (some fs) none false true annotate)]
      else []))

/-- `save_scene_videos` (viz/io.py 192-258) without the sound, which `Model/Mux` adds. -/
noncomputable def saveVideos (room sources mics : Tensor ℝ) (srcTraj micTraj : Option (Tensor ℝ))
    (signalLen : ℕ) (fs : ℝ) (fps : Option ℝ := none) (save3d annotate : Bool := true) :
    List Movie × Option String :=
  saveUntilError (
    [renderMovie "room_layout_2d.mp4" (animateScene room sources mics srcTraj micTraj 1 fps (some signalLen)
      (some fs) none true false annotate)] ++
    (if room.numel = 3 ∧ save3d then
      [renderMovie "room_layout_3d.mp4" (animateScene room sources mics srcTraj micTraj 1 fps (some signalLen)
        (some fs) none false true annotate)]
      else []))

end Torchrir.Model
