import Verif.Model.Tensor

/-!
# Plots of scenes

Model of `src/torchrir/viz/scene.py` and of `render_scene_plots` in `src/torchrir/viz/io.py`: a plot is
the list of what is put on the axes. Simplified: colours, titles, axis limits, marker shapes and free
annotation lines are left out. Positions and trajectories must have as many coordinates as the room;
otherwise matplotlib raises or misreads a coordinate as a size, which the model counts as an error.
-/

namespace Torchrir.Model

/-- Something drawn on the axes. Points are lists of coordinates; labels that start with an
underscore stay out of the legend. -/
inductive Mark where
  | rectangle (width height : ℝ)
  | segment (a b : Vec)
  | dots (label : String) (points : List Vec)
  | path (label : String) (points : List Vec)
  | text (place : Vec) (s : String)

/-- The corners of the box (scene.py 178-190). -/
def boxCorners (x y z : ℝ) : List Vec :=
  [[0, 0, 0], [x, 0, 0], [x, y, 0], [0, y, 0], [0, 0, z], [x, 0, z], [x, y, z], [0, y, z]]

/-- The pairs of corners that are joined (scene.py 191-204). -/
def boxEdges : List (ℕ × ℕ) :=
  [(0, 1), (1, 2), (2, 3), (3, 0), (4, 5), (5, 6), (6, 7), (7, 4), (0, 4), (1, 5), (2, 6), (3, 7)]

/-- `_draw_room_3d` (scene.py 175-217). -/
def drawBox (x y z : ℝ) : List Mark :=
  boxEdges.map fun e => .segment ((boxCorners x y z).getD e.1 []) ((boxCorners x y z).getD e.2 [])

/-- `_room_size` and `_draw_room` (scene.py 140-217). -/
def drawRoom (size : Tensor ℝ) : Except String (List Mark) :=
  match size.shape, size.data with
  | [2], [x, y] => .ok [.rectangle x y]
  | [3], [x, y, z] => .ok (drawBox x y z)
  | _, _ => .error "room size must be a 1D tensor of length 2 or 3"

/-- `_extract_positions` (scene.py 220-231), with the check that the points have `d` coordinates. -/
def plotPositions (d : ℕ) (t : Tensor ℝ) : Except String (List Vec) :=
  let t := if t.ndim = 1 then t.unsqueeze0 else t
  match t.shape with
  | [_, e] => if e = d then .ok t.rows else .error "points and room have different dimensions"
  | _ => .error "points and room have different dimensions"

/-- `_as_trajectory` (scene.py 261-266), with the same check. -/
def plotTrajectory (d : ℕ) (t : Tensor ℝ) : Except String (List (List Vec)) :=
  match t.shape with
  | [_, _, e] => if e = d then .ok t.planes else .error "points and room have different dimensions"
  | _ => .error "trajectory must be of shape (T, N, dim)"

/-- `_scatter_positions` (scene.py 234-258). -/
def scatterPositions (label : String) (points : List Vec) : List Mark :=
  if points.length = 0 then [] else [.dots label points]

/-- `_annotate_source_indices` (scene.py 351-362). -/
def annotateSources (points : List Vec) : List Mark :=
  points.zipIdx.map fun p => .text p.1 ("S" ++ toString p.2)

/-- `plot_scene_static` (scene.py 17-58). -/
def plotStatic (room sources mics : Tensor ℝ) (annotate : Bool := true) : Except String (List Mark) := do
  let walls ← drawRoom room
  let src ← plotPositions room.numel sources
  let mic ← plotPositions room.numel mics
  return walls ++ scatterPositions "sources" src ++ scatterPositions "mics" mic ++
    (if annotate then annotateSources src else [])

/-- `_is_moving` (scene.py 343-348). -/
def IsMoving (traj : List (List Vec)) (positions : List Vec) : Prop :=
  ∃ frame ∈ traj, ∃ p ∈ List.zip frame positions, (1e-6 : ℝ) < norm2 (vsub p.1 p.2)

/-- `traj[::step, idx]` (scene.py 309-331). -/
def stridedPath (traj : List (List Vec)) (step idx : ℕ) : List Vec :=
  (rangeStep traj.length step).map fun t => (traj.getD t []).getD idx []

open Classical in
/-- `_plot_entity` (scene.py 269-340). A trajectory without steps or entities is not drawn at all;
positions of another shape than a step of the trajectory are replaced by its first step. -/
noncomputable def plotEntity (traj : List (List Vec)) (positions : List Vec) (step : ℤ) (label : String) :
    Except String (List Mark) :=
  match traj with
  | [] => .ok []
  | first :: _ =>
    if first.length = 0 then .ok []
    else
      let positions := if positions.length = first.length then positions else first
      if IsMoving traj positions ∧ step ≤ 0 then .error "slice step must be positive"
      else .ok ((List.range first.length).flatMap (fun i =>
          (if IsMoving traj positions then
            [Mark.path (if i = 0 then label else "_nolegend_") (stridedPath traj step.toNat i)] else []) ++
          scatterPositions "_nolegend_" (slice i (i + 1) positions)) ++
        (if IsMoving traj positions then [] else scatterPositions label (positions.take 1)))

/-- `src_pos_t`, `mic_pos_t` (scene.py 95-96). -/
def plotStart (d : ℕ) (traj : List (List Vec)) : Option (Tensor ℝ) → Except String (List Vec)
  | some t => plotPositions d t
  | none =>
    match traj with
    | [] => .error "index 0 is out of bounds for dimension 0 with size 0"
    | first :: _ => .ok first

/-- `plot_scene_dynamic` (scene.py 61-118). -/
noncomputable def plotDynamic (room srcTraj micTraj : Tensor ℝ) (step : ℤ := 1)
    (srcPos micPos : Option (Tensor ℝ) := none) (annotate : Bool := true) : Except String (List Mark) := do
  let walls ← drawRoom room
  let src ← plotTrajectory room.numel srcTraj
  let mic ← plotTrajectory room.numel micTraj
  let srcStart ← plotStart room.numel src srcPos
  let micStart ← plotStart room.numel mic micPos
  let srcMarks ← plotEntity src srcStart step "sources"
  let micMarks ← plotEntity mic micStart step "mics"
  return walls ++ srcMarks ++ micMarks ++ (if annotate then annotateSources srcStart else [])

/-! ## Files -/

/-- `t[..., :n]` along the last axis. -/
def sliceLast (n : ℕ) (t : Tensor ℝ) : Tensor ℝ :=
  ⟨t.shape.dropLast ++ [min n (t.shape.getLastD 0)], t.lastAxisRows.flatMap (List.take n)⟩

/-- `_positions_to_cpu` (viz/utils.py 43-49). -/
def positionsToCpu (t : Tensor ℝ) : Tensor ℝ := if t.ndim = 1 then t.unsqueeze0 else t

/-- `_traj_steps` (viz/utils.py 52-59). -/
def vizSteps (src mic : Option (Tensor ℝ)) : Except String ℕ :=
  match src, mic with
  | some t, _ => firstSize t
  | none, some t => firstSize t
  | none, none => .error "no trajectory"
where
  firstSize (t : Tensor ℝ) : Except String ℕ :=
    match t.shape with
    | [] => .error "tuple index out of range"
    | n :: _ => .ok n

/-- `_trajectory_to_cpu` (viz/utils.py 62-71). -/
def trajectoryToCpu (traj : Option (Tensor ℝ)) (fallback : Tensor ℝ) (steps : ℕ) : Except String (Tensor ℝ) :=
  match traj with
  | none => .ok ⟨steps :: fallback.shape, (List.replicate steps fallback.data).flatten⟩
  | some t => if t.ndim = 3 then .ok t else .error "trajectory must be of shape (T, N, dim)"

/-- One saved image: its name and what is on it. -/
abbrev Image := String × List Mark

/-- The state of the loop of `render_scene_plots`: the trajectories, which the loop overwrites with
their normalized form, and the images saved so far. -/
structure RenderState where
  srcTraj : Option (Tensor ℝ)
  micTraj : Option (Tensor ℝ)
  statics : List Image
  dynamics : List Image

/-- `if src_traj is not None or mic_traj is not None:` … (viz/io.py 74-94). -/
noncomputable def renderDynamic (room src mic : Tensor ℝ) (pre : String) (step : ℤ) (annotate : Bool)
    (view : ℕ) (s : RenderState) : Except String RenderState :=
  match s.srcTraj, s.micTraj with
  | none, none => .ok s
  | _, _ => do
    let steps ← vizSteps s.srcTraj s.micTraj
    let st ← trajectoryToCpu s.srcTraj src steps
    let mt ← trajectoryToCpu s.micTraj mic steps
    let marks ← plotDynamic (sliceLast view room) (sliceLast view st) (sliceLast view mt) step
      (some (sliceLast view src)) (some (sliceLast view mic)) annotate
    return { srcTraj := some st, micTraj := some mt, statics := s.statics,
             dynamics := s.dynamics ++ [(pre ++ "_dynamic_" ++ toString view ++ "d.png", marks)] }

/-- One turn of the loop (viz/io.py 50-94). -/
noncomputable def renderView (room src mic : Tensor ℝ) (pre : String) (step : ℤ) (annotate : Bool)
    (view : ℕ) (enabled : Bool) (s : RenderState) : Except String RenderState :=
  if enabled = false ∨ room.numel < view then .ok s
  else do
    let marks ← plotStatic (sliceLast view room) (sliceLast view src) (sliceLast view mic) annotate
    renderDynamic room src mic pre step annotate view
      { s with statics := s.statics ++ [(pre ++ "_static_" ++ toString view ++ "d.png", marks)] }

/-- `render_scene_plots` (viz/io.py 22-96): the static and the dynamic images. -/
noncomputable def renderScenePlots (room sources mics : Tensor ℝ) (srcTraj micTraj : Option (Tensor ℝ) := none)
    (pre : String := "scene") (step : ℤ := 1) (plot2d plot3d annotate : Bool := true) :
    Except String (List Image × List Image) := do
  let s ← renderView room (positionsToCpu sources) (positionsToCpu mics) pre step annotate 2 plot2d
    ⟨srcTraj, micTraj, [], []⟩
  let s ← renderView room (positionsToCpu sources) (positionsToCpu mics) pre step annotate 3 plot3d s
  return (s.statics, s.dynamics)

end Torchrir.Model
