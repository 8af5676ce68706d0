import Verif.Model.BuilderRun
import Verif.Model.Transcript

/-!
# Axes, titles, colours and text boxes of plots

Model of those parts of `src/torchrir/viz/scene.py`, `viz/utils.py`, `viz/animation.py` and `viz/io.py`
that `Model/Plot.lean` and `Model/Frames.lean` leave out. Simplified: labels and scale of the axes,
fonts, markers, transparency and the placing of legends are left out; colours are their names; the lines of a text box are strings.
-/

namespace Torchrir.Model

/-- How the axes of a plot are set up. -/
structure Axes where
  /-- The shown interval of every coordinate. -/
  limits : List (ℝ × ℝ)
  title : Option String
  /-- The text in the upper left corner. -/
  box : Option String

/-- `_add_axes_annotation` (viz/utils.py 79-117): the text that is put on the axes. -/
def annotationBox (lines : Option (List String)) : Option String :=
  let kept := ((lines.getD []).map fun s => strip s.toList).filter fun s => !s.isEmpty
  if kept.isEmpty then none else some ("\n".intercalate (kept.map String.ofList))

/-- `if title: ax.set_title(title)` (scene.py 53-54, 113-114). -/
def setTitle : Option String → Option String
  | none => none
  | some t => if t = "" then none else some t

/-- `set_xlim`, `set_ylim` and `set_zlim` (scene.py 164-168, 211-217;
animation.py 184-199) for a room size with two or three entries. -/
def roomAxes (size : List ℝ) (title box : Option String) : Axes where
  limits := size.map fun s => (0, s)
  title := title
  box := box

/-- The axes of `plot_scene_static` and `plot_scene_dynamic` (scene.py 17-118). -/
def sceneAxes (room : Tensor ℝ) (title : Option String) (lines : Option (List String)) : Axes :=
  roomAxes room.data (setTitle title) (annotationBox lines)

/-- The title of a frame (animation.py 276-278). -/
noncomputable def frameTitle (f : Frame) : Option String := f.title.map fun t => "t = " ++ fixed2 t ++ " s"

/-- The axes of a frame of an animation (animation.py 168, 184-199, 223-225, 276-278). -/
noncomputable def frameAxes (room : Tensor ℝ) (plot3d : Bool) (lines : Option (List String)) (f : Frame) : Axes :=
  roomAxes (room.data.take (viewDim room.numel plot3d)) (frameTitle f) (annotationBox lines)

/-- The titles of `render_scene_plots` (viz/io.py 65, 87). -/
def sceneTitle (view : ℕ) (moving : Bool) : String :=
  "Room scene (" ++ toString view ++ (if moving then "D trajectories)" else "D static)")

/-- The titles of `save_scene_layout_images` (viz/io.py 301, 311, 328, 338). -/
def layoutTitle (view : ℕ) (moving : Bool) : String :=
  (if moving then "Room layout and source trajectories" else "Room layout") ++
    (if view = 2 then " (top view)" else "")

/-- `entity_colors` in `_plot_entity` (scene.py 286-302). -/
def entityColors (palette : List String) (color : Option String) (uniform : Bool) (n : ℕ) : List String :=
  let palette := if palette.isEmpty then ["C0", "C1", "C2", "C3", "C4", "C5"] else palette
  if uniform then List.replicate n (color.getD (palette.getD 0 ""))
  else match color with
    | some c => List.replicate n c
    | none => (List.range n).map fun i => palette.getD (i % palette.length) ""

/-- The colours of the sources in `plot_scene_dynamic` (scene.py 98). -/
def sourceColors (palette : List String) (n : ℕ) : List String := entityColors palette none false n

/-- The colours of the microphones in `plot_scene_dynamic` (scene.py 14, 99-108). -/
def micColors (palette : List String) (n : ℕ) : List String := entityColors palette (some "tab:orange") true n

end Torchrir.Model
