import Verif.Model.ScriptPlots
import Verif.Spec.DatasetRun

/-!
# Specification of the pictures of the example scripts
-/

namespace Torchrir.Spec

open Torchrir.Model

/-- The run without its pictures. -/
def dataOf {ι α : Type} (run : Illustrated ι α) : Writing ι α := ⟨run.events.filterMap Sum.getLeft?, run.result⟩

/-- The pictures of the run. -/
def picturesOf {ι α : Type} (run : Illustrated ι α) : List Picture := run.events.filterMap Sum.getRight?

/-- The kinds of pictures of a scene, with the number of coordinates that is shown. -/
inductive Shot where
  | still (coordinates : ℕ)
  | paths (coordinates : ℕ)
  | film (coordinates : ℕ)

/-- How the name of its file ends. -/
def Shot.suffix : Shot → String
  | .still 2 => "_static_2d.png"
  | .still _ => "_static_3d.png"
  | .paths 2 => "_dynamic_2d.png"
  | .paths _ => "_dynamic_3d.png"
  | .film 2 => ".gif"
  | .film _ => "_3d.gif"

/-- The file of a picture. -/
def Shot.file (pre : String) (s : Shot) : String := pre ++ s.suffix

/-- The pictures of a scene in `d` coordinates, in the order they are saved. -/
def shots (d : ℕ) (moving : Bool) : List Shot :=
  [.still 2] ++ (if moving then [.paths 2] else []) ++
  (if d = 3 then [.still 3] ++ (if moving then [.paths 3] else []) else []) ++
  [.film 2] ++ (if d = 3 then [.film 3] else [])

end Torchrir.Spec
