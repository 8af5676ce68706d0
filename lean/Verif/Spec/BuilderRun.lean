import Verif.Model.BuilderRun
import Verif.Spec.ScriptRun

/-! # What a run of the dataset builder should leave -/

namespace Torchrir.Spec

open Torchrir.Model

/-- The layouts that the options ask for. -/
def layoutNames (o : LayoutArgs) : List String :=
  (if o.images then "room_layout_2d.png" :: (if o.images3d then ["room_layout_3d.png"] else []) else []) ++
  (if o.mp4 then "room_layout_2d.mp4" :: (if o.mp43d then ["room_layout_3d.mp4"] else []) else [])

/-- The files of a scene in the order in which they appear. -/
def builtFiles (a : BuildArgs) (o : LayoutArgs) : List String :=
  ((List.range a.nSources.toNat).map fun s => "source_" ++ zeroPadded 2 s ++ ".wav") ++
    ("mixture.wav" :: (layoutNames o ++ ["metadata.json", "source_info.json"]))

/-- The folder of scene `k` and its files. -/
def builtScene (a : BuildArgs) (o : LayoutArgs) (k : ℕ) : List (String × Option String) :=
  (sceneId k, none) :: (builtFiles a o).map fun f => (sceneId k, some f)

/-- The folders and files of the first `n` scenes. -/
def builtNames (a : BuildArgs) (o : LayoutArgs) (n : ℕ) : List (String × Option String) :=
  (List.range n).flatMap (builtScene a o)

/-- The files in a folder. -/
def filesIn (events : List BuilderEvent) (scene : String) : List (String × BuilderFile) :=
  events.filterMap fun
    | .file d n c => if d = scene then some (n, c) else none
    | .folder _ => none

/-- The files apart from the pictures. -/
def withoutPictures (events : List BuilderEvent) : List BuilderEvent :=
  events.filter fun
    | .file _ _ (.picture _ _) => false
    | _ => true

/-- Positions in the form in which they are plotted and described. -/
structure SceneData {T S M : ℕ} (s : BuiltScene) (sp : Fin S → Fin 3 → ℝ) (mp : Fin M → Fin 3 → ℝ)
    (p : Fin T → Fin S → Fin 3 → ℝ) : Prop where
  starts : rows sp = s.placed.map fun q => [q.start.x, q.start.y, q.start.z]
  mics : rows mp = s.mics
  path : steps p = s.trajectory.map fun step => step.map fun q => [q.x, q.y, q.z]

/-- The text gives a number that is not negative to two decimals. -/
def ShowsHundredths (text : String) (x : ℝ) : Prop :=
  ∃ n : ℕ, text = toString (n / 100) ++ "." ++ zeroPadded 2 (n % 100) ∧ |x - n / 100| ≤ 1 / 200

end Torchrir.Spec
