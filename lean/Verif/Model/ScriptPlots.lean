import Verif.Model.DatasetRun
import Verif.Model.Frames

/-!
# The pictures of the example scripts

Model of what `--plot` adds to `examples/static.py` (185-210), `examples/dynamic_src.py` (218-243),
`examples/dynamic_mic.py` (213-238) and `examples/build_dynamic_dataset.py` (367-395), with `save_scene_plots` and
`save_scene_gifs` (viz/io.py 99-182). Left out: showing the pictures in a window, and logging.
-/

namespace Torchrir.Model

/-- A picture that is saved. -/
inductive Picture where
  | image (image : Image)
  | movie (movie : Movie)

/-- Its file. -/
def Picture.name : Picture → String
  | .image i => i.1
  | .movie m => m.name

/-- One turn of the loop in `render_scene_plots` (viz/io.py 50-94): the images it has saved, and the trajectories for
the next turn or the exception. The dynamic image is that of `renderDynamic`. -/
noncomputable def drawView (room src mic : Tensor ℝ) (pre : String) (view : ℕ)
    (traj : Option (Tensor ℝ) × Option (Tensor ℝ)) :
    List Image × Except String (Option (Tensor ℝ) × Option (Tensor ℝ)) :=
  if room.numel < view then ([], .ok traj)
  else
    match plotStatic (sliceLast view room) (sliceLast view src) (sliceLast view mic) true with
    | .error e => ([], .error e)
    | .ok marks =>
      let still : Image := (pre ++ "_static_" ++ toString view ++ "d.png", marks)
      match renderDynamic room src mic pre 1 true view ⟨traj.1, traj.2, [], []⟩ with
      | .error e => ([still], .error e)
      | .ok s => (still :: s.dynamics, .ok (s.srcTraj, s.micTraj))

/-- `save_scene_plots` (viz/io.py 99-134) with the options the scripts leave at their defaults: the images that are saved
and the exception that became a warning, if there was one. -/
noncomputable def savePlots (room sources mics : Tensor ℝ) (srcTraj micTraj : Option (Tensor ℝ)) (pre : String) :
    List Image × Option String :=
  match drawView room (positionsToCpu sources) (positionsToCpu mics) pre 2 (srcTraj, micTraj) with
  | (first, .error e) => (first, some e)
  | (first, .ok traj) =>
    match drawView room (positionsToCpu sources) (positionsToCpu mics) pre 3 traj with
    | (second, .error e) => (first ++ second, some e)
    | (second, .ok _) => (first ++ second, none)

/-- A computation that writes files and saves pictures: both in the order in which they appear, and the outcome. -/
structure Illustrated (ι α : Type) where
  events : List ((String × OutFile ι) ⊕ Picture)
  result : Except String α

/-- First `x`; if it does not raise, then `f`. -/
def Illustrated.andThen {ι α β : Type} (x : Illustrated ι α) (f : α → Illustrated ι β) : Illustrated ι β :=
  match x.result with
  | .error e => ⟨x.events, .error e⟩
  | .ok a => ⟨x.events ++ (f a).events, (f a).result⟩

instance {ι : Type} : Monad (Illustrated ι) where
  pure a := ⟨[], .ok a⟩
  bind := Illustrated.andThen

/-- A computation that saves no pictures. -/
def Writing.plain {ι α : Type} (x : Writing ι α) : Illustrated ι α := ⟨x.files.map .inl, x.result⟩

/-- `save_scene_plots` followed by `save_scene_gifs` with `gif_fps=-1` (static.py 186-210, dynamic_src.py 219-243,
dynamic_mic.py 214-238, build_dynamic_dataset.py 369-395). The trajectories of the two differ in `static.py`. Exceptions
of either end in a warning (viz/io.py 133-134, 181-182). -/
noncomputable def savePictures {ι : Type} (plot : Bool) (room : Room) (sources mics : List Vec)
    (plotted : Option (Tensor ℝ × Tensor ℝ)) (srcTraj micTraj : Tensor ℝ) (pre : String) (signals : Tensor ℝ) (fs : ℕ) :
    Illustrated ι Unit :=
  if plot then
    ⟨((savePlots ⟨[room.size.length], room.size⟩ (pointsTensor sources) (pointsTensor mics) (plotted.map Prod.fst)
        (plotted.map Prod.snd) pre).1.map fun i => .inr (.image i)) ++
      (saveGifs ⟨[room.size.length], room.size⟩ (pointsTensor sources) (pointsTensor mics) (some srcTraj) (some micTraj)
        pre (signals.shape.getD 1 0) fs (-1)).1.map fun m => .inr (.movie m), .ok ()⟩
  else pure ()

/-- The pictures of a script: without trajectories in `static.py`, whose animations have the placed scene as their only
step (static.py 196-197). -/
noncomputable def scriptPictures {ι : Type} (plot : Bool) (sc : Script) (room : Room) (scene : CliScene)
    (signals : Tensor ℝ) (fs : ℕ) : Illustrated ι Unit :=
  match scene.trajs with
  | none => savePictures plot room scene.sources scene.mics none (pointsTensor scene.sources).unsqueeze0
      (pointsTensor scene.mics).unsqueeze0 sc.prefix signals fs
  | some (src, mic) => savePictures plot room scene.sources scene.mics (some (trajTensor src, trajTensor mic))
      (trajTensor src) (trajTensor mic) sc.prefix signals fs

/-- The rest of a script once the scene is placed (static.py 212-274, dynamic_src.py 245-308, dynamic_mic.py 240-303). -/
noncomputable def scriptTail {ι : Type} (w : World) (sc : Script) (a : ScriptArgs) (license : List (String × AttrValue))
    (rows : List (List ℝ)) (fs : ℕ) (info : List (String × List ι)) (room : Room) (scene : CliScene) : Writing ι Unit := do
  let ry ← quietly (scriptMixture w room a (pointsTensor rows) scene)
  let refs ← writeReferences sc.refName fs (scriptReference w.device scene (pointsTensor rows) ry.1) info
    (List.range a.numSources)
  let file ← quietly (saveAudio ry.2)
  writeFile sc.mixName (.audio file fs)
  let md ← quietly (scriptMetadata a.room.length fs scene ry.1 (pointsTensor rows))
  writeFile sc.metadataName
    (.metadata md info ⟨sc.prefix, refs, license, modificationNotes sc.moves, "ATTRIBUTION.txt"⟩)

/-- A script with its option `--plot` (static.py 133-274, dynamic_src.py 141-308, dynamic_mic.py 135-303), as in
`scriptRun`. -/
noncomputable def scriptPlotted {ι : Type} (plot : Bool) (conv : Flt → ℤ) (w : World) (sc : Script) (g : Gen)
    (a : ScriptArgs) (k : ℕ) (loaded : Except String (List (List ℝ) × ℕ × List (String × List ι))) :
    Illustrated ι Unit := do
  let license ← (quietly (attributionFor "cmu_arctic" none)).plain
  (writeAttribution license (modificationNotes sc.moves)).plain
  let l ← (quietly loaded).plain
  let room ← (quietly (cliRoom conv { room := a.room, numSources := a.numSources } l.2.1)).plain
  let scene ← (quietly (placeScript sc g a k)).plain
  scriptPictures plot sc room scene (pointsTensor l.1) l.2.1
  (scriptTail w sc a license l.1 l.2.1 l.2.2 room scene).plain

/-- The rest of a scene once its sources are placed (build_dynamic_dataset.py 397-464). -/
noncomputable def sceneTail {ι : Type} (w : World) (room : Room) (a : DatasetRunArgs)
    (license : List (String × AttrValue)) (mics : List Vec) (idx : ℕ) (l : LoadedSources ι)
    (motion : List (List Vec) × List String × List ℕ) : Writing ι Unit := do
  let rirs ← quietly (simulateDynamicRir w room (trajTensor motion.1)
    (trajTensor (List.replicate (max 2 a.steps).toNat mics)) { maxOrder := some a.order, tmax := some a.tmax })
  let y ← quietly (({} : Convolver).convolve w.device (pointsTensor l.1) rirs)
  let refs ← writeReferences (refName idx) l.2.1
    (fun s => ({} : Convolver).convolve w.device (signalOf (pointsTensor l.1) s) (rirsOf rirs s)) l.2.2
    (List.range a.numSources)
  let file ← quietly (saveAudio y)
  writeFile (mixName idx) (.audio file l.2.1)
  let md ← quietly (datasetMetadata a.room.length motion.1 mics (max 2 a.steps).toNat rirs (pointsTensor l.1))
  writeFile (datasetMetadataName idx) (.datasetMetadata md l.2.2
    ⟨⟨"dynamic_dataset", refs, license, modificationNotes true, "ATTRIBUTION.txt"⟩, a.dataset, a.reported, motion.2.1,
      motion.2.2⟩)

/-- One pass of the loop over the scenes with `--plot` (build_dynamic_dataset.py 333-464), as in `writeScene`. -/
noncomputable def plottedScene {ι : Type} (plot : Bool) (w : World) (room : Room) (a : DatasetRunArgs) (gen : ℤ → Gen)
    (load : Gen → Except String (LoadedSources ι × ℕ)) (license : List (String × AttrValue)) (center : Vec)
    (mics : List Vec) (idx : ℕ) : Illustrated ι Unit := do
  let l ← (quietly (load (gen (a.seed + idx)))).plain
  let motion ← (quietly (buildSourceTrajectories (gen (a.seed + idx)) a.numSources a.numMoving a.room center
    (max 2 a.steps) l.2)).plain
  savePictures plot room (motion.1.headD []) mics
    (some (trajTensor motion.1, trajTensor (List.replicate (max 2 a.steps).toNat mics))) (trajTensor motion.1)
    (trajTensor (List.replicate (max 2 a.steps).toNat mics)) ("scene_" ++ zeroPadded 3 idx) (pointsTensor l.1.1) l.1.2.1
  (sceneTail w room a license mics idx l.1 motion).plain

/-- The loop over the scenes (build_dynamic_dataset.py 333). -/
def plottedScenes {ι : Type} (scene : ℕ → Illustrated ι Unit) : List ℕ → Illustrated ι Unit
  | [] => pure ()
  | idx :: rest => do
    scene idx
    plottedScenes scene rest

/-- `build_dynamic_dataset.py` with its option `--plot` (298-466), as in `datasetRun`. -/
noncomputable def datasetPlotted {ι : Type} (plot : Bool) (conv : Flt → ℤ) (w : World) (a : DatasetRunArgs)
    (gen : ℤ → Gen) (load : Gen → Except String (LoadedSources ι × ℕ)) : Illustrated ι Unit := do
  let room ← (quietly (cliRoom conv { room := a.room, numSources := a.numSources } 16000)).plain
  let mics ← (quietly (datasetMics a.room (drawCenter (gen a.seed).value a.room 0).1 a.numMics)).plain
  let license ← (quietly (attributionFor a.dataset a.reported)).plain
  (writeAttribution license (modificationNotes true)).plain
  plottedScenes (plottedScene plot w room a gen load license (drawCenter (gen a.seed).value a.room 0).1 mics)
    (List.range a.numScenes)

end Torchrir.Model
