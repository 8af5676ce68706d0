import Verif.Model.DynDataset

/-!
# The example scripts with fixed scenarios

Model of `examples/static.py`, `examples/dynamic_src.py` and `examples/dynamic_mic.py` from the loaded signals to the
audio files. They resemble the scenarios of `examples/cli.py`, but have any number of microphones, keep moving sources
and microphones at their height, let only some of the sources move, and save a reference for every source. Loading the
signals, the device, plots, metadata and attribution are left out. The microphones around a centre and the random
generator are those of `Model/DynDataset.lean` (the code is repeated word for word in the scripts).
-/

namespace Torchrir.Model

/-- Which of the three scripts. -/
inductive Script where
  | static
  | dynamicSrc
  | dynamicMic

/-- The arguments the scripts look at (static.py 60-118, dynamic_src.py 58-125, dynamic_mic.py 58-119). -/
structure ScriptArgs where
  room : Vec := [6, 4, 3]
  numSources : ℕ := 2
  numMics : ℤ := 2
  numMoving : ℤ := 1
  steps : ℤ := 16
  order : ℤ := 8
  tmax : ℝ := 0.4

/-- The placement of `static.py` (161-181). -/
noncomputable def scriptStatic (g : Gen) (a : ScriptArgs) (k : ℕ) : Except String CliScene := do
  let (center, k) := drawCenter g.value a.room k
  let (sources, _) ← drawTalkers g.value a.numSources a.room center k
  let mics ← datasetMics a.room center a.numMics
  return { sources := sources, mics := mics }

/-- `end[2] = start[2]` in a room with three sides (dynamic_mic.py 173-174). -/
def atHeightOf (room start stop : Vec) : Vec :=
  if room.length = 3 then stop.set 2 (start.getD 2 0) else stop

/-- The trajectory of source `i` (dynamic_src.py 203-207). -/
noncomputable def scriptSourcePath (start stop : List Vec) (moving : List ℕ) (steps : ℤ) (i : ℕ) :
    Except String (List Vec) :=
  if i ∈ moving then linearTrajectory (start.getD i []) (stop.getD i []) steps
  else .ok (List.replicate steps.toNat (start.getD i []))

/-- The placement of `dynamic_src.py` (169-213). `src_end[:, 2] = src_start[:, 2]` is done row by row; `torch.stack`
rejects an empty list. -/
noncomputable def scriptDynamicSrc (g : Gen) (a : ScriptArgs) (k : ℕ) : Except String CliScene := do
  let (center, k) := drawCenter g.value a.room k
  let mics ← datasetMics a.room center a.numMics
  let steps := max 2 a.steps
  let (start, k) ← drawTalkers g.value a.numSources a.room center k
  let (stop, k) ← samplePositionsZ g.value a.numSources a.room 1.5 1.8 0.5 k
  let stop := List.zipWith (atHeightOf a.room) start stop
  let count := min (a.numSources : ℤ) (max 1 a.numMoving)
  let moving := g.subset k a.numSources count.toNat
  let trajs ← (List.range a.numSources).mapM (scriptSourcePath start stop moving steps)
  raiseIf (trajs = []) "stack expects a non-empty TensorList"
  return { sources := start, mics := mics
           trajs := some ((stackSecond steps.toNat trajs).map (clampTo a.room),
             List.replicate steps.toNat mics) }

/-- The placement of `dynamic_mic.py` (163-208). -/
noncomputable def scriptDynamicMic (g : Gen) (a : ScriptArgs) (k : ℕ) : Except String CliScene := do
  let (centerStart, k) := drawCenter g.value a.room k
  let (centerStop, k) := drawCenter g.value a.room k
  let centerStop := atHeightOf a.room centerStart centerStop
  let (sources, _) ← drawTalkers g.value a.numSources a.room centerStart k
  raiseIf (a.numMics ≤ 0) "num_mics must be positive"
  let steps := max 2 a.steps
  let centers ← linearTrajectory centerStart centerStop steps
  let micTraj ← centers.mapM fun c => datasetArray c a.numMics
  let micTraj := micTraj.map (clampTo a.room)
  return { sources := sources, mics := micTraj.headD []
           trajs := some (List.replicate steps.toNat sources, micTraj) }

/-- The placement of a script. -/
noncomputable def placeScript : Script → Gen → ScriptArgs → ℕ → Except String CliScene
  | .static => scriptStatic
  | .dynamicSrc => scriptDynamicSrc
  | .dynamicMic => scriptDynamicMic

/-- `rirs[src_idx : src_idx + 1]` (static.py 227). -/
def staticRirsOf (rirs : Tensor ℝ) (s : ℕ) : Tensor ℝ :=
  match rirs.shape with
  | [_, m, n] => ⟨[1, m, n], (slice s (s + 1) rirs.planes).flatten.flatten⟩
  | _ => rirs

/-- The mixture and the references of `static.py` (222-227). -/
noncomputable def staticAudio (numSources : ℕ) (signals rirs : Tensor ℝ) :
    Except String (Tensor ℝ × List (Tensor ℝ)) := do
  let y ← convolveRir signals rirs
  let refs ← (List.range numSources).mapM fun s => convolveRir (signalOf signals s) (staticRirsOf rirs s)
  return (y, refs)

/-- The beginning of the file names (static.py 228, 252, dynamic_src.py 262, 286, dynamic_mic.py 257, 281). -/
def Script.prefix : Script → String
  | .static => "static"
  | .dynamicSrc => "dynamic_src"
  | .dynamicMic => "dynamic_mic"

/-- The name of a reference file (static.py 228, dynamic_src.py 262, dynamic_mic.py 257). -/
def Script.refName (sc : Script) (s : ℕ) : String := sc.prefix ++ "_ref" ++ zeroPadded 2 (s + 1) ++ ".wav"

/-- The name of the mixture file (static.py 252, dynamic_src.py 286, dynamic_mic.py 281). -/
def Script.mixName (sc : Script) : String := sc.prefix ++ ".wav"

/-- The files in the order they are written (static.py 225-254, dynamic_src.py 259-288, dynamic_mic.py 254-283). -/
noncomputable def scriptFiles (sc : Script) (y : Tensor ℝ) (refs : List (Tensor ℝ)) :
    Except String (List (String × AudioFile)) := do
  let refFiles ← refs.zipIdx.mapM fun p => do
    let f ← saveAudio p.1
    return (sc.refName p.2, f)
  let mix ← saveAudio y
  return refFiles ++ [(sc.mixName, mix)]

/-- Simulation and convolution (static.py 212-227, dynamic_src.py 245-261, dynamic_mic.py 240-256): the responses, the
mixture and the references. -/
noncomputable def scriptRender (w : World) (room : Room) (a : ScriptArgs) (signals : Tensor ℝ) (scene : CliScene) :
    Except String (Tensor ℝ × Tensor ℝ × List (Tensor ℝ)) :=
  let args : SimArgs := { maxOrder := some a.order, tmax := some a.tmax }
  match scene.trajs with
  | none => do
    let rirs ← simulateRir w room ⟨pointsTensor scene.sources, none⟩ ⟨pointsTensor scene.mics, none⟩ args
    let (y, refs) ← staticAudio a.numSources signals rirs
    return (rirs, y, refs)
  | some (src, mic) => do
    let rirs ← simulateDynamicRir w room (trajTensor src) (trajTensor mic) args
    let (y, refs) ← sceneAudio w.device a.numSources signals rirs
    return (rirs, y, refs)

/-- What a script produces. -/
structure ScriptOutput where
  scene : CliScene
  rirs : Tensor ℝ
  mixture : Tensor ℝ
  references : List (Tensor ℝ)
  files : List (String × AudioFile)

/-- A script from the loaded signals to the files (static.py 157-254, dynamic_src.py 164-288, dynamic_mic.py 158-283);
`k` operations of the generator took place while loading. -/
noncomputable def runScript (conv : Flt → ℤ) (w : World) (sc : Script) (g : Gen) (a : ScriptArgs) (signals : Tensor ℝ)
    (fs : ℝ) (k : ℕ) : Except String ScriptOutput := do
  let room ← cliRoom conv { room := a.room, numSources := a.numSources } fs
  let scene ← placeScript sc g a k
  let (rirs, y, refs) ← scriptRender w room a signals scene
  let files ← scriptFiles sc y refs
  return ⟨scene, rirs, y, refs, files⟩

end Torchrir.Model
