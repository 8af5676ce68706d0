import Verif.Model.ScriptRun

/-!
# The script that builds a dynamic dataset, from the microphones to the metadata

Model of `main` in `examples/build_dynamic_dataset.py` (298-466) with all files it writes, in order, also when a later
step raises. The work between the files is that of `Model/DynDataset.lean`. Left out: options, logging, the device, and
the pictures of `--plot`, which `Model/ScriptPlots.lean` adds.
-/

namespace Torchrir.Model

/-- The arguments, with those that are only reported (build_dynamic_dataset.py 195-292). -/
structure DatasetRunArgs extends DatasetArgs where
  dataset : String := "cmu_arctic"
  subset : String := "train-clean-100"

/-- The subset that is reported (build_dynamic_dataset.py 322, 451). -/
def DatasetRunArgs.reported (a : DatasetRunArgs) : Option String :=
  if a.dataset = "librispeech" then some a.subset else none

/-- The name of the metadata file of a scene (build_dynamic_dataset.py 438). -/
def datasetMetadataName (idx : ℕ) : String := "scene_" ++ zeroPadded 3 idx ++ "_metadata.json"

/-- `build_metadata` as the script calls it (build_dynamic_dataset.py 436-447); the room has the sampling rate 16000
(304-306). -/
noncomputable def datasetMetadata (dim : ℕ) (srcTraj : List (List Vec)) (mics : List Vec) (steps : ℕ)
    (rirs signals : Tensor ℝ) : Except String Metadata :=
  buildMetadata dim 16000 (pointsTensor (srcTraj.headD [])) (pointsTensor mics) .floating rirs.shape
    (some (trajTensor srcTraj)) (some (trajTensor (List.replicate steps mics))) none
    (some (signals.shape.getD 1 0 : ℕ))

/-- What `load_dataset_sources` returns: the signals, the sampling rate, and speaker and utterances of each source. -/
abbrev LoadedSources (ι : Type) := List (List ℝ) × ℕ × List (String × List ι)

/-- A scene after loading (build_dynamic_dataset.py 351-464); `k` operations of the generator `g` took place while
loading. -/
noncomputable def writeSceneLoaded {ι : Type} (w : World) (room : Room) (a : DatasetRunArgs)
    (license : List (String × AttrValue)) (g : Gen) (center : Vec) (mics : List Vec) (idx k : ℕ)
    (l : LoadedSources ι) : Writing ι Unit := do
  let motion ← quietly (buildSourceTrajectories g a.numSources a.numMoving a.room center (max 2 a.steps) k)
  let rirs ← quietly (simulateDynamicRir w room (trajTensor motion.1)
    (trajTensor (List.replicate (max 2 a.steps).toNat mics)) { maxOrder := some a.order, tmax := some a.tmax })
  let y ← quietly (({} : Convolver).convolve w.device (pointsTensor l.1) rirs)
  let refs ← writeReferences (refName idx) l.2.1
    (fun s => ({} : Convolver).convolve w.device (signalOf (pointsTensor l.1) s) (rirsOf rirs s)) l.2.2
    (List.range a.numSources)
  let file ← quietly (saveAudio y)
  writeFile (mixName idx) (.audio file l.2.1)
  let md ← quietly (datasetMetadata a.room.length motion.1 mics (max 2 a.steps).toNat rirs (pointsTensor l.1))
  writeFile (datasetMetadataName idx) (.datasetMetadata md l.2.2
    ⟨⟨"dynamic_dataset", refs, license, modificationNotes true, "ATTRIBUTION.txt"⟩, a.dataset, a.reported, motion.2.1,
      motion.2.2⟩)

/-- One pass of the loop over the scenes (build_dynamic_dataset.py 333-464). `load g` is the outcome of
`load_dataset_sources` with the generator `g`, with the number of its operations. -/
noncomputable def writeScene {ι : Type} (w : World) (room : Room) (a : DatasetRunArgs) (gen : ℤ → Gen)
    (load : Gen → Except String (LoadedSources ι × ℕ)) (license : List (String × AttrValue)) (center : Vec)
    (mics : List Vec) (idx : ℕ) : Writing ι Unit := do
  let l ← quietly (load (gen (a.seed + idx)))
  writeSceneLoaded w room a license (gen (a.seed + idx)) center mics idx l.2 l.1

/-- `for idx in range(args.num_scenes)` (build_dynamic_dataset.py 333). -/
def writeScenes {ι : Type} (scene : ℕ → Writing ι Unit) : List ℕ → Writing ι Unit
  | [] => pure ()
  | idx :: rest => do
    scene idx
    writeScenes scene rest

/-- The script after the arguments are parsed (build_dynamic_dataset.py 298-466). -/
noncomputable def datasetRun {ι : Type} (conv : Flt → ℤ) (w : World) (a : DatasetRunArgs) (gen : ℤ → Gen)
    (load : Gen → Except String (LoadedSources ι × ℕ)) : Writing ι Unit := do
  let room ← quietly (cliRoom conv { room := a.room, numSources := a.numSources } 16000)
  let mics ← quietly (datasetMics a.room (drawCenter (gen a.seed).value a.room 0).1 a.numMics)
  let license ← quietly (attributionFor a.dataset a.reported)
  writeAttribution license (modificationNotes true)
  writeScenes (writeScene w room a gen load license (drawCenter (gen a.seed).value a.room 0).1 mics)
    (List.range a.numScenes)

end Torchrir.Model
