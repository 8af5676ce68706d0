import Verif.Model.ScriptPlots
import Verif.Model.ScriptCli

/-!
# Whole runs of the command line program

Model of `_run_static`, `_run_dynamic_src` and `_run_dynamic_mic` of `examples/cli.py` (288-591) from the attribution to
the metadata, with `_prepare_attribution` (194-206), `_load_sources` (97-106), `_plot_scene` (109-124) and `_plot_gif`
(127-155): the files and pictures in the order in which they are saved, also when a later step raises. The three functions
have the same steps and are one function here; the placement, the simulation and the mixture are those of
`Model/CliScene.lean`. Left out: logging, showing the pictures in a window, settings of unexpected kinds that only a
configuration file can contain (numbers of other types, say), and rooms and response lengths that are not finite.
-/

namespace Torchrir.Model

/-- The arguments of a scenario (cli.py 209-285), as far as they are not only reported. -/
structure CliRunArgs where
  room : Vec
  numSources : ℕ
  steps : ℤ := 16
  order : ℤ := 8
  tmax : ℝ := 0.4
  plot : Bool := false
  gif : Bool := false
  gifFps : ℤ := -1

/-- The arguments that the placement and the simulation look at. -/
def CliRunArgs.scene (a : CliRunArgs) (sc : Script) : CliArgs :=
  { mode := sc.prefix, room := a.room, numSources := a.numSources, steps := a.steps, order := a.order, tmax := a.tmax }

/-- `_plot_scene` (cli.py 109-124): exceptions end in a warning (viz/io.py 133-134). -/
noncomputable def plotScene {ι : Type} (plot : Bool) (room : Room) (scene : CliScene) (pre : String) :
    Illustrated ι Unit :=
  if plot then
    ⟨(savePlots ⟨[room.size.length], room.size⟩ (pointsTensor scene.sources) (pointsTensor scene.mics)
      (scene.trajs.map fun p => trajTensor p.1) (scene.trajs.map fun p => trajTensor p.2) pre).1.map
        fun i => .inr (.image i), .ok ()⟩
  else pure ()

/-- `_plot_gif` (cli.py 127-155): only with trajectories; exceptions end in a warning (viz/io.py 181-182). -/
noncomputable def plotGif {ι : Type} (gif : Bool) (gifFps : ℤ) (room : Room) (scene : CliScene) (pre : String)
    (signalLen : ℕ) (fs : ℕ) : Illustrated ι Unit :=
  if gif then
    match scene.trajs with
    | none => pure ()
    | some (src, mic) =>
      ⟨(saveGifs ⟨[room.size.length], room.size⟩ (pointsTensor scene.sources) (pointsTensor scene.mics)
        (some (trajTensor src)) (some (trajTensor mic)) pre signalLen fs gifFps).1.map fun m => .inr (.movie m), .ok ()⟩
  else pure ()

/-- The name of the audio file (cli.py 349, 459, 566). -/
def cliAudioName (sc : Script) : String := sc.prefix ++ "_binaural.wav"

/-- The name of the metadata file (cli.py 354, 464, 571). -/
def cliMetadataName (sc : Script) : String := sc.prefix ++ "_binaural_metadata.json"

/-- A scenario once the scene is placed and drawn (cli.py 331-373, 443-483, 550-590); `args` is `_serialize_args(args)`. -/
noncomputable def cliTail {ι : Type} (w : World) (sc : Script) (a : CliRunArgs) (args : Except String (List (String × Val)))
    (license : List (String × AttrValue)) (rows : List (List ℝ)) (fs : ℕ) (info : List (String × List ι)) (room : Room)
    (scene : CliScene) : Writing ι Unit := do
  let ry ← quietly (renderScene w room (a.scene sc) (pointsTensor rows) scene)
  let file ← quietly (saveAudio ry.2)
  writeFile (cliAudioName sc) (.audio file fs)
  let args ← quietly args
  let md ← quietly (scriptMetadata a.room.length fs scene ry.1 (pointsTensor rows))
  writeFile (cliMetadataName sc)
    (.cliMetadata md info ⟨sc.prefix, args, license, modificationNotes sc.moves, "ATTRIBUTION.txt"⟩)

/-- A scenario (cli.py 288-375, 378-485, 487-591). `device` is the outcome of `resolve_device`, `loaded` that of
`load_dataset_sources`, which needs `k` values of the generator. -/
noncomputable def cliRun {ι : Type} (conv : Flt → ℤ) (w : TorchDevice → World) (device : Except String TorchDevice)
    (sc : Script) (r : ℕ → ℝ) (a : CliRunArgs) (args : Except String (List (String × Val))) (k : ℕ)
    (loaded : Except String (List (List ℝ) × ℕ × List (String × List ι))) : Illustrated ι Unit := do
  let license ← (quietly (attributionFor "cmu_arctic" none)).plain
  (writeAttribution license (modificationNotes sc.moves)).plain
  let d ← (quietly device).plain
  let l ← (quietly loaded).plain
  let room ← (quietly (cliRoom conv (a.scene sc) l.2.1)).plain
  let scene ← (quietly (placeScene r (a.scene sc) k)).plain
  plotScene a.plot room scene sc.prefix
  plotGif a.gif a.gifFps room scene sc.prefix ((pointsTensor l.1).shape.getD 1 0) l.2.1
  (cliTail (w d) sc a args license l.1 l.2.1 l.2.2 room scene).plain

/-- The scenario that `main` chooses (cli.py 612-619). -/
def asMode : Val → Except String Script
  | .str "static" => .ok .static
  | .str "dynamic_src" => .ok .dynamicSrc
  | .str "dynamic_mic" => .ok .dynamicMic
  | _ => .error "unknown mode"

/-- What a scenario does with its settings (cli.py 611-619, with `resolve_device` and `_load_sources` of the scenarios);
`none` for settings of unexpected kinds and numbers that are not finite. -/
noncomputable def cliOutput {ι : Type} (cv : Conversions) (conv : Flt → ℤ) (t : Torch) (w : TorchDevice → World)
    (gen : ℤ → Gen) (load : LoadCall → Gen → Except String (LoadedSources ι × ℕ)) (ns : List (String × Val)) :
    Option (Illustrated ι Unit) := do
  let sc ← (asMode (attr ns "mode")).toOption
  let root ← (asPath (attr ns "dataset_dir")).toOption
  let download ← (asBool (attr ns "download")).toOption
  let numSources ← (asInt (attr ns "num_sources")).toOption
  let duration ← (asFloat (attr ns "duration")).toOption
  let seed ← (asInt (attr ns "seed")).toOption
  let sides ← (asFloats (attr ns "room")).toOption
  let room ← sides.mapM finite?
  let steps ← (asInt (attr ns "steps")).toOption
  let order ← (asInt (attr ns "order")).toOption
  let length ← (asFloat (attr ns "tmax")).toOption
  let tmax ← finite? length
  let device ← (asText (attr ns "device")).toOption
  let plot ← (asBool (attr ns "plot")).toOption
  let gif ← (asBool (attr ns "gif")).toOption
  let gifFps ← (asInt (attr ns "gif_fps")).toOption
  let outcome := if numSources < 0 then .error "Sample larger than population or is negative"
    else load ⟨"cmu_arctic", root, "", download, numSources, duration⟩ (gen seed)
  return cliRun conv w (resolveDevice t (.str device)) sc (gen seed).value
    { room := room, numSources := numSources.toNat, steps := steps, order := order, tmax := tmax, plot := plot, gif := gif
      gifFps := gifFps }
    (serializeArgs cv ns) ((outcome.map (·.2)).toOption.getD 0) (outcome.map (·.1))

end Torchrir.Model
