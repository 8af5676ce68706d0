import Verif.Model.Scripts
import Verif.Model.Sources
import Verif.Model.Outputs
import Verif.Model.Metadata
import Verif.Model.Cli

/-!
# The example scripts from the attribution to the metadata

Model of `main` in `examples/static.py` (133-274), `examples/dynamic_src.py` (141-308) and `examples/dynamic_mic.py`
(135-303): the files that are written, in order, also when a later step raises. The work between the files is that of
`Model/Scripts.lean`. Left out: options, logging, the device (`resolve_device` precedes everything here), and the
pictures of `--plot`, which `Model/ScriptPlots.lean` adds. The names of the audio files end in `.wav`, so the check of `io.audio.save` passes; writing itself does not
fail.
-/

namespace Torchrir.Model

/-- An entry of `reference_audio` (static.py 236-245). -/
structure ReferenceEntry (ι : Type) where
  index : ℕ
  filename : String
  speaker : String
  utterances : List ι
  kind : String

/-- The argument `extra` of `save_scene_metadata` (static.py 266-272). -/
structure ScriptExtra (ι : Type) where
  mode : String
  references : List (ReferenceEntry ι)
  license : List (String × AttrValue)
  modifications : List String
  attributionFile : String

/-- The argument `extra` of `save_scene_metadata` in the dataset script (build_dynamic_dataset.py 448-461); the copy of
the arguments is left out. -/
structure DatasetExtra (ι : Type) extends ScriptExtra ι where
  dataset : String
  subset : Option String
  motionModes : List String
  movingSources : List ℕ

/-- The argument `extra` of `save_scene_metadata` in the command line program (cli.py 366-372, 476-482, 583-589). -/
structure CliExtra where
  mode : String
  args : List (String × Val)
  license : List (String × AttrValue)
  modifications : List String
  attributionFile : String

/-- The content of a file. -/
inductive OutFile (ι : Type) where
  | text (content : String)
  | audio (file : AudioFile) (fs : ℝ)
  | metadata (md : Metadata) (sourceInfo : List (String × List ι)) (extra : ScriptExtra ι)
  | datasetMetadata (md : Metadata) (sourceInfo : List (String × List ι)) (extra : DatasetExtra ι)
  | cliMetadata (md : Metadata) (sourceInfo : List (String × List ι)) (extra : CliExtra)

/-- A computation that writes files: those it has written, in order, and its outcome. -/
structure Writing (ι α : Type) where
  files : List (String × OutFile ι)
  result : Except String α

/-- First `x`; if it does not raise, then `f`. -/
def Writing.andThen {ι α β : Type} (x : Writing ι α) (f : α → Writing ι β) : Writing ι β :=
  match x.result with
  | .error e => ⟨x.files, .error e⟩
  | .ok a => ⟨x.files ++ (f a).files, (f a).result⟩

instance {ι : Type} : Monad (Writing ι) where
  pure a := ⟨[], .ok a⟩
  bind := Writing.andThen

/-- A step that writes nothing. -/
def quietly {ι α : Type} (x : Except String α) : Writing ι α := ⟨[], x⟩

/-- Writing one file. -/
def writeFile {ι : Type} (name : String) (f : OutFile ι) : Writing ι Unit := ⟨[(name, f)], .ok ()⟩

/-- Whether sources or microphones move: the argument of `default_modification_notes` (static.py 135,
dynamic_src.py 143, dynamic_mic.py 137). -/
def Script.moves : Script → Bool
  | .static => false
  | _ => true

/-- The name of the metadata file (static.py 257, dynamic_src.py 291, dynamic_mic.py 286). -/
def Script.metadataName (sc : Script) : String := sc.prefix ++ "_metadata.json"

/-- `save_attribution_file` (static.py 136-141, outputs.py 36-79). -/
def writeAttribution {ι : Type} (license : List (String × AttrValue)) (notes : List String) : Writing ι Unit :=
  match saveAttribution (.fields license) notes none with
  | (some text, r) => ⟨[("ATTRIBUTION.txt", .text text)], r⟩
  | (none, r) => ⟨[], r⟩

/-- Simulation and mixture (static.py 213-222, dynamic_src.py 246-257, dynamic_mic.py 241-252). -/
noncomputable def scriptMixture (w : World) (room : Room) (a : ScriptArgs) (signals : Tensor ℝ) (scene : CliScene) :
    Except String (Tensor ℝ × Tensor ℝ) :=
  let args : SimArgs := { maxOrder := some a.order, tmax := some a.tmax }
  match scene.trajs with
  | none => do
    let rirs ← simulateRir w room ⟨pointsTensor scene.sources, none⟩ ⟨pointsTensor scene.mics, none⟩ args
    let y ← convolveRir signals rirs
    return (rirs, y)
  | some (src, mic) => do
    let rirs ← simulateDynamicRir w room (trajTensor src) (trajTensor mic) args
    let y ← ({} : Convolver).convolve w.device signals rirs
    return (rirs, y)

/-- The reference of a source (static.py 227, dynamic_src.py 261, dynamic_mic.py 256). -/
noncomputable def scriptReference (dev : DeviceType) (scene : CliScene) (signals rirs : Tensor ℝ) (s : ℕ) :
    Except String (Tensor ℝ) :=
  match scene.trajs with
  | none => convolveRir (signalOf signals s) (staticRirsOf rirs s)
  | some _ => ({} : Convolver).convolve dev (signalOf signals s) (rirsOf rirs s)

/-- `info[src_idx]` (static.py 236). -/
def infoOf {ι : Type} (info : List (String × List ι)) (s : ℕ) : Except String (String × List ι) :=
  match info[s]? with
  | some e => .ok e
  | none => .error "IndexError: list index out of range"

/-- The body of the loop over the sources (static.py 227-245, dynamic_src.py 261-279, dynamic_mic.py 256-274,
build_dynamic_dataset.py 408-427); `name s` is the file of source `s`. -/
noncomputable def writeReference {ι : Type} (name : ℕ → String) (fs : ℕ) (reference : ℕ → Except String (Tensor ℝ))
    (info : List (String × List ι)) (s : ℕ) : Writing ι (ReferenceEntry ι) := do
  let ref ← quietly (reference s)
  let file ← quietly (saveAudio ref)
  writeFile (name s) (.audio file fs)
  let e ← quietly (infoOf info s)
  return ⟨s, name s, e.1, e.2, "convolved"⟩

/-- The loop over the sources (static.py 225-245, dynamic_src.py 259-279, dynamic_mic.py 254-274,
build_dynamic_dataset.py 405-427). -/
noncomputable def writeReferences {ι : Type} (name : ℕ → String) (fs : ℕ) (reference : ℕ → Except String (Tensor ℝ))
    (info : List (String × List ι)) : List ℕ → Writing ι (List (ReferenceEntry ι))
  | [] => pure []
  | s :: rest => do
    let e ← writeReference name fs reference info s
    let es ← writeReferences name fs reference info rest
    return e :: es

/-- `build_metadata` as the scripts call it (static.py 255-273, dynamic_src.py 289-307, dynamic_mic.py 284-302,
outputs.py 100-111). -/
noncomputable def scriptMetadata (dim : ℕ) (fs : ℕ) (scene : CliScene) (rirs signals : Tensor ℝ) :
    Except String Metadata :=
  buildMetadata dim fs (pointsTensor scene.sources) (pointsTensor scene.mics) .floating rirs.shape
    (scene.trajs.map fun p => trajTensor p.1) (scene.trajs.map fun p => trajTensor p.2) none
    (some (signals.shape.getD 1 0 : ℕ))

/-- A script after loading (static.py 155-274, dynamic_src.py 163-308, dynamic_mic.py 157-303). -/
noncomputable def scriptAfterLoading {ι : Type} (conv : Flt → ℤ) (w : World) (sc : Script) (g : Gen) (a : ScriptArgs)
    (k : ℕ) (license : List (String × AttrValue)) (rows : List (List ℝ)) (fs : ℕ) (info : List (String × List ι)) :
    Writing ι Unit := do
  let room ← quietly (cliRoom conv { room := a.room, numSources := a.numSources } fs)
  let scene ← quietly (placeScript sc g a k)
  let ry ← quietly (scriptMixture w room a (pointsTensor rows) scene)
  let refs ← writeReferences sc.refName fs (scriptReference w.device scene (pointsTensor rows) ry.1) info
    (List.range a.numSources)
  let file ← quietly (saveAudio ry.2)
  writeFile sc.mixName (.audio file fs)
  let md ← quietly (scriptMetadata a.room.length fs scene ry.1 (pointsTensor rows))
  writeFile sc.metadataName
    (.metadata md info ⟨sc.prefix, refs, license, modificationNotes sc.moves, "ATTRIBUTION.txt"⟩)

/-- A script whose call of `load_dataset_sources` has the outcome `loaded` (static.py 133-274, dynamic_src.py 141-308,
dynamic_mic.py 135-303); `k` operations of the generator took place while loading. -/
noncomputable def scriptRun {ι : Type} (conv : Flt → ℤ) (w : World) (sc : Script) (g : Gen) (a : ScriptArgs) (k : ℕ)
    (loaded : Except String (List (List ℝ) × ℕ × List (String × List ι))) : Writing ι Unit := do
  let license ← quietly (attributionFor "cmu_arctic" none)
  writeAttribution license (modificationNotes sc.moves)
  let l ← quietly loaded
  scriptAfterLoading conv w sc g a k license l.1 l.2.1 l.2.2

/-- A script with its call of `load_dataset_sources`; `none` while that is still running. -/
noncomputable def wholeScript {ι : Type} (conv : Flt → ℤ) (w : World) (sc : Script) (g : Gen) (a : ScriptArgs) (k : ℕ)
    (sample : List String → ℕ → List String) (shuffle : ℕ → List ι → List ι) (speakers : List String)
    (data : String → SpeakerData ι) (duration : ℝ) (fuel : ℕ) : Option (Writing ι Unit) :=
  (loadDatasetSources sample shuffle speakers data a.numSources duration fuel).map (scriptRun conv w sc g a k)

/-- The output directory after a run: what the files named are is what was written last, the others stay
(outputs.py 27, 75, 112). -/
def overwritten {ι : Type} (dir : String → Option (OutFile ι)) (files : List (String × OutFile ι)) (name : String) :
    Option (OutFile ι) :=
  match files.reverse.lookup name with
  | some f => some f
  | none => dir name

end Torchrir.Model
