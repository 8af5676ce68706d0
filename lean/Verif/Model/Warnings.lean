import Verif.Model.SoundFile
import Verif.Model.Scene
import Verif.Model.Device

/-!
# Warnings, deprecated names and experimental stubs

Model of every call of `warnings.warn` in `src/torchrir` (`__init__.py`, `io/__init__.py`, `io/audio.py`,
`models/scene.py`, `sim/simulators.py`, `util/device.py`, `experimental/*.py`) with the functions around it. What
Python does with a warning is decided by its filters, which are a parameter.
-/

namespace Torchrir.Model

/-- A warning: its category and its text. -/
structure Warned where
  category : String
  message : String
deriving DecidableEq

/-- What the filters of Python make of a warning: it is noted (and shown or not), or raised as an exception. -/
inductive WarnAction where
  | note
  | raise
deriving DecidableEq

/-- The filters; they may look at the warnings noted before (as the actions `once` and `default` do). -/
abbrev WarnFilters := List Warned → Warned → WarnAction

/-- A process: the outside world and the warnings noted so far. -/
structure Process (σ : Type) where
  world : σ
  noted : List Warned := []

/-- A piece of code: it changes the process, and returns or raises. -/
def Code (σ α : Type) := Process σ → Process σ × Except String α

/-- One piece of code after another; an exception ends both. -/
def Code.andThen {σ α β : Type} (a : Code σ α) (k : α → Code σ β) : Code σ β := fun p =>
  match a p with
  | (p', .ok v) => k v p'
  | (p', .error e) => (p', .error e)

instance {σ : Type} : Monad (Code σ) where
  pure v := fun p => (p, .ok v)
  bind := Code.andThen

/-- Code without effects on the process. -/
def Code.lift {σ α : Type} (r : Except String α) : Code σ α := fun p => (p, r)

/-- `warnings.warn(message, category)`. -/
def warn {σ : Type} (filters : WarnFilters) (w : Warned) : Code σ Unit := fun p =>
  match filters p.noted w with
  | .note => ({ p with noted := p.noted ++ [w] }, .ok ())
  | .raise => (p, .error (w.category ++ ": " ++ w.message))

/-! ## Audio backends -/

/-- `AudioBackend` (io/__init__.py 25-32). -/
structure AudioBackend (σ : Type) where
  load : String → String → Code σ (List ℝ × ℤ)
  save : String → AudioTensor → ℤ → Bool → ℝ → Option String → Code σ Unit
  info : String → Code σ AudioInfo

/-- `_load_audio_data` (audio.py 35-55). -/
def loadNoting (filters : WarnFilters) (caller name : String) : Code AudioDisk AudioData := fun p =>
  match p.world name with
  | none => (p, .error "LibsndfileError: Error opening file: No such file or directory.")
  | some s =>
    (do
      if 1 < s.audio.channels then
        warn filters ⟨"RuntimeWarning", caller ++ " received " ++ toString s.audio.channels ++
          " channels; using channel 0 only."⟩
      Code.lift (loadAudioData p.world name) : Code AudioDisk AudioData) p

/-- The backend `soundfile` (io/__init__.py 35-64). -/
noncomputable def soundfileBackend (sf : SoundFile) (filters : WarnFilters) : AudioBackend AudioDisk where
  load name caller := do
    let d ← loadNoting filters caller name
    return (d.audio, d.rate)
  save name audio rate normalize peak subtype := fun p =>
    match saveAudioFile sf p.world name audio rate normalize peak subtype with
    | .ok disk => ({ p with world := disk }, .ok ())
    | .error e => (p, .error e)
  info name := fun p => (p, infoAudio p.world name)

variable {σ : Type}

/-- `load_wav` (io/__init__.py 110-129). -/
def ioLoadWav (r : Registry (AudioBackend σ)) (name : String) (backend format : Option String) :
    Code σ (List ℝ × ℤ) := do
  let b ← Code.lift (r.wav name backend format)
  b.load name "load"

/-- `save_wav` (io/__init__.py 132-156). -/
def ioSaveWav (r : Registry (AudioBackend σ)) (name : String) (audio : AudioTensor) (rate : ℤ)
    (backend format : Option String) (normalize : Bool) (peak : ℝ) (subtype : Option String) : Code σ Unit := do
  let b ← Code.lift (r.wav name backend format)
  b.save name audio rate normalize peak subtype

/-- `info_wav` (io/__init__.py 159-178). -/
def ioInfoWav (r : Registry (AudioBackend σ)) (name : String) (backend format : Option String) : Code σ AudioInfo := do
  let b ← Code.lift (r.wav name backend format)
  b.info name

/-- The deprecated `torchrir.io.load` (io/__init__.py 219-232). -/
def ioLoad (filters : WarnFilters) (r : Registry (AudioBackend σ)) (name : String) (backend format : Option String) :
    Code σ (List ℝ × ℤ) := do
  warn filters ⟨"DeprecationWarning",
    "torchrir.io.load is deprecated. Use torchrir.io.load_wav or torchrir.io.load_audio."⟩
  ioLoadWav r name backend format

/-- The deprecated `torchrir.io.save` (io/__init__.py 235-262). -/
def ioSave (filters : WarnFilters) (r : Registry (AudioBackend σ)) (name : String) (audio : AudioTensor) (rate : ℤ)
    (backend format : Option String) (normalize : Bool) (peak : ℝ) (subtype : Option String) : Code σ Unit := do
  warn filters ⟨"DeprecationWarning",
    "torchrir.io.save is deprecated. Use torchrir.io.save_wav or torchrir.io.save_audio."⟩
  ioSaveWav r name audio rate backend format normalize peak subtype

/-- The deprecated `torchrir.io.info` (io/__init__.py 265-278). -/
def ioInfo (filters : WarnFilters) (r : Registry (AudioBackend σ)) (name : String) (backend format : Option String) :
    Code σ AudioInfo := do
  warn filters ⟨"DeprecationWarning",
    "torchrir.io.info is deprecated. Use torchrir.io.info_wav or torchrir.io.info_audio."⟩
  ioInfoWav r name backend format

/-- The deprecated `torchrir.load` (torchrir/__init__.py 21-29). -/
def topLoad (filters : WarnFilters) (r : Registry (AudioBackend σ)) (name : String) (backend format : Option String) :
    Code σ (List ℝ × ℤ) := do
  warn filters ⟨"DeprecationWarning",
    "torchrir.load is deprecated. Use torchrir.io.load_wav or torchrir.io.load_audio."⟩
  ioLoadWav r name backend format

/-- The deprecated `torchrir.save` (torchrir/__init__.py 32-59). -/
def topSave (filters : WarnFilters) (r : Registry (AudioBackend σ)) (name : String) (audio : AudioTensor) (rate : ℤ)
    (backend format : Option String) (normalize : Bool) (peak : ℝ) (subtype : Option String) : Code σ Unit := do
  warn filters ⟨"DeprecationWarning",
    "torchrir.save is deprecated. Use torchrir.io.save_wav or torchrir.io.save_audio."⟩
  ioSaveWav r name audio rate backend format normalize peak subtype

/-! ## Deprecated scenes -/

/-- `Scene(...)` (scene.py 94-101): the warning comes before the checks. -/
noncomputable def oldSceneNoting (filters : WarnFilters) (room : Room) (sources mics : Entity)
    (src mic : Option (Tensor Flt)) : Code σ OldScene := do
  warn filters ⟨"DeprecationWarning",
    "Scene is deprecated and will be removed in a future release. Use StaticScene or DynamicScene."⟩
  Code.lift (oldSceneNew room sources mics src mic)

/-- `ISMSimulator.simulate` with its warning (simulators.py 53-113): it comes before anything else. -/
noncomputable def simulateNoting (filters : WarnFilters) (w : World) (sim : IsmSimulator) (scene : SceneLike)
    (config : Option Config) : Code σ RirResult := do
  match scene with
  | .old _ => warn filters ⟨"DeprecationWarning",
      "Passing Scene to ISMSimulator is deprecated. Use StaticScene or DynamicScene."⟩
  | .new _ => pure ()
  Code.lift (sim.simulate w scene config)

/-! ## Devices -/

/-- `resolve_device` with its warnings (device.py 12-55). -/
def resolveDeviceNoting (filters : WarnFilters) (t : Torch) (d : DeviceArg) (prefer : List String := defaultPrefer) :
    Code σ TorchDevice :=
  match d with
  | .none => pure ⟨"cpu", .none⟩
  | .device d => pure d
  | .str s =>
    let dev := s.toLower
    if dev = "auto" then pure (firstAvailable t prefer)
    else if "cuda".toList <+: dev.toList then
      if t.cudaAvailable then Code.lift (t.parse s)
      else do
        warn filters ⟨"RuntimeWarning", "CUDA not available; falling back to CPU."⟩
        pure ⟨"cpu", .none⟩
    else if dev = "mps" then
      if t.mpsAvailable then pure ⟨"mps", .none⟩
      else do
        warn filters ⟨"RuntimeWarning", "MPS not available; falling back to CPU."⟩
        pure ⟨"cpu", .none⟩
    else if dev = "cpu" then pure ⟨"cpu", .none⟩
    else Code.lift (t.parse s)

/-! ## Experimental stubs -/

/-- The simulators of `experimental/simulators.py`. -/
inductive StubSimulator where
  | rayTracing
  | fdtd

/-- The name of a stub. -/
def StubSimulator.name : StubSimulator → String
  | .rayTracing => "RayTracingSimulator"
  | .fdtd => "FDTDSimulator"

/-- `RayTracingSimulator()`, `FDTDSimulator()` (experimental/simulators.py 23-28, 47-52). -/
def stubSimulatorNew (filters : WarnFilters) (s : StubSimulator) : Code σ StubSimulator := do
  warn filters ⟨"RuntimeWarning", s.name ++ " is experimental and not implemented."⟩
  pure s

/-- `simulate` of a stub (experimental/simulators.py 30-33, 54-57). -/
def StubSimulator.simulate (s : StubSimulator) (_scene : SceneLike) (_config : Option Config) : Code σ RirResult :=
  Code.lift (.error (s.name ++ " is not implemented yet"))

/-- `TemplateDataset()` (experimental/datasets.py 29-34). -/
def templateDatasetNew (filters : WarnFilters) : Code σ Unit :=
  warn filters ⟨"RuntimeWarning", "TemplateDataset is experimental and not implemented."⟩

/-- `len(TemplateDataset())` (experimental/datasets.py 36-37). -/
def templateLen : Code σ ℕ := Code.lift (.error "TemplateDataset is not implemented yet")

/-- `TemplateDataset()[i]` (experimental/datasets.py 39-40). -/
def templateGet {α : Type} (_i : ℤ) : Code σ α := Code.lift (.error "TemplateDataset is not implemented yet")

end Torchrir.Model
