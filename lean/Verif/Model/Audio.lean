import Verif.Model.Tensor
import Verif.Model.Ism

/-!
# Audio files and audio backends

Model of `src/torchrir/io/audio.py` and of the backend registry in `src/torchrir/io/__init__.py`.
Samples are the numbers handed to `soundfile`; what a file format does to them (rounding, clipping) is a
parameter of reading.
-/

namespace Torchrir.Model

/-- What `soundfile` is asked to write: frames of `channels` samples, one frame after the other. -/
structure AudioFile where
  channels : ℕ
  frames : ℕ
  samples : List ℝ

/-- Sample of a channel at a frame. -/
def AudioFile.at (f : AudioFile) (frame channel : ℕ) : ℝ := f.samples.getD (frame * f.channels + channel) 0

/-- `sf.write`: an array of frames, or of frames and channels (audio.py 123). -/
def sfWrite (t : Tensor ℝ) : Except String AudioFile :=
  match t.shape with
  | [n] => .ok ⟨1, n, t.data⟩
  | [n, c] => if c = 0 then .error "Error opening file: Format not recognised" else .ok ⟨c, n, t.data⟩
  | _ => .error "Invalid shape"

/-- The largest magnitude, 0 for an empty tensor (audio.py 115). -/
noncomputable def peakOf (data : List ℝ) : ℝ := (data.map (|·|)).foldl max 0

/-- The normalisation of `_save_audio` (audio.py 112-117). -/
noncomputable def normalizePeak (audio : Tensor ℝ) (normalize : Bool) (peak : ℝ) : Except String (Tensor ℝ) :=
  if normalize then
    if peak ≤ 0 then .error "peak must be positive when normalize=True"
    else if 0 < peakOf audio.data then
      .ok ⟨audio.shape, audio.data.map fun x => x / peakOf audio.data * peak⟩
    else .ok audio
  else .ok audio

/-- `audio.transpose(0, 1)` as a contiguous array. -/
def transposeData (rows columns : ℕ) (data : List ℝ) : List ℝ :=
  (List.range columns).flatMap fun t => (List.range rows).map fun c => data.getD (c * columns + t) 0

/-- The change to frames first (audio.py 118-119). -/
def framesFirst (audio : Tensor ℝ) : Tensor ℝ :=
  match audio.shape with
  | [a, b] => if a ≤ 8 then ⟨[b, a], transposeData a b audio.data⟩ else audio
  | _ => audio

/-- `_save_audio` (audio.py 99-123). -/
noncomputable def saveAudio (audio : Tensor ℝ) (normalize : Bool := true) (peak : ℝ := 1) :
    Except String AudioFile := do
  let audio ← normalizePeak audio normalize peak
  sfWrite (framesFirst audio)

/-- `_load_audio_data` (audio.py 35-55): channel 0; `codec` is what the format makes of a sample. -/
def loadAudio (codec : ℝ → ℝ) (f : AudioFile) : List ℝ :=
  (List.range f.frames).map fun t => codec (f.at t 0)

/-! ## Names and formats -/

/-- `path.suffix` of a path with the given last component (pathlib of Python 3.11). -/
def suffixOf (name : List Char) : List Char :=
  let ext := (name.reverse.takeWhile (· ≠ '.')).reverse
  let i := name.length - ext.length - 1
  if '.' ∈ name ∧ 0 < i ∧ ext ≠ [] then '.' :: ext else []

/-- `_normalize_format` (io/__init__.py 100-107). -/
def normalizeFormat (name : String) (fmt : Option String) : Except String String :=
  let given := fmt.getD ""
  let fmt := (if given = "" then String.ofList ((suffixOf name.toList).dropWhile (· = '.')) else given).toLower
  if fmt = "" then .error "Audio format could not be inferred from the path." else .ok fmt

/-! ## The registry -/

/-- The audio backends and the name of the default one (io/__init__.py 57-65). -/
structure Registry (B : Type) where
  backends : List (String × B)
  default : String

/-- `list_audio_backends` (io/__init__.py 68-71). -/
def Registry.list {B : Type} (r : Registry B) : List String := (r.backends.map Prod.fst).mergeSort (· ≤ ·)

/-- `set_audio_backend` (io/__init__.py 80-88): the registry afterwards and whether the call raised. -/
def Registry.set {B : Type} (r : Registry B) (name : String) : Registry B × Except String Unit :=
  if name ∈ r.backends.map Prod.fst then ({ r with default := name }, .ok ())
  else (r, .error "Unknown audio backend")

/-- `_resolve_backend` (io/__init__.py 91-97). -/
def Registry.resolve {B : Type} (r : Registry B) (name : Option String) : Except String B :=
  let given := name.getD ""
  let n := if given = "" then r.default else given
  match r.backends.lookup n with
  | some b => .ok b
  | none => .error "Unknown audio backend"

/-- The backend that `load_wav`, `save_wav` and `info_wav` call (io/__init__.py 110-178). -/
def Registry.wav {B : Type} (r : Registry B) (name : String) (backend format : Option String) :
    Except String B := do
  let fmt ← normalizeFormat name format
  raiseIf (fmt ≠ "wav" ∧ fmt ≠ "wave") "a wav file is expected"
  r.resolve backend

/-- The backend that `load_audio`, `save_audio` and `info_audio` call (io/__init__.py 181-216). -/
def Registry.any {B : Type} (r : Registry B) (backend : Option String) : Except String B := r.resolve backend

/-- The check of the wav functions of `audio.py` (81-86, 148-153). -/
def wavSuffix (name : String) : Bool :=
  let s := (String.ofList (suffixOf name.toList)).toLower
  decide (s = ".wav" ∨ s = ".wave")

end Torchrir.Model
