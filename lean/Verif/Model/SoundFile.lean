import Verif.Model.Audio

/-!
# Audio files on disk

Model of the rest of `src/torchrir/io/audio.py` (rates, formats and subtypes) and of the wav functions of
`src/torchrir/io/__init__.py` with the only backend there is. The library `soundfile` is a parameter.
-/

namespace Torchrir.Model

/-- What `soundfile` can do: the formats it knows (upper case), the subtype it uses for a format by itself,
the combinations of format, subtype and number of channels it can write, and what writing does to a
sample. -/
structure SoundFile where
  formats : List String
  defaultSubtype : String → String
  supports : String → String → ℕ → Bool
  codec : String → String → ℝ → ℝ

/-- An audio file. -/
structure Stored where
  rate : ℤ
  format : String
  subtype : String
  audio : AudioFile

/-- The files of a directory by name. -/
abbrev AudioDisk := String → Option Stored

/-- `os.path.splitext(name)[1][1:]`: leading dots do not start an extension. -/
def splitextOf (name : List Char) : List Char :=
  let body := name.dropWhile (· = '.')
  if '.' ∈ body then (body.reverse.takeWhile (· ≠ '.')).reverse else []

/-- The format `soundfile` writes for a file name. -/
def SoundFile.formatOf (sf : SoundFile) (name : String) : Except String String :=
  let f := (String.ofList (splitextOf name.toList)).toUpper
  if f ∈ sf.formats then .ok f
  else .error "TypeError: No format specified and unable to get format from file extension"

/-- `sf.write(path, array, rate, subtype=subtype)` (audio.py 123). -/
noncomputable def SoundFile.write (sf : SoundFile) (disk : AudioDisk) (name : String) (t : Tensor ℝ) (rate : ℤ)
    (subtype : Option String) : Except String AudioDisk := do
  let format ← sf.formatOf name
  let f ← sfWrite t
  let sub := subtype.getD (sf.defaultSubtype format)
  raiseIf (¬ sf.supports format sub f.channels) "ValueError: Invalid combination of format, subtype and endian"
  raiseIf (rate < 1) "LibsndfileError: Error opening file"
  return Function.update disk name
    (some ⟨rate, format, sub, { f with samples := f.samples.map (sf.codec format sub) }⟩)

/-- A tensor with the attribute `_torchrir_subtype`, if it has it. -/
structure AudioTensor where
  tensor : Tensor ℝ
  attr : Option String := none

/-- `audio.detach()`: a new tensor object, without Python attributes (audio.py 111). -/
def AudioTensor.detach (a : AudioTensor) : AudioTensor := ⟨a.tensor, none⟩

/-- `_save_audio`, `save_audio` (audio.py 99-123, 163-184). -/
noncomputable def saveAudioFile (sf : SoundFile) (disk : AudioDisk) (name : String) (audio : AudioTensor) (rate : ℤ)
    (normalize : Bool := true) (peak : ℝ := 1) (subtype : Option String := none) : Except String AudioDisk := do
  let a := audio.detach
  let t ← normalizePeak a.tensor normalize peak
  sf.write disk name (framesFirst t) rate (subtype.orElse fun _ => a.attr)

/-- `AudioData` (audio.py 13-20). -/
structure AudioData where
  audio : List ℝ
  rate : ℤ
  format : Option String
  subtype : Option String

/-- `load_audio_data` (audio.py 35-55, 64-66). -/
def loadAudioData (disk : AudioDisk) (name : String) : Except String AudioData :=
  match disk name with
  | none => .error "LibsndfileError: Error opening file: No such file or directory."
  | some s => .ok ⟨loadAudio id s.audio, s.rate, some s.format, some s.subtype⟩

/-- `save_audio_data` (audio.py 187-204). -/
noncomputable def saveAudioData (sf : SoundFile) (disk : AudioDisk) (name : String) (data : AudioData)
    (normalize : Bool := true) (peak : ℝ := 1) (subtype : Option String := none) : Except String AudioDisk :=
  saveAudioFile sf disk name ⟨⟨[data.audio.length], data.audio⟩, none⟩ data.rate normalize peak
    (subtype.orElse fun _ => data.subtype)

/-- `AudioInfo` (audio.py 23-32). -/
structure AudioInfo where
  rate : ℤ
  frames : ℕ
  channels : ℕ
  format : String
  subtype : String
  duration : ℝ

/-- `info_audio` (audio.py 207-219). -/
noncomputable def infoAudio (disk : AudioDisk) (name : String) : Except String AudioInfo :=
  match disk name with
  | none => .error "LibsndfileError: Error opening file: No such file or directory."
  | some s => .ok ⟨s.rate, s.audio.frames, s.audio.channels, s.format, s.subtype, (s.audio.frames : ℝ) / s.rate⟩

/-- `save_wav`, and the deprecated `io.save` and `torchrir.save` that call it (io/__init__.py 128-156, 235-264;
torchrir/__init__.py 31-60): the format is checked and not passed on. -/
noncomputable def saveWav (sf : SoundFile) (disk : AudioDisk) (name : String) (audio : AudioTensor) (rate : ℤ)
    (format : Option String := none) (normalize : Bool := true) (peak : ℝ := 1) (subtype : Option String := none) :
    Except String AudioDisk := do
  let fmt ← normalizeFormat name format
  raiseIf (fmt ≠ "wav" ∧ fmt ≠ "wave") "save expects a wav file"
  saveAudioFile sf disk name audio rate normalize peak subtype

/-- `save` of audio.py (126-160). -/
noncomputable def saveAudioWav (sf : SoundFile) (disk : AudioDisk) (name : String) (audio : AudioTensor) (rate : ℤ)
    (normalize : Bool := true) (peak : ℝ := 1) (subtype : Option String := none) : Except String AudioDisk := do
  raiseIf (¬ wavSuffix name) "save expects a wav file"
  saveAudioFile sf disk name audio rate normalize peak subtype

end Torchrir.Model
