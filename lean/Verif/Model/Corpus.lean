import Verif.Model.Audio
import Verif.Model.Dataset
import Verif.Model.Transcript

/-!
# Speech corpora on disk

Model of the methods of `LibriSpeechDataset` (`datasets/librispeech.py` 90-130) and `CmuArcticDataset`
(`datasets/cmu_arctic.py` 44-47, 94-101, 126-154) that look at the files after construction. Simplified: a directory is
the list of everything below it, in the order in which it is listed (in the code this order is that of the operating
system); names contain no `/` and are not `.` or `..`; there are no symbolic links.
-/

namespace Torchrir.Model

/-- What is at a path. -/
inductive DiskEntry where
  | file (content : List Char)
  | dir

/-- Everything below a directory, with relative paths. -/
abbrev Listing := List (List (List Char) × DiskEntry)

/-- `path.exists()` below the directory. -/
def Listing.has (t : Listing) (p : List (List Char)) : Bool := decide (p ∈ t.map Prod.fst)

/-- `stem` if `name` is `stem + suffix`. -/
def cutSuffix (suffix name : List Char) : Option (List Char) :=
  if suffix.isSuffixOf name then some (name.take (name.length - suffix.length)) else none

/-! ## LibriSpeech -/

/-- `list_speakers` (librispeech.py 90-96). `subset` is what is below `_subset_dir`, if that exists. -/
def libriSpeakers (speaker : Option String) (subset : Option Listing) : List String :=
  match speaker, subset with
  | some s, _ => [s]
  | none, none => []
  | none, some t =>
    (t.filterMap fun e =>
      match e with
      | ([name], .dir) => some (String.ofList name)
      | _ => none).mergeSort (· ≤ ·)

/-- A `LibriSpeechSentence` (librispeech.py 33-40). -/
structure LibriSentence where
  utteranceId : List Char
  text : List Char
  speakerId : List Char
  chapterId : List Char

/-- The names in a directory that end in `.flac`, without the ending. -/
def flacIds (t : Listing) (d : List (List Char)) : List (List Char) :=
  t.filterMap fun e => if e.1 ≠ [] ∧ e.1.dropLast = d then cutSuffix ".flac".toList (e.1.getLastD []) else none

/-- The paths that `search_root.rglob("*.trans.txt")` finds; `root` is the path of the search root below the subset
directory (librispeech.py 101-104). -/
def transcripts (t : Listing) (root : List (List Char)) : Listing :=
  t.filter fun e => root.isPrefixOf e.1 && decide (root.length < e.1.length) &&
    (".trans.txt".toList).isSuffixOf (e.1.getLastD [])

/-- The sentences of one transcript (librispeech.py 105-123). `subset` is the name of the subset directory, which lies in
`LibriSpeech`. -/
def libriChapter (subset : List Char) (t : Listing) (e : List (List Char) × DiskEntry) :
    Except String (List LibriSentence) :=
  match e.2 with
  | .dir => .error "IsADirectoryError"
  | .file content =>
    let chapterDir := "LibriSpeech".toList :: subset :: e.1.dropLast
    .ok ((libriAvailable content (flacIds t e.1.dropLast)).map fun s =>
      { utteranceId := s.1, text := s.2, speakerId := chapterDir.dropLast.getLastD []
        chapterId := chapterDir.getLastD [] })

/-- `_speaker_dir`, or the subset directory itself for `None` and the empty string (librispeech.py 77, 101-103). -/
def speakerDir (speaker : Option String) : List (List Char) :=
  match speaker with
  | none => []
  | some s => if s = "" then [] else [s.toList]

/-- The checks of the constructor without download (librispeech.py 82-88); `subset` is what is below `_subset_dir`, if
that exists. -/
def libriOpen (speaker : Option String) (subset : Option Listing) : Except String Unit :=
  match subset with
  | none => .error "dataset not found"
  | some t => raiseIf (speakerDir speaker ≠ [] ∧ t.has (speakerDir speaker) = false) "speaker directory not found"

/-- `available_sentences` (librispeech.py 98-124). -/
def libriSentences (subset : List Char) (speaker : Option String) (t : Listing) : Except String (List LibriSentence) := do
  let found ← (transcripts t (speakerDir speaker)).mapM (libriChapter subset t)
  return found.flatten

/-- The path that `load_audio` opens (librispeech.py 128-129). `Path / ""` is the same path. -/
def libriPath (u : List Char) : Except String (List (List Char)) :=
  let (a, rest) := partition '-' u
  let (b, _) := partition '-' rest
  if '-' ∈ u ∧ '-' ∈ rest then .ok ([a, b].filter (· ≠ []) ++ [u ++ ".flac".toList])
  else .error "not enough values to unpack (expected 3)"

/-- Reading an audio file: `decode` is what `soundfile` makes of its content. -/
def readAudioAt (decode : List Char → Except String (Tensor ℝ × ℕ)) (t : Listing) (p : List (List Char)) :
    Except String (Tensor ℝ × ℕ) :=
  match t.lookup p with
  | some (.file content) => decode content
  | _ => .error "Error opening file"

/-- `load_audio` (librispeech.py 126-130). -/
def libriLoad (decode : List Char → Except String (Tensor ℝ × ℕ)) (t : Listing) (u : List Char) :
    Except String (Tensor ℝ × ℕ) := do
  let p ← libriPath u
  readAudioAt decode t p

/-- What `BaseDataset` needs of a `LibriSpeechDataset`. -/
def libriFiles (decode : List Char → Except String (Tensor ℝ × ℕ)) (subset : List Char) (speaker : Option String) :
    Files Listing where
  available t := (libriSentences subset speaker t).map fun l =>
    l.map fun s => ⟨String.ofList s.utteranceId, some (String.ofList s.text)⟩
  audio t u := libriLoad decode t u.toList

/-! ## CMU ARCTIC -/

/-- `VALID_SPEAKERS` (cmu_arctic.py 20-39). -/
def cmuSpeakerIds : List String :=
  ["aew", "ahw", "aup", "awb", "axb", "bdl", "clb", "eey", "fem", "gka", "jmk", "ksp", "ljm", "lnh", "rms", "rxr", "slp",
    "slt"]

/-- `cmu_arctic_speakers`, `list_speakers` (cmu_arctic.py 44-47, 143-145). -/
def cmuSpeakers : List String := cmuSpeakerIds.mergeSort (· ≤ ·)

/-- The checks of the constructor without download (cmu_arctic.py 78-92); `t` is what is below `root / "ARCTIC"`. -/
def cmuOpen (speaker : String) (t : Listing) : Except String Unit := do
  raiseIf (speaker ∉ cmuSpeakerIds) "unsupported speaker"
  raiseIf (t.has [("cmu_us_" ++ speaker ++ "_arctic").toList] = false) "dataset not found"

/-- `path.stem` of a path with the given last component. -/
def stemOf (name : List Char) : List Char := name.take (name.length - (suffixOf name).length)

/-- `{p.stem for p in self.audio_dir.glob("*.wav")}` (cmu_arctic.py 140); `t` is what is below `_dataset_dir`. -/
def wavIds (t : Listing) : List (List Char) :=
  t.filterMap fun e =>
    match e.1 with
    | [d, name] =>
      if d = "wav".toList ∧ (".wav".toList).isSuffixOf name then some (stemOf name) else none
    | _ => none

/-- `available_sentences` (cmu_arctic.py 126-141). -/
def cmuAvailableIn (t : Listing) : Except String (List (List Char × List Char)) :=
  match t.lookup ["etc".toList, "txt.done.data".toList] with
  | some (.file content) => cmuAvailable content (wavIds t)
  | _ => .error "FileNotFoundError"

/-- `load_audio` (cmu_arctic.py 147-154, io/audio.py 67-87). -/
def cmuLoad (decode : List Char → Except String (Tensor ℝ × ℕ)) (t : Listing) (u : List Char) :
    Except String (Tensor ℝ × ℕ) := do
  raiseIf (wavSuffix (String.ofList (u ++ ".wav".toList)) = false) "load expects a wav file"
  readAudioAt decode t ["wav".toList, u ++ ".wav".toList]

/-- What `BaseDataset` needs of a `CmuArcticDataset`. -/
def cmuFiles (decode : List Char → Except String (Tensor ℝ × ℕ)) : Files Listing where
  available t := (cmuAvailableIn t).map fun l => l.map fun s => ⟨String.ofList s.1, some (String.ofList s.2)⟩
  audio t u := cmuLoad decode t u.toList

end Torchrir.Model
