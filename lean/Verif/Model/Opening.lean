import Verif.Model.Download
import Verif.Model.Corpus

/-!
# Opening datasets, and the scripts that open them

Model of `CmuArcticDataset.__init__` and `LibriSpeechDataset.__init__` with both values of `download`, of
`_dataset_factory` in `examples/build_dynamic_dataset.py`, of `dataset_factory` in the scripts `static.py`,
`dynamic_src.py` and `dynamic_mic.py`, and of the calls of the factory in `load_dataset_sources`. Simplified:
`exists()` does not raise; the directory of a speaker is one component of a path; what happens between the calls of
the factory reads files only.
-/

namespace Torchrir.Model

/-- What is opened: a speaker of CMU ARCTIC, or a subset of LibriSpeech, all of it or one speaker. -/
inductive Corpus where
  | cmuArctic (speaker : String)
  | libriSpeech (subset : String) (speaker : Option String)

/-- `VALID_SUBSETS` (librispeech.py 20-28). -/
def libriSubsetIds : List String :=
  ["dev-clean", "dev-other", "test-clean", "test-other", "train-clean-100", "train-clean-360", "train-other-500"]

/-- The first check (cmu_arctic.py 77-78, librispeech.py 69-70). -/
def Corpus.checkName : Corpus → Prog Unit
  | .cmuArctic s => if s ∈ cmuSpeakerIds then Prog.pure () else Prog.throw (.value "unsupported speaker")
  | .libriSpeech s _ => if s ∈ libriSubsetIds then Prog.pure () else Prog.throw (.value "unsupported subset")

/-- The paths (cmu_arctic.py 79-83, librispeech.py 71-76). -/
def Corpus.layout (root : DiskPath) : Corpus → Layout
  | .cmuArctic s => cmuLayout root s
  | .libriSpeech s _ => libriLayout root s

/-- `_speaker_dir` (librispeech.py 77); an empty name is no speaker. -/
def Corpus.speakerDir (root : DiskPath) : Corpus → Option DiskPath
  | .libriSpeech s (some spk) => if spk = "" then none else some ((libriLayout root s).dataset ++ [spk])
  | _ => none

/-- `if not path.exists(): raise FileNotFoundError` (cmu_arctic.py 88-92, librispeech.py 82-88). -/
def requirePath (p : DiskPath) (msg : String) : Prog Unit :=
  Prog.look fun m => if pathExists p m then .ok () else .error (.os msg)

/-- The last check of the constructors (librispeech.py 87-88). -/
def requireSpeaker (root : DiskPath) (c : Corpus) : Prog Unit :=
  match c.speakerDir root with
  | none => Prog.pure ()
  | some p => requirePath p "speaker directory not found"

/-- The constructors (cmu_arctic.py 67-92, librispeech.py 53-88). -/
def openCorpus (untar : Bytes → Except Exc (List Member)) (net : Network) (root : DiskPath) (c : Corpus)
    (fetch : Bool) : Prog Unit :=
  Prog.bind c.checkName fun _ =>
  Prog.bind (if fetch then downloadAndExtract untar net (c.layout root) else Prog.pure ()) fun _ =>
  Prog.bind (requirePath (c.layout root).dataset "dataset not found") fun _ => requireSpeaker root c

/-- `speaker or "bdl"` (static.py 145, build_dynamic_dataset.py 105). -/
def orBdl : Option String → String
  | none => "bdl"
  | some s => if s = "" then "bdl" else s

/-- `dataset_factory` (static.py 144-146, dynamic_src.py 152-154, dynamic_mic.py 146-148). -/
def scriptFactory (untar : Bytes → Except Exc (List Member)) (net : Network) (root : DiskPath) (fetch : Bool)
    (speaker : Option String) : Prog Unit :=
  openCorpus untar net root (.cmuArctic (orBdl speaker)) fetch

/-- What `_dataset_factory` opens (build_dynamic_dataset.py 104-107, 111-114). -/
def factoryCorpus (dataset subset : String) (speaker : Option String) : Corpus :=
  if dataset = "cmu_arctic" then .cmuArctic (orBdl speaker) else .libriSpeech subset speaker

/-- `_dataset_factory` (build_dynamic_dataset.py 96-119). The constructors without download raise no other `OSError`
than `FileNotFoundError`. -/
def datasetFactory (untar : Bytes → Except Exc (List Member)) (net : Network) (root : DiskPath)
    (dataset subset : String) (fetch : Bool) (speaker : Option String) : Prog Unit :=
  Prog.catchWith (openCorpus untar net root (factoryCorpus dataset subset speaker) fetch) fun e =>
    match e, fetch with
    | .os _, false => openCorpus untar net root (factoryCorpus dataset subset speaker) true
    | e, _ => Prog.throw e

/-- `for speaker in speakers: dataset = dataset_factory(speaker)` (utils.py 62-63). -/
def openEach (factory : Option String → Prog Unit) : List String → Prog Unit
  | [] => Prog.pure ()
  | s :: rest => Prog.bind (factory (some s)) fun _ => openEach factory rest

/-- The calls of the factory in `load_dataset_sources` (utils.py 55-63) for the speakers that `choose_speakers`
returned. -/
def openForSources (factory : Option String → Prog Unit) (chosen : List String) : Prog Unit :=
  Prog.bind (factory none) fun _ => openEach factory chosen

end Torchrir.Model
