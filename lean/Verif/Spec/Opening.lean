import Verif.Model.Opening

/-!
# Specification: which datasets there are, and what it means that one is on the disk
-/

namespace Torchrir.Spec

open Torchrir.Model

/-- The dataset exists: one of the eighteen speakers of CMU ARCTIC, or one of the seven subsets of LibriSpeech. -/
def Known : Corpus → Prop
  | .cmuArctic s => s ∈ ["aew", "ahw", "aup", "awb", "axb", "bdl", "clb", "eey", "fem", "gka", "jmk", "ksp", "ljm", "lnh",
      "rms", "rxr", "slp", "slt"]
  | .libriSpeech s _ => s ∈ ["dev-clean", "dev-other", "test-clean", "test-other", "train-clean-100", "train-clean-360",
      "train-other-500"]

/-- The directory of the dataset is there, and that of the speaker if one is named. -/
def Present (root : DiskPath) (m : Machine) : Corpus → Prop
  | .cmuArctic s => pathExists (root ++ ["ARCTIC", "cmu_us_" ++ s ++ "_arctic"]) m = true
  | .libriSpeech s spk => pathExists (root ++ ["LibriSpeech", s]) m = true ∧
      ∀ name, spk = some name → name ≠ "" → pathExists (root ++ ["LibriSpeech", s, name]) m = true

/-- The directory in which the archive lies. -/
def archiveDir (root : DiskPath) : Corpus → DiskPath
  | .cmuArctic _ => root ++ ["ARCTIC"]
  | .libriSpeech _ _ => root

/-- The file name of the archive. -/
def archiveName : Corpus → String
  | .cmuArctic s => "cmu_us_" ++ s ++ "_arctic.tar.bz2"
  | .libriSpeech s _ => s ++ ".tar.gz"

/-- The archive. -/
def archiveFile (root : DiskPath) (c : Corpus) : DiskPath := archiveDir root c ++ [archiveName c]

/-- Neither the archive nor a file left by an interrupted download is there, and directories can be made where the
archive belongs. -/
structure NoArchive (root : DiskPath) (m : Machine) (c : Corpus) : Prop where
  archive : m.disk (archiveFile root c) = none
  part : m.disk (archiveDir root c ++ [archiveName c ++ ".part"]) = none
  top : m.disk [] = some .dir
  noFile : ∀ q, q <+: archiveDir root c → ∀ content, m.disk q ≠ some (.file content)

end Torchrir.Spec
