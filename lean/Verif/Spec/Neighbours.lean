import Verif.Model.Download

/-!
# Specification: datasets that share a directory
-/

namespace Torchrir.Spec

open Torchrir.Model

/-- A dataset as the user names it: a CMU ARCTIC speaker or a LibriSpeech subset. -/
inductive DatasetName where
  | cmuArctic (speaker : String)
  | libriSpeech (subset : String)
  deriving DecidableEq

/-- The dataset constructed under the directory `root`. -/
def DatasetName.layout (root : DiskPath) : DatasetName → Layout
  | .cmuArctic s => cmuLayout root s
  | .libriSpeech s => libriLayout root s

/-- What the names in an archive of the first dataset are like: for CMU ARCTIC they are below the directory of the speaker,
for LibriSpeech below `LibriSpeech`, but not in the directory of the second dataset. -/
def Contents : DatasetName → DatasetName → List String → Prop
  | .cmuArctic s, _, segs => segs.head? = some ("cmu_us_" ++ s ++ "_arctic")
  | .libriSpeech _, b, segs => segs.head? = some "LibriSpeech" ∧
      ∀ t, b = .libriSpeech t → ¬ ["LibriSpeech", t] <+: segs

/-- The paths that belong to a dataset: its archive, the archive's temporary name, and its directory with all
that is in it. -/
def Owns (root : DiskPath) (a : DatasetName) (q : DiskPath) : Prop :=
  match a with
  | .cmuArctic s => q = root ++ ["ARCTIC", "cmu_us_" ++ s ++ "_arctic.tar.bz2"] ∨
      q = root ++ ["ARCTIC", "cmu_us_" ++ s ++ "_arctic.tar.bz2" ++ ".part"] ∨
      root ++ ["ARCTIC", "cmu_us_" ++ s ++ "_arctic"] <+: q
  | .libriSpeech s => q = root ++ [s ++ ".tar.gz"] ∨ q = root ++ [s ++ ".tar.gz" ++ ".part"] ∨
      root ++ ["LibriSpeech", s] <+: q

end Torchrir.Spec
