import Verif.Model.DatasetRun
import Verif.Spec.ScriptRun

/-!
# Specification of the files of a dynamic dataset
-/

namespace Torchrir.Spec

open Torchrir.Model

/-- The files of scene `idx` with `n` sources, in the order they are written. -/
def sceneNames (n idx : ℕ) : List String :=
  (List.range n).map (refName idx) ++ [mixName idx, "scene_" ++ zeroPadded 3 idx ++ "_metadata.json"]

/-- The files of a dataset of `count` scenes with `n` sources, in the order they are written. -/
def datasetNames (n count : ℕ) : List String :=
  "ATTRIBUTION.txt" :: (List.range count).flatMap (sceneNames n)

/-- The files of a finished scene: for every source `s` a file with its reference `ref s`; the mixture, which is the sum
of the references; and the metadata `md`, which lists for every source the file with its reference, the speaker and the
utterances `who s`, and repeats dataset, licence, notes and motion. -/
def SceneWritten {ι : Type} {S M : ℕ} (idx fs len : ℕ) (ref : Fin S → Fin M → ℕ → ℝ) (who : Fin S → String × List ι)
    (md : Metadata) (dataset : String) (subset : Option String) (license : List (String × AttrValue))
    (mode : Fin S → String) (moving : List ℕ) (files : List (String × OutFile ι)) : Prop :=
  ∃ (refFile : Fin S → AudioFile) (refGain : Fin S → ℝ) (mixFile : AudioFile) (gain : ℝ),
    files = (List.ofFn fun s => (refName idx s, .audio (refFile s) fs)) ++
      [(mixName idx, .audio mixFile fs),
       ("scene_" ++ zeroPadded 3 idx ++ "_metadata.json", .datasetMetadata md (List.ofFn who)
        ⟨⟨"dynamic_dataset", List.ofFn fun s => ⟨s, refName idx s, (who s).1, (who s).2, "convolved"⟩, license,
          modificationNotes true, "ATTRIBUTION.txt"⟩, dataset, subset, List.ofFn mode, moving⟩)] ∧
    (∀ s, SavedAs (refFile s) M len (ref s) (refGain s)) ∧
    SavedAs mixFile M len (fun m k => ∑ s, ref s m k) gain

end Torchrir.Spec
