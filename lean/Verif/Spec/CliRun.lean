import Verif.Model.CliRun
import Verif.Spec.ScriptPlots

/-!
# Specification of whole runs of the command line program
-/

namespace Torchrir.Spec

open Torchrir.Model

/-- The files of a scenario, in the order they are written. -/
def cliNames (mode : String) : List String :=
  ["ATTRIBUTION.txt", mode ++ "_binaural.wav", mode ++ "_binaural_metadata.json"]

/-- The pictures of a scenario in `d` coordinates: images with `--plot`, animations with `--gif` if anything moves. -/
def cliShots (d : ℕ) (moving plot gif : Bool) : List Shot :=
  (if plot then
    [.still 2] ++ (if moving then [.paths 2] else []) ++
    (if d = 3 then [.still 3] ++ (if moving then [.paths 3] else []) else [])
  else []) ++
  (if gif ∧ moving then [.film 2] ++ (if d = 3 then [.film 3] else []) else [])

/-- The run has finished. It has written the attribution; then saved the pictures `pics`; then written the sound at the
ears, brought to a peak of 1, and the metadata `md` with the sources `who`, the settings `args`, the licence and the
notes. -/
def CliFinished {ι : Type} {S : ℕ} (mode : String) (moving : Bool) (fs len : ℕ) (sound : Fin 2 → ℕ → ℝ)
    (who : Fin S → String × List ι) (md : Metadata) (args : List (String × Val)) (pics : List Picture)
    (run : Illustrated ι Unit) : Prop :=
  run.result = .ok () ∧ ∃ (text : String) (license : List (String × AttrValue)) (file : AudioFile) (gain : ℝ),
    run.events = .inl ("ATTRIBUTION.txt", .text text) :: (pics.map .inr ++
      [.inl (mode ++ "_binaural.wav", .audio file fs),
       .inl (mode ++ "_binaural_metadata.json", .cliMetadata md (List.ofFn who)
        ⟨mode, args, license, modificationNotes moving, "ATTRIBUTION.txt"⟩)]) ∧
    license.lookup "dataset" = some (.shown "CMU ARCTIC") ∧ SavedAs file 2 len sound gain

end Torchrir.Spec
