import Verif.Model.ScriptRun
import Verif.Spec.Scripts

/-!
# Specification of the files that the example scripts leave behind
-/

namespace Torchrir.Spec

open Torchrir.Model

/-- The files of a script with `n` sources, in the order they are written. -/
def scriptNames (script : Script) (n : ℕ) : List String :=
  "ATTRIBUTION.txt" :: ((List.range n).map script.refName ++ [script.mixName, script.prefix ++ "_metadata.json"])

/-- The run has finished and has written: the attribution; for every source `s` a file with its reference `ref s`; the
mixture, which is the sum of the references; and the metadata `md`, which lists for every source the file with its
reference, the speaker and the utterances `who s`, and repeats the licence and the notes. -/
def Finished {ι : Type} {S M : ℕ} (script : Script) (fs len : ℕ) (ref : Fin S → Fin M → ℕ → ℝ)
    (who : Fin S → String × List ι) (md : Metadata) (run : Writing ι Unit) : Prop :=
  run.result = .ok () ∧
  ∃ (text : String) (license : List (String × AttrValue)) (refFile : Fin S → AudioFile) (refGain : Fin S → ℝ)
    (mixFile : AudioFile) (gain : ℝ),
    run.files = ("ATTRIBUTION.txt", .text text) :: ((List.ofFn fun s => (script.refName s, .audio (refFile s) fs)) ++
      [(script.mixName, .audio mixFile fs),
       (script.prefix ++ "_metadata.json", .metadata md (List.ofFn who)
        ⟨script.prefix, List.ofFn fun s => ⟨s, script.refName s, (who s).1, (who s).2, "convolved"⟩, license,
          modificationNotes script.moves, "ATTRIBUTION.txt"⟩)]) ∧
    license.lookup "dataset" = some (.shown "CMU ARCTIC") ∧
    (∀ s, SavedAs (refFile s) M len (ref s) (refGain s)) ∧
    SavedAs mixFile M len (fun m k => ∑ s, ref s m k) gain

/-- The metadata describes sources at `src` and microphones at `mic`, step by step, with the positions `sp` and `mp` for
the plain positions, responses of the given shape and signals of `n` samples. -/
structure Describes {T S M d : ℕ} (md : Metadata) (fs : ℝ) (sp : Fin S → Fin d → ℝ) (mp : Fin M → Fin d → ℝ)
    (src : Fin T → Fin S → Fin d → ℝ) (mic : Fin T → Fin M → Fin d → ℝ) (shape : List ℕ) (n : ℕ) : Prop where
  rate : md.fs = fs
  sources : md.sourcePositions = rows sp
  mics : md.micPositions = rows mp
  responses : md.rirsShape = shape
  dynamic : md.dynamic = true ↔ 1 < T
  sourceTraj : md.sourceTraj = if 1 < T then some (steps src) else none
  micTraj : md.micTraj = if 1 < T then some (steps mic) else none
  timestamps : md.timestamps = if 1 < T then
    some ⟨[T], List.ofFn fun t : Fin T => (t : ℝ) / ((T : ℝ) - 1) * max 0 (((n : ℝ) - 1) / fs)⟩ else none

end Torchrir.Spec
