import Verif.Model.Scripts
import Verif.Spec.DynDataset

/-!
# Specification of the example scripts
-/

namespace Torchrir.Spec

open Torchrir.Model

/-- The walk of `n` sources that start at `start`, at least 1.5 m from `c`: exactly those in `moving` walk, straight to
another place; in three dimensions everyone keeps their height; everyone is always 0.5 m from the walls and, in rooms
higher than 2 m, between 1.5 m and 1.8 m high. -/
structure SomeWalk {d n T : ℕ} (L c : Fin d → ℝ) (start : Fin n → Fin d → ℝ) (src : Fin T → Fin n → Fin d → ℝ)
    (moving : Finset (Fin n)) : Prop where
  far : ∀ s, 1.5 ≤ dist (start s) c
  spot : ∀ t s, TalkerSpot L (src t s)
  still : ∀ s, s ∉ moving → ∀ t, src t s = start s
  walk : ∀ s, s ∈ moving → ∃ stop, TalkerSpot L stop ∧ StraightPath (start s) stop fun t => src t s
  height : d = 3 → ∀ t s (i : Fin d), (i : ℕ) = 2 → src t s i = start s i

/-- The reference of a source at microphone `m`: its signal `x` sample by sample through the response of the step that
is current. -/
noncomputable def heard {M n K T : ℕ} (x : Fin n → ℝ) (h : Fin T → Fin M → Fin K → ℝ) (step : Fin n → Fin T) (m : Fin M)
    (k : ℕ) : ℝ :=
  ∑ j : Fin n, ∑ i : Fin K, if (j : ℕ) + i = k then x j * h (step j) m i else 0

/-- The files of a script: one per source with its reference, then the mixture, each brought to a peak of 1. -/
def ScriptFiles {S M : ℕ} (script : Script) (len : ℕ) (y : Fin M → ℕ → ℝ) (ref : Fin S → Fin M → ℕ → ℝ)
    (files : List (String × AudioFile)) : Prop :=
  ∃ (mixFile : AudioFile) (gain : ℝ) (refFile : Fin S → AudioFile) (refGain : Fin S → ℝ),
    files = (List.ofFn fun s : Fin S => (script.refName s, refFile s)) ++ [(script.mixName, mixFile)] ∧
    SavedAs mixFile M len y gain ∧ ∀ s, SavedAs (refFile s) M len (ref s) (refGain s)

end Torchrir.Spec
