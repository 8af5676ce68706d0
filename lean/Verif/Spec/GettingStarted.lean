import Verif.Spec.CliScene
import Verif.Spec.DynDataset

/-!
# Specification of the getting-started example
-/

namespace Torchrir.Spec

open Torchrir.Model

/-- The horizontal distance of two positions. -/
noncomputable def floorDist (p q : Fin 3 → ℝ) : ℝ := Real.sqrt ((p 0 - q 0) ^ 2 + (p 1 - q 1) ^ 2)

/-- The standing scene in the room of 8 m × 6 m × 3 m: the centre `c` of the microphones is at most 3 cm (1 cm in height)
from the centre of the room in every direction, the microphones are 10 cm left and right of it, the sources stand 1.5 m
high at a horizontal distance of 2.2 m from it, one at 30 and one at 150 degrees, so that the angle between them is 120
degrees. -/
structure StartScene (c : Fin 3 → ℝ) (src mic : Fin 2 → Fin 3 → ℝ) : Prop where
  center : |c 0 - 4| ≤ 0.03 ∧ |c 1 - 3| ≤ 0.03 ∧ |c 2 - 1.5| ≤ 0.01
  left : mic 0 = ![c 0 - 0.1, c 1, c 2]
  right : mic 1 = ![c 0 + 0.1, c 1, c 2]
  height : ∀ s, src s 2 = 1.5
  radius : ∀ s, floorDist (src s) c = 2.2
  ahead : ∀ s, src s 1 - c 1 = 1.1
  sides : src 1 0 < c 0 ∧ c 0 < src 0 0
  angle : (src 0 0 - c 0) * (src 1 0 - c 0) + (src 0 1 - c 1) * (src 1 1 - c 1) = 2.2 * 2.2 * Real.cos (2 * Real.pi / 3)

/-- The files of one half: the two signals and the convolved audio, each brought to a peak of 1. -/
def StartFiles {n : ℕ} (pre : String) (x : Fin 2 → Fin n → ℝ) (len : ℕ) (y : Fin 2 → ℕ → ℝ)
    (files : List (String × AudioFile)) : Prop :=
  ∃ f1 f2 f3 g1 g2 g3,
    files = [(pre ++ "_original_src01.wav", f1), (pre ++ "_original_src02.wav", f2), (pre ++ "_convolved.wav", f3)] ∧
    SavedAs f1 1 n (fun _ k => if h : k < n then x 0 ⟨k, h⟩ else 0) g1 ∧
    SavedAs f2 1 n (fun _ k => if h : k < n then x 1 ⟨k, h⟩ else 0) g2 ∧ SavedAs f3 2 len y g3

end Torchrir.Spec
