import Verif.Spec.Geometry
import Verif.Spec.Calls

/-!
# Specification of the command line scenarios
-/

namespace Torchrir.Spec

open Torchrir.Model

/-- Two ears around `c`: 8 cm below and above `c` along the first axis. -/
def EarsAt {d : ℕ} (c : Fin d → ℝ) (ears : Fin 2 → Fin d → ℝ) : Prop :=
  ∀ i : Fin d, (ears 0 i = if (i : ℕ) = 0 then c i - 0.08 else c i) ∧
    ears 1 i = if (i : ℕ) = 0 then c i + 0.08 else c i

/-- A position 0.5 m from all walls; in a room higher than 2 m also between 1.5 m and 1.8 m high. -/
def TalkerSpot {d : ℕ} (L p : Fin d → ℝ) : Prop :=
  Within L 0.5 p ∧ ∀ h : 2 < d, 2 < L ⟨2, h⟩ → 1.5 ≤ p ⟨2, h⟩ ∧ p ⟨2, h⟩ ≤ 1.8

/-- A straight path in equal steps from `a` to `b`. -/
def StraightPath {d T : ℕ} (a b : Fin d → ℝ) (p : Fin T → Fin d → ℝ) : Prop :=
  ∀ t i, p t i = a i + (t : ℝ) / ((T : ℝ) - 1) * (b i - a i)

/-- The positions of sources and microphones at every step, as lists. -/
def steps {T n d : ℕ} (p : Fin T → Fin n → Fin d → ℝ) : List (List Vec) := List.ofFn fun t => rows (p t)

/-- The response of the command line program between a source at `p` and a microphone at `q`: the sum over the images
up to order `N` in a room whose walls all have the coefficient 0.9, with the default kernel of 81 taps (interpolated
from the table of granularity 20 if `lut`), the speed of sound 343 m/s, and the filter `G` applied to every path. -/
noncomputable def cliResponse {d K : ℕ} (lut : Bool) (L : Fin d → ℝ) (fs : ℝ) (N : ℕ)
    (G : (Fin K → ℝ) →ₗ[ℝ] (Fin K → ℝ)) (p q : Fin d → ℝ) (k : Fin K) : ℝ :=
  ∑ n ∈ orderSet d N, wallGain (fun _ => 0.9) (fun _ => 0.9) n / pathLength q (image L p n) *
    G (fun j : Fin K => kernel (kernelShape lut 20) 81 (pathLength q (image L p n) * fs / 343) j) k

end Torchrir.Spec
