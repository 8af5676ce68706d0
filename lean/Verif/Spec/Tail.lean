import Verif.Spec.Acoustics
import Mathlib.Analysis.SpecialFunctions.Exp
import Verif.Model.Ism

/-!
# Specification of the diffuse tail
-/

namespace Torchrir.Spec

/-- Reverberation time by Sabine's formula; `none` if nothing is absorbed. -/
noncomputable def reverbTime {d : ℕ} (size : Fin d → ℝ) (β : Fin (2 * d) → ℝ) : Option ℝ :=
  open Classical in if absorption size β ≤ 0 then none else some (sabine size (absorption size β))

/-- The reverberation time of a room: by Sabine's formula from the coefficients of its walls, or the time it was made
for (but no less than that of walls that absorb 99.9 % of the energy), or infinite if neither is given. -/
inductive DecaysWith {d : ℕ} (room : Model.Room) (L : Fin d → ℝ) : Option ℝ → Prop
  | walls (β : Fin (2 * d) → ℝ) (h : room.beta = some (List.ofFn β)) : DecaysWith room L (reverbTime L β)
  | time (t : ℝ) (hb : room.beta = none) (h : room.t60 = some t) :
      DecaysWith room L (some (max t (sabine L (0.999 * surface L))))
  | neither (hb : room.beta = none) (ht : room.t60 = none) : DecaysWith room L none

/-- Amplitude after `t` seconds of decay: 60 dB (a factor `e^6.9078`, close to 1000) less after every reverberation
time; for an infinite reverberation time the library lets it fall by a factor `e³` per second. -/
noncomputable def tailDecay : Option ℝ → ℝ → ℝ
  | some T, t => Real.exp (-(6.9078 * t / T))
  | none, t => Real.exp (-(3 * t))

/-- `g` is the response `f` with a tail from sample `i₀` on: before it nothing changes; the tail is the noise `ν`, faded
out with reverberation time `T`, as loud as the last sample before it (plus `10⁻⁸`). -/
def HasTail {nS nM K : ℕ} (T : Option ℝ) (fs : ℝ) (i₀ : ℕ) (ν : Fin nS → Fin nM → Fin (K - i₀) → ℝ)
    (f g : Fin nS → Fin nM → Fin K → ℝ) : Prop :=
  (∀ s m (k : Fin K), (k : ℕ) < i₀ → g s m k = f s m k) ∧
  ∀ s m (last : Fin K) (j : Fin (K - i₀)), (last : ℕ) + 1 = i₀ →
    g s m ⟨i₀ + j, by omega⟩ = ν s m j * tailDecay T (j / fs) * (|f s m last| + 1e-8)

end Torchrir.Spec
