import Verif.Spec.Ism
import Mathlib.Algebra.Order.Floor.Ring

/-!
# Specification of the convolutions
-/

namespace Torchrir.Spec

open Torchrir.Model (Tensor)

/-- Sample `k` of the linear convolution. -/
def conv {n l : ℕ} (x : Fin n → ℝ) (h : Fin l → ℝ) (k : ℕ) : ℝ :=
  ∑ j : Fin n, ∑ i : Fin l, if (j : ℕ) + i = k then x j * h i else 0

/-- Sample `k` at microphone `m`: every source through its response. -/
def mix {S M N L : ℕ} (x : Fin S → Fin N → ℝ) (h : Fin S → Fin M → Fin L → ℝ) (m : Fin M) (k : ℕ) : ℝ :=
  ∑ s, conv (x s) (h s m) k

/-- Sample `k` at microphone `m` when the signal sample `j` passes through the response of step
`step j`. -/
def mixVarying {S M N L T : ℕ} (x : Fin S → Fin N → ℝ) (h : Fin T → Fin S → Fin M → Fin L → ℝ)
    (step : Fin N → Fin T) (m : Fin M) (k : ℕ) : ℝ :=
  ∑ s, ∑ j : Fin N, ∑ i : Fin L, if (j : ℕ) + i = k then x s j * h (step j) s m i else 0

/-- Microphone signals of the given length as a tensor: 1-D for one microphone. -/
def micTensor {M : ℕ} (len : ℕ) (y : Fin M → ℕ → ℝ) : Tensor ℝ :=
  if M = 1 then ⟨[len], (tensor2 fun m (k : Fin len) => y m k).data⟩
  else tensor2 fun m (k : Fin len) => y m k

/-- The tensor holds the signals `x`: 2-D, or 1-D for one source. -/
def SignalIs {S N : ℕ} (t : Tensor ℝ) (x : Fin S → Fin N → ℝ) : Prop :=
  t = tensor2 x ∨ S = 1 ∧ t = ⟨[N], (tensor2 x).data⟩

/-- The tensor holds the responses `h`: 3-D, 2-D for one source, 1-D for one pair. -/
def StaticRirsAre {S M L : ℕ} (t : Tensor ℝ) (h : Fin S → Fin M → Fin L → ℝ) : Prop :=
  t = tensor3 h ∨ S = 1 ∧ t = ⟨[M, L], (tensor3 h).data⟩ ∨
    S = 1 ∧ M = 1 ∧ t = ⟨[L], (tensor3 h).data⟩

/-- The tensor holds the response sequence `h`: 4-D, 3-D for one source, 2-D for one pair. -/
def DynamicRirsAre {T S M L : ℕ} (t : Tensor ℝ) (h : Fin T → Fin S → Fin M → Fin L → ℝ) : Prop :=
  t = tensor4 h ∨ S = 1 ∧ t = ⟨[T, M, L], (tensor4 h).data⟩ ∨
    S = 1 ∧ M = 1 ∧ t = ⟨[T, L], (tensor4 h).data⟩

/-- The step `t` of a sequence of `T` responses starts at the sample position `start t` of a signal
of `N` samples: uniformly spaced without timestamps; with timestamps (in seconds, the first one 0,
non-decreasing, none after the end of the signal) at `τ t * f`. -/
inductive StartsAt {T : ℕ} (N : ℕ) : Option (Tensor ℝ) → Option ℝ → (Fin T → ℝ) → Prop
  | uniform (fs : Option ℝ) : StartsAt N none fs fun t : Fin T => (t : ℕ) * N / T
  | given (τ : Fin T → ℝ) (f : ℝ) (first : ∀ t : Fin T, (t : ℕ) = 0 → τ t = 0) (mono : Monotone τ)
      (rate : 0 ≤ f) (last : ∀ t : Fin T, τ t * f ≤ N) :
      StartsAt N (some ⟨[T], List.ofFn τ⟩) (some f) fun t => τ t * f

/-- `step j` is the step that is current at sample `j`: the last one whose first sample (the integer
part of its start) is not after `j`. -/
def CurrentStep {T N : ℕ} (start : Fin T → ℝ) (step : Fin N → Fin T) : Prop :=
  ∀ j t, t ≤ step j ↔ ⌊start t⌋ ≤ (j : ℤ)

end Torchrir.Spec
