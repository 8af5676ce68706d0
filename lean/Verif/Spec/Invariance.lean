import Verif.Spec.Calls
import Verif.Spec.Directivity

/-!
# Changes of scale and of axes
-/

namespace Torchrir.Spec

/-- All images of reflection order exactly `N`. -/
noncomputable def orderShell (d N : ℕ) : Finset (Fin d → ℤ) :=
  (orderSet d N).filter fun n => ∑ i, |n i| = N

/-- Every point with its coordinates multiplied by `q`. -/
def scaled {n d : ℕ} (q : ℝ) (p : Fin n → Fin d → ℝ) : Fin n → Fin d → ℝ := fun s i => q * p s i

/-- Every point with its axes renamed: new axis `i` is old axis `σ i`. -/
def renamed {n d : ℕ} (σ : Equiv.Perm (Fin d)) (p : Fin n → Fin d → ℝ) : Fin n → Fin d → ℝ :=
  fun s i => p s (σ i)

/-- The same images with renamed axes. -/
def Selection.renamed {d : ℕ} (σ : Equiv.Perm (Fin d)) : Selection d → Selection d
  | .order N => .order N
  | .box N nb => .box N fun i => nb (σ i)

end Torchrir.Spec
