import Verif.Spec.GeometryFloat

/-!
# Specification of C145: sums in floating point
-/

namespace Torchrir.Spec

/-- A sum of numbers with `p` significant bits: every number takes part in at most all the additions. -/
def SumsUp (p : ℕ) (sum : List ℝ → ℝ) : Prop :=
  ∀ l : List ℝ, |sum l - l.sum| ≤ roundings p (l.length - 1) * (l.map fun v => |v|).sum

end Torchrir.Spec
