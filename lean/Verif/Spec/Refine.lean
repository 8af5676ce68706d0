import Verif.Spec.Signal

/-!
# Two descriptions of the same motion
-/

namespace Torchrir.Spec

/-- The steps of a fine description that belong to each step of a coarse one: fine step `u` belongs to `part u`, the
fine steps that belong to `t` or later are those from `first t` on, and `first t` starts when `t` starts. -/
structure Refines {T T' : ℕ} (start : Fin T → ℝ) (start' : Fin T' → ℝ) (part : Fin T' → Fin T)
    (first : Fin T → Fin T') : Prop where
  order : ∀ t u, first t ≤ u ↔ t ≤ part u
  begins : ∀ t, start' (first t) = start t

end Torchrir.Spec
