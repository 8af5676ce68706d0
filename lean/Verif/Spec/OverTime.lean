import Verif.Spec.Signal

/-!
# Specification of C140: the pieces of a signal
-/

namespace Torchrir.Spec

/-- The signal with the samples outside step `t` silenced. -/
def pieceOf {T S N : ℕ} (x : Fin S → Fin N → ℝ) (step : Fin N → Fin T) (t : Fin T) : Fin S → Fin N → ℝ :=
  fun s j => if step j = t then x s j else 0

end Torchrir.Spec
