import Verif.Spec.Ism

/-!
# Steps of the fractional delay
-/

namespace Torchrir.Spec

/-- Height of the step in the kernel when the delay passes a whole number of samples: the centre of the window moves
on by one sample. -/
noncomputable def windowStep (fdl : ℕ) : ℝ := if fdl = 1 then 1 else Real.sin (Real.pi / ((fdl : ℝ) - 1)) ^ 2

end Torchrir.Spec
