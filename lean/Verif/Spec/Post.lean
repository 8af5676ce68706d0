import Verif.Spec.Hpf

/-!
# What becomes of a response after the image sources are summed
-/

namespace Torchrir.Spec

open Torchrir.Model

/-- The configuration turns the summed responses of `K` samples into their images under the linear map `G`: nothing
happens with the high-pass filter off, and with the filter on and its default settings `G` is the second order
Butterworth filter that scipy designs for the cutoff. -/
inductive Post (w : World) (fs : ℝ) (cfg : Config) {K : ℕ} : ((Fin K → ℝ) →ₗ[ℝ] (Fin K → ℝ)) → Prop
  | off (h : cfg.rirHpfEnable = false) : Post w fs cfg LinearMap.id
  | on (h : cfg.rirHpfEnable = true)
      (settings : cfg.rirHpfKwargs = ⟨some 2, [("rp", "5.0"), ("rs", "60.0"), ("type", "butter")]⟩)
      (cutoff : cfg.rirHpfFc < fs / 2) (sos : w.Sos)
      (designed : w.iirfilter 2 (cfg.rirHpfFc / (fs / 2))
        [("rp", "5.0"), ("rs", "60.0"), ("ftype", "butter")] = .ok sos)
      (G : (Fin K → ℝ) →ₗ[ℝ] (Fin K → ℝ)) (acts : ActsAs w sos G) : Post w fs cfg G

/-- Sample `k` of the response `h`, cut to `K` samples, after `G`; zero outside. -/
def postSample {K : ℕ} (G : (Fin K → ℝ) →ₗ[ℝ] (Fin K → ℝ)) (h : ℕ → ℝ) (k : ℕ) : ℝ :=
  if hk : k < K then G (fun j => h j) ⟨k, hk⟩ else 0

end Torchrir.Spec
