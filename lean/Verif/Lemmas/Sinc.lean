import Verif.Spec.Ism
import Mathlib.Analysis.SpecialFunctions.Integrals.Basic
import Mathlib.Analysis.SpecialFunctions.Trigonometric.Deriv
import Mathlib.Analysis.Calculus.Deriv.MeanValue

/-! # Interpolation error of the sinc table -/

namespace Torchrir.Lemmas

open Torchrir.Spec

theorem abs_sin_sub_sin_le (u v : ℝ) : |Real.sin u - Real.sin v| ≤ |u - v| := by
  have h : Real.sin u - Real.sin v = 2 * Real.sin ((u - v) / 2) * Real.cos ((u + v) / 2) :=
    Real.sin_sub_sin u v
  rw [h, abs_mul, abs_mul]
  have h1 : |Real.sin ((u - v) / 2)| ≤ |(u - v) / 2| := Real.abs_sin_le_abs
  have h2 : |Real.cos ((u + v) / 2)| ≤ 1 := Real.abs_cos_le_one _
  rw [abs_div] at h1
  have h3 : |(2 : ℝ)| = 2 := abs_two
  rw [h3] at h1 ⊢
  calc 2 * |Real.sin ((u - v) / 2)| * |Real.cos ((u + v) / 2)|
      ≤ 2 * |Real.sin ((u - v) / 2)| * 1 := by gcongr
    _ ≤ |u - v| := by linarith

theorem cos_taylor_nonneg (u : ℝ) {δ : ℝ} (hδ : 0 ≤ δ) :
    |Real.cos (u + δ) - Real.cos u + δ * Real.sin u| ≤ δ ^ 2 / 2 := by
  have key : ∀ ε : ℝ, |ε| = 1 →
      0 ≤ δ ^ 2 / 2 - ε * (Real.cos (u + δ) - Real.cos u + δ * Real.sin u) := by
    intro ε hε
    let g : ℝ → ℝ := fun x => x ^ 2 / 2 - ε * (Real.cos (u + x) - Real.cos u + x * Real.sin u)
    have hg : ∀ x, HasDerivAt g (x - ε * (-Real.sin (u + x) + Real.sin u)) x := by
      intro x
      have h1 : HasDerivAt (fun x : ℝ => x ^ 2 / 2) x x := by
        have := ((hasDerivAt_id x).pow 2).div_const 2
        simpa using this
      have h2 : HasDerivAt (fun x : ℝ => Real.cos (u + x)) (-Real.sin (u + x)) x := by
        have := ((hasDerivAt_id x).const_add u).cos
        simpa using this
      have h3 : HasDerivAt (fun x : ℝ => x * Real.sin u) (Real.sin u) x := by
        have := (hasDerivAt_id x).mul_const (Real.sin u)
        simpa using this
      exact h1.sub (((h2.sub_const _).add h3).const_mul ε)
    have hmono : MonotoneOn g (Set.Ici 0) := by
      apply monotoneOn_of_deriv_nonneg (convex_Ici 0)
      · exact fun x _ => (hg x).continuousAt.continuousWithinAt
      · exact fun x _ => (hg x).differentiableAt.differentiableWithinAt
      · intro x hx
        rw [interior_Ici] at hx
        rw [(hg x).deriv]
        have h1 := abs_sin_sub_sin_le u (u + x)
        have h2 : |u - (u + x)| = x := by
          rw [show u - (u + x) = -x by ring, abs_neg, abs_of_pos hx]
        rw [h2] at h1
        have h3 : ε * (-Real.sin (u + x) + Real.sin u) ≤ x := by
          calc ε * (-Real.sin (u + x) + Real.sin u)
              ≤ |ε * (-Real.sin (u + x) + Real.sin u)| := le_abs_self _
            _ = |Real.sin u - Real.sin (u + x)| := by
                rw [abs_mul, hε, one_mul]; congr 1; ring
            _ ≤ x := h1
        linarith
    have := hmono (Set.mem_Ici.mpr le_rfl) (Set.mem_Ici.mpr hδ) hδ
    simpa [g] using this
  rw [abs_le]
  constructor
  · have := key (-1) (by simp)
    linarith
  · have := key 1 (by simp)
    linarith

theorem cos_taylor (u δ : ℝ) :
    |Real.cos (u + δ) - Real.cos u + δ * Real.sin u| ≤ δ ^ 2 / 2 := by
  rcases le_or_gt 0 δ with h | h
  · exact cos_taylor_nonneg u h
  · have := cos_taylor_nonneg (-u) (δ := -δ) (by linarith)
    rw [show -u + -δ = -(u + δ) by ring, Real.cos_neg, Real.cos_neg, Real.sin_neg] at this
    have e : -δ * -Real.sin u = δ * Real.sin u := by ring
    rw [e] at this
    simpa using this

/-- Linear interpolation error of a cosine of frequency `w` between `p - θ h` and
`p + (1 - θ) h`. -/
theorem cos_lerp_error (w p h θ : ℝ) (h0 : 0 ≤ θ) (h1 : θ ≤ 1) :
    |Real.cos (w * (p - θ * h))
        + θ * (Real.cos (w * (p - θ * h + h)) - Real.cos (w * (p - θ * h))) - Real.cos (w * p)|
      ≤ w ^ 2 * h ^ 2 / 8 := by
  have a := cos_taylor (w * p) (-(w * θ * h))
  have b := cos_taylor (w * p) (w * (1 - θ) * h)
  rw [show w * p + -(w * θ * h) = w * (p - θ * h) by ring] at a
  rw [show w * p + w * (1 - θ) * h = w * (p - θ * h + h) by ring] at b
  set A := Real.cos (w * (p - θ * h))
  set B := Real.cos (w * (p - θ * h + h))
  set C := Real.cos (w * p)
  set S := Real.sin (w * p)
  have e : A + θ * (B - A) - C
      = (1 - θ) * (A - C + -(w * θ * h) * S) + θ * (B - C + w * (1 - θ) * h * S) := by ring
  rw [e]
  have hθ : θ * (1 - θ) ≤ 1 / 4 := by nlinarith [sq_nonneg (θ - 1 / 2)]
  calc |(1 - θ) * (A - C + -(w * θ * h) * S) + θ * (B - C + w * (1 - θ) * h * S)|
      ≤ |(1 - θ) * (A - C + -(w * θ * h) * S)| + |θ * (B - C + w * (1 - θ) * h * S)| :=
        abs_add_le _ _
    _ = (1 - θ) * |A - C + -(w * θ * h) * S| + θ * |B - C + w * (1 - θ) * h * S| := by
        rw [abs_mul, abs_mul, abs_of_nonneg h0, abs_of_nonneg (by linarith : 0 ≤ 1 - θ)]
    _ ≤ (1 - θ) * ((-(w * θ * h)) ^ 2 / 2) + θ * ((w * (1 - θ) * h) ^ 2 / 2) := by
        have : 0 ≤ 1 - θ := by linarith
        gcongr
    _ = θ * (1 - θ) * (w ^ 2 * h ^ 2) / 2 := by ring
    _ ≤ 1 / 4 * (w ^ 2 * h ^ 2) / 2 := by gcongr
    _ = w ^ 2 * h ^ 2 / 8 := by ring

theorem sinc_eq_integral (x : ℝ) : sinc x = ∫ t in (0 : ℝ)..1, Real.cos (Real.pi * t * x) := by
  unfold sinc
  split
  · rename_i h; subst h; simp
  · rename_i h
    have hc : Real.pi * x ≠ 0 := mul_ne_zero Real.pi_ne_zero h
    have : (fun t : ℝ => Real.cos (Real.pi * t * x)) = fun t => Real.cos (Real.pi * x * t) := by
      funext t; congr 1; ring
    rw [this, intervalIntegral.integral_comp_mul_left (fun y => Real.cos y) hc, integral_cos]
    simp
    field_simp

theorem gridLerp_sinc_error (g : ℕ) (hg : 0 < g) (x : ℝ) :
    |gridLerp g sinc x - sinc x| ≤ Real.pi ^ 2 / (24 * g ^ 2) := by
  have hgr : (0 : ℝ) < g := by exact_mod_cast hg
  unfold gridLerp
  simp only
  set i : ℤ := ⌊x * g⌋ with hi
  set θ : ℝ := x * g - i with hθ
  have hθ0 : 0 ≤ θ := by rw [hθ]; linarith [Int.floor_le (x * g)]
  have hθ1 : θ ≤ 1 := by rw [hθ]; linarith [(Int.lt_floor_add_one (x * g)).le]
  have e0 : (i : ℝ) / g = x - θ * (1 / g) := by rw [hθ]; field_simp; ring
  have e1 : ((i : ℝ) + 1) / g = x - θ * (1 / g) + 1 / g := by rw [hθ]; field_simp; ring
  rw [e0, e1]
  set a := x - θ * (1 / g) with ha
  set b := x - θ * (1 / g) + 1 / g with hb
  have hcont : ∀ y : ℝ, Continuous fun t : ℝ => Real.cos (Real.pi * t * y) := fun y => by fun_prop
  have hint : ∀ y : ℝ, IntervalIntegrable (fun t : ℝ => Real.cos (Real.pi * t * y))
      MeasureTheory.volume 0 1 := fun y => (hcont y).intervalIntegrable _ _
  have hE : sinc a + θ * (sinc b - sinc a) - sinc x
      = ∫ t in (0 : ℝ)..1, (Real.cos (Real.pi * t * a)
          + θ * (Real.cos (Real.pi * t * b) - Real.cos (Real.pi * t * a))
          - Real.cos (Real.pi * t * x)) := by
    rw [intervalIntegral.integral_sub _ (hint x), intervalIntegral.integral_add (hint a),
      intervalIntegral.integral_const_mul, intervalIntegral.integral_sub (hint b) (hint a),
      ← sinc_eq_integral, ← sinc_eq_integral, ← sinc_eq_integral]
    · exact ((hint b).sub (hint a)).const_mul θ
    · exact (hint a).add (((hint b).sub (hint a)).const_mul θ)
  rw [hE]
  have hbound : ∀ t ∈ Set.uIoc (0 : ℝ) 1, ‖Real.cos (Real.pi * t * a)
          + θ * (Real.cos (Real.pi * t * b) - Real.cos (Real.pi * t * a))
          - Real.cos (Real.pi * t * x)‖ ≤ Real.pi ^ 2 / (8 * g ^ 2) * t ^ 2 := by
    intro t _
    rw [Real.norm_eq_abs]
    have := cos_lerp_error (Real.pi * t) x (1 / g) θ hθ0 hθ1
    refine this.trans (le_of_eq ?_)
    field_simp
  have := intervalIntegral.norm_integral_le_of_norm_le (a := 0) (b := 1) zero_le_one
    (μ := MeasureTheory.volume) (g := fun t => Real.pi ^ 2 / (8 * g ^ 2) * t ^ 2)
    (Filter.Eventually.of_forall fun t ht => hbound t (by rwa [Set.uIoc_of_le zero_le_one]))
    ((by fun_prop : Continuous fun t : ℝ => Real.pi ^ 2 / (8 * g ^ 2) * t ^ 2).intervalIntegrable _ _)
  rw [Real.norm_eq_abs] at this
  refine this.trans (le_of_eq ?_)
  rw [intervalIntegral.integral_const_mul, integral_pow]
  field_simp
  norm_num

theorem hann_nonneg (fdl : ℕ) (j : ℝ) : 0 ≤ hann fdl j := by
  unfold hann
  split
  · exact zero_le_one
  · have := Real.cos_le_one (2 * Real.pi * j / ((fdl : ℝ) - 1))
    linarith

theorem hann_le_one (fdl : ℕ) (j : ℝ) : hann fdl j ≤ 1 := by
  unfold hann
  split
  · exact le_rfl
  · have := Real.neg_one_le_cos (2 * Real.pi * j / ((fdl : ℝ) - 1))
    linarith

theorem kernel_shape_error {h h' : ℝ → ℝ} {ε : ℝ} (hε : 0 ≤ ε) (hh : ∀ x, |h x - h' x| ≤ ε)
    (fdl : ℕ) (τ : ℝ) (k : ℕ) : |kernel h fdl τ k - kernel h' fdl τ k| ≤ ε := by
  unfold kernel
  split
  · rw [← mul_sub, abs_mul, abs_of_nonneg (hann_nonneg _ _)]
    calc _ ≤ 1 * |h ((k : ℝ) - ((fdl : ℝ) - 1) / 2 - τ) - h' ((k : ℝ) - ((fdl : ℝ) - 1) / 2 - τ)| := by
          gcongr
          exact hann_le_one _ _
      _ ≤ ε := by rw [one_mul]; exact hh _
  · simpa using hε

end Torchrir.Lemmas
