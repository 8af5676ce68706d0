import Verif.Lemmas.Sinc
import Verif.Lemmas.Invariance
import Verif.Spec.Movement
import Mathlib.Analysis.SpecialFunctions.Trigonometric.Bounds
import Mathlib.Analysis.InnerProductSpace.PiL2

/-! # The kernel as a function of the delay -/

namespace Torchrir.Lemmas

open Torchrir.Spec

theorem abs_cos_sub_cos_le (u v : ℝ) : |Real.cos u - Real.cos v| ≤ |u - v| := by
  have h := abs_sin_sub_sin_le (u + Real.pi / 2) (v + Real.pi / 2)
  rw [Real.sin_add_pi_div_two, Real.sin_add_pi_div_two] at h
  simpa using h

theorem sinc_lipschitz (x y : ℝ) : |sinc x - sinc y| ≤ Real.pi / 2 * |x - y| := by
  have hint : ∀ y : ℝ, IntervalIntegrable (fun t : ℝ => Real.cos (Real.pi * t * y))
      MeasureTheory.volume 0 1 := fun y =>
    (by fun_prop : Continuous fun t : ℝ => Real.cos (Real.pi * t * y)).intervalIntegrable _ _
  rw [sinc_eq_integral, sinc_eq_integral, ← intervalIntegral.integral_sub (hint x) (hint y)]
  have hb : ∀ t ∈ Set.Ioc (0 : ℝ) 1,
      ‖Real.cos (Real.pi * t * x) - Real.cos (Real.pi * t * y)‖ ≤ Real.pi * |x - y| * t := by
    intro t ht
    rw [Real.norm_eq_abs]
    refine (abs_cos_sub_cos_le _ _).trans (le_of_eq ?_)
    rw [← mul_sub, abs_mul, abs_of_pos (mul_pos Real.pi_pos ht.1)]
    ring
  have := intervalIntegral.norm_integral_le_of_norm_le (a := 0) (b := 1) zero_le_one
    (μ := MeasureTheory.volume) (g := fun t => Real.pi * |x - y| * t)
    (Filter.Eventually.of_forall fun t ht => hb t ht)
    ((by fun_prop : Continuous fun t : ℝ => Real.pi * |x - y| * t).intervalIntegrable _ _)
  rw [Real.norm_eq_abs] at this
  refine this.trans (le_of_eq ?_)
  rw [intervalIntegral.integral_const_mul, integral_id]
  ring

theorem abs_sinc_le_one (x : ℝ) : |sinc x| ≤ 1 := by
  unfold sinc
  split
  · simp
  · rename_i h
    have hc : Real.pi * x ≠ 0 := mul_ne_zero Real.pi_ne_zero h
    rw [abs_div, div_le_one (abs_pos.mpr hc)]
    exact Real.abs_sin_le_abs

theorem sinc_int (z : ℤ) : sinc z = if z = 0 then 1 else 0 := by
  unfold sinc
  by_cases h : z = 0
  · simp [h]
  · rw [if_neg (by exact_mod_cast h), if_neg h, mul_comm, Real.sin_int_mul_pi, zero_div]

/-! ## Interpolation in the table -/

/-- On one cell of the grid the interpolation is a line. -/
theorem gridLerp_cell {g : ℕ} (f : ℝ → ℝ) (i : ℤ) {x : ℝ} (h0 : (i : ℝ) ≤ x * g)
    (h1 : x * g ≤ i + 1) :
    gridLerp g f x = f (i / g) + (x * g - i) * (f ((i + 1) / g) - f (i / g)) := by
  rcases h1.lt_or_eq with h | h
  · have : ⌊x * g⌋ = i := Int.floor_eq_iff.mpr ⟨h0, h⟩
    unfold gridLerp
    simp only [this]
  · have : ⌊x * g⌋ = i + 1 := by
      rw [h, show (i : ℝ) + 1 = ((i + 1 : ℤ) : ℝ) by push_cast; rfl, Int.floor_intCast]
    unfold gridLerp
    simp only [this]
    rw [h]
    push_cast
    ring

theorem gridLerp_grid {g : ℕ} (hg : 0 < g) (f : ℝ → ℝ) (i : ℤ) : gridLerp g f (i / g) = f (i / g) := by
  have hgr : (g : ℝ) ≠ 0 := by exact_mod_cast hg.ne'
  have e : (i : ℝ) / g * g = i := by field_simp
  rw [gridLerp_cell f i (by rw [e]) (by rw [e]; linarith), e]
  ring

theorem gridLerp_int {g : ℕ} (hg : 0 < g) (f : ℝ → ℝ) (z : ℤ) : gridLerp g f z = f z := by
  have hgr : (g : ℝ) ≠ 0 := by exact_mod_cast hg.ne'
  have e : (z : ℝ) = ((z * g : ℤ) : ℝ) / g := by push_cast; field_simp
  rw [e, gridLerp_grid hg]

theorem gridLerp_bounded {g : ℕ} {f : ℝ → ℝ} {B : ℝ} (hf : ∀ x, |f x| ≤ B) (x : ℝ) :
    |gridLerp g f x| ≤ B := by
  unfold gridLerp
  simp only
  set i : ℤ := ⌊x * g⌋
  set θ : ℝ := x * g - i with hθ
  have hθ0 : 0 ≤ θ := by rw [hθ]; linarith [Int.floor_le (x * g)]
  have hθ1 : θ ≤ 1 := by rw [hθ]; linarith [(Int.lt_floor_add_one (x * g)).le]
  have a := abs_le.mp (hf (i / g))
  have b := abs_le.mp (hf ((i + 1) / g))
  rw [abs_le]
  constructor <;> nlinarith

/-- Within one cell the interpolation changes no faster than the function. -/
theorem gridLerp_cell_lipschitz {g : ℕ} (hg : 0 < g) {f : ℝ → ℝ} {K : ℝ}
    (hf : ∀ x y, |f x - f y| ≤ K * |x - y|) (i : ℤ) {x y : ℝ} (hx0 : (i : ℝ) ≤ x * g) (hx1 : x * g ≤ i + 1)
    (hy0 : (i : ℝ) ≤ y * g) (hy1 : y * g ≤ i + 1) :
    |gridLerp g f x - gridLerp g f y| ≤ K * |x - y| := by
  have hgr : (0 : ℝ) < g := by exact_mod_cast hg
  rw [gridLerp_cell f i hx0 hx1, gridLerp_cell f i hy0 hy1]
  have e : f (i / g) + (x * g - i) * (f ((i + 1) / g) - f (i / g)) -
      (f (i / g) + (y * g - i) * (f ((i + 1) / g) - f (i / g)))
      = (x - y) * (g * (f ((i + 1) / g) - f (i / g))) := by ring
  rw [e, abs_mul, mul_comm]
  gcongr
  rw [abs_mul, abs_of_pos hgr]
  have h := hf ((i + 1) / g) (i / g)
  have e2 : ((i : ℝ) + 1) / g - i / g = 1 / g := by field_simp; ring
  rw [e2, abs_of_pos (a := 1 / (g : ℝ)) (by positivity)] at h
  calc (g : ℝ) * |f ((i + 1) / g) - f (i / g)| ≤ g * (K * (1 / g)) := by gcongr
    _ = K := by field_simp

theorem gridLerp_lipschitz {g : ℕ} (hg : 0 < g) {f : ℝ → ℝ} {K : ℝ}
    (hf : ∀ x y, |f x - f y| ≤ K * |x - y|) (x y : ℝ) :
    |gridLerp g f x - gridLerp g f y| ≤ K * |x - y| := by
  have hgr : (0 : ℝ) < g := by exact_mod_cast hg
  wlog hxy : x ≤ y generalizing x y
  · rw [abs_sub_comm, abs_sub_comm x y]
    exact this y x (le_of_not_ge hxy)
  rw [abs_sub_comm, abs_sub_comm x y, abs_of_nonneg (sub_nonneg.mpr hxy)]
  set i : ℤ := ⌊x * g⌋ with hi
  set j : ℤ := ⌊y * g⌋ with hj
  have hx0 : (i : ℝ) ≤ x * g := Int.floor_le _
  have hx1 : x * g < i + 1 := Int.lt_floor_add_one _
  have hy0 : (j : ℝ) ≤ y * g := Int.floor_le _
  have hy1 : y * g < j + 1 := Int.lt_floor_add_one _
  have hij : i ≤ j := Int.floor_le_floor (by gcongr)
  rcases hij.eq_or_lt with h | h
  · have := gridLerp_cell_lipschitz hg hf j hy0 hy1.le (by rw [← h]; exact hx0) (by rw [← h]; exact hx1.le)
    rwa [abs_of_nonneg (sub_nonneg.mpr hxy)] at this
  · -- through the grid points `(i + 1) / g` and `j / g`, where the interpolation is exact
    have e1 : (((i + 1 : ℤ) : ℝ) / g) * g = i + 1 := by push_cast; field_simp
    have e2 : ((j : ℝ) / g) * g = j := by field_simp
    have a := gridLerp_cell_lipschitz hg hf i (x := ((i + 1 : ℤ) : ℝ) / g) (y := x) (by rw [e1]; linarith)
      (by rw [e1]) hx0 hx1.le
    have b := gridLerp_cell_lipschitz hg hf j (x := y) (y := (j : ℝ) / g) hy0 hy1.le (by rw [e2])
      (by rw [e2]; linarith)
    have c := hf ((j : ℝ) / g) (((i + 1 : ℤ) : ℝ) / g)
    rw [gridLerp_grid hg] at a b
    have hij' : ((i + 1 : ℤ) : ℝ) ≤ j := by exact_mod_cast h
    rw [abs_of_nonneg (a := _ - x) (by rw [sub_nonneg, le_div_iff₀ hgr]; push_cast; linarith)] at a
    rw [abs_of_nonneg (a := y - _) (by rw [sub_nonneg, div_le_iff₀ hgr]; exact hy0)] at b
    rw [abs_of_nonneg (a := (j : ℝ) / g - _) (by rw [sub_nonneg]; gcongr)] at c
    have t1 := abs_sub_le (gridLerp g f y) (f ((j : ℝ) / g)) (gridLerp g f x)
    have t2 := abs_sub_le (f ((j : ℝ) / g)) (f (((i + 1 : ℤ) : ℝ) / g)) (gridLerp g f x)
    linarith

/-! ## Both kernel shapes -/

theorem kernelShape_lipschitz (lut : Bool) {g : ℕ} (hg : 0 < g) (x y : ℝ) :
    |kernelShape lut g x - kernelShape lut g y| ≤ Real.pi / 2 * |x - y| := by
  unfold kernelShape
  split
  · exact gridLerp_lipschitz hg sinc_lipschitz x y
  · exact sinc_lipschitz x y

theorem kernelShape_bounded (lut : Bool) (g : ℕ) (x : ℝ) : |kernelShape lut g x| ≤ 1 := by
  unfold kernelShape
  split
  · exact gridLerp_bounded abs_sinc_le_one x
  · exact abs_sinc_le_one x

theorem kernelShape_int (lut : Bool) {g : ℕ} (hg : 0 < g) (z : ℤ) :
    kernelShape lut g z = if z = 0 then 1 else 0 := by
  unfold kernelShape
  split
  · rw [gridLerp_int hg, sinc_int]
  · exact sinc_int z

/-! ## The kernel -/

theorem kernel_bounded {h : ℝ → ℝ} (hb : ∀ x, |h x| ≤ 1) (fdl : ℕ) (τ : ℝ) (k : ℕ) : |kernel h fdl τ k| ≤ 1 := by
  unfold kernel
  split
  · rw [abs_mul, abs_of_nonneg (hann_nonneg _ _)]
    exact mul_le_one₀ (hann_le_one _ _) (abs_nonneg _) (hb _)
  · simp

theorem hann_centre (c : ℕ) : hann (2 * c + 1) (c : ℝ) = 1 := by
  unfold hann
  split
  · rfl
  · rename_i h
    have hc : (c : ℝ) ≠ 0 := by
      have : c ≠ 0 := by omega
      exact_mod_cast this
    have e : 2 * Real.pi * (c : ℝ) / (((2 * c + 1 : ℕ) : ℝ) - 1) = Real.pi := by push_cast; field_simp; ring
    rw [e, Real.cos_pi]
    norm_num

/-- A whole delay gives one sample. -/
theorem kernel_int {h : ℝ → ℝ} (hi : ∀ z : ℤ, h z = if z = 0 then 1 else 0) (c : ℕ) (z : ℤ) (k : ℕ) :
    kernel h (2 * c + 1) z k = if (k : ℤ) = z + c then 1 else 0 := by
  unfold kernel
  have e : (k : ℝ) - (((2 * c + 1 : ℕ) : ℝ) - 1) / 2 - z = (((k : ℤ) - c - z : ℤ) : ℝ) := by
    push_cast; ring
  rw [Int.floor_intCast, e, hi]
  by_cases hk : (k : ℤ) = z + c
  · rw [if_pos (by omega), if_pos (by omega), if_pos hk, hk, mul_one]
    rw [show z + (c : ℤ) - z = c by ring]
    exact_mod_cast hann_centre c
  · rw [if_neg (show ¬ (k : ℤ) - c - z = 0 by omega), if_neg hk, mul_zero, ite_self]

/-- The kernel with the window held at `n` while the delay `τ` varies. -/
noncomputable def heldKernel (h : ℝ → ℝ) (fdl : ℕ) (n : ℤ) (τ : ℝ) (k : ℕ) : ℝ :=
  if 0 ≤ (k : ℤ) - n ∧ (k : ℤ) - n < fdl then
    hann fdl (((k : ℤ) - n : ℤ) : ℝ) * h ((k : ℝ) - ((fdl : ℝ) - 1) / 2 - τ)
  else 0

theorem heldKernel_floor (h : ℝ → ℝ) (fdl : ℕ) (τ : ℝ) (k : ℕ) :
    heldKernel h fdl ⌊τ⌋ τ k = kernel h fdl τ k := rfl

theorem heldKernel_lipschitz {h : ℝ → ℝ} {K : ℝ} (hK : 0 ≤ K) (hl : ∀ x y, |h x - h y| ≤ K * |x - y|) (fdl : ℕ)
    (n : ℤ) (s t : ℝ) (k : ℕ) : |heldKernel h fdl n s k - heldKernel h fdl n t k| ≤ K * |s - t| := by
  unfold heldKernel
  split
  · rw [← mul_sub, abs_mul, abs_of_nonneg (hann_nonneg _ _)]
    refine (mul_le_of_le_one_left (abs_nonneg _) (hann_le_one _ _)).trans ((hl _ _).trans (le_of_eq ?_))
    rw [abs_sub_comm s t]
    congr 2
    ring
  · simpa using mul_nonneg hK (abs_nonneg (s - t))

theorem windowStep_eq (c : ℕ) : windowStep (2 * c + 1) = 1 - if 1 ≤ c then hann (2 * c + 1) (c + 1) else 0 := by
  unfold windowStep
  by_cases hc : 1 ≤ c
  · rw [if_neg (by omega), if_pos hc]
    unfold hann
    rw [if_neg (by omega)]
    have hc' : (c : ℝ) ≠ 0 := by exact_mod_cast (by omega : c ≠ 0)
    have e1 : 2 * Real.pi * ((c : ℝ) + 1) / (((2 * c + 1 : ℕ) : ℝ) - 1) =
        2 * (Real.pi / (((2 * c + 1 : ℕ) : ℝ) - 1)) + Real.pi := by push_cast; field_simp; ring
    rw [e1, Real.cos_add_pi, Real.cos_two_mul, Real.sin_sq]
    ring
  · rw [if_pos (by omega), if_neg hc, sub_zero]

theorem windowStep_nonneg (fdl : ℕ) : 0 ≤ windowStep fdl := by
  unfold windowStep
  split
  · exact zero_le_one
  · positivity

theorem heldKernel_step {h : ℝ → ℝ} (hi : ∀ z : ℤ, h z = if z = 0 then 1 else 0) (c : ℕ) (n : ℤ) (k : ℕ) :
    heldKernel h (2 * c + 1) (n + 1) ((n + 1 : ℤ) : ℝ) k - heldKernel h (2 * c + 1) n ((n + 1 : ℤ) : ℝ) k =
      if (k : ℤ) = n + 1 + c then windowStep (2 * c + 1) else 0 := by
  have e : (k : ℝ) - (((2 * c + 1 : ℕ) : ℝ) - 1) / 2 - ((n + 1 : ℤ) : ℝ) = (((k : ℤ) - c - (n + 1) : ℤ) : ℝ) := by
    push_cast; ring
  unfold heldKernel
  rw [e, hi]
  by_cases hk : (k : ℤ) = n + 1 + c
  · rw [if_pos hk, if_pos (by omega), if_pos (by omega), windowStep_eq, hk, mul_one,
      show n + 1 + (c : ℤ) - (n + 1) = c by ring, show n + 1 + (c : ℤ) - n = c + 1 by ring]
    have := hann_centre c
    push_cast at this ⊢
    rw [this, mul_one]
    congr 1
    by_cases hc : 1 ≤ c
    · rw [if_pos (by omega), if_pos hc]
    · rw [if_neg (by omega), if_neg hc]
  · rw [if_neg hk, if_neg (show ¬ (k : ℤ) - c - (n + 1) = 0 by omega)]
    simp

/-- The kernel changes at most at the given rate, apart from one step at every whole delay. -/
theorem kernel_change_le {h : ℝ → ℝ} (hi : ∀ z : ℤ, h z = if z = 0 then 1 else 0) {K : ℝ} (hK : 0 ≤ K)
    (hl : ∀ x y, |h x - h y| ≤ K * |x - y|) (c : ℕ) {s t : ℝ} (hst : s ≤ t) (k : ℕ) :
    |kernel h (2 * c + 1) t k - kernel h (2 * c + 1) s k| ≤
      K * (t - s) + windowStep (2 * c + 1) * (⌊t⌋ - ⌊s⌋ : ℤ) := by
  have key : ∀ n : ℤ, ⌊s⌋ ≤ n → ∀ t : ℝ, s ≤ t → (n : ℝ) ≤ t →
      |heldKernel h (2 * c + 1) n t k - kernel h (2 * c + 1) s k| ≤
        K * (t - s) + windowStep (2 * c + 1) * (n - ⌊s⌋ : ℤ) := by
    intro n hn
    induction n, hn using Int.leInduction with
    | base =>
        intro t ht _
        rw [sub_self, Int.cast_zero, mul_zero, add_zero, ← heldKernel_floor h (2 * c + 1) s]
        refine (heldKernel_lipschitz hK hl _ _ t s k).trans (le_of_eq ?_)
        rw [abs_of_nonneg (sub_nonneg.mpr ht)]
    | succ n hn ih =>
        intro t ht hnt
        have hs : s ≤ ((n + 1 : ℤ) : ℝ) := by
          have h1 := Int.lt_floor_add_one s
          have h2 : (⌊s⌋ : ℝ) ≤ n := by exact_mod_cast hn
          push_cast
          linarith
        have a := heldKernel_lipschitz hK hl (2 * c + 1) (n + 1) t ((n + 1 : ℤ) : ℝ) k
        rw [abs_of_nonneg (a := t - _) (sub_nonneg.mpr hnt)] at a
        have b := ih _ hs (by push_cast; linarith)
        have d := heldKernel_step hi c n k
        have d' : |heldKernel h (2 * c + 1) (n + 1) ((n + 1 : ℤ) : ℝ) k -
            heldKernel h (2 * c + 1) n ((n + 1 : ℤ) : ℝ) k| ≤ windowStep (2 * c + 1) := by
          rw [d]
          split
          · rw [abs_of_nonneg (windowStep_nonneg _)]
          · simpa using windowStep_nonneg _
        have t1 := abs_sub_le (heldKernel h (2 * c + 1) (n + 1) t k)
          (heldKernel h (2 * c + 1) (n + 1) ((n + 1 : ℤ) : ℝ) k) (kernel h (2 * c + 1) s k)
        have t2 := abs_sub_le (heldKernel h (2 * c + 1) (n + 1) ((n + 1 : ℤ) : ℝ) k)
          (heldKernel h (2 * c + 1) n ((n + 1 : ℤ) : ℝ) k) (kernel h (2 * c + 1) s k)
        push_cast at *
        linarith
  have := key ⌊t⌋ (Int.floor_le_floor hst) t hst (Int.floor_le t)
  rwa [heldKernel_floor] at this

theorem kernel_change {h : ℝ → ℝ} (hi : ∀ z : ℤ, h z = if z = 0 then 1 else 0) {K : ℝ} (hK : 0 ≤ K)
    (hl : ∀ x y, |h x - h y| ≤ K * |x - y|) (c : ℕ) (s t : ℝ) (k : ℕ) :
    |kernel h (2 * c + 1) t k - kernel h (2 * c + 1) s k| ≤
      K * |t - s| + windowStep (2 * c + 1) * (|⌊t⌋ - ⌊s⌋| : ℤ) := by
  rcases le_total s t with hst | hst
  · rw [abs_of_nonneg (sub_nonneg.mpr hst), abs_of_nonneg (sub_nonneg.mpr (Int.floor_le_floor hst))]
    exact kernel_change_le hi hK hl c hst k
  · rw [abs_sub_comm, abs_sub_comm t, abs_sub_comm ⌊t⌋, abs_of_nonneg (sub_nonneg.mpr hst),
      abs_of_nonneg (sub_nonneg.mpr (Int.floor_le_floor hst))]
    exact kernel_change_le hi hK hl c hst k

/-! ## Distances -/

theorem dist_eq_euclidean {d : ℕ} (x y : Fin d → ℝ) :
    Spec.dist x y = Dist.dist (WithLp.toLp 2 x : EuclideanSpace ℝ (Fin d)) (WithLp.toLp 2 y) := by
  rw [EuclideanSpace.dist_eq]
  unfold Spec.dist
  congr 1
  refine Finset.sum_congr rfl fun i _ => ?_
  rw [Real.dist_eq, sq_abs]

theorem dist_triangle' {d : ℕ} (x y z : Fin d → ℝ) : Spec.dist x z ≤ Spec.dist x y + Spec.dist y z := by
  simp only [dist_eq_euclidean]
  exact dist_triangle _ _ _

/-- Mirroring keeps distances. -/
theorem dist_image_image {d : ℕ} (L x y : Fin d → ℝ) (n : Fin d → ℤ) :
    Spec.dist (image L x n) (image L y n) = Spec.dist x y := by
  unfold Spec.dist
  congr 1
  refine Finset.sum_congr rfl fun i _ => ?_
  rw [image_apply, image_apply]
  split <;> ring

/-- Moving source and microphone changes the length of every path by at most the two movements. -/
theorem pathLength_change {d : ℕ} (L src src' mic mic' : Fin d → ℝ) (n : Fin d → ℤ) :
    |pathLength mic' (image L src' n) - pathLength mic (image L src n)| ≤
      Spec.dist src src' + Spec.dist mic mic' := by
  unfold pathLength
  refine (abs_max_sub_max_le_abs _ _ _).trans ?_
  have a := dist_triangle' mic' mic (image L src' n)
  have b := dist_triangle' mic (image L src n) (image L src' n)
  have c := dist_triangle' mic mic' (image L src n)
  have e := dist_triangle' mic' (image L src' n) (image L src n)
  rw [dist_image_image] at b e
  rw [Torchrir.Lemmas.dist_comm mic' mic] at a
  rw [Torchrir.Lemmas.dist_comm src' src] at e
  rw [abs_le]
  constructor <;> linarith

end Torchrir.Lemmas
