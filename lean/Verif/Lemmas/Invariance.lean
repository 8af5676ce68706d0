import Verif.Lemmas.Symmetry
import Verif.Spec.Invariance
import Mathlib.Algebra.BigOperators.Field

/-! # Change of scale, change of axes and additivity over the images -/

namespace Torchrir.Lemmas

open Torchrir.Model Torchrir.Spec

/-! ## Scale -/

theorem image_scale {d : ℕ} (q : ℝ) (L x : Fin d → ℝ) (n : Fin d → ℤ) :
    image (fun i => q * L i) (fun i => q * x i) n = fun i => q * image L x n i := by
  funext i
  rw [image_apply, image_apply]
  split <;> ring

theorem dist_scale {d : ℕ} {q : ℝ} (hq : 0 ≤ q) (x y : Fin d → ℝ) :
    Spec.dist (fun i => q * x i) (fun i => q * y i) = q * Spec.dist x y := by
  unfold Spec.dist
  rw [show (∑ i, (q * x i - q * y i) ^ 2) = q ^ 2 * ∑ i, (x i - y i) ^ 2 by
    rw [Finset.mul_sum]; exact Finset.sum_congr rfl fun i _ => by ring]
  rw [Real.sqrt_mul (by positivity), Real.sqrt_sq hq]

theorem cosAngle_scale {d : ℕ} {q : ℝ} (hq : 0 < q) (v u : Fin d → ℝ) :
    cosAngle (fun i => q * v i) u = cosAngle v u := by
  unfold cosAngle
  rw [show (∑ i, q * v i * u i) = q * ∑ i, v i * u i by
    rw [Finset.mul_sum]; exact Finset.sum_congr rfl fun i _ => by ring]
  rw [show (∑ i, (q * v i) ^ 2) = q ^ 2 * ∑ i, v i ^ 2 by
    rw [Finset.mul_sum]; exact Finset.sum_congr rfl fun i _ => by ring]
  rw [Real.sqrt_mul (by positivity), Real.sqrt_sq hq.le, mul_assoc, mul_div_mul_left _ _ hq.ne']

/-- Lengths and the speed of sound scaled by `q`. -/
theorem rir_scale {d : ℕ} {q : ℝ} (hq : 0 < q) (S : Setup d) (A : Finset (Fin d → ℤ))
    (gs gm : (Fin d → ℝ) → ℝ) (hgs : ∀ v, gs (fun i => q * v i) = gs v)
    (hgm : ∀ v, gm (fun i => q * v i) = gm v) (src mic : Fin d → ℝ)
    (hfar : ∀ n ∈ A, 1e-6 ≤ Spec.dist mic (image S.L src n) ∧
      1e-6 ≤ q * Spec.dist mic (image S.L src n)) (k : ℕ) :
    rir { S with L := fun i => q * S.L i, c := q * S.c } A gs gm (fun i => q * src i)
      (fun i => q * mic i) k = rir S A gs gm src mic k / q := by
  unfold rir
  rw [Finset.sum_div]
  refine Finset.sum_congr rfl fun n hn => ?_
  obtain ⟨h1, h2⟩ := hfar n hn
  dsimp only
  rw [image_scale]
  have e1 : pathLength (fun i => q * mic i) (fun i => q * image S.L src n i)
      = q * pathLength mic (image S.L src n) := by
    unfold pathLength
    rw [dist_scale hq.le, max_eq_left h1, max_eq_left h2]
  have e2 : (fun i => q * mic i) - (fun i => q * image S.L src n i)
      = fun i => q * (mic - image S.L src n) i := by
    funext i; simp only [Pi.sub_apply]; ring
  have e3 : (fun i => q * image S.L src n i) - (fun i => q * mic i)
      = fun i => q * (image S.L src n - mic) i := by
    funext i; simp only [Pi.sub_apply]; ring
  rw [e1, e2, e3, hgs, hgm]
  have hr := pathLength_pos mic (image S.L src n)
  have e4 : q * pathLength mic (image S.L src n) * S.fs / (q * S.c)
      = pathLength mic (image S.L src n) * S.fs / S.c := by
    rw [mul_assoc, mul_div_mul_left _ _ hq.ne']
  rw [e4]
  field_simp

/-- Only the ratio of sampling rate and speed of sound matters. -/
theorem rir_rate {d : ℕ} {q : ℝ} (hq : q ≠ 0) (S : Setup d) (A : Finset (Fin d → ℤ))
    (gs gm : (Fin d → ℝ) → ℝ) (src mic : Fin d → ℝ) (k : ℕ) :
    rir { S with fs := q * S.fs, c := q * S.c } A gs gm src mic k = rir S A gs gm src mic k := by
  unfold rir
  refine Finset.sum_congr rfl fun n _ => ?_
  dsimp only
  rw [show ∀ r : ℝ, r * (q * S.fs) / (q * S.c) = r * S.fs / S.c from fun r => by
    rw [show r * (q * S.fs) = q * (r * S.fs) by ring, mul_div_mul_left _ _ hq]]

/-! ## Axes -/

theorem image_perm {d : ℕ} (σ : Equiv.Perm (Fin d)) (L x : Fin d → ℝ) (n : Fin d → ℤ) :
    image (L ∘ σ) (x ∘ σ) (n ∘ σ) = image L x n ∘ σ := rfl

theorem wallGain_perm {d : ℕ} (σ : Equiv.Perm (Fin d)) (lo hi : Fin d → ℝ) (n : Fin d → ℤ) :
    wallGain (lo ∘ σ) (hi ∘ σ) (n ∘ σ) = wallGain lo hi n :=
  Equiv.prod_comp σ fun i => absorbed (lo i) (hi i) (n i).natAbs (lastWall (n i))

theorem dist_perm {d : ℕ} (σ : Equiv.Perm (Fin d)) (x y : Fin d → ℝ) :
    Spec.dist (x ∘ σ) (y ∘ σ) = Spec.dist x y := by
  unfold Spec.dist
  rw [← Equiv.sum_comp σ fun i => (x i - y i) ^ 2]
  rfl

theorem cosAngle_perm {d : ℕ} (σ : Equiv.Perm (Fin d)) (v u : Fin d → ℝ) :
    cosAngle (v ∘ σ) (u ∘ σ) = cosAngle v u := by
  unfold cosAngle
  rw [← Equiv.sum_comp σ fun i => v i * u i, ← Equiv.sum_comp σ fun i => v i ^ 2,
    ← Equiv.sum_comp σ fun i => u i ^ 2]
  rfl

theorem rir_perm {d : ℕ} (σ : Equiv.Perm (Fin d)) (S : Setup d) (A B : Finset (Fin d → ℤ))
    (hAB : ∀ n, n ∘ σ ∈ B ↔ n ∈ A) (gs gm gs' gm' : (Fin d → ℝ) → ℝ)
    (hgs : ∀ v, gs' (v ∘ σ) = gs v) (hgm : ∀ v, gm' (v ∘ σ) = gm v) (src mic : Fin d → ℝ) (k : ℕ) :
    rir { S with L := S.L ∘ σ, lo := S.lo ∘ σ, hi := S.hi ∘ σ } B gs' gm' (src ∘ σ) (mic ∘ σ) k
      = rir S A gs gm src mic k := by
  unfold rir
  symm
  refine Finset.sum_equiv (Equiv.arrowCongr σ.symm (Equiv.refl ℤ)) (fun n => ?_) (fun n _ => ?_)
  · rw [← hAB n]; rfl
  · have e : (Equiv.arrowCongr σ.symm (Equiv.refl ℤ)) n = n ∘ σ := rfl
    dsimp only
    rw [e, image_perm, wallGain_perm]
    have e1 : pathLength (mic ∘ σ) (image S.L src n ∘ σ) = pathLength mic (image S.L src n) := by
      unfold pathLength; rw [dist_perm]
    have e2 : mic ∘ σ - image S.L src n ∘ σ = (mic - image S.L src n) ∘ σ := rfl
    have e3 : image S.L src n ∘ σ - mic ∘ σ = (image S.L src n - mic) ∘ σ := rfl
    rw [e1, e2, e3, hgs, hgm]

theorem orderSet_perm {d : ℕ} (σ : Equiv.Perm (Fin d)) (N : ℕ) (n : Fin d → ℤ) :
    n ∘ σ ∈ orderSet d N ↔ n ∈ orderSet d N := by
  unfold orderSet
  simp only [Finset.mem_filter, Fintype.mem_piFinset, Function.comp]
  rw [Equiv.sum_comp σ fun i => |n i|]
  refine and_congr_left fun _ => ⟨fun h i => ?_, fun h i => h _⟩
  have := h (σ.symm i)
  rwa [Equiv.apply_symm_apply] at this

theorem boxSet_perm {d : ℕ} (σ : Equiv.Perm (Fin d)) (nb : Fin d → ℕ) (n : Fin d → ℤ) :
    n ∘ σ ∈ boxSet (nb ∘ σ) ↔ n ∈ boxSet nb := by
  unfold boxSet
  simp only [Fintype.mem_piFinset, Function.comp]
  refine ⟨fun h i => ?_, fun h i => h _⟩
  have := h (σ.symm i)
  rwa [Equiv.apply_symm_apply] at this

/-! ## Additivity -/

theorem mem_orderSet {d N : ℕ} (n : Fin d → ℤ) : n ∈ orderSet d N ↔ ∑ i, |n i| ≤ N := by
  unfold orderSet
  simp only [Finset.mem_filter, Fintype.mem_piFinset, Finset.mem_Icc]
  refine and_iff_right_of_imp fun h i => abs_le.mp ?_
  exact (Finset.single_le_sum (f := fun i => |n i|) (fun _ _ => abs_nonneg _) (Finset.mem_univ i)).trans h

theorem absorbed_zero (k : ℕ) (w : Wall) : absorbed 0 0 k w = if k = 0 then 1 else 0 := by
  cases k with
  | zero => cases w <;> rfl
  | succ k => cases w <;> simp [absorbed]

theorem wallGain_zero {d : ℕ} (n : Fin d → ℤ) :
    wallGain (fun _ => 0) (fun _ => 0) n = if n = 0 then 1 else 0 := by
  unfold wallGain
  simp only [absorbed_zero]
  split
  · rename_i h; subst h; simp
  · rename_i h
    obtain ⟨i, hi⟩ := Function.ne_iff.mp h
    exact Finset.prod_eq_zero (Finset.mem_univ i) (if_neg (by simpa using hi))

theorem image_zero {d : ℕ} (L x : Fin d → ℝ) : image L x 0 = x := by
  funext i; rw [image_apply]; simp

end Torchrir.Lemmas
