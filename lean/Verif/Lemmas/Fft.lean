import Verif.Model.Signal
import Mathlib.RingTheory.RootsOfUnity.Complex
import Mathlib.Algebra.BigOperators.Intervals
import Mathlib.Algebra.BigOperators.Field
import Mathlib.Data.List.GetD

/-!
# The half-spectrum transform of a product is a convolution
-/

namespace Torchrir.Lemmas

open Torchrir.Model

/-- Sum over a symmetric spectrum from its first half. -/
theorem sum_half (g : ℕ → ℝ) (p : ℕ) (hg : ∀ k, 0 < k → k < 2 * p + 2 → g (2 * p + 2 - k) = g k) :
    ∑ k ∈ Finset.range (p + 1 + 1), (if k = 0 ∨ 2 * k = 2 * p + 2 then (1 : ℝ) else 2) * g k
      = ∑ k ∈ Finset.range (2 * p + 2), g k := by
  have e : 2 * p + 2 = (p + 2) + p := by ring
  rw [e, Finset.sum_range_add g (p + 2) p, Finset.sum_range_succ (n := p + 1), Finset.sum_range_succ' (n := p),
    Finset.sum_range_succ (fun k => g k) (p + 1), Finset.sum_range_succ' (fun k => g k) p]
  have h1 : ∑ k ∈ Finset.range p, g (p + 2 + k) = ∑ k ∈ Finset.range p, g (k + 1) := by
    rw [← Finset.sum_range_reflect]
    refine Finset.sum_congr rfl fun k hk => ?_
    have hk := Finset.mem_range.mp hk
    have := hg (k + 1) (by omega) (by omega)
    rw [← this]
    congr 1
    omega
  have h2 : ∑ k ∈ Finset.range p,
      (if k + 1 = 0 ∨ 2 * (k + 1) = p + 2 + p then (1 : ℝ) else 2) * g (k + 1)
      = ∑ k ∈ Finset.range p, 2 * g (k + 1) := by
    refine Finset.sum_congr rfl fun k hk => ?_
    have hk := Finset.mem_range.mp hk
    rw [if_neg (by omega)]
  rw [h1, h2, ← Finset.mul_sum, if_pos (by left; rfl), if_pos (by right; omega)]
  ring

/-- The same for transform lengths one or even. -/
theorem sum_half' (g : ℕ → ℝ) (n : ℕ) (hn : n = 1 ∨ ∃ p, n = 2 * p + 2)
    (hg : ∀ k, 0 < k → k < n → g (n - k) = g k) :
    ∑ k ∈ Finset.range (n / 2 + 1), (if k = 0 ∨ 2 * k = n then (1 : ℝ) else 2) * g k
      = ∑ k ∈ Finset.range n, g k := by
  rcases hn with rfl | ⟨p, rfl⟩
  · simp
  · have : (2 * p + 2) / 2 + 1 = p + 1 + 1 := by omega
    rw [this]
    exact sum_half g p hg

/-- `e^{2πi/n}`. -/
noncomputable def root (n : ℕ) : ℂ := Complex.exp (2 * Real.pi * Complex.I / n)

theorem root_pow (n a : ℕ) : root n ^ a = Complex.exp (2 * Real.pi * Complex.I * a / n) := by
  unfold root
  rw [← Complex.exp_nat_mul]
  congr 1
  ring

theorem exp_pos_eq (n j k : ℕ) :
    Complex.exp (2 * Real.pi * Complex.I * j * k / n) = root n ^ (j * k) := by
  rw [root_pow]; congr 1; push_cast; ring

theorem exp_neg_eq (n j k : ℕ) :
    Complex.exp (-(2 * Real.pi * Complex.I * j * k / n)) = (root n)⁻¹ ^ (j * k) := by
  rw [Complex.exp_neg, exp_pos_eq, inv_pow]

theorem root_prim (n : ℕ) (hn : n ≠ 0) : IsPrimitiveRoot (root n) n := Complex.isPrimitiveRoot_exp n hn

theorem root_ne_zero (n : ℕ) : root n ≠ 0 := Complex.exp_ne_zero _

theorem conj_root (n : ℕ) : (starRingEnd ℂ) (root n) = (root n)⁻¹ := by
  unfold root
  rw [← Complex.exp_conj, ← Complex.exp_neg]
  congr 1
  simp only [map_div₀, map_mul, Complex.conj_ofReal, Complex.conj_I, Complex.conj_natCast,
    Complex.conj_ofNat]
  ring

/-- Full Fourier coefficient. -/
noncomputable def coeff (x : List ℝ) (n k : ℕ) : ℂ :=
  ∑ j ∈ Finset.range n, ((x.getD j 0 : ℝ) : ℂ) * (root n)⁻¹ ^ (j * k)

theorem rfft_getD (x : List ℝ) (n k : ℕ) (hk : k < n / 2 + 1) : (rfft x n).getD k 0 = coeff x n k := by
  unfold rfft coeff
  rw [List.getD_eq_getElem _ _ (by simpa using hk)]
  simp only [List.getElem_map, List.getElem_range, exp_neg_eq]

theorem rfft_length (x : List ℝ) (n : ℕ) : (rfft x n).length = n / 2 + 1 := by simp [rfft]

theorem inv_root_pow_reflect (n j k : ℕ) (hn : n ≠ 0) (hk : k ≤ n) :
    (root n)⁻¹ ^ (j * (n - k)) = root n ^ (j * k) := by
  have h1 : (root n) ^ (j * n) = 1 := by rw [mul_comm, pow_mul, (root_prim n hn).pow_eq_one, one_pow]
  have h2 : j * n = j * (n - k) + j * k := by rw [← mul_add]; congr 1; omega
  rw [h2, pow_add] at h1
  rw [inv_pow]
  exact inv_eq_of_mul_eq_one_right h1

theorem root_pow_reflect (n j k : ℕ) (hn : n ≠ 0) (hk : k ≤ n) :
    root n ^ (j * (n - k)) = (root n)⁻¹ ^ (j * k) := by
  have := inv_root_pow_reflect n j k hn hk
  rw [inv_pow] at this ⊢
  rw [← this, inv_inv]

theorem coeff_reflect (x : List ℝ) (n k : ℕ) (hn : n ≠ 0) (hk : k ≤ n) :
    coeff x n (n - k) = (starRingEnd ℂ) (coeff x n k) := by
  unfold coeff
  rw [map_sum]
  refine Finset.sum_congr rfl fun j _ => ?_
  rw [map_mul, Complex.conj_ofReal, map_pow, map_inv₀, conj_root, inv_inv, inv_root_pow_reflect n j k hn hk]

/-- Orthogonality. -/
theorem geom_root (n j s : ℕ) (hj : j < n) (hs : s < n) :
    ∑ k ∈ Finset.range n, root n ^ (j * k) * (root n)⁻¹ ^ (s * k) = if j = s then (n : ℂ) else 0 := by
  have hn : n ≠ 0 := by omega
  have e : ∀ k, root n ^ (j * k) * (root n)⁻¹ ^ (s * k) = (root n ^ j * (root n)⁻¹ ^ s) ^ k := by
    intro k; rw [mul_pow, ← pow_mul, ← pow_mul]
  simp only [e]
  split
  · rename_i h
    subst h
    rw [← mul_pow, mul_inv_cancel₀ (root_ne_zero n)]
    simp
  · rename_i h
    have hz : root n ^ j * (root n)⁻¹ ^ s ≠ 1 := by
      intro h1
      apply h
      apply (root_prim n hn).pow_inj hj hs
      rw [inv_pow] at h1
      have := root_ne_zero n
      field_simp at h1
      exact h1
    rw [geom_sum_eq hz]
    have : (root n ^ j * (root n)⁻¹ ^ s) ^ n = 1 := by
      rw [mul_pow, ← pow_mul, ← pow_mul, mul_comm j, mul_comm s, pow_mul, pow_mul,
        (root_prim n hn).pow_eq_one, inv_pow, (root_prim n hn).pow_eq_one]
      simp
    rw [this]
    simp

/-- The sample `k` of the linear convolution of two lists. -/
def convAt (a b : List ℝ) (k : ℕ) : ℝ :=
  ∑ i ∈ Finset.range (k + 1), a.getD i 0 * b.getD (k - i) 0

theorem full_sum (a b : List ℝ) (n j : ℕ) (hab : a.length + b.length ≤ n + 1) (hj : j < n) :
    ∑ k ∈ Finset.range n, coeff a n k * coeff b n k * root n ^ (j * k) = n * (convAt a b j : ℂ) := by
  unfold coeff
  have e : ∀ k, (∑ i ∈ Finset.range n, ((a.getD i 0 : ℝ) : ℂ) * (root n)⁻¹ ^ (i * k)) *
      (∑ l ∈ Finset.range n, ((b.getD l 0 : ℝ) : ℂ) * (root n)⁻¹ ^ (l * k)) * root n ^ (j * k)
      = ∑ i ∈ Finset.range n, ∑ l ∈ Finset.range n, (((a.getD i 0 : ℝ) : ℂ) * ((b.getD l 0 : ℝ) : ℂ)) *
        (root n ^ (j * k) * (root n)⁻¹ ^ ((i + l) * k)) := by
    intro k
    rw [Finset.sum_mul_sum, Finset.sum_mul]
    refine Finset.sum_congr rfl fun i _ => ?_
    rw [Finset.sum_mul]
    refine Finset.sum_congr rfl fun l _ => ?_
    rw [add_mul, pow_add]
    ring
  simp only [e]
  rw [Finset.sum_comm]
  have e2 : ∀ i ∈ Finset.range n, ∑ k ∈ Finset.range n, ∑ l ∈ Finset.range n,
      (((a.getD i 0 : ℝ) : ℂ) * ((b.getD l 0 : ℝ) : ℂ)) *
        (root n ^ (j * k) * (root n)⁻¹ ^ ((i + l) * k))
      = ∑ l ∈ Finset.range n, if j = i + l then (n : ℂ) * (a.getD i 0 * b.getD l 0 : ℝ) else 0 := by
    intro i hi
    rw [Finset.sum_comm]
    refine Finset.sum_congr rfl fun l hl => ?_
    rw [← Finset.mul_sum]
    by_cases hlen : i < a.length ∧ l < b.length
    · rw [geom_root n j (i + l) hj (by omega)]
      split
      · push_cast; ring
      · ring
    · have : a.getD i 0 * b.getD l 0 = 0 := by
        by_cases h1 : i < a.length
        · rw [List.getD_eq_default b _ (by omega), mul_zero]
        · rw [List.getD_eq_default a _ (by omega), zero_mul]
      rw [← Complex.ofReal_mul, this]
      simp
  rw [Finset.sum_congr rfl e2]
  have e3 : ∀ i ∈ Finset.range n, (∑ l ∈ Finset.range n,
      if j = i + l then (n : ℂ) * (a.getD i 0 * b.getD l 0 : ℝ) else 0)
      = if i ≤ j then (n : ℂ) * (a.getD i 0 * b.getD (j - i) 0 : ℝ) else 0 := by
    intro i hi
    split
    · rename_i h
      rw [Finset.sum_eq_single (j - i)]
      · rw [if_pos (by omega)]
      · intro l _ hl; rw [if_neg (by omega)]
      · intro h2; exact absurd (Finset.mem_range.mpr (by omega)) h2
    · rename_i h
      exact Finset.sum_eq_zero fun l _ => by rw [if_neg (by omega)]
  rw [Finset.sum_congr rfl e3, ← Finset.sum_filter]
  have : (Finset.range n).filter (fun i => i ≤ j) = Finset.range (j + 1) := by
    ext i; simp; omega
  rw [this]
  unfold convAt
  rw [← Finset.mul_sum]
  push_cast
  rfl

theorem fftProduct_length (a b : List ℝ) (n : ℕ) : (fftProduct a b n).length = n := by
  simp [fftProduct, irfft]

/-- The inverse transform of the product of two half spectra is the linear convolution when the
transform is long enough. -/
theorem fftProduct_getD (a b : List ℝ) (n : ℕ) (hn : n = 1 ∨ ∃ p, n = 2 * p + 2)
    (hab : a.length + b.length ≤ n + 1) (j : ℕ) (hj : j < n) :
    (fftProduct a b n).getD j 0 = convAt a b j := by
  have hn0 : n ≠ 0 := by omega
  unfold fftProduct irfft
  rw [List.getD_eq_getElem _ _ (by simpa using hj)]
  simp only [List.getElem_map, List.getElem_range]
  have e : ∀ k ∈ Finset.range (n / 2 + 1),
      (if k = 0 ∨ 2 * k = n then (1 : ℝ) else 2) *
      ((List.zipWith (· * ·) (rfft a n) (rfft b n)).getD k 0 *
        Complex.exp (2 * Real.pi * Complex.I * j * k / n)).re
      = (if k = 0 ∨ 2 * k = n then (1 : ℝ) else 2) *
        (coeff a n k * coeff b n k * root n ^ (j * k)).re := by
    intro k hk
    have hk := Finset.mem_range.mp hk
    have ha : k < (rfft a n).length := by rw [rfft_length]; exact hk
    have hb : k < (rfft b n).length := by rw [rfft_length]; exact hk
    rw [List.getD_eq_getElem _ _ (by simp; omega), List.getElem_zipWith,
      ← List.getD_eq_getElem _ 0 ha, ← List.getD_eq_getElem _ 0 hb, rfft_getD _ _ _ hk,
      rfft_getD _ _ _ hk, exp_pos_eq]
  rw [Finset.sum_congr rfl e]
  rw [sum_half' (fun k => (coeff a n k * coeff b n k * root n ^ (j * k)).re) n hn]
  · rw [← Complex.re_sum, full_sum a b n j hab hj]
    rw [← Complex.ofReal_natCast, ← Complex.ofReal_mul, Complex.ofReal_re]
    field_simp
  · intro k hk hkn
    rw [coeff_reflect a n k hn0 hkn.le, coeff_reflect b n k hn0 hkn.le,
      root_pow_reflect n j k hn0 hkn.le, ← conj_root, ← map_pow, ← map_mul, ← map_mul,
      Complex.conj_re]

theorem fftLen_eq (n : ℤ) : fftLen n = 2 ^ bitLength (n - 1) := by
  unfold fftLen; rw [Nat.shiftLeft_eq, one_mul]

theorem fftLen_shape (n : ℤ) : fftLen n = 1 ∨ ∃ p, fftLen n = 2 * p + 2 := by
  rw [fftLen_eq]
  cases bitLength (n - 1) with
  | zero => left; rfl
  | succ q =>
    right
    refine ⟨2 ^ q - 1, ?_⟩
    have : 0 < 2 ^ q := by positivity
    rw [pow_succ]; omega

theorem le_fftLen (n : ℤ) (hn : 1 ≤ n) : n ≤ fftLen n := by
  rw [fftLen_eq]
  unfold bitLength
  have := Nat.lt_size_self (n - 1).natAbs
  have h2 : ((n - 1).natAbs : ℤ) = n - 1 := by omega
  have h3 : ((n - 1).natAbs : ℤ) < ((2 ^ Nat.size (n - 1).natAbs : ℕ) : ℤ) := by exact_mod_cast this
  omega

/-- Convolution as a list. -/
theorem fftConvolve_eq (a b : List ℝ) (h : 1 ≤ a.length + b.length) :
    fftConvolve a b = (List.range (a.length + b.length - 1)).map (convAt a b) := by
  unfold fftConvolve
  simp only
  by_cases h1 : a.length + b.length = 1
  · have : ((a.length : ℤ) + b.length - 1) = 0 := by omega
    rw [this]
    simp [pySlice, pyBound, h1]
  have hle := le_fftLen ((a.length : ℤ) + b.length - 1) (by omega)
  set n := fftLen ((a.length : ℤ) + b.length - 1) with hn
  have hb0 : pyBound n 0 = 0 := by simp [pyBound]
  have hb1 : pyBound n ((a.length : ℤ) + b.length - 1) = a.length + b.length - 1 := by
    unfold pyBound; rw [if_neg (by omega)]; omega
  unfold pySlice
  rw [fftProduct_length, hb0, hb1, List.drop_zero]
  apply List.ext_getElem
  · simp [fftProduct_length]; omega
  · intro i h2 h3
    simp only [List.length_map, List.length_range] at h3
    have hi : i < n := by omega
    rw [List.getElem_take, ← List.getD_eq_getElem _ 0,
      fftProduct_getD a b n (hn ▸ fftLen_shape _) (by omega) i hi]
    simp

end Torchrir.Lemmas
