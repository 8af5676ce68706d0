import Verif.Spec.SignalFloat
import Verif.Lemmas.Signal
import Verif.Lemmas.Floating

/-!
# Errors of convolutions
-/

namespace Torchrir.Lemmas.SignalFloat

open Torchrir.Model Torchrir.Spec Torchrir.Lemmas

/-! ## One convolution -/

/-- Sum of the magnitudes of a list. -/
def l1 (l : List ℝ) : ℝ := (l.map fun x => |x|).sum

theorem l1_nonneg (l : List ℝ) : 0 ≤ l1 l := List.sum_nonneg fun v hv => by
  obtain ⟨x, _, rfl⟩ := List.mem_map.mp hv
  exact abs_nonneg x

theorem l1_eq_range (l : List ℝ) (n : ℕ) (h : l.length ≤ n) : l1 l = ∑ j ∈ Finset.range n, |l.getD j 0| := by
  induction l generalizing n with
  | nil => simp [l1]
  | cons x l ih =>
    obtain ⟨n, rfl⟩ : ∃ n', n = n' + 1 := ⟨n - 1, by simp at h; omega⟩
    rw [Finset.sum_range_succ']
    have := ih n (by simpa using h)
    unfold l1 at this ⊢
    rw [List.map_cons, List.sum_cons, this]
    simp only [List.getD_cons_succ, List.getD_cons_zero]
    ring

theorem convAt_le (a b : List ℝ) (k : ℕ) : |convAt a b k| ≤ l1 a * l1 b := by
  unfold convAt
  have hb : ∀ i, |b.getD i 0| ≤ l1 b := by
    intro i
    rw [l1_eq_range b (b.length + i + 1) (by omega)]
    exact Finset.single_le_sum (f := fun j => |b.getD j 0|) (fun _ _ => abs_nonneg _)
      (Finset.mem_range.mpr (by omega))
  have ha : ∑ i ∈ Finset.range (k + 1), |a.getD i 0| ≤ l1 a := by
    rw [l1_eq_range a (a.length + k + 1) (by omega)]
    exact Finset.sum_le_sum_of_subset_of_nonneg (Finset.range_mono (by omega)) fun _ _ _ => abs_nonneg _
  calc |∑ i ∈ Finset.range (k + 1), a.getD i 0 * b.getD (k - i) 0|
      ≤ ∑ i ∈ Finset.range (k + 1), |a.getD i 0 * b.getD (k - i) 0| := Finset.abs_sum_le_sum_abs _ _
    _ ≤ ∑ i ∈ Finset.range (k + 1), |a.getD i 0| * l1 b := Finset.sum_le_sum fun i _ => by
        rw [abs_mul]; exact mul_le_mul_of_nonneg_left (hb _) (abs_nonneg _)
    _ = (∑ i ∈ Finset.range (k + 1), |a.getD i 0|) * l1 b := by rw [Finset.sum_mul]
    _ ≤ _ := mul_le_mul_of_nonneg_right ha (l1_nonneg b)

theorem norm_exp_neg (j k n : ℕ) : ‖Complex.exp (-(2 * Real.pi * Complex.I * j * k / n))‖ = 1 := by
  have : (-(2 * Real.pi * Complex.I * j * k / n) : ℂ) = ((-(2 * Real.pi * j * k / n) : ℝ) : ℂ) * Complex.I := by
    push_cast; ring
  rw [this, Complex.norm_exp_ofReal_mul_I]

theorem norm_exp_pos (j k n : ℕ) : ‖Complex.exp (2 * Real.pi * Complex.I * j * k / n)‖ = 1 := by
  have : (2 * Real.pi * Complex.I * j * k / n : ℂ) = ((2 * Real.pi * j * k / n : ℝ) : ℂ) * Complex.I := by
    push_cast; ring
  rw [this, Complex.norm_exp_ofReal_mul_I]

/-- A coefficient of the exact transform. -/
noncomputable def bin (x : List ℝ) (n k : ℕ) : ℂ :=
  ∑ j ∈ Finset.range n, (x.getD j 0 : ℂ) * Complex.exp (-(2 * Real.pi * Complex.I * j * k / n))

theorem bin_le (x : List ℝ) (n k : ℕ) : ‖bin x n k‖ ≤ ∑ j ∈ Finset.range n, |x.getD j 0| := by
  unfold bin
  refine (norm_sum_le _ _).trans (Finset.sum_le_sum fun j _ => ?_)
  rw [norm_mul, norm_exp_neg, mul_one, Complex.norm_real, Real.norm_eq_abs]

theorem weights_sum (n : ℕ) (hn : n = 1 ∨ ∃ p, n = 2 * p + 2) :
    ∑ k ∈ Finset.range (n / 2 + 1), (if k = 0 ∨ 2 * k = n then (1 : ℝ) else 2) = n := by
  have := sum_half' (fun _ => 1) n hn (fun _ _ _ => rfl)
  simpa using this

variable {u ε : ℝ} {n₀ : ℕ} {F : SignalFloats}

theorem product_err (hF : AccurateSignals u ε n₀ F) (hε : 0 ≤ ε) (a b : List ℝ) (n : ℕ) (hn : n = 1 ∨ ∃ p, n = 2 * p + 2)
    (hn₀ : n ≤ n₀) (hab : a.length + b.length ≤ n + 1) (ha : a.length ≤ n) (hb : b.length ≤ n) (j : ℕ) (hj : j < n) :
    |(F.fftProduct a b n).getD j 0 - convAt a b j| ≤ ((1 + ε) ^ 4 - 1) * (l1 a * l1 b) := by
  set α := l1 a with hα
  set β := l1 b with hβ
  have hα0 : 0 ≤ α := l1_nonneg a
  have hβ0 : 0 ≤ β := l1_nonneg b
  have hA : ∀ k, ‖bin a n k‖ ≤ α := fun k => (bin_le a n k).trans (l1_eq_range a n ha).ge
  have hB : ∀ k, ‖bin b n k‖ ≤ β := fun k => (bin_le b n k).trans (l1_eq_range b n hb).ge
  have eA : ∀ k, k ≤ n / 2 → ‖(F.rfft a n).getD k 0 - bin a n k‖ ≤ ε * α := fun k hk => by
    rw [hα, l1_eq_range a n ha]; exact hF.rfft a n k hn₀ hk
  have eB : ∀ k, k ≤ n / 2 → ‖(F.rfft b n).getD k 0 - bin b n k‖ ≤ ε * β := fun k hk => by
    rw [hβ, l1_eq_range b n hb]; exact hF.rfft b n k hn₀ hk
  set Y := List.zipWith F.mul (F.rfft a n) (F.rfft b n) with hY
  have hYk : ∀ k, k ≤ n / 2 → Y.getD k 0 = F.mul ((F.rfft a n).getD k 0) ((F.rfft b n).getD k 0) := by
    intro k hk
    have h1 : k < (F.rfft a n).length := by rw [hF.rfft_length]; omega
    have h2 : k < (F.rfft b n).length := by rw [hF.rfft_length]; omega
    rw [hY, List.getD_eq_getElem _ _ (by simp; omega), List.getElem_zipWith, ← List.getD_eq_getElem _ 0 h1,
      ← List.getD_eq_getElem _ 0 h2]
  have eY : ∀ k, k ≤ n / 2 → ‖Y.getD k 0 - bin a n k * bin b n k‖ ≤ ((1 + ε) ^ 3 - 1) * (α * β) := by
    intro k hk
    rw [hYk k hk]
    set A' := (F.rfft a n).getD k 0
    set B' := (F.rfft b n).getD k 0
    have h1 : ‖A'‖ ≤ (1 + ε) * α := by
      have : A' = (A' - bin a n k) + bin a n k := by ring
      rw [this]
      refine (norm_add_le _ _).trans ?_
      have := eA k hk; have := hA k; linarith
    have h3 : F.mul A' B' - bin a n k * bin b n k
        = (F.mul A' B' - A' * B') + (A' * (B' - bin b n k) + (A' - bin a n k) * bin b n k) := by ring
    have h2 : ‖B'‖ ≤ (1 + ε) * β := by
      have : B' = (B' - bin b n k) + bin b n k := by ring
      rw [this]
      refine (norm_add_le _ _).trans ?_
      have := eB k hk; have := hB k; linarith
    rw [h3]
    refine (norm_add_le _ _).trans ?_
    have h4 : ‖A' * (B' - bin b n k) + (A' - bin a n k) * bin b n k‖ ≤ (1 + ε) * α * (ε * β) + ε * α * β := by
      refine (norm_add_le _ _).trans (add_le_add ?_ ?_)
      · rw [norm_mul]; exact mul_le_mul h1 (eB k hk) (norm_nonneg _) (by positivity)
      · rw [norm_mul]; exact mul_le_mul (eA k hk) (hB k) (norm_nonneg _) (by positivity)
    have h5 : ‖F.mul A' B' - A' * B'‖ ≤ ε * ((1 + ε) * α * ((1 + ε) * β)) := by
      refine (hF.mul A' B').trans (mul_le_mul_of_nonneg_left ?_ hε)
      rw [norm_mul]; exact mul_le_mul h1 h2 (norm_nonneg _) (by positivity)
    have h6 : ((1 + ε) ^ 3 - 1) * (α * β) = ε * ((1 + ε) * α * ((1 + ε) * β)) + ((1 + ε) * α * (ε * β) + ε * α * β) := by
      ring
    linarith
  have eY' : ∀ k, k ≤ n / 2 → ‖Y.getD k 0‖ ≤ (1 + ε) ^ 3 * (α * β) := by
    intro k hk
    have : Y.getD k 0 = (Y.getD k 0 - bin a n k * bin b n k) + bin a n k * bin b n k := by ring
    rw [this]
    refine (norm_add_le _ _).trans ?_
    have h1 := eY k hk
    have h2 : ‖bin a n k * bin b n k‖ ≤ α * β := by
      rw [norm_mul]; exact mul_le_mul (hA k) (hB k) (norm_nonneg _) hα0
    linarith
  have hn0 : (0 : ℝ) < n := by have : 0 < n := by omega
                               exact_mod_cast this
  have w0 : ∀ k : ℕ, (0 : ℝ) ≤ (if k = 0 ∨ 2 * k = n then (1 : ℝ) else 2) := fun k => by split <;> norm_num
  have exact_eq : convAt a b j = (∑ k ∈ Finset.range (n / 2 + 1), (if k = 0 ∨ 2 * k = n then (1 : ℝ) else 2) *
      (bin a n k * bin b n k * Complex.exp (2 * Real.pi * Complex.I * j * k / n)).re) / n := by
    rw [← fftProduct_getD a b n hn hab j hj]
    unfold Model.fftProduct irfft
    rw [List.getD_eq_getElem _ _ (by simpa using hj)]
    simp only [List.getElem_map, List.getElem_range]
    congr 1
    refine Finset.sum_congr rfl fun k hk => ?_
    have hk := Finset.mem_range.mp hk
    congr 3
    have h1 : k < (rfft a n).length := by rw [rfft_length]; omega
    have h2 : k < (rfft b n).length := by rw [rfft_length]; omega
    rw [List.getD_eq_getElem _ _ (by simp; omega), List.getElem_zipWith]
    unfold rfft bin
    simp only [List.getElem_map, List.getElem_range]
  unfold SignalFloats.fftProduct
  rw [← hY]
  have hi := hF.irfft Y n j hn₀ hj
  set Z := (∑ k ∈ Finset.range (n / 2 + 1), (if k = 0 ∨ 2 * k = n then (1 : ℝ) else 2) *
        (Y.getD k 0 * Complex.exp (2 * Real.pi * Complex.I * j * k / n)).re) / n with hZ
  have b1 : (∑ k ∈ Finset.range (n / 2 + 1), (if k = 0 ∨ 2 * k = n then (1 : ℝ) else 2) * ‖Y.getD k 0‖) / n
      ≤ (1 + ε) ^ 3 * (α * β) := by
    rw [div_le_iff₀ hn0]
    calc _ ≤ ∑ k ∈ Finset.range (n / 2 + 1), (if k = 0 ∨ 2 * k = n then (1 : ℝ) else 2) * ((1 + ε) ^ 3 * (α * β)) :=
          Finset.sum_le_sum fun k hk => mul_le_mul_of_nonneg_left
            (eY' k (by have := Finset.mem_range.mp hk; omega)) (w0 k)
      _ = _ := by rw [← Finset.sum_mul, weights_sum n hn]; ring
  have b2 : |Z - convAt a b j| ≤ ((1 + ε) ^ 3 - 1) * (α * β) := by
    rw [exact_eq, hZ, ← sub_div, ← Finset.sum_sub_distrib, abs_div, abs_of_pos hn0, div_le_iff₀ hn0]
    calc _ ≤ ∑ k ∈ Finset.range (n / 2 + 1), (if k = 0 ∨ 2 * k = n then (1 : ℝ) else 2) * (((1 + ε) ^ 3 - 1) * (α * β)) := by
          refine (Finset.abs_sum_le_sum_abs _ _).trans (Finset.sum_le_sum fun k hk => ?_)
          have hk := Finset.mem_range.mp hk
          rw [← mul_sub, abs_mul, abs_of_nonneg (w0 k)]
          refine mul_le_mul_of_nonneg_left ?_ (w0 k)
          rw [← Complex.sub_re, ← sub_mul]
          refine (Complex.abs_re_le_norm _).trans ?_
          rw [norm_mul, norm_exp_pos, mul_one]
          exact eY k (by omega)
      _ = _ := by rw [← Finset.sum_mul, weights_sum n hn]; ring
  have b3 : |(F.irfft Y n).getD j 0 - convAt a b j| ≤ |(F.irfft Y n).getD j 0 - Z| + |Z - convAt a b j| := by
    have : (F.irfft Y n).getD j 0 - convAt a b j = ((F.irfft Y n).getD j 0 - Z) + (Z - convAt a b j) := by ring
    rw [this]; exact abs_add_le _ _
  have b4 := mul_le_mul_of_nonneg_left b1 hε
  have b5 : ((1 + ε) ^ 4 - 1) * (α * β) = ε * ((1 + ε) ^ 3 * (α * β)) + ((1 + ε) ^ 3 - 1) * (α * β) := by ring
  linarith

theorem fftProduct_length (hF : AccurateSignals u ε n₀ F) (a b : List ℝ) (n : ℕ) : (F.fftProduct a b n).length = n :=
  hF.irfft_length _ _

theorem fftLen_mono {a b : ℕ} (ha : 1 ≤ a) (h : a ≤ b) : fftLen a ≤ fftLen b := by
  rw [fftLen_eq, fftLen_eq]
  refine Nat.pow_le_pow_right (by norm_num) ?_
  unfold bitLength
  exact Nat.size_le_size (by omega)

/-- The cut result of a transform. -/
theorem cut_length (hF : AccurateSignals u ε n₀ F) (a b : List ℝ) (c : ℕ) :
    (pySlice (F.fftProduct a b (fftLen c)) 0 (c : ℤ)).length = c := by
  rw [← Nat.cast_zero, pySlice_nat _ _ _ (by omega)]
  · rw [slice_length' _ _ _]
    · omega
    · rw [fftProduct_length hF]
      rcases Nat.eq_zero_or_pos c with h | h
      · omega
      · exact_mod_cast le_fftLen c (by omega)
  · rw [fftProduct_length hF]
    rcases Nat.eq_zero_or_pos c with h | h
    · omega
    · exact_mod_cast le_fftLen c (by omega)

theorem cut_err (hF : AccurateSignals u ε n₀ F) (hε : 0 ≤ ε) (a b : List ℝ) (c : ℕ) (hc : a.length + b.length ≤ c + 1)
    (hn₀ : fftLen c ≤ n₀) (ha : 1 ≤ a.length) (hb : 1 ≤ b.length) (k : ℕ) (hk : k < c) :
    |(pySlice (F.fftProduct a b (fftLen c)) 0 (c : ℤ)).getD k 0 - convAt a b k| ≤ ((1 + ε) ^ 4 - 1) * (l1 a * l1 b) := by
  have hle : c ≤ fftLen c := by exact_mod_cast le_fftLen c (by omega)
  rw [← Nat.cast_zero, pySlice_nat _ _ _ (by omega) (by rw [fftProduct_length hF]; exact hle), slice_getD, if_pos (by omega),
    zero_add]
  exact product_err hF hε a b _ (fftLen_shape _) hn₀ (by omega) (by omega) (by omega) k (by omega)

theorem fftConvolve_cut (a b : List ℝ) (h : 1 ≤ a.length + b.length) :
    F.fftConvolve a b = pySlice (F.fftProduct a b (fftLen ((a.length + b.length - 1 : ℕ) : ℤ))) 0
      ((a.length + b.length - 1 : ℕ) : ℤ) := by
  unfold SignalFloats.fftConvolve
  simp only [show (a.length : ℤ) + b.length - 1 = ((a.length + b.length - 1 : ℕ) : ℤ) by omega]

theorem fftConvolve_length (hF : AccurateSignals u ε n₀ F) (a b : List ℝ) (h : 1 ≤ a.length + b.length) :
    (F.fftConvolve a b).length = a.length + b.length - 1 := by
  rw [fftConvolve_cut a b h, cut_length hF]

/-! ## Buffers -/

theorem addSlice_nat (F : SignalFloats) (v : ℕ → ℝ) (K a len : ℕ) (h : a + len ≤ K) (b : ℤ) (hb : b = ((a + len : ℕ) : ℤ))
    (x : List ℝ) (hx : x.length = len) :
    F.addSlice ((List.range K).map v) a b x
      = .ok ((List.range K).map fun k => if a ≤ k ∧ k < a + len then F.fl (v k + x.getD (k - a) 0) else v k) := by
  subst hb
  unfold SignalFloats.addSlice
  have h1 : pyBound ((List.range K).map v).length (a : ℤ) = a := by
    unfold pyBound; rw [if_neg (by omega)]; simp; omega
  have h2 : pyBound ((List.range K).map v).length ((a + len : ℕ) : ℤ) = a + len := by
    unfold pyBound; rw [if_neg (by omega)]; simp; omega
  simp only [h1, h2]
  rw [if_pos (by omega)]
  congr 1
  apply List.ext_getElem
  · simp; omega
  · intro i hi1 hi2
    simp only [List.length_map, List.length_range] at hi2
    simp only [List.getElem_map, List.getElem_range]
    by_cases hia : i < a
    · rw [List.getElem_append_left (by simp; omega), List.getElem_append_left (by simp; omega)]
      rw [if_neg (by omega)]
      simp
    · by_cases hib : i < a + len
      · rw [List.getElem_append_left (by simp; omega), List.getElem_append_right (by simp; omega)]
        simp only [List.getElem_zipWith, List.getElem_drop, List.getElem_take, List.getElem_map,
          List.getElem_range, List.length_take, List.length_map, List.length_range]
        rw [if_pos (by omega), List.getD_eq_getElem _ _ (by omega)]
        have e : a + (i - min a K) = i := by omega
        have e2 : i - min a K = i - a := by omega
        rw [e]
        simp only [e2]
      · rw [List.getElem_append_right (by simp; omega)]
        simp only [List.getElem_drop, List.getElem_map, List.getElem_range, List.length_append,
          List.length_take, List.length_map, List.length_range, List.length_zipWith, List.length_drop]
        rw [if_neg (by omega)]
        congr 1
        omega

theorem addAt_rep (F : SignalFloats) (v : ℕ → ℕ → ℝ) (M K m a len : ℕ) (hm : m < M) (h : a + len ≤ K) (b : ℤ)
    (hb : b = ((a + len : ℕ) : ℤ)) (x : List ℝ) (hx : x.length = len) :
    F.addAt (rep M K v) m a b x
      = .ok (rep M K fun m' k => if m' = m ∧ a ≤ k ∧ k < a + len then F.fl (v m' k + x.getD (k - a) 0) else v m' k) := by
  unfold SignalFloats.addAt
  have h1 : (rep M K v).getD m [] = (List.range K).map (v m) := by
    unfold rep; rw [List.getD_eq_getElem _ _ (by simpa using hm)]; simp
  rw [h1, addSlice_nat F (v m) K a len h b hb x hx]
  show Except.ok _ = _
  congr 1
  unfold rep
  apply List.ext_getElem
  · simp
  · intro i hi1 hi2
    simp only [List.length_set, List.length_map, List.length_range] at hi1
    rw [List.getElem_set]
    simp only [List.getElem_map, List.getElem_range]
    split
    · rename_i h; subst h; simp
    · rename_i h
      refine List.map_congr_left fun k _ => ?_
      rw [if_neg (by intro h2; exact h h2.1.symm)]

/-- The loop over microphones. -/
theorem micLoop_rep (F : SignalFloats) (v : ℕ → ℕ → ℝ) (M K a len : ℕ) (h : a + len ≤ K) (b : ℤ)
    (hb : b = ((a + len : ℕ) : ℤ)) (x : ℕ → List ℝ) (hx : ∀ m < M, (x m).length = len) :
    (List.range M).foldlM (fun out m => F.addAt out m a b (x m)) (rep M K v)
      = .ok (rep M K fun m k => if a ≤ k ∧ k < a + len then F.fl (v m k + (x m).getD (k - a) 0) else v m k) := by
  have key : ∀ n ≤ M, (List.range n).foldlM (fun out m => F.addAt out m a b (x m)) (rep M K v)
      = .ok (rep M K fun m k => if m < n ∧ a ≤ k ∧ k < a + len then F.fl (v m k + (x m).getD (k - a) 0) else v m k) := by
    intro n
    induction n with
    | zero => intro _; simp; rfl
    | succ n ih =>
      intro hn
      rw [List.range_succ, List.foldlM_append, ih (by omega), ok_bind]
      simp only [List.foldlM_cons, List.foldlM_nil]
      rw [addAt_rep F _ M K n a len (by omega) h b hb (x n) (hx n (by omega)), ok_bind]
      show Except.ok _ = _
      congr 1
      apply rep_congr
      intro m hm k _
      by_cases hmn : m = n
      · subst hmn
        by_cases hk : a ≤ k ∧ k < a + len
        · rw [if_pos ⟨rfl, hk⟩, if_neg (by omega), if_pos ⟨by omega, hk⟩]
        · rw [if_neg (fun h => hk h.2), if_neg (fun h => hk h.2), if_neg (fun h => hk h.2)]
      · rw [if_neg (fun h => hmn h.1)]
        by_cases hk : m < n ∧ a ≤ k ∧ k < a + len
        · rw [if_pos hk, if_pos ⟨by omega, hk.2⟩]
        · rw [if_neg hk, if_neg (fun h => hk ⟨by omega, h.2⟩)]
  rw [key M le_rfl]
  congr 1
  apply rep_congr
  intro m hm k _
  by_cases hk : a ≤ k ∧ k < a + len
  · rw [if_pos ⟨hm, hk⟩, if_pos hk]
  · rw [if_neg (fun h => hk h.2), if_neg hk]

/-- A buffer whose entries are off by at most `ρ` times `A` from those of `v`, which are not larger than `A`. -/
def Close (ρ : ℝ) (M K : ℕ) (v A : ℕ → ℕ → ℝ) (out : List (List ℝ)) : Prop :=
  ∃ w, out = rep M K w ∧ ∀ m < M, ∀ k < K, |w m k - v m k| ≤ ρ * A m k ∧ |v m k| ≤ A m k

theorem Close.congr {ρ : ℝ} {M K : ℕ} {v A v' A' : ℕ → ℕ → ℝ} {out : List (List ℝ)} (h : Close ρ M K v A out)
    (e : ∀ m < M, ∀ k < K, v m k = v' m k ∧ A m k = A' m k) : Close ρ M K v' A' out := by
  obtain ⟨w, h1, h2⟩ := h
  refine ⟨w, h1, fun m hm k hk => ?_⟩
  rw [← (e m hm k hk).1, ← (e m hm k hk).2]
  exact h2 m hm k hk

theorem Close.weaken {ρ ρ' : ℝ} {M K : ℕ} {v A : ℕ → ℕ → ℝ} {out : List (List ℝ)} (h : Close ρ M K v A out) (e : ρ ≤ ρ') :
    Close ρ' M K v A out := by
  obtain ⟨w, h1, h2⟩ := h
  refine ⟨w, h1, fun m hm k hk => ⟨(h2 m hm k hk).1.trans ?_, (h2 m hm k hk).2⟩⟩
  exact mul_le_mul_of_nonneg_right e ((abs_nonneg _).trans (h2 m hm k hk).2)

/-- One rounded addition. -/
theorem add_err (hu : 0 ≤ u) {fl : ℝ → ℝ} (hfl : ∀ x, |fl x - x| ≤ u * |x|) {ρ w v A x c B : ℝ} (h1 : |w - v| ≤ ρ * A)
    (h2 : |v| ≤ A) (h3 : |x - c| ≤ ρ * B) (h4 : |c| ≤ B) :
    |fl (w + x) - (v + c)| ≤ ((1 + ρ) * (1 + u) - 1) * (A + B) ∧ |v + c| ≤ A + B := by
  have h5 : |v + c| ≤ A + B := (abs_add_le _ _).trans (add_le_add h2 h4)
  refine ⟨?_, h5⟩
  have h6 : |(w + x) - (v + c)| ≤ ρ * (A + B) := by
    have : (w + x) - (v + c) = (w - v) + (x - c) := by ring
    rw [this]; refine (abs_add_le _ _).trans ?_; linarith
  have h7 : |w + x| ≤ (1 + ρ) * (A + B) := by
    have : w + x = ((w + x) - (v + c)) + (v + c) := by ring
    rw [this]; refine (abs_add_le _ _).trans ?_; linarith
  have h8 : fl (w + x) - (v + c) = (fl (w + x) - (w + x)) + ((w + x) - (v + c)) := by ring
  rw [h8]
  refine (abs_add_le _ _).trans ?_
  have h9 := (hfl (w + x)).trans (mul_le_mul_of_nonneg_left h7 hu)
  have h10 : ((1 + ρ) * (1 + u) - 1) * (A + B) = u * ((1 + ρ) * (A + B)) + ρ * (A + B) := by ring
  linarith

theorem close_mics (hu : 0 ≤ u) (hfl : ∀ x, |F.fl x - x| ≤ u * |x|) {ρ : ℝ} (hρ : 0 ≤ ρ) {M K a len : ℕ} (h : a + len ≤ K)
    (b : ℤ) (hb : b = ((a + len : ℕ) : ℤ)) (x : ℕ → List ℝ) (hx : ∀ m < M, (x m).length = len) {v A c B : ℕ → ℕ → ℝ}
    (hin : ∀ m < M, ∀ k, a ≤ k → k < a + len → |(x m).getD (k - a) 0 - c m k| ≤ ρ * B m k ∧ |c m k| ≤ B m k)
    (hout : ∀ m < M, ∀ k, ¬ (a ≤ k ∧ k < a + len) → c m k = 0 ∧ B m k = 0) {out : List (List ℝ)}
    (hc : Close ρ M K v A out) :
    ∃ out', (List.range M).foldlM (fun out m => F.addAt out m a b (x m)) out = .ok out' ∧
      Close ((1 + ρ) * (1 + u) - 1) M K (v + c) (A + B) out' := by
  obtain ⟨w, rfl, hw⟩ := hc
  refine ⟨_, micLoop_rep F w M K a len h b hb x hx, _, rfl, fun m hm k hk => ?_⟩
  obtain ⟨h1, h2⟩ := hw m hm k hk
  simp only [Pi.add_apply]
  by_cases hr : a ≤ k ∧ k < a + len
  · rw [if_pos hr]
    obtain ⟨h3, h4⟩ := hin m hm k hr.1 hr.2
    exact add_err hu hfl h1 h2 h3 h4
  · rw [if_neg hr]
    obtain ⟨h3, h4⟩ := hout m hm k hr
    rw [h3, h4, add_zero, add_zero]
    refine ⟨h1.trans (mul_le_mul_of_nonneg_right ?_ ((abs_nonneg _).trans h2)), h2⟩
    nlinarith

theorem convError_succ (n : ℕ) : (1 + convError u ε n) * (1 + u) - 1 = convError u ε (n + 1) := by
  unfold convError; ring

theorem convError_mono (hu : 0 ≤ u) (hε : 0 ≤ ε) {n n' : ℕ} (h : n ≤ n') : convError u ε n ≤ convError u ε n' := by
  unfold convError
  have := pow_le_pow_right₀ (show 1 ≤ 1 + u by linarith) h
  have h2 : (0 : ℝ) ≤ (1 + ε) ^ 4 := by positivity
  nlinarith

theorem convError_nonneg (hu : 0 ≤ u) (hε : 0 ≤ ε) (n : ℕ) : 0 ≤ convError u ε n := by
  have h := convError_mono hu hε (Nat.zero_le n)
  have : 0 ≤ convError u ε 0 := by
    unfold convError
    have := one_le_pow₀ (n := 4) (show 1 ≤ 1 + ε by linarith)
    linarith
  linarith

theorem close_zero (M K : ℕ) (ρ : ℝ) : Close ρ M K 0 0 (rep M K 0) := ⟨0, rfl, fun m _ k _ => by simp⟩

/-- A loop of which every pass takes `d` additions. -/
theorem close_fold {ι : Type} {M K d : ℕ} {step : List (List ℝ) → ι → Except String (List (List ℝ))} {c B : ι → ℕ → ℕ → ℝ} :
    ∀ (l : List ι), (∀ i ∈ l, ∀ n v A out, Close (convError u ε n) M K v A out →
      ∃ out', step out i = .ok out' ∧ Close (convError u ε (n + d)) M K (v + c i) (A + B i) out') →
      ∀ n v A out, Close (convError u ε n) M K v A out → ∃ out', l.foldlM step out = .ok out' ∧
        Close (convError u ε (n + d * l.length)) M K (v + (l.map c).sum) (A + (l.map B).sum) out'
  | [], _, n, v, A, out, hc => ⟨out, rfl, by simpa using hc⟩
  | i :: l, h, n, v, A, out, hc => by
    obtain ⟨out1, e1, h1⟩ := h i (by simp) n v A out hc
    obtain ⟨out2, e2, h2⟩ := close_fold l (fun j hj => h j (by simp [hj])) _ _ _ _ h1
    refine ⟨out2, ?_, ?_⟩
    · rw [List.foldlM_cons, e1]; exact e2
    · rw [List.map_cons, List.sum_cons, List.map_cons, List.sum_cons, List.length_cons, ← add_assoc, ← add_assoc]
      have : n + d * (l.length + 1) = n + d + d * l.length := by ring
      rw [this]
      exact h2

/-! ## Frames -/

theorem l1_slice (x : List ℝ) (a b : ℕ) : l1 (slice a b x) = ∑ j ∈ Finset.Ico a b, |x.getD j 0| := by
  rw [l1_eq_range _ (b - a) (by unfold slice; simp; omega), Finset.sum_Ico_eq_sum_range]
  refine Finset.sum_congr rfl fun j hj => ?_
  have := Finset.mem_range.mp hj
  rw [slice_getD, if_pos (by omega)]

/-- How loud the frame `[a, b)` of `x` can be at sample `k` behind a response `h` of length `L`. -/
def frameBound (x h : List ℝ) (a b L k : ℕ) : ℝ :=
  if a ≤ k ∧ k < b + L - 1 then (∑ j ∈ Finset.Ico a b, |x.getD j 0|) * l1 h else 0

theorem frameConv_eq (x h : List ℝ) (a b k : ℕ) (hab : a ≤ b) (hk : a ≤ k) :
    frameConv x h a b k = convAt (slice a b x) h (k - a) := by
  unfold frameConv
  rw [← conv_frame x h a b k hab, if_pos hk]

theorem frameConv_zero (x h : List ℝ) (a b k : ℕ) (hk : ¬ (a ≤ k ∧ k < b + h.length - 1)) : frameConv x h a b k = 0 := by
  unfold frameConv
  refine Finset.sum_eq_zero fun j hj => ?_
  have hj := Finset.mem_Ico.mp hj
  by_cases h1 : j ≤ k
  · rw [if_pos h1, List.getD_eq_default h _ (by omega), mul_zero]
  · rw [if_neg h1]

theorem frameConv_le (x h : List ℝ) (a b k : ℕ) (hab : a ≤ b) (hk : a ≤ k) :
    |frameConv x h a b k| ≤ (∑ j ∈ Finset.Ico a b, |x.getD j 0|) * l1 h := by
  rw [frameConv_eq x h a b k hab hk, ← l1_slice]
  exact convAt_le _ _ _

theorem close_frame (hF : AccurateSignals u ε n₀ F) (hu : 0 ≤ u) (hε : 0 ≤ ε) {M K a b L n : ℕ} (x : List ℝ)
    (h : ℕ → List ℝ) (hab : a < b) (hb : b ≤ x.length) (hK : b + L - 1 ≤ K) (hL : ∀ m < M, (h m).length = L) (hL1 : 1 ≤ L)
    (hn₀ : fftLen ((b - a + L - 1 : ℕ) : ℤ) ≤ n₀) (stop : ℤ) (hstop : stop = (b : ℤ) + L - 1) {v A : ℕ → ℕ → ℝ}
    {out : List (List ℝ)} (hc : Close (convError u ε n) M K v A out) :
    ∃ out', (List.range M).foldlM (fun out m => F.addAt out m a stop (F.fftConvolve (slice a b x) (h m))) out = .ok out' ∧
      Close (convError u ε (n + 1)) M K (v + fun m k => frameConv x (h m) a b k)
        (A + fun m k => frameBound x (h m) a b L k) out' := by
  have hsl : (slice a b x).length = b - a := slice_length' _ _ _ hb
  rw [← convError_succ]
  refine close_mics hu hF.add (convError_nonneg hu hε n) (len := b - a + L - 1) (by omega) stop (by omega) _
    (fun m hm => by rw [fftConvolve_length hF _ _ (by omega), hsl, hL m hm]) (fun m hm k h1 h2 => ?_) (fun m hm k hk => ?_) hc
  · unfold frameBound
    rw [if_pos (by omega)]
    refine ⟨?_, frameConv_le x (h m) a b k hab.le h1⟩
    rw [frameConv_eq x (h m) a b k hab.le h1, fftConvolve_cut _ _ (by omega), hsl, hL m hm, ← l1_slice]
    refine (cut_err hF hε _ _ _ (by rw [hsl, hL m hm]; omega) hn₀ (by omega) (by rw [hL m hm]; exact hL1) _ (by omega)).trans ?_
    refine mul_le_mul_of_nonneg_right ?_ (mul_nonneg (l1_nonneg _) (l1_nonneg _))
    have := convError_mono (u := u) (ε := ε) hu hε (Nat.zero_le n)
    unfold convError at this ⊢
    linarith
  · unfold frameBound
    rw [if_neg (by omega)]
    exact ⟨frameConv_zero _ _ _ _ _ (by rw [hL m hm]; omega), rfl⟩

/-! ## Loops -/

/-- How loud a mix of frames can be. -/
def varyingBound (rows : List (List ℝ)) (rirs : List (List (List (List ℝ)))) (S T L : ℕ) (W : ℕ → ℕ) (m k : ℕ) : ℝ :=
  ∑ t ∈ Finset.range T, ∑ s ∈ Finset.range S,
    frameBound (rows.getD s []) (((rirs.getD t []).getD s []).getD m []) (W t) (W (t + 1)) L k

theorem frameBound_empty (x h : List ℝ) (a b L k : ℕ) (hab : b ≤ a) : frameBound x h a b L k = 0 := by
  unfold frameBound; rw [Finset.Ico_eq_empty (by omega)]; simp

theorem close_static (hF : AccurateSignals u ε n₀ F) (hu : 0 ≤ u) (hε : 0 ≤ ε) (rows : List (List ℝ))
    (rirs : List (List (List ℝ))) (S M N L : ℕ) (hN : 1 ≤ N) (hL : 1 ≤ L) (hrows : ∀ s < S, (rows.getD s []).length = N)
    (hrirs : ∀ s < S, ∀ m < M, ((rirs.getD s []).getD m []).length = L) (hn₀ : fftLen ((N + L - 1 : ℕ) : ℤ) ≤ n₀) (outLen : ℤ)
    (ho : outLen = (N : ℤ) + L - 1) :
    ∃ out, (List.range S).foldlM (fun out s =>
      (List.range M).foldlM (fun out m =>
        F.addAt out m 0 outLen
          (F.fftConvolve (rows.getD s []) ((rirs.getD s []).getD m []))) out)
      (List.replicate M (List.replicate outLen.toNat 0)) = .ok out ∧
      Close (convError u ε S) M (N + L - 1)
        (fun m k => ∑ s ∈ Finset.range S, convAt (rows.getD s []) ((rirs.getD s []).getD m []) k)
        (fun m _ => ∑ s ∈ Finset.range S, l1 (rows.getD s []) * l1 ((rirs.getD s []).getD m [])) out := by
  have e : outLen.toNat = N + L - 1 := by omega
  rw [e, rep_zero]
  obtain ⟨out, h1, h2⟩ := close_fold (u := u) (ε := ε) (M := M) (K := N + L - 1) (d := 1)
    (step := fun out s => (List.range M).foldlM (fun out m =>
        F.addAt out m 0 outLen (F.fftConvolve (rows.getD s []) ((rirs.getD s []).getD m []))) out)
    (c := fun s m k => frameConv (rows.getD s []) ((rirs.getD s []).getD m []) 0 N k)
    (B := fun s m k => frameBound (rows.getD s []) ((rirs.getD s []).getD m []) 0 N L k) (List.range S)
    (fun s hs n v A out hc => by
      have hs := List.mem_range.mp hs
      have hsl : slice 0 N (rows.getD s []) = rows.getD s [] := by
        unfold slice; rw [List.drop_zero, List.take_of_length_le (hrows s hs).le]
      have := close_frame hF hu hε (a := 0) (b := N) (L := L) (K := N + L - 1) (rows.getD s [])
        (fun m => (rirs.getD s []).getD m []) (by omega) (hrows s hs).ge (by omega) (hrirs s hs) hL
        (by simpa using hn₀) outLen ho hc
      rw [hsl, Nat.cast_zero] at this
      exact this) 0 0 0 _ (close_zero M (N + L - 1) _)
  refine ⟨out, h1, ?_⟩
  rw [List.length_range, one_mul, zero_add] at h2
  refine h2.congr fun m hm k hk => ?_
  simp only [zero_add, sum_range_apply]
  constructor
  · refine Finset.sum_congr rfl fun s hs => ?_
    rw [frameConv_eq _ _ _ _ _ (Nat.zero_le _) (Nat.zero_le _), Nat.sub_zero]
    congr 1
    unfold slice; rw [List.drop_zero, List.take_of_length_le (hrows s (Finset.mem_range.mp hs)).le]
  · refine Finset.sum_congr rfl fun s hs => ?_
    unfold frameBound
    rw [if_pos ⟨Nat.zero_le _, by omega⟩, ← l1_slice]
    congr 2
    unfold slice; rw [List.drop_zero, List.take_of_length_le (hrows s (Finset.mem_range.mp hs)).le]

theorem close_hop (hF : AccurateSignals u ε n₀ F) (hu : 0 ≤ u) (hε : 0 ≤ ε) (rows : List (List ℝ))
    (rirs : List (List (List (List ℝ)))) (S M N L H T : ℕ)
    (hS : S ≤ rows.length) (hrows : ∀ s < S, (rows.getD s []).length = N)
    (hL : ∀ t < T, ∀ s < S, ∀ m < M, (((rirs.getD t []).getD s []).getD m []).length = L) (hH : 1 ≤ H) (hL1 : 1 ≤ L)
    (hT : ∀ t < T, t * H < N) (hn₀ : fftLen ((H + L - 1 : ℕ) : ℤ) ≤ n₀) (outLen : ℤ) (ho : outLen = (H : ℤ) * T + L - 1) :
    ∃ out, (List.range T).foldlM (fun out t =>
      (List.range S).foldlM (fun out s => F.hopStep rows rirs M H t s out) out)
      (List.replicate M (List.replicate outLen.toNat 0)) = .ok out ∧
      Close (convError u ε (S * T)) M outLen.toNat (varyingSum rows rirs S T fun t => min (t * H) N)
        (varyingBound rows rirs S T L fun t => min (t * H) N) out := by
  have hcast : ((H * T : ℕ) : ℤ) = (H : ℤ) * T := by push_cast; ring
  rw [rep_zero]
  obtain ⟨out, h1, h2⟩ := close_fold (u := u) (ε := ε) (M := M) (K := outLen.toNat) (d := S)
    (step := fun out t => (List.range S).foldlM (fun out s => F.hopStep rows rirs M H t s out) out)
    (c := fun t m k => ∑ s ∈ Finset.range S,
      frameConv (rows.getD s []) (((rirs.getD t []).getD s []).getD m []) (t * H) (min ((t + 1) * H) N) k)
    (B := fun t m k => ∑ s ∈ Finset.range S,
      frameBound (rows.getD s []) (((rirs.getD t []).getD s []).getD m []) (t * H) (min ((t + 1) * H) N) L k) (List.range T)
    (fun t ht n v A out hc => by
      have ht := List.mem_range.mp ht
      have hle : (t + 1) * H ≤ H * T := by rw [mul_comm]; exact Nat.mul_le_mul_left _ ht
      obtain ⟨out', h1, h2⟩ := close_fold (u := u) (ε := ε) (M := M) (K := outLen.toNat) (d := 1)
        (step := fun out s => F.hopStep rows rirs M H t s out)
        (c := fun s m k =>
          frameConv (rows.getD s []) (((rirs.getD t []).getD s []).getD m []) (t * H) (min ((t + 1) * H) N) k)
        (B := fun s m k =>
          frameBound (rows.getD s []) (((rirs.getD t []).getD s []).getD m []) (t * H) (min ((t + 1) * H) N) L k)
        (List.range S) (fun s hs n v A out hc => by
          have hs := List.mem_range.mp hs
          have htN := hT t ht
          unfold SignalFloats.hopStep
          rw [raiseIf_neg (by omega), ok_bind]
          have hslice : pySlice (rows.getD s []) ((t : ℤ) * H) ((t : ℤ) * H + H)
              = slice (t * H) (min ((t + 1) * H) N) (rows.getD s []) := by
            unfold pySlice slice
            rw [hrows s hs]
            have h1 : pyBound N ((t : ℤ) * H) = t * H := by
              have : ((t : ℤ) * H) = ((t * H : ℕ) : ℤ) := by push_cast; ring
              rw [this]; unfold pyBound; rw [if_neg (by omega)]; omega
            have h2 : pyBound N ((t : ℤ) * H + H) = min ((t + 1) * H) N := by
              have : ((t : ℤ) * H + H) = (((t + 1) * H : ℕ) : ℤ) := by push_cast; ring
              rw [this]; unfold pyBound; rw [if_neg (by omega)]; omega
            rw [h1, h2]
          dsimp only
          rw [hslice]
          have hlt : t * H < min ((t + 1) * H) N := by
            rw [lt_min_iff]; refine ⟨?_, htN⟩; rw [add_mul]; omega
          have hlen : (slice (t * H) (min ((t + 1) * H) N) (rows.getD s [])).length
              = min ((t + 1) * H) N - t * H := slice_length' _ _ _ (by rw [hrows s hs]; omega)
          rw [if_neg (by rw [hlen]; omega)]
          have hH' : (t + 1) * H = t * H + H := by ring
          have key := close_frame hF hu hε (a := t * H) (b := min ((t + 1) * H) N) (L := L) (K := outLen.toNat)
            (rows.getD s []) (fun m => ((rirs.getD t []).getD s []).getD m []) hlt (by rw [hrows s hs]; omega) (by omega)
            (hL t ht s hs) hL1
            (le_trans (fftLen_mono (by omega) (by omega)) hn₀) _ rfl hc
          obtain ⟨out', h1, h2⟩ := key
          refine ⟨out', ?_, h2⟩
          rw [← h1]
          apply foldlM_congr
          intro m hm out
          have hm := List.mem_range.mp hm
          have e1 : ((t : ℤ) * H) = ((t * H : ℕ) : ℤ) := by push_cast; ring
          have e2 := fftConvolve_length hF (slice (t * H) (min ((t + 1) * H) N) (rows.getD s []))
            (((rirs.getD t []).getD s []).getD m []) (by omega)
          rw [hlen, hL t ht s hs m hm] at e2
          have e3 : ((t * H : ℕ) : ℤ) + ((min ((t + 1) * H) N - t * H + L - 1 : ℕ) : ℤ)
              = ((min ((t + 1) * H) N : ℕ) : ℤ) + L - 1 := by omega
          simp only [e1, e2, e3]) n v A out hc
      refine ⟨out', h1, ?_⟩
      rw [List.length_range, one_mul] at h2
      exact h2.congr fun m _ k _ => by simp only [Pi.add_apply, sum_range_apply, and_self]) 0 0 0 _
    (close_zero M outLen.toNat _)
  refine ⟨out, h1, ?_⟩
  rw [List.length_range, zero_add] at h2
  refine h2.congr fun m hm k hk => ?_
  simp only [zero_add, sum_range_apply, varyingSum, varyingBound]
  constructor <;>
  · refine Finset.sum_congr rfl fun t ht => Finset.sum_congr rfl fun s _ => ?_
    rw [min_eq_left (hT t (Finset.mem_range.mp ht)).le]

theorem close_trajectory (hF : AccurateSignals u ε n₀ F) (hu : 0 ≤ u) (hε : 0 ≤ ε) {rows rirs T S M N L W}
    (h : TrajData rows rirs T S M N L W) (hT : 1 ≤ T) (hL1 : 1 ≤ L) (hn₀ : fftLen ((N + L - 1 : ℕ) : ℤ) ≤ n₀) :
    ∃ out, F.trajectoryLoop rows N rirs T S M L (bounds T W) = .ok (squeezeMics M (N + L - 1) out) ∧
      Close (convError u ε (S * T)) M (N + L - 1) (varyingSum rows rirs S T W) (varyingBound rows rirs S T L W) out := by
  unfold SignalFloats.trajectoryLoop
  dsimp only
  have hpos := h.pos
  set maxLen := maxOf (stepLengths (bounds T W)) with hmax
  have hmem : ∀ t < T, (W (t + 1) : ℤ) - W t ≤ maxLen := by
    intro t ht
    apply le_maxOf
    rw [stepLengths_bounds]
    exact List.mem_map.mpr ⟨t, List.mem_range.mpr ht, rfl⟩
  have hm0 : 0 ≤ maxLen := by
    have h1 := hmem 0 (by omega)
    have h2 := h.mono 0 (by omega)
    omega
  rw [raiseIf_neg (by omega), ok_bind]
  have hseg : (List.range T).mapM (fun t => segmentRows rows S maxLen.toNat ((bounds T W).getD t 0)
      ((bounds T W).getD (t + 1) 0)) = .ok ((List.range T).map fun t => (List.range S).map fun s =>
        segRow (rows.getD s []) (W t) (W (t + 1)) maxLen.toNat) := by
    apply mapM_const_range
    intro t ht
    rw [bounds_getD _ _ _ (by omega), bounds_getD _ _ _ (by omega)]
    have := hmem t ht
    have h2 := h.mono t ht
    exact segmentRows_eq rows S N _ _ _ h.len h.rows h2 (h.le _ (by omega)) (by omega)
  rw [hseg, ok_bind, raiseIf_neg (by omega), ok_bind]
  have e : ((N : ℤ) + L - 1).toNat = N + L - 1 := by omega
  rw [e, rep_zero]
  obtain ⟨out, h1, h2⟩ := close_fold (u := u) (ε := ε) (M := M) (K := N + L - 1) (d := S)
    (step := fun out t => F.trajectoryStep ((List.range T).map fun t => (List.range S).map fun s =>
        segRow (rows.getD s []) (W t) (W (t + 1)) maxLen.toNat) rirs S M L (bounds T W) (stepLengths (bounds T W)) t out)
    (c := fun t m k => ∑ s ∈ Finset.range S,
      frameConv (rows.getD s []) (((rirs.getD t []).getD s []).getD m []) (W t) (W (t + 1)) k)
    (B := fun t m k => ∑ s ∈ Finset.range S,
      frameBound (rows.getD s []) (((rirs.getD t []).getD s []).getD m []) (W t) (W (t + 1)) L k) (List.range T)
    (fun t ht n v A out hc => by
      have ht := List.mem_range.mp ht
      have h2 := h.mono t ht
      have hN := h.le (t + 1) (by omega)
      unfold SignalFloats.trajectoryStep
      rw [stepLengths_getD T W t ht, bounds_getD _ _ _ (by omega)]
      simp only
      by_cases hz : W (t + 1) = W t
      · rw [if_pos (by omega)]
        refine ⟨out, rfl, (hc.weaken (convError_mono hu hε (Nat.le_add_right n S))).congr fun m _ k _ => ?_⟩
        simp [frameConv_empty _ _ _ _ _ hz.le, frameBound_empty _ _ _ _ _ _ hz.le]
      · rw [if_neg (by omega)]
        obtain ⟨out', h1, h2⟩ := close_fold (u := u) (ε := ε) (M := M) (K := N + L - 1) (d := 1)
          (step := fun out s => (List.range M).foldlM (fun out m =>
            F.addAt out m (W t) ((W t : ℤ) + ((W (t + 1) : ℤ) - W t) + L - 1)
              (F.fftConvolve (pySlice ((((List.range T).map fun t => (List.range S).map fun s =>
                segRow (rows.getD s []) (W t) (W (t + 1)) maxLen.toNat).getD t []).getD s []) 0 ((W (t + 1) : ℤ) - W t))
                (((rirs.getD t []).getD s []).getD m []))) out)
          (c := fun s m k =>
            frameConv (rows.getD s []) (((rirs.getD t []).getD s []).getD m []) (W t) (W (t + 1)) k)
          (B := fun s m k =>
            frameBound (rows.getD s []) (((rirs.getD t []).getD s []).getD m []) (W t) (W (t + 1)) L k)
          (List.range S) (fun s hs n v A out hc => by
            have hs := List.mem_range.mp hs
            have e3 : (((List.range T).map fun t => (List.range S).map fun s =>
                segRow (rows.getD s []) (W t) (W (t + 1)) maxLen.toNat).getD t []).getD s []
                = segRow (rows.getD s []) (W t) (W (t + 1)) maxLen.toNat := by
              rw [List.getD_eq_getElem (l := List.map _ (List.range T)) _ (by simpa using ht)]
              simp only [List.getElem_map, List.getElem_range]
              rw [List.getD_eq_getElem _ _ (by simpa using hs)]
              simp
            rw [e3]
            have hsl := segRow_length (rows.getD s []) (W t) (W (t + 1)) maxLen.toNat
              (by rw [h.rows s hs]; exact hN) (by have := hmem t ht; omega)
            have hfr : pySlice (segRow (rows.getD s []) (W t) (W (t + 1)) maxLen.toNat) 0
                ((W (t + 1) : ℤ) - W t) = slice (W t) (W (t + 1)) (rows.getD s []) := by
              have hle : W (t + 1) - W t ≤ maxLen.toNat := by have := hmem t ht; omega
              have e4 : ((W (t + 1) : ℤ) - W t) = ((W (t + 1) - W t : ℕ) : ℤ) := by omega
              rw [e4, ← Nat.cast_zero, pySlice_nat _ _ _ (by omega) (by rw [hsl]; exact hle)]
              unfold slice
              rw [List.drop_zero]
              unfold segRow
              rw [List.take_left']
              · rfl
              · exact slice_length' _ _ _ (by rw [h.rows s hs]; exact hN)
            rw [hfr]
            exact close_frame hF hu hε (L := L) (rows.getD s []) (fun m => ((rirs.getD t []).getD s []).getD m [])
              (by omega) (by rw [h.rows s hs]; exact hN) (by omega) (fun m hm => h.rirs t ht s hs m hm) hL1
              (le_trans (fftLen_mono (by omega) (by omega)) hn₀) _ (by omega) hc) n v A out hc
        refine ⟨out', h1, ?_⟩
        rw [List.length_range, one_mul] at h2
        exact h2.congr fun m _ k _ => by simp only [Pi.add_apply, sum_range_apply, and_self]) 0 0 0 _
    (close_zero M (N + L - 1) _)
  refine ⟨out, ?_, ?_⟩
  · rw [h1]; rfl
  · rw [List.length_range, zero_add] at h2
    refine h2.congr fun m hm k hk => ?_
    simp only [zero_add, sum_range_apply, varyingSum, varyingBound, and_self]

/-! ## Chunks of steps -/

theorem close_fold_from {ι : Type} {M K n₁ : ℕ} {step : List (List ℝ) → ι → Except String (List (List ℝ))}
    {c B : ι → ℕ → ℕ → ℝ} :
    ∀ (l : List ι), (∀ i ∈ l, ∀ n v A out, n₁ ≤ n → Close (convError u ε n) M K v A out →
      ∃ out', step out i = .ok out' ∧ Close (convError u ε (n + 1)) M K (v + c i) (A + B i) out') →
      ∀ n v A out, n₁ ≤ n → Close (convError u ε n) M K v A out → ∃ out', l.foldlM step out = .ok out' ∧
        Close (convError u ε (n + l.length)) M K (v + (l.map c).sum) (A + (l.map B).sum) out'
  | [], _, n, v, A, out, _, hc => ⟨out, rfl, by simpa using hc⟩
  | i :: l, h, n, v, A, out, hn, hc => by
    obtain ⟨out1, e1, h1⟩ := h i (by simp) n v A out hn hc
    obtain ⟨out2, e2, h2⟩ := close_fold_from l (fun j hj => h j (by simp [hj])) _ _ _ _ (by omega) h1
    refine ⟨out2, ?_, ?_⟩
    · rw [List.foldlM_cons, e1]; exact e2
    · rw [List.map_cons, List.sum_cons, List.map_cons, List.sum_cons, List.length_cons,
        ← add_assoc v, ← add_assoc A, show n + (l.length + 1) = n + 1 + l.length by ring]
      exact h2

theorem convSum_length (F : SignalFloats) (segs : List (List ℝ)) (rirs : List (List (List ℝ))) (S c m : ℕ) :
    (F.convSum segs rirs S c m).length = c := by
  unfold SignalFloats.convSum
  have hle : c ≤ fftLen c := by
    rcases Nat.eq_zero_or_pos c with h | h
    · omega
    · exact_mod_cast le_fftLen c (by omega)
  simp only [List.length_map, List.length_range]
  unfold pyBound
  rw [if_neg (by omega)]
  omega

theorem convSum_err (hF : AccurateSignals u ε n₀ F) (hu : 0 ≤ u) (hε : 0 ≤ ε) (segs : List (List ℝ))
    (rirs : List (List (List ℝ))) (S c m k : ℕ) (hk : k < c) (hn₀ : fftLen c ≤ n₀)
    (hsegs : ∀ s < S, 1 ≤ (segs.getD s []).length ∧ 1 ≤ ((rirs.getD s []).getD m []).length ∧
      (segs.getD s []).length + ((rirs.getD s []).getD m []).length ≤ c + 1) :
    |(F.convSum segs rirs S c m).getD k 0 - ∑ s ∈ Finset.range S, convAt (segs.getD s []) ((rirs.getD s []).getD m []) k|
      ≤ convError u ε S * ∑ s ∈ Finset.range S, l1 (segs.getD s []) * l1 ((rirs.getD s []).getD m []) := by
  have hl := convSum_length F segs rirs S c m
  rw [List.getD_eq_getElem _ _ (by omega)]
  unfold SignalFloats.convSum
  simp only [List.getElem_map, List.getElem_range]
  set y : ℕ → ℝ := fun s => (pySlice (F.fftProduct (segs.getD s []) ((rirs.getD s []).getD m []) (fftLen c)) 0 (c : ℤ)).getD k 0
    with hy
  set b : ℕ → ℝ := fun s => l1 (segs.getD s []) * l1 ((rirs.getD s []).getD m []) with hb
  set e : ℕ → ℝ := fun s => convAt (segs.getD s []) ((rirs.getD s []).getD m []) k with he
  have h1 : ∀ s ∈ Finset.range S, |y s - e s| ≤ ((1 + ε) ^ 4 - 1) * b s := fun s hs => by
    obtain ⟨h1, h2, h3⟩ := hsegs s (Finset.mem_range.mp hs)
    exact cut_err hF hε _ _ c h3 hn₀ h1 h2 k hk
  have h2 : ∀ s, |e s| ≤ b s := fun s => convAt_le _ _ _
  have h3 : ∀ s ∈ Finset.range S, |y s| ≤ (1 + ε) ^ 4 * b s := fun s hs => by
    have : y s = (y s - e s) + e s := by ring
    rw [this]
    refine (abs_add_le _ _).trans ?_
    have := h1 s hs; have := h2 s; linarith
  have h4 := hF.sum ((List.range S).map y)
  have h5 : ((List.range S).map y).sum = ∑ s ∈ Finset.range S, y s := rfl
  have h6 : (((List.range S).map y).map fun x => |x|).sum = ∑ s ∈ Finset.range S, |y s| := by rw [List.map_map]; rfl
  rw [h5, h6, List.length_map, List.length_range] at h4
  have h7 : |∑ s ∈ Finset.range S, y s - ∑ s ∈ Finset.range S, e s| ≤ ((1 + ε) ^ 4 - 1) * ∑ s ∈ Finset.range S, b s := by
    rw [← Finset.sum_sub_distrib, Finset.mul_sum]
    exact (Finset.abs_sum_le_sum_abs _ _).trans (Finset.sum_le_sum h1)
  have h8 : ∑ s ∈ Finset.range S, |y s| ≤ (1 + ε) ^ 4 * ∑ s ∈ Finset.range S, b s := by
    rw [Finset.mul_sum]; exact Finset.sum_le_sum h3
  have h9 : F.sum ((List.range S).map y) - ∑ s ∈ Finset.range S, e s
      = (F.sum ((List.range S).map y) - ∑ s ∈ Finset.range S, y s) + (∑ s ∈ Finset.range S, y s - ∑ s ∈ Finset.range S, e s) := by
    ring
  show |F.sum ((List.range S).map y) - ∑ s ∈ Finset.range S, e s| ≤ convError u ε S * ∑ s ∈ Finset.range S, b s
  rw [h9]
  refine (abs_add_le _ _).trans ?_
  have h10 : (0 : ℝ) ≤ (1 + u) ^ S - 1 := by have := one_le_pow₀ (n := S) (show 1 ≤ 1 + u by linarith); linarith
  have h11 := mul_le_mul_of_nonneg_left h8 h10
  have h12 : convError u ε S * ∑ s ∈ Finset.range S, b s = ((1 + u) ^ S - 1) * ((1 + ε) ^ 4 * ∑ s ∈ Finset.range S, b s)
      + ((1 + ε) ^ 4 - 1) * ∑ s ∈ Finset.range S, b s := by unfold convError; ring
  linarith

theorem maxOf_mem (l : List ℤ) (h : l ≠ []) : maxOf l ∈ l := by
  have key : ∀ (l : List ℤ) (a : ℤ), l.foldl max a = a ∨ l.foldl max a ∈ l := by
    intro l
    induction l with
    | nil => intro a; exact .inl rfl
    | cons x l ih =>
      intro a
      rw [List.foldl_cons]
      rcases ih (max a x) with h | h
      · rw [h]
        rcases max_choice a x with h2 | h2
        · exact .inl h2
        · exact .inr (by rw [h2]; simp)
      · exact .inr (by simp [h])
  unfold maxOf
  rcases key l (l.headD 0) with h2 | h2
  · rw [h2]
    cases l with
    | nil => exact absurd rfl h
    | cons x l => simp
  · exact h2

theorem l1_segRow (x : List ℝ) (a b n : ℕ) : l1 (segRow x a b n) = ∑ j ∈ Finset.Ico a b, |x.getD j 0| := by
  rw [← l1_slice]
  unfold segRow l1
  simp

theorem close_chunk (hF : AccurateSignals u ε n₀ F) (hu : 0 ≤ u) (hε : 0 ≤ ε) {rows rirs T S M N L W}
    (h : TrajData rows rirs T S M N L W) (hL1 : 1 ≤ L) (hn₀ : fftLen ((N + L - 1 : ℕ) : ℤ) ≤ n₀) (t0 t1 : ℕ)
    (h01 : t0 < t1) (h1T : t1 ≤ T) (n : ℕ) (hn : S ≤ n) (v A : ℕ → ℕ → ℝ) (out : List (List ℝ))
    (hc : Close (convError u ε n) M (N + L - 1) v A out) :
    ∃ out', F.batchedChunk rows rirs S M L (bounds T W) (stepLengths (bounds T W)) t0 t1 out = .ok out' ∧
      Close (convError u ε (n + (t1 - t0))) M (N + L - 1)
        (v + fun m k => ∑ t ∈ Finset.Ico t0 t1, ∑ s ∈ Finset.range S,
          frameConv (rows.getD s []) (((rirs.getD t []).getD s []).getD m []) (W t) (W (t + 1)) k)
        (A + fun m k => ∑ t ∈ Finset.Ico t0 t1, ∑ s ∈ Finset.range S,
          frameBound (rows.getD s []) (((rirs.getD t []).getD s []).getD m []) (W t) (W (t + 1)) L k) out' := by
  unfold SignalFloats.batchedChunk
  dsimp only
  have hpos := h.pos
  rw [show slice t0 t1 (stepLengths (bounds T W)) = (List.range' t0 (t1 - t0)).map
    (fun t => (W (t + 1) : ℤ) - W t) by rw [stepLengths_bounds, slice_range_map _ _ _ _ h1T]]
  set maxLen := maxOf ((List.range' t0 (t1 - t0)).map fun t => (W (t + 1) : ℤ) - W t) with hmax
  have hmem : ∀ t, t0 ≤ t → t < t1 → (W (t + 1) : ℤ) - W t ≤ maxLen := by
    intro t h1 h2
    apply le_maxOf
    exact List.mem_map.mpr ⟨t, List.mem_range'_1.mpr ⟨h1, by omega⟩, rfl⟩
  have hm0 : 0 ≤ maxLen := by
    have h1 := hmem t0 le_rfl h01
    have h2 := h.mono t0 (by omega)
    omega
  by_cases hz : maxLen = 0
  · rw [if_pos hz]
    refine ⟨out, rfl, (hc.weaken (convError_mono hu hε (Nat.le_add_right n _))).congr fun m _ k _ => ?_⟩
    have hw : ∀ t ∈ Finset.Ico t0 t1, W (t + 1) ≤ W t := fun t ht => by
      have ht := Finset.mem_Ico.mp ht
      have := hmem t ht.1 ht.2
      omega
    simp only [Pi.add_apply]
    rw [Finset.sum_eq_zero (fun t ht => Finset.sum_eq_zero fun s _ => frameConv_empty _ _ _ _ _ (hw t ht)),
      Finset.sum_eq_zero (fun t ht => Finset.sum_eq_zero fun s _ => frameBound_empty _ _ _ _ _ _ (hw t ht))]
    simp
  · rw [if_neg hz, raiseIf_neg (by omega), ok_bind]
    have hmN : maxLen ≤ N := by
      have : maxLen ∈ (List.range' t0 (t1 - t0)).map fun t => (W (t + 1) : ℤ) - W t :=
        maxOf_mem _ (by simp; omega)
      obtain ⟨t, ht, he⟩ := List.mem_map.mp this
      have ht := List.mem_range'_1.mp ht
      have := h.le (t + 1) (by omega)
      omega
    have hseg : (List.range' t0 (t1 - t0)).mapM (fun t => segmentRows rows S maxLen.toNat
        ((bounds T W).getD t 0) ((bounds T W).getD (t + 1) 0))
        = .ok ((List.range' t0 (t1 - t0)).map fun t => (List.range S).map fun s =>
          segRow (rows.getD s []) (W t) (W (t + 1)) maxLen.toNat) := by
      apply mapM_ok
      intro t ht
      have ht := List.mem_range'_1.mp ht
      rw [bounds_getD _ _ _ (by omega), bounds_getD _ _ _ (by omega)]
      have := hmem t ht.1 (by omega)
      have h2 := h.mono t (by omega)
      exact segmentRows_eq rows S N _ _ _ h.len h.rows h2 (h.le _ (by omega)) (by omega)
    rw [hseg, ok_bind]
    obtain ⟨out', e1, e2⟩ := close_fold_from (u := u) (ε := ε) (M := M) (K := N + L - 1) (n₁ := S)
      (step := fun out t =>
        if (stepLengths (bounds T W)).getD t 0 = 0 then .ok out
        else (List.range M).foldlM (fun out m =>
          F.addAt out m ((bounds T W).getD t 0) ((bounds T W).getD t 0 + (stepLengths (bounds T W)).getD t 0 + L - 1)
            (pySlice (F.convSum (((List.range' t0 (t1 - t0)).map fun t => (List.range S).map fun s =>
              segRow (rows.getD s []) (W t) (W (t + 1)) maxLen.toNat).getD (t - t0) []) (rirs.getD t []) S
              (maxLen + L - 1) m) 0 ((stepLengths (bounds T W)).getD t 0 + L - 1))) out)
      (c := fun t m k => ∑ s ∈ Finset.range S,
        frameConv (rows.getD s []) (((rirs.getD t []).getD s []).getD m []) (W t) (W (t + 1)) k)
      (B := fun t m k => ∑ s ∈ Finset.range S,
        frameBound (rows.getD s []) (((rirs.getD t []).getD s []).getD m []) (W t) (W (t + 1)) L k)
      (List.range' t0 (t1 - t0)) (fun t ht n v A out hn hc => by
        have ht := List.mem_range'_1.mp ht
        have htT : t < T := by omega
        have h2 := h.mono t htT
        have hN := h.le (t + 1) (by omega)
        have hmt := hmem t ht.1 (by omega)
        rw [stepLengths_getD T W t htT, bounds_getD _ _ _ (by omega)]
        by_cases hzt : W (t + 1) = W t
        · rw [if_pos (by omega)]
          refine ⟨out, rfl, (hc.weaken (convError_mono hu hε (Nat.le_add_right n _))).congr fun m _ k _ => ?_⟩
          simp [frameConv_empty _ _ _ _ _ hzt.le, frameBound_empty _ _ _ _ _ _ hzt.le]
        · rw [if_neg (by omega)]
          have e3 : ((List.range' t0 (t1 - t0)).map fun t => (List.range S).map fun s =>
              segRow (rows.getD s []) (W t) (W (t + 1)) maxLen.toNat).getD (t - t0) []
              = (List.range S).map fun s => segRow (rows.getD s []) (W t) (W (t + 1)) maxLen.toNat := by
            rw [List.getD_eq_getElem _ _ (by simp; omega)]
            simp only [List.getElem_map, List.getElem_range']
            congr 1
            have : t0 + 1 * (t - t0) = t := by omega
            rw [this]
          rw [e3]
          set segs := (List.range S).map fun s => segRow (rows.getD s []) (W t) (W (t + 1)) maxLen.toNat with hsegs
          have e4 : ∀ s < S, segs.getD s [] = segRow (rows.getD s []) (W t) (W (t + 1)) maxLen.toNat := by
            intro s hs
            rw [hsegs, List.getD_eq_getElem _ _ (by simpa using hs)]
            simp
          have hsl : ∀ s < S, (segRow (rows.getD s []) (W t) (W (t + 1)) maxLen.toNat).length = maxLen.toNat :=
            fun s hs => segRow_length _ _ _ _ (by rw [h.rows s hs]; exact hN) (by omega)
          have e5 : maxLen + (L : ℤ) - 1 = ((maxLen.toNat + L - 1 : ℕ) : ℤ) := by omega
          have e6 : ((W (t + 1) : ℤ) - W t + L - 1) = ((W (t + 1) - W t + L - 1 : ℕ) : ℤ) := by omega
          have hlen := fun m => convSum_length F segs (rirs.getD t []) S (maxLen.toNat + L - 1) m
          have e7 : ∀ m, pySlice (F.convSum segs (rirs.getD t []) S (maxLen + L - 1) m) 0 ((W (t + 1) : ℤ) - W t + L - 1)
              = slice 0 (W (t + 1) - W t + L - 1) (F.convSum segs (rirs.getD t []) S ((maxLen.toNat + L - 1 : ℕ) : ℤ) m) := by
            intro m
            rw [e5, e6, ← Nat.cast_zero, pySlice_nat _ _ _ (by omega) (by rw [hlen m]; omega)]
          simp only [e7]
          rw [← convError_succ]
          have hbin : ∀ m < M, ∀ k, W t ≤ k → k < W t + (W (t + 1) - W t + L - 1) → ∀ s ∈ Finset.range S,
              frameConv (rows.getD s []) (((rirs.getD t []).getD s []).getD m []) (W t) (W (t + 1)) k
                = convAt (segs.getD s []) (((rirs.getD t []).getD s []).getD m []) (k - W t) ∧
              frameBound (rows.getD s []) (((rirs.getD t []).getD s []).getD m []) (W t) (W (t + 1)) L k
                = l1 (segs.getD s []) * l1 (((rirs.getD t []).getD s []).getD m []) := by
            intro m hm k hk1 hk2 s hs
            rw [e4 s (Finset.mem_range.mp hs), l1_segRow, frameConv_eq _ _ _ _ _ h2 hk1]
            refine ⟨convAt_congr _ _ _ (fun i => (segRow_getD _ _ _ _ i).symm) _, ?_⟩
            unfold frameBound; rw [if_pos (by omega)]
          refine close_mics hu hF.add (convError_nonneg hu hε n) (len := W (t + 1) - W t + L - 1) (by omega) _ (by omega) _
            (fun m _ => by rw [slice_length' _ _ _ (by rw [hlen m]; omega)]; omega) (fun m hm k hk1 hk2 => ?_)
            (fun m hm k hk => ?_) hc
          · rw [Finset.sum_congr rfl fun s hs => (hbin m hm k hk1 hk2 s hs).1,
              Finset.sum_congr rfl fun s hs => (hbin m hm k hk1 hk2 s hs).2, slice_getD, if_pos (by omega), zero_add]
            constructor
            · refine (convSum_err hF hu hε segs (rirs.getD t []) S (maxLen.toNat + L - 1) m (k - W t) (by omega)
                (le_trans (fftLen_mono (by omega) (by omega)) hn₀) (fun s hs => ?_)).trans ?_
              · rw [e4 s hs, hsl s hs, h.rirs t htT s hs m hm]; omega
              · exact mul_le_mul_of_nonneg_right (convError_mono hu hε hn)
                  (Finset.sum_nonneg fun s _ => mul_nonneg (l1_nonneg _) (l1_nonneg _))
            · exact (Finset.abs_sum_le_sum_abs _ _).trans (Finset.sum_le_sum fun s _ => convAt_le _ _ _)
          · constructor
            · refine Finset.sum_eq_zero fun s hs => frameConv_zero _ _ _ _ _ ?_
              rw [h.rirs t htT s (Finset.mem_range.mp hs) m hm]; omega
            · refine Finset.sum_eq_zero fun s hs => ?_
              unfold frameBound; rw [if_neg (by omega)]) n v A out hn hc
    refine ⟨out', e1, ?_⟩
    rw [List.length_range'] at e2
    refine e2.congr fun m _ k _ => ?_
    have e8 : t0 + (t1 - t0) = t1 := by omega
    simp only [Pi.add_apply, sum_range'_apply, e8, and_self]

theorem close_batched (hF : AccurateSignals u ε n₀ F) (hu : 0 ≤ u) (hε : 0 ≤ ε) {rows rirs T S M N L W}
    (h : TrajData rows rirs T S M N L W) (hL1 : 1 ≤ L) (hn₀ : fftLen ((N + L - 1 : ℕ) : ℤ) ≤ n₀) (c : ℕ) (hc : 1 ≤ c) :
    ∃ out, F.trajectoryBatched rows N rirs T S M L (bounds T W) c = .ok (squeezeMics M (N + L - 1) out) ∧
      Close (convError u ε (S + T)) M (N + L - 1) (varyingSum rows rirs S T W) (varyingBound rows rirs S T L W) out := by
  unfold SignalFloats.trajectoryBatched
  dsimp only
  have hpos := h.pos
  rw [raiseIf_neg (by omega), ok_bind]
  have e : ((N : ℤ) + L - 1).toNat = N + L - 1 := by omega
  rw [e, rep_zero]
  obtain ⟨b, hb, hP⟩ := foldlM_chunks T c hc
    (fun n b => Close (convError u ε (S + n)) M (N + L - 1) (varyingSum rows rirs S n W) (varyingBound rows rirs S n L W) b)
    (fun out t0 => F.batchedChunk rows rirs S M L (bounds T W) (stepLengths (bounds T W)) t0
      (min (t0 + c) T) out)
    (fun start b hs hb => by
      obtain ⟨out', h1, h2⟩ := close_chunk hF hu hε h hL1 hn₀ start (min (start + c) T) (by omega) (by omega) _ (by omega) _ _ _ hb
      refine ⟨out', h1, ?_⟩
      rw [show S + min (start + c) T = S + start + (min (start + c) T - start) by omega]
      refine h2.congr fun m _ k _ => ?_
      simp only [Pi.add_apply, varyingSum, varyingBound]
      simp only [Finset.range_eq_Ico]
      constructor <;> rw [Finset.sum_Ico_consecutive _ (by omega) (by omega)])
    (rep M (N + L - 1) 0) ((close_zero M (N + L - 1) _).congr fun m _ k _ => by simp [varyingSum, varyingBound])
  rw [hb, ok_bind]
  exact ⟨b, rfl, hP⟩

/-! ## From lists to functions -/

theorem l1_ofFn {n : ℕ} (f : Fin n → ℝ) : l1 (List.ofFn f) = total f := by
  unfold l1 total
  rw [List.map_ofFn, List.sum_ofFn]
  rfl

theorem fftLen_le {c : ℕ} (hc : 1 ≤ c) : fftLen c ≤ 2 * c := by
  rw [fftLen_eq]
  unfold bitLength
  rw [show ((c : ℤ) - 1).natAbs = c - 1 by omega]
  rcases Nat.eq_zero_or_pos (Nat.size (c - 1)) with h | h
  · rw [h]; omega
  · have := Nat.lt_size.mp (show Nat.size (c - 1) - 1 < Nat.size (c - 1) by omega)
    have e : 2 ^ Nat.size (c - 1) = 2 ^ (Nat.size (c - 1) - 1) * 2 := by rw [← pow_succ]; congr 1; omega
    omega

theorem varyingBound_eq {S M N L T G N' : ℕ} (x : Fin S → Fin N → ℝ)
    (h : Fin T → Fin S → Fin M → Fin L → ℝ) (hL : 1 ≤ L) (W : ℕ → ℕ) (hN : N' ≤ N)
    (hmono : ∀ t < G, W t ≤ W (t + 1)) (hlast : W G = N') (step : Fin N' → Fin T)
    (hstep : ∀ j, (step j : ℕ) < G ∧ W (step j) ≤ j ∧ (j : ℕ) < W ((step j : ℕ) + 1)) (m : Fin M) (k : ℕ) :
    varyingBound (List.ofFn fun s => List.ofFn (x s))
      (List.ofFn fun t => List.ofFn fun s => List.ofFn fun m => List.ofFn (h t s m)) S G L W m k
      = loudnessAt (fun s j => x s (Fin.castLE hN j)) h step m k := by
  have mono : ∀ a b, a ≤ b → b ≤ G → W a ≤ W b := by
    intro a b hab
    induction b, hab using Nat.le_induction with
    | base => intro _; exact le_rfl
    | succ b hab ih => intro hb; exact (ih (by omega)).trans (hmono b (by omega))
  have same : ∀ (j j' : Fin N'), step j' = step j ↔ W (step j) ≤ j' ∧ (j' : ℕ) < W ((step j : ℕ) + 1) := by
    intro j j'
    obtain ⟨h1, h2, h3⟩ := hstep j'
    obtain ⟨h4, h5, h6⟩ := hstep j
    constructor
    · intro e; rw [← e]; exact ⟨h2, h3⟩
    · rintro ⟨h7, h8⟩
      apply Fin.ext
      by_contra hne
      rcases Nat.lt_or_gt_of_ne hne with hlt | hgt
      · have := mono ((step j' : ℕ) + 1) (step j) hlt h4.le; omega
      · have := mono ((step j : ℕ) + 1) (step j') hgt h1.le; omega
  unfold varyingBound loudnessAt
  set rows := List.ofFn fun s => List.ofFn (x s) with hrows
  set rirs := List.ofFn fun t => List.ofFn fun s => List.ofFn fun m => List.ofFn (h t s m) with hrirs
  rw [Finset.sum_comm, ← Fin.sum_univ_eq_sum_range (fun s => ∑ t ∈ Finset.range G,
    frameBound (rows.getD s []) (((rirs.getD t []).getD s []).getD m []) (W t) (W (t + 1)) L k) S]
  refine Finset.sum_congr rfl fun s _ => ?_
  have e : ∀ t ∈ Finset.range G,
      frameBound (rows.getD s []) (((rirs.getD t []).getD s []).getD m []) (W t) (W (t + 1)) L k
      = ∑ j ∈ Finset.Ico (W t) (W (t + 1)), if W t ≤ k ∧ k < W (t + 1) + L - 1 then
          |(rows.getD s []).getD j 0| * l1 (((rirs.getD t []).getD s []).getD m []) else 0 := by
    intro t _
    unfold frameBound
    split
    · rw [Finset.sum_mul]
    · simp
  rw [Finset.sum_congr rfl e, partition_sum G N' W hmono hlast.le (fun j => if hj : j < N' then step ⟨j, hj⟩ else 0)
    (fun j hj => by simpa [hj] using hstep ⟨j, hj⟩)
    (fun t j => if W t ≤ k ∧ k < W (t + 1) + L - 1 then
          |(rows.getD s []).getD j 0| * l1 (((rirs.getD t []).getD s []).getD m []) else 0)]
  rw [← Fin.sum_univ_eq_sum_range (fun j =>
      if W (if hj : j < N' then (step ⟨j, hj⟩ : ℕ) else 0) ≤ k ∧ k < W ((if hj : j < N' then (step ⟨j, hj⟩ : ℕ) else 0) + 1) + L - 1 then
        |(rows.getD s []).getD j 0| *
          l1 (((rirs.getD (if hj : j < N' then (step ⟨j, hj⟩ : ℕ) else 0) []).getD s []).getD m []) else 0) N']
  refine Finset.sum_congr rfl fun j _ => ?_
  rw [dif_pos j.2, hrirs, blocks_getD, hrows, rows_getD, l1_ofFn]
  have e2 : (List.ofFn (x s)).getD j 0 = x s (Fin.castLE hN j) := by
    rw [List.getD_eq_getElem _ _ (by simp; omega)]; simp; rfl
  rw [e2]
  refine if_congr ?_ rfl rfl
  obtain ⟨h1, h2, h3⟩ := hstep j
  show (W (step j) ≤ k ∧ k < W ((step j : ℕ) + 1) + L - 1) ↔ _
  constructor
  · rintro ⟨h4, h5⟩
    have hle := mono ((step j : ℕ) + 1) G h1 le_rfl
    refine ⟨⟨min k (W ((step j : ℕ) + 1) - 1), by omega⟩, (same j _).mpr ⟨?_, ?_⟩, ?_, ?_⟩ <;> simp only <;> omega
  · rintro ⟨j', h4, h5, h6⟩
    obtain ⟨h7, h8⟩ := (same j j').mp h4
    omega

end Torchrir.Lemmas.SignalFloat
