import Verif.Lemmas.Directivity
import Verif.Spec.Orientation

/-!
# C32: orientations denote unit vectors
-/

namespace Torchrir.Props

open Torchrir.Model Torchrir.Spec Torchrir.Lemmas

theorem batch_lastAxisRows (pre : List ℕ) {d : ℕ} (f : Fin pre.prod → Fin d → ℝ) :
    (batch pre f).lastAxisRows = List.ofFn fun i => List.ofFn (f i) := by
  unfold Tensor.lastAxisRows batch
  simp only [List.dropLast_concat, List.getLastD_concat]
  apply groups_flatten
  · simp
  · intro x hx
    obtain ⟨i, rfl⟩ := (List.mem_ofFn' _ _).mp hx
    simp

theorem normalizeOrientation_batch (pre : List ℕ) {d : ℕ} (f : Fin pre.prod → Fin d → ℝ) :
    normalizeOrientation (batch pre f) = batch pre fun i j => f i j / max (fnorm (f i)) 1e-8 := by
  unfold normalizeOrientation
  rw [batch_lastAxisRows, List.map_ofFn]
  unfold batch
  congr 3
  funext i
  exact normalizeVec_ofFn (f i)

theorem orientationToUnit_vectors (pre : List ℕ) {d : ℕ} (hd : d = 2 ∨ d = 3)
    (f : Fin pre.prod → Fin d → ℝ) :
    orientationToUnit (batch pre f) d = .ok (normalizeOrientation (batch pre f)) := by
  unfold orientationToUnit
  rcases hd with rfl | rfl
  · rw [if_pos rfl, if_neg (by simp [batch, Tensor.ndim]), if_neg (by simp [batch]), if_neg,
      if_pos (by simp [batch])]
    rintro ⟨h1, h2⟩
    have : pre = [] := by simpa [batch, Tensor.ndim] using h1
    subst this
    simp [batch, Tensor.numel] at h2
  · rw [if_neg (by norm_num), if_pos rfl, if_neg (by simp [batch, Tensor.ndim]),
      if_pos (by simp [batch])]

/-- **C32, vectors.** Every batch of vectors that are not (nearly) zero becomes the batch of the
unit vectors with the same directions. -/
theorem C32_vectors_become_unit (pre : List ℕ) {d : ℕ} (hd : d = 2 ∨ d = 3)
    (v : Fin pre.prod → Fin d → ℝ) (hv : ∀ i, 1e-8 ≤ Real.sqrt (∑ j, v i j ^ 2)) :
    ∃ u : Fin pre.prod → Fin d → ℝ, orientationToUnit (batch pre v) d = .ok (batch pre u) ∧
      ∀ i, UnitAlong (u i) (v i) := by
  refine ⟨_, (orientationToUnit_vectors pre hd v).trans
    (congrArg _ (normalizeOrientation_batch pre v)), fun i => ?_⟩
  have hp : 0 < fnorm (v i) := lt_of_lt_of_le (by norm_num) (hv i)
  have hm : max (fnorm (v i)) 1e-8 = fnorm (v i) := max_eq_left (hv i)
  refine ⟨?_, fnorm (v i), hp, ?_⟩
  · have := fnorm_unit (v i) hp
    unfold fnorm at this
    rw [Real.sqrt_eq_one] at this
    simp only [hm]
    exact this
  · funext j
    simp only [Pi.smul_apply, smul_eq_mul, hm]
    field_simp

/-- **C32, scaling.** The lengths of the vectors do not matter. -/
theorem C32_scaling_ignored (pre : List ℕ) {d : ℕ} (hd : d = 2 ∨ d = 3)
    (v : Fin pre.prod → Fin d → ℝ) (a : Fin pre.prod → ℝ) (ha : ∀ i, 0 < a i)
    (hv : ∀ i, 1e-8 ≤ Real.sqrt (∑ j, v i j ^ 2))
    (hav : ∀ i, 1e-8 ≤ Real.sqrt (∑ j, (a i * v i j) ^ 2)) :
    orientationToUnit (batch pre fun i j => a i * v i j) d = orientationToUnit (batch pre v) d := by
  rw [orientationToUnit_vectors pre hd, orientationToUnit_vectors pre hd,
    normalizeOrientation_batch, normalizeOrientation_batch]
  congr 2
  funext i j
  rw [max_eq_left (a := fnorm (v i)) (hv i), max_eq_left (a := fnorm fun j => a i * v i j) (hav i)]
  have e : fnorm (fun j => a i * v i j) = a i * fnorm (v i) := by
    unfold fnorm
    simp only [mul_pow]
    rw [← Finset.mul_sum, Real.sqrt_mul (sq_nonneg _), Real.sqrt_sq (ha i).le]
  rw [e]
  have := (ha i).ne'
  have hp : fnorm (v i) ≠ 0 := (lt_of_lt_of_le (by norm_num) (hv i)).ne'
  field_simp

theorem fnorm_onCircle (a : ℝ) : fnorm (onCircle a) = 1 := by
  simp [fnorm, onCircle, Fin.sum_univ_two]

theorem sq_onSphere (az el : ℝ) : ∑ i, onSphere az el i ^ 2 = 1 := by
  simp only [onSphere, Fin.sum_univ_three, Matrix.cons_val_zero, Matrix.cons_val_one,
    Matrix.cons_val]
  nlinarith [Real.sin_sq_add_cos_sq az, Real.sin_sq_add_cos_sq el]

theorem normalizeOrientation_unit (pre : List ℕ) {d : ℕ} (f : Fin pre.prod → Fin d → ℝ)
    (h : ∀ i, fnorm (f i) = 1) : normalizeOrientation (batch pre f) = batch pre f := by
  rw [normalizeOrientation_batch]
  congr 1
  funext i j
  rw [h i, max_eq_left (by norm_num), div_one]

theorem anglesToUnit_eq (pre : List ℕ) (θ : Fin pre.prod → ℝ) :
    anglesToUnit pre (List.ofFn θ) = batch pre fun i => onCircle (θ i) := by
  unfold anglesToUnit
  rw [← normalizeOrientation_unit pre (fun i => onCircle (θ i)) fun i => fnorm_onCircle _]
  congr 1
  unfold batch
  rw [List.map_ofFn]
  refine congrArg (Tensor.mk _) (congrArg List.flatten (congrArg List.ofFn ?_))
  funext i
  simp [onCircle]

/-- The points of the circle are unit vectors. -/
theorem C32_circle_is_unit (a : ℝ) : ∑ i, onCircle a i ^ 2 = 1 := by
  simp [onCircle, Fin.sum_univ_two]

/-- The points of the sphere are unit vectors. -/
theorem C32_sphere_is_unit (az el : ℝ) : ∑ i, onSphere az el i ^ 2 = 1 := sq_onSphere az el

/-- **C32, angles in 2-D.** A scalar, a batch with last axis 1 and a 1-D list of angles (of a length
other than 2) become the points of the unit circle. -/
theorem C32_angles (θ : ℝ) :
    orientationToUnit ⟨[], [θ]⟩ 2 = .ok (batch [] fun _ => onCircle θ) ∧
    (∀ (pre : List ℕ) (θs : Fin pre.prod → ℝ),
      orientationToUnit ⟨pre ++ [1], List.ofFn θs⟩ 2 = .ok (batch pre fun i => onCircle (θs i))) ∧
    ∀ (n : ℕ) (_ : n ≠ 1) (_ : n ≠ 2) (θs : Fin [n].prod → ℝ),
      orientationToUnit ⟨[n], List.ofFn θs⟩ 2 = .ok (batch [n] fun i => onCircle (θs i)) := by
  refine ⟨?_, fun pre θs => ?_, fun n h1 h2 θs => ?_⟩
  · unfold orientationToUnit
    rw [if_pos rfl, if_pos (by rfl)]
    exact congrArg _ (anglesToUnit_eq [] fun _ => θ)
  · unfold orientationToUnit
    rw [if_pos rfl, if_neg (by simp [Tensor.ndim]), if_pos (by simp)]
    simp only [List.dropLast_concat]
    rw [anglesToUnit_eq]
  · unfold orientationToUnit
    rw [if_pos rfl, if_neg (by simp [Tensor.ndim]), if_neg (by simpa using h1),
      if_pos (by simpa [Tensor.ndim, Tensor.numel] using h2), anglesToUnit_eq]

/-- **C32, azimuth and elevation in 3-D.** -/
theorem C32_azimuth_elevation (pre : List ℕ) (az el : Fin pre.prod → ℝ) :
    orientationToUnit (batch pre fun i => ![az i, el i]) 3
      = .ok (batch pre fun i => onSphere (az i) (el i)) := by
  unfold orientationToUnit
  rw [if_neg (by norm_num), if_pos rfl, if_neg (by simp [batch, Tensor.ndim]),
    if_neg (by simp [batch]), if_pos (by simp [batch]), batch_lastAxisRows, List.map_ofFn]
  rw [← normalizeOrientation_unit pre (fun i => onSphere (az i) (el i)) fun i => by
    unfold fnorm; rw [sq_onSphere, Real.sqrt_one]]
  congr 2
  unfold batch
  simp only [List.dropLast_concat]
  refine congrArg (Tensor.mk _) (congrArg List.flatten (congrArg List.ofFn ?_))
  funext i
  simp [azElVec, onSphere]

/-- **C32, rejections.** Exactly the described shapes are accepted, for every tensor and every
dimension. -/
theorem C32_accepted_shapes (t : Tensor ℝ) (dim : ℕ) :
    (∃ u, orientationToUnit t dim = .ok u) ↔
      dim = 2 ∧ (t.shape = [] ∨ (∃ n, t.shape = [n]) ∨ ∃ pre n, t.shape = pre ++ [n] ∧ (n = 1 ∨ n = 2)) ∨
      dim = 3 ∧ ∃ pre n, t.shape = pre ++ [n] ∧ (n = 2 ∨ n = 3) := by
  obtain ⟨shape, data⟩ := t
  unfold orientationToUnit
  by_cases h2 : dim = 2
  · subst h2
    simp only [if_true, true_and]
    rcases List.eq_nil_or_concat shape with rfl | ⟨pre, n, rfl⟩
    · simp [Tensor.ndim]
    · rw [List.concat_eq_append, if_neg (c := Tensor.ndim _ = 0) (by simp [Tensor.ndim])]
      simp only [List.getLastD_concat]
      have key : (∃ pre' n', pre ++ [n] = pre' ++ [n'] ∧ (n' = 1 ∨ n' = 2)) ↔ (n = 1 ∨ n = 2) := by
        constructor
        · rintro ⟨p, n', h, h'⟩
          have := (List.append_inj' h rfl).2
          simp only [List.cons.injEq, and_true] at this
          rw [this]; exact h'
        · exact fun h => ⟨pre, n, rfl, h⟩
      rw [key]
      rcases pre with _ | ⟨a, pre⟩
      · by_cases h1 : n = 1
        · simp [h1]
        · by_cases h2 : n = 2 <;> simp [h1, h2, Tensor.ndim, Tensor.numel]
      · by_cases h1 : n = 1
        · simp [h1]
        · by_cases h2 : n = 2 <;> simp [h1, h2, Tensor.ndim, Tensor.numel]
  · by_cases h3 : dim = 3
    · subst h3
      simp only [if_true, true_and]
      rcases List.eq_nil_or_concat shape with rfl | ⟨pre, n, rfl⟩
      · simp [Tensor.ndim]
      · rw [List.concat_eq_append, if_neg (by norm_num), if_neg (c := Tensor.ndim _ = 0) (by simp [Tensor.ndim])]
        simp only [List.getLastD_concat]
        have key : (∃ pre' n', pre ++ [n] = pre' ++ [n'] ∧ (n' = 2 ∨ n' = 3)) ↔ (n = 2 ∨ n = 3) := by
          constructor
          · rintro ⟨p, n', h, h'⟩
            have := (List.append_inj' h rfl).2
            simp only [List.cons.injEq, and_true] at this
            rw [this]; exact h'
          · exact fun h => ⟨pre, n, rfl, h⟩
        rw [key]
        by_cases h1 : n = 3
        · simp [h1]
        · by_cases h2 : n = 2 <;> simp [h1, h2, Tensor.ndim, Tensor.numel]
    · simp [h2, h3]

/-- Two vectors in the plane. -/
example : ∃ u, orientationToUnit (batch (d := 2) [2] ![![3, 4], ![0, -2]]) 2 = .ok (batch [2] u) ∧
    UnitAlong (u ⟨0, by decide⟩) ![3, 4] := by
  obtain ⟨u, h, hu⟩ := C32_vectors_become_unit [2] (d := 2) (Or.inl rfl) ![![3, 4], ![0, -2]] (by
    intro i
    apply Real.le_sqrt_of_sq_le
    fin_cases i <;> simp [Fin.sum_univ_two] <;> norm_num)
  exact ⟨u, h, (hu ⟨0, by decide⟩ :)⟩

example : orientationToUnit ⟨[3], List.ofFn (n := [3].prod) ![0, 1, Real.pi]⟩ 2
    = .ok (batch [3] fun i => onCircle ((![0, 1, Real.pi] : Fin 3 → ℝ) i)) :=
  (C32_angles 0).2.2 3 (by norm_num) (by norm_num) _

example : ¬ ∃ u, orientationToUnit ⟨[2, 3], [1, 2, 3, 4, 5, 6]⟩ 2 = .ok u := by
  rw [C32_accepted_shapes]
  rintro (⟨-, h | ⟨n, h⟩ | ⟨pre, n, h, h'⟩⟩ | ⟨h, -⟩)
  · simp at h
  · simp at h
  · have := congrArg (List.getLastD · 0) h
    simp at this
    omega
  · omega

end Torchrir.Props
