import Verif.Model.Acoustics
import Verif.Spec.Acoustics


/-!
# C30, C31: Sabine estimates
-/

namespace Torchrir.Props

open Torchrir.Model Torchrir.Spec

/-- 2-D or 3-D room with positive sides. -/
structure RealRoom {d : ℕ} (size : Fin d → ℝ) : Prop where
  dim : d = 2 ∨ d = 3
  pos : ∀ i, 0 < size i

theorem wallArea_pos {d : ℕ} {size : Fin d → ℝ} (h : RealRoom size) (k : Fin (2 * d)) : 0 < wallArea size k :=
  Finset.prod_pos fun i _ => h.pos i

theorem volume_pos {d : ℕ} {size : Fin d → ℝ} (h : RealRoom size) : 0 < volume size :=
  Finset.prod_pos fun i _ => h.pos i

theorem surface_pos {d : ℕ} {size : Fin d → ℝ} (h : RealRoom size) : 0 < surface size := by
  refine Finset.sum_pos (fun k _ => wallArea_pos h k) ?_
  rcases h.dim with rfl | rfl
  · exact ⟨0, Finset.mem_univ _⟩
  · exact ⟨0, Finset.mem_univ _⟩

theorem wallArea_two (size : Fin 2 → ℝ) :
    wallArea size 0 = size 1 ∧ wallArea size 1 = size 1 ∧ wallArea size 2 = size 0 ∧ wallArea size 3 = size 0 := by
  refine ⟨?_, ?_, ?_, ?_⟩ <;> simp [wallArea, Finset.prod_filter, Fin.prod_univ_two]

theorem wallArea_three (size : Fin 3 → ℝ) :
    wallArea size 0 = size 1 * size 2 ∧ wallArea size 1 = size 1 * size 2 ∧
    wallArea size 2 = size 0 * size 2 ∧ wallArea size 3 = size 0 * size 2 ∧
    wallArea size 4 = size 0 * size 1 ∧ wallArea size 5 = size 0 * size 1 := by
  refine ⟨?_, ?_, ?_, ?_, ?_, ?_⟩ <;> simp [wallArea, Finset.prod_filter, Fin.prod_univ_three]

theorem sum_walls_two (f : Fin (2 * 2) → ℝ) : ∑ k, f k = f 0 + f 1 + f 2 + f 3 := Fin.sum_univ_four f

theorem sum_walls_three (f : Fin (2 * 3) → ℝ) : ∑ k, f k = f 0 + f 1 + f 2 + f 3 + f 4 + f 5 :=
  Fin.sum_univ_six f

theorem beta_formula {d : ℕ} {size : Fin d → ℝ} (h : RealRoom size) {t60 : ℝ} (ht : 0 < t60) :
    estimateBetaFromT60 (List.ofFn size) t60 = .ok (List.replicate (2 * d)
      (Real.sqrt (1 - min (0.161 * volume size / (t60 * surface size)) 0.999))) := by
  have hv := volume_pos h
  have hs := surface_pos h
  have hα : 0 ≤ 0.161 * volume size / (t60 * surface size) := by positivity
  have hmax : max 0 (min (0.161 * volume size / (t60 * surface size)) 0.999)
      = min (0.161 * volume size / (t60 * surface size)) 0.999 :=
    max_eq_right (le_min hα (by norm_num))
  rw [← hmax]
  unfold estimateBetaFromT60
  rw [if_neg (by linarith)]
  rcases h.dim with rfl | rfl
  · have e : surface size = 2 * (size 0 + size 1) * 1 := by
      obtain ⟨a, b, c, e⟩ := wallArea_two size
      unfold surface
      rw [sum_walls_two, a, b, c, e]
      ring
    have ev : volume size = size 0 * size 1 * 1 := by unfold volume; rw [Fin.prod_univ_two]; ring
    rw [e, ev]
    simp [List.ofFn_succ]
  · have e : surface size = 2 * (size 0 * size 1 + size 1 * size 2 + size 0 * size 2) := by
      obtain ⟨a, b, c, e, f, g⟩ := wallArea_three size
      unfold surface
      rw [sum_walls_three, a, b, c, e, f, g]
      ring
    have ev : volume size = size 0 * size 1 * size 2 := by unfold volume; rw [Fin.prod_univ_three]
    rw [e, ev]
    simp [List.ofFn_succ]

theorem t60_formula {d : ℕ} {size : Fin d → ℝ} (hd : d = 2 ∨ d = 3) (β : Fin (2 * d) → ℝ) :
    estimateT60FromBeta (List.ofFn size) (List.ofFn β)
      = .ok (if absorption size β ≤ 0 then none else some (sabine size (absorption size β))) := by
  rcases hd with rfl | rfl
  · have e : (List.zipWith (· * ·) [size 1 * 1, size 1 * 1, size 0 * 1, size 0 * 1]
        ((List.ofFn β).map fun b => 1 - b ^ 2)).sum = absorption size β := by
      obtain ⟨a, b, c, e⟩ := wallArea_two size
      unfold absorption
      rw [sum_walls_two, a, b, c, e]
      simp [List.ofFn_succ]
      ring
    have ev : volume size = size 0 * size 1 * 1 := by unfold volume; rw [Fin.prod_univ_two]; ring
    have hl : List.ofFn size = [size 0, size 1] := by simp [List.ofFn_succ]
    unfold estimateT60FromBeta sabine
    rw [hl]
    simp only
    rw [if_neg (by simp), e, ev]
    split <;> rfl
  · have e : (List.zipWith (· * ·) [size 1 * size 2, size 1 * size 2, size 0 * size 2, size 0 * size 2,
        size 0 * size 1, size 0 * size 1] ((List.ofFn β).map fun b => 1 - b ^ 2)).sum = absorption size β := by
      obtain ⟨a, b, c, e, f, g⟩ := wallArea_three size
      unfold absorption
      rw [sum_walls_three, a, b, c, e, f, g]
      simp [List.ofFn_succ]
      ring
    have ev : volume size = size 0 * size 1 * size 2 := by unfold volume; rw [Fin.prod_univ_three]
    have hl : List.ofFn size = [size 0, size 1, size 2] := by simp [List.ofFn_succ]
    unfold estimateT60FromBeta sabine
    rw [hl]
    simp only
    rw [if_neg (by simp), e, ev]
    split <;> rfl

/-- **C30.** The round trip returns `t60`, but never less than the time of a room whose walls absorb
99.9 % of the energy. -/
theorem C30_round_trip {d : ℕ} {size : Fin d → ℝ} (h : RealRoom size) {t60 : ℝ} (ht : 0 < t60) :
    ∃ β, estimateBetaFromT60 (List.ofFn size) t60 = .ok β ∧
      estimateT60FromBeta (List.ofFn size) β
        = .ok (some (max t60 (sabine size (0.999 * surface size)))) := by
  refine ⟨_, beta_formula h ht, ?_⟩
  have hv := volume_pos h
  have hs := surface_pos h
  set α := min (0.161 * volume size / (t60 * surface size)) 0.999 with hα
  have hα0 : 0 < α := lt_min (by positivity) (by norm_num)
  have hα1 : α ≤ 0.999 := min_le_right _ _
  rw [← List.ofFn_const, t60_formula h.dim]
  have habs : absorption size (fun _ => Real.sqrt (1 - α)) = surface size * α := by
    unfold absorption surface
    rw [Finset.sum_mul]
    refine Finset.sum_congr rfl fun k _ => ?_
    rw [Real.sq_sqrt (by linarith)]
    ring
  rw [habs, if_neg (not_le.mpr (by positivity))]
  congr 2
  unfold sabine
  rcases le_total (0.161 * volume size / (t60 * surface size)) 0.999 with hle | hle
  · have e : α = 0.161 * volume size / (t60 * surface size) := min_eq_left hle
    have : max t60 (0.161 * volume size / (0.999 * surface size)) = t60 := by
      apply max_eq_left
      rw [div_le_iff₀ (by positivity)] at hle ⊢
      linarith
    rw [this, e]
    field_simp
  · have e : α = 0.999 := min_eq_right hle
    have : max t60 (0.161 * volume size / (0.999 * surface size))
        = 0.161 * volume size / (0.999 * surface size) := by
      apply max_eq_right
      rw [le_div_iff₀ (by positivity)] at hle ⊢
      linarith
    rw [this, e, mul_comm (surface size)]

/-- **C30.** Exactly `t60` whenever the absorption it implies is below 0.999. -/
theorem C30_round_trip_exact {d : ℕ} {size : Fin d → ℝ} (h : RealRoom size) {t60 : ℝ} (ht : 0 < t60)
    (hα : 0.161 * volume size / (t60 * surface size) < 0.999) :
    ∃ β, estimateBetaFromT60 (List.ofFn size) t60 = .ok β ∧
      estimateT60FromBeta (List.ofFn size) β = .ok (some t60) := by
  obtain ⟨β, h1, h2⟩ := C30_round_trip h ht
  refine ⟨β, h1, ?_⟩
  rw [h2, max_eq_left]
  have hs := surface_pos h
  unfold sabine
  rw [div_lt_iff₀ (by positivity)] at hα
  rw [div_le_iff₀ (by positivity)]
  linarith

/-- **C30.** Non-positive times are rejected whatever the size. -/
theorem C30_nonpositive_rejected (size : List ℝ) {t60 : ℝ} (ht : t60 ≤ 0) :
    estimateBetaFromT60 size t60 = .error "t60 must be positive" := if_pos ht

/-- The room of the documentation. -/
example : ∃ β, estimateBetaFromT60 (List.ofFn ![6, 4, 3]) 0.4 = .ok β ∧
    estimateT60FromBeta (List.ofFn ![6, 4, 3]) β = .ok (some 0.4) := by
  refine C30_round_trip_exact ⟨Or.inr rfl, fun i => by fin_cases i <;> norm_num⟩ (by norm_num) ?_
  have e : surface (![6, 4, 3] : Fin 3 → ℝ) = 108 := by
    obtain ⟨a, b, c, e, f, g⟩ := wallArea_three ![6, 4, 3]
    unfold surface
    rw [sum_walls_three, a, b, c, e, f, g]
    simp
    norm_num
  have ev : volume (![6, 4, 3] : Fin 3 → ℝ) = 72 := by unfold volume; rw [Fin.prod_univ_three]; simp; norm_num
  rw [e, ev]
  norm_num

/-! ## C31 -/

/-- **C31.** `2d` equal coefficients in `[√0.001, 1)`. -/
theorem C31_beta_is_physical {d : ℕ} {size : Fin d → ℝ} (h : RealRoom size) {t60 : ℝ} (ht : 0 < t60) :
    ∃ b, estimateBetaFromT60 (List.ofFn size) t60 = .ok (List.replicate (2 * d) b) ∧
      Real.sqrt 0.001 ≤ b ∧ b < 1 := by
  have hv := volume_pos h
  have hs := surface_pos h
  refine ⟨_, beta_formula h ht, Real.sqrt_le_sqrt ?_, ?_⟩
  · have := min_le_right (0.161 * volume size / (t60 * surface size)) 0.999
    linarith
  · rw [Real.sqrt_lt' one_pos]
    have : 0 < min (0.161 * volume size / (t60 * surface size)) 0.999 := lt_min (by positivity) (by norm_num)
    linarith

/-- **C31.** The coefficients do not decrease with `t60`. -/
theorem C31_beta_monotone {d : ℕ} {size : Fin d → ℝ} (h : RealRoom size) {t t' : ℝ} (ht : 0 < t)
    (htt : t ≤ t') :
    ∃ b b', estimateBetaFromT60 (List.ofFn size) t = .ok (List.replicate (2 * d) b) ∧
      estimateBetaFromT60 (List.ofFn size) t' = .ok (List.replicate (2 * d) b') ∧ b ≤ b' := by
  have hv := volume_pos h
  have hs := surface_pos h
  have ht' : 0 < t' := lt_of_lt_of_le ht htt
  refine ⟨_, _, beta_formula h ht, beta_formula h ht', Real.sqrt_le_sqrt ?_⟩
  have : 0.161 * volume size / (t' * surface size) ≤ 0.161 * volume size / (t * surface size) := by
    gcongr
  have := min_le_min_right 0.999 this
  linarith

theorem absorption_nonneg {d : ℕ} {size : Fin d → ℝ} (h : RealRoom size) {β : Fin (2 * d) → ℝ}
    (hβ : ∀ k, 0 ≤ β k ∧ β k ≤ 1) : 0 ≤ absorption size β :=
  Finset.sum_nonneg fun k _ => mul_nonneg (wallArea_pos h k).le (by nlinarith [hβ k])

/-- **C31.** The time is infinite exactly when no wall absorbs, else given by Sabine's formula. -/
theorem C31_t60_formula {d : ℕ} {size : Fin d → ℝ} (h : RealRoom size) {β : Fin (2 * d) → ℝ}
    (hβ : ∀ k, 0 ≤ β k ∧ β k ≤ 1) :
    ((estimateT60FromBeta (List.ofFn size) (List.ofFn β) = .ok none) ↔ ∀ k, β k = 1) ∧
      ((∃ k, β k ≠ 1) → estimateT60FromBeta (List.ofFn size) (List.ofFn β)
        = .ok (some (sabine size (absorption size β)))) := by
  have key : absorption size β ≤ 0 ↔ ∀ k, β k = 1 := by
    rw [show absorption size β ≤ 0 ↔ absorption size β = 0 from
      ⟨fun h' => le_antisymm h' (absorption_nonneg h hβ), fun h' => h'.le⟩]
    unfold absorption
    rw [Finset.sum_eq_zero_iff_of_nonneg fun k _ => mul_nonneg (wallArea_pos h k).le (by nlinarith [hβ k])]
    refine ⟨fun h0 k => ?_, fun h0 k _ => by rw [h0 k]; ring⟩
    have := h0 k (Finset.mem_univ _)
    rcases mul_eq_zero.mp this with h1 | h1
    · exact absurd h1 (wallArea_pos h k).ne'
    · nlinarith [hβ k]
  rw [t60_formula h.dim]
  constructor
  · rw [← key]
    split <;> simp_all
  · rintro ⟨k, hk⟩
    rw [if_neg fun h0 => hk (key.mp h0 k)]

/-- **C31.** Any number of coefficients other than two per dimension is rejected, and so are rooms that
are neither 2-D nor 3-D. -/
theorem C31_wrong_count {size β : List ℝ} (h : ¬ (size.length = 2 ∧ β.length = 4 ∨ size.length = 3 ∧ β.length = 6)) :
    ∃ e, estimateT60FromBeta size β = .error e := by
  unfold estimateT60FromBeta
  split
  · rw [if_pos (fun e => h (Or.inl ⟨rfl, e⟩))]
    exact ⟨_, rfl⟩
  · rw [if_pos (fun e => h (Or.inr ⟨rfl, e⟩))]
    exact ⟨_, rfl⟩
  · exact ⟨_, rfl⟩

example : ∃ e, estimateT60FromBeta [6, 4, 3] (List.replicate 8 0.9) = .error e := C31_wrong_count (by simp)

/-- **C31.** Lowering coefficients never increases the time (`none` is infinite). -/
theorem C31_t60_monotone {d : ℕ} {size : Fin d → ℝ} (h : RealRoom size) {β β' : Fin (2 * d) → ℝ}
    (hβ : ∀ k, 0 ≤ β k) (hle : ∀ k, β k ≤ β' k) {t' : ℝ}
    (ht' : estimateT60FromBeta (List.ofFn size) (List.ofFn β') = .ok (some t')) :
    ∃ t, estimateT60FromBeta (List.ofFn size) (List.ofFn β) = .ok (some t) ∧ t ≤ t' := by
  rw [t60_formula h.dim] at ht'
  have habs : absorption size β' ≤ absorption size β :=
    Finset.sum_le_sum fun k _ => mul_le_mul_of_nonneg_left
      (by nlinarith [hβ k, hle k]) (wallArea_pos h k).le
  have hpos : 0 < absorption size β' := by
    by_contra h0
    rw [if_pos (not_lt.mp h0)] at ht'
    simp at ht'
  rw [if_neg (not_le.mpr hpos)] at ht'
  have e : sabine size (absorption size β') = t' := by simpa using ht'
  rw [t60_formula h.dim, if_neg (by linarith)]
  refine ⟨_, rfl, ?_⟩
  rw [← e]
  have hv := volume_pos h
  unfold sabine
  gcongr

/-- **C31.** Time to decay by `att` dB: proportional, 60 dB take `t60`; non-positive arguments are
rejected. -/
theorem C31_attenuation_time (att t60 : ℝ) :
    (0 < att ∧ 0 < t60 → attenuationDbToTimeSabine att t60 = .ok (att * t60 / 60)) ∧
    (¬ (0 < att ∧ 0 < t60) → ∃ e, attenuationDbToTimeSabine att t60 = .error e) := by
  unfold attenuationDbToTimeSabine
  constructor
  · rintro ⟨h1, h2⟩
    rw [if_neg (not_le.mpr h2), if_neg (not_le.mpr h1)]
    congr 1
    ring
  · intro h
    by_cases h1 : t60 ≤ 0
    · exact ⟨_, if_pos h1⟩
    · rw [if_neg h1, if_pos (by by_contra h2; exact h ⟨not_le.mp h2, not_le.mp h1⟩)]
      exact ⟨_, rfl⟩

/-- A 2-D room with one absorbing wall. -/
example : estimateT60FromBeta (List.ofFn ![2, 3]) (List.ofFn ![0, 1, 1, 1]) = .ok (some 0.322) := by
  have h : RealRoom (![2, 3] : Fin 2 → ℝ) := ⟨Or.inl rfl, fun i => by fin_cases i <;> norm_num⟩
  have := (C31_t60_formula (d := 2) h (β := ![0, 1, 1, 1]) (fun k => by fin_cases k <;> norm_num)).2 ⟨0, by simp⟩
  erw [this]
  unfold sabine volume absorption
  obtain ⟨a, b, c, e⟩ := wallArea_two ![2, 3]
  rw [sum_walls_two, Fin.prod_univ_two, a, b, c, e]
  rw [show (![0, 1, 1, 1] : Fin (2 * 2) → ℝ) 2 = 1 from rfl, show (![0, 1, 1, 1] : Fin (2 * 2) → ℝ) 3 = 1 from rfl]
  norm_num

end Torchrir.Props
