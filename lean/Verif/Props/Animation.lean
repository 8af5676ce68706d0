import Verif.Model.Animation
import Verif.Lemmas.Ism
import Mathlib.Tactic.Linarith
import Mathlib.Tactic.Ring
import Mathlib.Tactic.NormNum

/-!
# Animation frames (C71)
-/

namespace Torchrir.Props

open Torchrir.Model Torchrir.Lemmas

/-- The number of time steps of the scene that is animated. -/
def StepsOf (src mic : Option ℕ) (steps : ℕ) : Prop := src = some steps ∨ src = none ∧ mic = some steps

theorem animation_ok {src mic : Option ℕ} {step : ℤ} {fps : Option ℝ} {signalLen : Option ℕ}
    {fs duration : Option ℝ} {indices : List ℤ} {rate : ℤ}
    (h : animation src mic step fps signalLen fs duration = .ok (indices, rate)) :
    ∃ steps frames d, StepsOf src mic steps ∧ 1 ≤ steps ∧ frameCount steps step = .ok frames ∧
      animationDuration duration signalLen fs = .ok d ∧
      indices = (List.range frames.toNat).map (frameIndex steps step) ∧
      rate = max 1 (roundHalfEven (animationFps fps frames d)) ∧ ∀ i ∈ indices, ∀ n, mic = some n → i < n := by
  unfold animation at h
  rw [bind_eq_ok] at h
  obtain ⟨steps, h1, h⟩ := h
  rw [bind_eq_ok] at h
  obtain ⟨d, h2, h⟩ := h
  rw [bind_eq_ok] at h
  obtain ⟨frames, h3, h⟩ := h
  dsimp only at h
  rw [raiseIf_bind_ok, raiseIf_bind_ok] at h
  obtain ⟨h4, h5, h⟩ := h
  cases h
  refine ⟨steps, frames, d, ?_, by omega, h3, h2, rfl, rfl, fun i hi n hn => ?_⟩
  · unfold animationSteps at h1
    unfold StepsOf
    cases src <;> cases mic <;> simp_all
  · by_contra hc
    exact h5 ⟨i, hi, by simpa [hn] using hc⟩

/-- With a positive step the frames show the steps `0, step, 2 step, …`, and the next one would be outside. -/
theorem frames_eq {steps : ℕ} {step frames : ℤ} (hs : 1 ≤ steps) (hp : 0 < step)
    (h : frameCount steps step = .ok frames) :
    1 ≤ frames ∧ (frames - 1) * step ≤ steps - 1 ∧ (steps : ℤ) - 1 < frames * step ∧
      (List.range frames.toNat).map (frameIndex steps step) =
        (List.range frames.toNat).map fun (i : ℕ) => (i : ℤ) * step := by
  unfold frameCount at h
  rw [if_neg hp.ne'] at h
  cases h
  rw [Int.fdiv_eq_ediv_of_nonneg _ hp.le]
  have h1 := Int.ediv_mul_le ((steps : ℤ) + step - 1) hp.ne'
  have h2 := Int.lt_ediv_add_one_mul_self ((steps : ℤ) + step - 1) hp
  have hq : 1 ≤ ((steps : ℤ) + step - 1) / step := by
    rw [Int.le_ediv_iff_mul_le hp]
    omega
  rw [max_eq_right hq]
  set n := ((steps : ℤ) + step - 1) / step
  have h3 : (n - 1) * step ≤ steps - 1 := by linarith [sub_one_mul n step]
  refine ⟨hq, h3, by linarith [add_one_mul n step], List.map_congr_left fun i hi => ?_⟩
  have hi' : (i : ℤ) ≤ n - 1 := by
    have := List.mem_range.mp hi
    omega
  unfold frameIndex
  exact min_eq_left (le_trans (mul_le_mul_of_nonneg_right hi' hp.le) h3)

/-- **C71.** The frames of an animation with a positive step start at step 0, their steps increase by exactly
`step`, all of them exist, and fewer than `step` steps follow the last one; the frame rate is at
least 1. Missing: the last frame shows the last step, which holds exactly if `step` divides the
number of steps minus one. -/
theorem C71_frames_partial (src mic : Option ℕ) (step : ℤ) (hstep : 1 ≤ step) (fps : Option ℝ)
    (signalLen : Option ℕ) (fs duration : Option ℝ) (indices : List ℤ) (rate : ℤ)
    (h : animation src mic step fps signalLen fs duration = .ok (indices, rate)) :
    ∃ steps : ℕ, StepsOf src mic steps ∧
      (∀ i ∈ indices, 0 ≤ i ∧ i < steps ∧ ∀ n, mic = some n → i < n) ∧
      indices.Pairwise (· < ·) ∧
      indices.IsChain (fun i j => j = i + step) ∧
      (∃ hne : indices ≠ [], indices.head hne = 0 ∧ (steps : ℤ) - 1 - indices.getLast hne < step ∧
        (indices.getLast hne = steps - 1 ↔ step ∣ steps - 1)) ∧
      1 ≤ rate := by
  obtain ⟨steps, frames, d, hst, h1, hf, -, hi, hr, hm⟩ := animation_ok h
  obtain ⟨f1, f2, f3, f4⟩ := frames_eq h1 (by omega) hf
  rw [f4] at hi
  have hpos : 0 < step := by omega
  obtain ⟨n, rfl⟩ : ∃ n : ℕ, frames = n + 1 := ⟨(frames - 1).toNat, by omega⟩
  have hn : ((n : ℤ) + 1).toNat = n + 1 := by omega
  rw [hn] at hi
  have hne : indices ≠ [] := by rw [hi]; simp
  have hlast : indices.getLast hne = n * step := by
    simp [hi]
  refine ⟨steps, hst, fun i hmem => ⟨?_, ?_, hm i hmem⟩, ?_, ?_, ⟨hne, ?_, ?_, ?_⟩, by rw [hr]; exact le_max_left _ _⟩
  · rw [hi] at hmem
    obtain ⟨k, -, rfl⟩ := List.mem_map.mp hmem
    positivity
  · rw [hi] at hmem
    obtain ⟨k, hk, rfl⟩ := List.mem_map.mp hmem
    have hk' : (k : ℤ) ≤ (n : ℤ) + 1 - 1 := by
      have := List.mem_range.mp hk
      omega
    have := mul_le_mul_of_nonneg_right hk' hpos.le
    omega
  · rw [hi, List.pairwise_map]
    exact List.pairwise_lt_range.imp fun hab => mul_lt_mul_of_pos_right (by exact_mod_cast hab) hpos
  · rw [hi, List.isChain_iff_getElem]
    intro i hlt
    simp only [List.getElem_map, List.getElem_range]
    push_cast
    exact add_one_mul (i : ℤ) step
  · simp [hi, List.head_map]
  · rw [hlast]
    linarith [add_one_mul (n : ℤ) step]
  · rw [hlast]
    constructor
    · intro he
      exact ⟨n, by rw [← he, mul_comm]⟩
    · rintro ⟨k, hk⟩
      have h2 : (n : ℤ) ≤ k := by
        have : (n : ℤ) * step ≤ k * step := by rw [mul_comm k, ← hk]; simpa using f2
        exact le_of_mul_le_mul_right this hpos
      have h3 : k < n + 1 := by
        have : k * step < (n + 1) * step := by rw [mul_comm k, ← hk]; exact f3
        exact lt_of_mul_lt_mul_right this hpos.le
      obtain rfl : k = n := by omega
      rw [hk, mul_comm]

/-- **C71 fails for the last step.** Ten steps shown with step 4: the last frame shows step 8. -/
theorem C71_last_step_fails :
    ∃ indices rate, animation (some 10) none 4 = .ok (indices, rate) ∧ indices.getLast? = some 8 :=
  ⟨[0, 4, 8], _, rfl, rfl⟩

theorem roundHalfEven_near (x : ℝ) : |(roundHalfEven x : ℝ) - x| ≤ 1 / 2 := by
  have h1 := Int.floor_add_fract x
  have h2 := Int.fract_nonneg x
  have h3 := Int.fract_lt_one x
  unfold roundHalfEven
  rw [abs_le]
  split_ifs with ha hb hc
  · constructor <;> linarith
  · push_cast
    constructor <;> linarith
  · have : Int.fract x = 1 / 2 := le_antisymm (not_lt.mp hb) (not_lt.mp ha)
    constructor <;> linarith
  · have : Int.fract x = 1 / 2 := le_antisymm (not_lt.mp hb) (not_lt.mp ha)
    push_cast
    constructor <;> linarith

/-- **C71.** The frame rate is the integer nearest to the rate that was asked for, or, without one, to the
number of frames over the duration, or to 6 without a duration; and 1 if that integer is smaller. -/
theorem C71_frame_rate (src mic : Option ℕ) (step : ℤ) (fps : Option ℝ) (signalLen : Option ℕ)
    (fs duration : Option ℝ) (indices : List ℤ) (rate : ℤ)
    (h : animation src mic step fps signalLen fs duration = .ok (indices, rate)) :
    ∃ wanted : ℝ, (rate = 1 ∧ wanted ≤ 3 / 2 ∨ |(rate : ℝ) - wanted| ≤ 1 / 2) ∧
      (∀ f, fps = some f → 0 < f → wanted = f) ∧
      (fps = none → ∀ d, duration = some d → 0 < d → wanted = indices.length / d) ∧
      (fps = none → duration = none → ∀ n f, signalLen = some n → 0 < n → fs = some f → 0 < f →
        wanted = indices.length / (n / f)) ∧
      (fps = none → duration = none → signalLen = none → wanted = 6) := by
  obtain ⟨steps, frames, d, hst, h1, hf, hd, hi, hr, -⟩ := animation_ok h
  have hlen : (indices.length : ℝ) = frames := by
    have hpos : 1 ≤ frames := by
      unfold frameCount at hf
      split_ifs at hf
      cases hf
      exact le_max_left _ _
    rw [hi]
    simp only [List.length_map, List.length_range]
    have : ((frames.toNat : ℤ) : ℝ) = frames := by rw [Int.toNat_of_nonneg (by omega)]
    exact_mod_cast this
  refine ⟨animationFps fps frames d, ?_, ?_, ?_, ?_, ?_⟩
  · have := roundHalfEven_near (animationFps fps frames d)
    by_cases hc : roundHalfEven (animationFps fps frames d) ≤ 1
    · left
      refine ⟨by rw [hr, max_eq_left hc], ?_⟩
      rw [abs_le] at this
      have hc' : (roundHalfEven (animationFps fps frames d) : ℝ) ≤ 1 := by exact_mod_cast hc
      linarith [this.1]
    · right
      rw [hr, max_eq_right (by omega)]
      exact this
  · rintro f rfl hf0
    simp [animationFps, hf0]
  · rintro rfl d' rfl hd0
    cases hd
    simp [animationFps, animationFps.derived, hd0, hlen]
  · rintro rfl rfl n f rfl hn rfl hf0
    simp only [animationDuration, if_neg hf0.ne'] at hd
    cases hd
    have : (0 : ℝ) < n / f := div_pos (by exact_mod_cast hn) hf0
    simp [animationFps, animationFps.derived, this, hlen]
  · rintro rfl rfl rfl
    simp only [animationDuration] at hd
    cases hd
    rfl

/-- A step of zero or an empty trajectory is an error; a negative step gives a single frame. -/
theorem C71_other_steps (src mic : Option ℕ) (step : ℤ) (fps : Option ℝ) (signalLen : Option ℕ)
    (fs duration : Option ℝ) (indices : List ℤ) (rate : ℤ)
    (h : animation src mic step fps signalLen fs duration = .ok (indices, rate)) :
    step ≠ 0 ∧ (step < 0 → indices = [0]) := by
  obtain ⟨steps, frames, d, hst, h1, hf, hd, hi, hr, -⟩ := animation_ok h
  unfold frameCount at hf
  split_ifs at hf with h0
  refine ⟨h0, fun hneg => ?_⟩
  cases hf
  have : ((steps : ℤ) + step - 1).fdiv step ≤ 1 := by
    rw [← Int.neg_fdiv_neg, Int.fdiv_eq_ediv_of_nonneg _ (by omega)]
    refine Int.ediv_le_of_le_mul (by omega) ?_
    omega
  rw [max_eq_left this] at hi
  rw [hi]
  simp [frameIndex]
  omega

example : ∃ rate, animation (some 9) (some 9) 4 (signalLen := some 32000) (fs := some 16000) = .ok ([0, 4, 8], rate) ∧
    |(rate : ℝ) - 3 / 2| ≤ 1 / 2 := by
  have hok : animation (some 9) (some 9) 4 (signalLen := some 32000) (fs := some 16000) =
      .ok ([0, 4, 8], max 1 (roundHalfEven (animationFps none 3 (some (((32000 : ℕ) : ℝ) / 16000))))) := by
    unfold animation
    have hd : animationDuration none (some 32000) (some 16000) = .ok (some (((32000 : ℕ) : ℝ) / 16000)) := by
      simp [animationDuration]
    rw [hd]
    rfl
  refine ⟨_, hok, ?_⟩
  obtain ⟨w, hw, -, -, h4, -⟩ := C71_frame_rate _ _ _ _ _ _ _ _ _ hok
  have := h4 rfl rfl 32000 16000 rfl (by norm_num) rfl (by norm_num)
  norm_num at this
  rcases hw with ⟨h1, -⟩ | hw
  · rw [h1]
    norm_num [abs_le]
  · rw [this] at hw
    exact hw

end Torchrir.Props
