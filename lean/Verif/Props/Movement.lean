import Verif.Lemmas.Movement
import Verif.Props.Static

/-!
# C94: whole delays give single samples, small movements change the response a little
-/

namespace Torchrir.Props

open Torchrir.Model Torchrir.Spec Torchrir.Lemmas

theorem valid_kernel {cfg : Config} (hcfg : cfg.validate = .ok ()) :
    (∃ c : ℕ, cfg.fracDelayLength.toNat = 2 * c + 1 ∧ ((c : ℕ) : ℤ) = (cfg.fracDelayLength - 1) / 2) ∧
      0 < cfg.sincLutGranularity.toNat := by
  rw [Config.valid_iff] at hcfg
  obtain ⟨-, -, -, -, ⟨h1, h2⟩, h3, -⟩ := hcfg
  exact ⟨⟨((cfg.fracDelayLength - 1) / 2).toNat, by omega, by omega⟩, by omega⟩

theorem order_zero_images (d : ℕ) : (Selection.order (d := d) 0).images = {0} := by
  ext n
  rw [Selection.images, mem_orderSet, Finset.mem_singleton]
  constructor
  · intro h
    funext i
    have h1 := Finset.single_le_sum (f := fun i => |n i|) (fun i _ => abs_nonneg _) (Finset.mem_univ i)
    have h2 : |n i| ≤ 0 := h1.trans (by simpa using h)
    exact abs_nonpos_iff.mp h2
  · rintro rfl
    simp

theorem wallGain_origin {d : ℕ} (lo hi : Fin d → ℝ) : wallGain lo hi (0 : Fin d → ℤ) = 1 := by
  unfold wallGain
  simp [absorbed]

/-- **C94, whole delays.** A path whose delay is a whole number of samples puts a single sample into the response, half
the kernel length later; only the other paths are spread out. This holds with the table and without it. -/
theorem C94_whole_delays {d nS nM : ℕ} (hd : d = 2 ∨ d = 3) (hS : 0 < nS) (hM : 0 < nM)
    (w : World) (L lo hi : Fin d → ℝ) (fs c : ℝ) (hfs : 0 < fs) (hc : 0 < c)
    (sel : Selection d) (K : ℕ) (hK : 0 < K)
    (cfg : Config) (hcfg : cfg.validate = .ok ()) (hoff : cfg.rirHpfEnable = false)
    (src : Fin nS → Fin d → ℝ) (mic : Fin nM → Fin d → ℝ)
    (whole : Fin nS → Fin nM → Finset (Fin d → ℤ)) (delay : Fin nS → Fin nM → (Fin d → ℤ) → ℕ)
    (hsub : ∀ s m, whole s m ⊆ sel.images)
    (hwhole : ∀ s m, ∀ n ∈ whole s m, pathLength (mic m) (image L (src s) n) * fs / c = delay s m n) :
    simulateRir w (boxRoom L lo hi fs c) (points src) (points mic) (omniArgs sel K cfg)
      = .ok (tensor3 fun s m (k : Fin K) =>
          (∑ n ∈ whole s m, if ((k : ℕ) : ℤ) = delay s m n + (cfg.fracDelayLength - 1) / 2
            then wallGain lo hi n / pathLength (mic m) (image L (src s) n) else 0) +
          rir (setupFor w cfg L lo hi fs c) (sel.images \ whole s m) omni omni (src s) (mic m) k) := by
  obtain ⟨⟨q, hq, hq'⟩, hg⟩ := valid_kernel hcfg
  rw [C05_static_rir_formula hd hS hM w L lo hi fs c hfs hc sel K hK cfg hcfg hoff]
  congr 2
  funext s m k
  unfold rir
  rw [← Finset.sum_sdiff (hsub s m), add_comm]
  congr 1
  refine Finset.sum_congr rfl fun n hn => ?_
  simp only [setupFor, omni, mul_one]
  rw [hwhole s m n hn, hq, show ((delay s m n : ℕ) : ℝ) = ((delay s m n : ℤ) : ℝ) by push_cast; rfl,
    kernel_int (kernelShape_int _ hg), hq', mul_ite, mul_one, mul_zero]

/-- **C94, the direct sound.** With `max_order=0` and a source whose distance is a whole number of samples, the response
is one sample of height `1 / r`. -/
theorem C94_direct_sound {d : ℕ} (hd : d = 2 ∨ d = 3)
    (w : World) (L lo hi : Fin d → ℝ) (fs c : ℝ) (hfs : 0 < fs) (hc : 0 < c) (K : ℕ) (hK : 0 < K)
    (cfg : Config) (hcfg : cfg.validate = .ok ()) (hoff : cfg.rirHpfEnable = false)
    (src mic : Fin d → ℝ) (z : ℕ) (hz : 0 < z) (hfar : 1e-6 ≤ z * c / fs) (hdist : Spec.dist mic src = z * c / fs) :
    simulateRir w (boxRoom L lo hi fs c) (points fun _ : Fin 1 => src) (points fun _ : Fin 1 => mic)
        (omniArgs (d := d) (.order 0) K cfg)
      = .ok (tensor3 fun (_ _ : Fin 1) (k : Fin K) =>
          if ((k : ℕ) : ℤ) = z + (cfg.fracDelayLength - 1) / 2 then 1 / (z * c / fs) else 0) := by
  have e0 := order_zero_images d
  have er : pathLength mic (image L src 0) = z * c / fs := by
    unfold pathLength
    rw [image_zero, hdist, max_eq_left hfar]
  rw [C94_whole_delays hd one_pos one_pos w L lo hi fs c hfs hc (.order 0) K hK cfg hcfg hoff (fun _ => src)
    (fun _ => mic) (fun _ _ => {0}) (fun _ _ _ => z) (fun _ _ => by rw [e0])
    (fun _ _ n hn => by
      rw [Finset.mem_singleton.mp hn, er]
      field_simp)]
  congr 2
  funext s m k
  rw [e0, Finset.sum_singleton, er, wallGain_origin, Finset.sdiff_self]
  simp [rir]

/-- One path before and after a movement. -/
theorem path_change {h : ℝ → ℝ} {g : ℕ} {lut : Bool} (hg : 0 < g) (hh : h = kernelShape lut g) (q : ℕ) (a : ℝ)
    {r r' δ v : ℝ} (hr : 0 < r) (hr' : 0 < r') (hv : 0 < v) (hδ : |r' - r| ≤ δ) (k : ℕ) :
    |a / r' * kernel h (2 * q + 1) (r' * v) k - a / r * kernel h (2 * q + 1) (r * v) k| ≤
      |a| * ((Real.pi / 2 * (δ * v) + windowStep (2 * q + 1) * (|⌊r' * v⌋ - ⌊r * v⌋| : ℤ)) / r' + δ / (r * r')) := by
  subst hh
  have hk := kernel_change (kernelShape_int lut hg) (by positivity) (kernelShape_lipschitz lut hg) q (r * v) (r' * v) k
  have hb := kernel_bounded (kernelShape_bounded lut g) (2 * q + 1) (r * v) k
  set A := kernel (kernelShape lut g) (2 * q + 1) (r' * v) k
  set B := kernel (kernelShape lut g) (2 * q + 1) (r * v) k
  have e : a / r' * A - a / r * B = a * ((A - B) / r' + (r - r') / (r * r') * B) := by
    field_simp
    ring
  have h1 : |r' * v - r * v| ≤ δ * v := by
    rw [← sub_mul, abs_mul, abs_of_pos hv]
    gcongr
  rw [e, abs_mul]
  gcongr
  refine (abs_add_le _ _).trans ?_
  gcongr
  · rw [abs_div, abs_of_pos hr']
    gcongr
    refine hk.trans ?_
    gcongr
  · rw [abs_mul, abs_div, abs_of_pos (mul_pos hr hr'), abs_sub_comm]
    calc |r' - r| / (r * r') * |B| ≤ |r' - r| / (r * r') * 1 := by gcongr
      _ ≤ δ / (r * r') := by rw [mul_one]; gcongr

/-- **C94, movement.** If source and microphone move by `δ` metres together, every path changes by at most: `π / 2` per
sample of delay, one step of the window for every whole number of samples that the delay passes, and the change of
`1 / r`. -/
theorem C94_movement {d nS nM : ℕ} (hd : d = 2 ∨ d = 3) (hS : 0 < nS) (hM : 0 < nM)
    (w : World) (L lo hi : Fin d → ℝ) (fs c : ℝ) (hfs : 0 < fs) (hc : 0 < c)
    (sel : Selection d) (K : ℕ) (hK : 0 < K)
    (cfg : Config) (hcfg : cfg.validate = .ok ()) (hoff : cfg.rirHpfEnable = false)
    (src src' : Fin nS → Fin d → ℝ) (mic mic' : Fin nM → Fin d → ℝ) :
    ∃ f f' : Fin nS → Fin nM → Fin K → ℝ,
      simulateRir w (boxRoom L lo hi fs c) (points src) (points mic) (omniArgs sel K cfg) = .ok (tensor3 f) ∧
      simulateRir w (boxRoom L lo hi fs c) (points src') (points mic') (omniArgs sel K cfg) = .ok (tensor3 f') ∧
      ∀ s m k, |f' s m k - f s m k| ≤ ∑ n ∈ sel.images,
        let r := pathLength (mic m) (image L (src s) n)
        let r' := pathLength (mic' m) (image L (src' s) n)
        let δ := Spec.dist (src s) (src' s) + Spec.dist (mic m) (mic' m)
        |wallGain lo hi n| * ((Real.pi / 2 * (δ * fs / c) +
          windowStep cfg.fracDelayLength.toNat * (|⌊r' * fs / c⌋ - ⌊r * fs / c⌋| : ℤ)) / r' + δ / (r * r')) := by
  obtain ⟨⟨q, hq, -⟩, hg⟩ := valid_kernel hcfg
  refine ⟨_, _, C05_static_rir_formula hd hS hM w L lo hi fs c hfs hc sel K hK cfg hcfg hoff src mic,
    C05_static_rir_formula hd hS hM w L lo hi fs c hfs hc sel K hK cfg hcfg hoff src' mic', fun s m k => ?_⟩
  unfold rir
  rw [← Finset.sum_sub_distrib]
  refine (Finset.abs_sum_le_sum_abs _ _).trans (Finset.sum_le_sum fun n _ => ?_)
  simp only [setupFor, omni, mul_one]
  rw [hq, mul_div_assoc, mul_div_assoc, mul_div_assoc]
  exact path_change hg rfl q _ (pathLength_pos _ _) (pathLength_pos _ _) (div_pos hfs hc)
    (pathLength_change L _ _ _ _ n) k

theorem pos_lower {α : Type*} (A : Finset α) (f : α → ℝ) (hf : ∀ a ∈ A, 0 < f a) :
    ∃ ρ > 0, ∀ a ∈ A, ρ ≤ f a := by
  classical
  induction A using Finset.induction_on with
  | empty => exact ⟨1, one_pos, by simp⟩
  | insert a A _ ih =>
      obtain ⟨ρ, h0, h1⟩ := ih fun b hb => hf b (Finset.mem_insert_of_mem hb)
      refine ⟨min ρ (f a), lt_min h0 (hf a (Finset.mem_insert_self _ _)), fun b hb => ?_⟩
      rcases Finset.mem_insert.mp hb with rfl | hb
      · exact min_le_right _ _
      · exact (min_le_left _ _).trans (h1 b hb)

theorem floor_near {x : ℝ} (hx : ∀ z : ℤ, x ≠ z) : ∃ ρ > 0, ∀ y, |y - x| < ρ → ⌊y⌋ = ⌊x⌋ := by
  have h0 : (⌊x⌋ : ℝ) < x := lt_of_le_of_ne (Int.floor_le x) (hx _).symm
  have h1 := Int.lt_floor_add_one x
  refine ⟨min (x - ⌊x⌋) (⌊x⌋ + 1 - x), lt_min (by linarith) (by linarith), fun y hy => ?_⟩
  have := abs_lt.mp hy
  have a := min_le_left (x - ⌊x⌋) (⌊x⌋ + 1 - x)
  have b := min_le_right (x - ⌊x⌋) (⌊x⌋ + 1 - x)
  exact Int.floor_eq_iff.mpr ⟨by linarith, by linarith⟩

/-- **C94, continuity.** Where no path has a whole delay, the response depends continuously on the positions. -/
theorem C94_continuous {d nS nM : ℕ} (hd : d = 2 ∨ d = 3) (hS : 0 < nS) (hM : 0 < nM)
    (w : World) (L lo hi : Fin d → ℝ) (fs c : ℝ) (hfs : 0 < fs) (hc : 0 < c)
    (sel : Selection d) (K : ℕ) (hK : 0 < K)
    (cfg : Config) (hcfg : cfg.validate = .ok ()) (hoff : cfg.rirHpfEnable = false)
    (src : Fin nS → Fin d → ℝ) (mic : Fin nM → Fin d → ℝ)
    (hbetween : ∀ s m, ∀ n ∈ sel.images, ∀ z : ℤ, pathLength (mic m) (image L (src s) n) * fs / c ≠ z)
    (ε : ℝ) (hε : 0 < ε) :
    ∃ η > 0, ∀ (src' : Fin nS → Fin d → ℝ) (mic' : Fin nM → Fin d → ℝ),
      (∀ s, Spec.dist (src s) (src' s) < η) → (∀ m, Spec.dist (mic m) (mic' m) < η) →
      ∃ f f' : Fin nS → Fin nM → Fin K → ℝ,
        simulateRir w (boxRoom L lo hi fs c) (points src) (points mic) (omniArgs sel K cfg) = .ok (tensor3 f) ∧
        simulateRir w (boxRoom L lo hi fs c) (points src') (points mic') (omniArgs sel K cfg) = .ok (tensor3 f') ∧
        ∀ s m k, |f' s m k - f s m k| < ε := by
  have hv : 0 < fs / c := div_pos hfs hc
  have hfl : ∀ s m, ∀ n ∈ sel.images, ∃ ρ > 0, ∀ y, |y - pathLength (mic m) (image L (src s) n) * fs / c| < ρ →
      ⌊y⌋ = ⌊pathLength (mic m) (image L (src s) n) * fs / c⌋ := fun s m n hn => floor_near (hbetween s m n hn)
  choose! ρ hρ0 hρ using hfl
  obtain ⟨R, hR0, hR⟩ := pos_lower (Finset.univ ×ˢ Finset.univ ×ˢ sel.images)
    (fun p : Fin nS × Fin nM × (Fin d → ℤ) => ρ p.1 p.2.1 p.2.2) fun p hp => by
      simp only [Finset.mem_product, Finset.mem_univ, true_and] at hp
      exact hρ0 _ _ _ hp
  set C : ℝ := ∑ n ∈ sel.images, |wallGain lo hi n| * (Real.pi / 2 * (fs / c) * 1e6 + 1e12) with hC
  have hC0 : 0 ≤ C := Finset.sum_nonneg fun n _ => by positivity
  refine ⟨min (ε / (2 * (C + 1))) (R / (2 * (fs / c))), lt_min (by positivity) (by positivity),
    fun src' mic' hs hm => ?_⟩
  obtain ⟨f, f', h1, h2, h3⟩ := C94_movement hd hS hM w L lo hi fs c hfs hc sel K hK cfg hcfg hoff src src' mic mic'
  refine ⟨f, f', h1, h2, fun s m k => (h3 s m k).trans_lt ?_⟩
  have hs1 := (hs s).trans_le (min_le_left _ _)
  have hs2 := (hs s).trans_le (min_le_right _ _)
  have hm1 := (hm m).trans_le (min_le_left _ _)
  have hm2 := (hm m).trans_le (min_le_right _ _)
  set δ : ℝ := Spec.dist (src s) (src' s) + Spec.dist (mic m) (mic' m) with hδ
  have hδ0 : 0 ≤ δ := add_nonneg (Torchrir.Lemmas.dist_nonneg _ _) (Torchrir.Lemmas.dist_nonneg _ _)
  have hδ1 : δ < ε / (C + 1) := by
    have : ε / (C + 1) = ε / (2 * (C + 1)) + ε / (2 * (C + 1)) := by field_simp; ring
    linarith
  have hδ2 : δ * (fs / c) < R := by
    have : δ < R / (fs / c) := by
      have : R / (fs / c) = R / (2 * (fs / c)) + R / (2 * (fs / c)) := by field_simp; ring
      linarith
    rwa [lt_div_iff₀ hv] at this
  have hsum : (∑ n ∈ sel.images,
        let r := pathLength (mic m) (image L (src s) n)
        let r' := pathLength (mic' m) (image L (src' s) n)
        |wallGain lo hi n| * ((Real.pi / 2 * (δ * fs / c) +
          windowStep cfg.fracDelayLength.toNat * (|⌊r' * fs / c⌋ - ⌊r * fs / c⌋| : ℤ)) / r' + δ / (r * r')))
      ≤ δ * C := by
    rw [hC, Finset.mul_sum]
    refine Finset.sum_le_sum fun n hn => ?_
    simp only
    have hch := pathLength_change L (src s) (src' s) (mic m) (mic' m) n
    rw [← hδ] at hch
    rw [hρ s m n hn (pathLength (mic' m) (image L (src' s) n) * fs / c) (by
      rw [mul_div_assoc, mul_div_assoc, ← sub_mul, abs_mul, abs_of_pos hv]
      refine lt_of_le_of_lt (mul_le_mul_of_nonneg_right hch hv.le) (hδ2.trans_le ?_)
      exact hR (s, m, n) (by simpa using hn)), sub_self, abs_zero, Int.cast_zero, mul_zero, add_zero]
    have hr : (1e-6 : ℝ) ≤ pathLength (mic m) (image L (src s) n) := le_max_right _ _
    have hr' : (1e-6 : ℝ) ≤ pathLength (mic' m) (image L (src' s) n) := le_max_right _ _
    set r := pathLength (mic m) (image L (src s) n)
    set r' := pathLength (mic' m) (image L (src' s) n)
    calc |wallGain lo hi n| * (Real.pi / 2 * (δ * fs / c) / r' + δ / (r * r'))
        ≤ |wallGain lo hi n| * (Real.pi / 2 * (δ * fs / c) / 1e-6 + δ / (1e-6 * 1e-6)) := by
          gcongr
      _ = δ * (|wallGain lo hi n| * (Real.pi / 2 * (fs / c) * 1e6 + 1e12)) := by
          field_simp
          norm_num
          ring
  refine lt_of_le_of_lt hsum ?_
  rw [lt_div_iff₀ (by linarith)] at hδ1
  nlinarith

theorem windowStep_pos (c : ℕ) : 0 < windowStep (2 * c + 1) := by
  unfold windowStep
  split
  · exact one_pos
  · rename_i h
    have hc : (1 : ℝ) ≤ c := by exact_mod_cast (by omega : 1 ≤ c)
    have : 0 < Real.sin (Real.pi / (((2 * c + 1 : ℕ) : ℝ) - 1)) := by
      push_cast
      apply Real.sin_pos_of_pos_of_lt_pi
      · have := Real.pi_pos
        rw [add_sub_cancel_right]
        positivity
      · rw [add_sub_cancel_right, div_lt_iff₀ (by linarith)]
        nlinarith [Real.pi_pos]
    positivity

/-- **C94, the steps exist.** At a whole delay of the direct sound the response is not continuous: arbitrarily small
movements of the microphone towards the source lower the sample of the pulse by at least half a step of the window. -/
theorem C94_step {d : ℕ} (hd : d = 2 ∨ d = 3)
    (w : World) (L lo hi : Fin d → ℝ) (fs c : ℝ) (hfs : 0 < fs) (hc : 0 < c) (K : ℕ)
    (cfg : Config) (hcfg : cfg.validate = .ok ()) (hoff : cfg.rirHpfEnable = false)
    (src mic : Fin d → ℝ) (z : ℕ) (hfar : 1e-6 < z * c / fs) (hdist : Spec.dist mic src = z * c / fs)
    (k : Fin K) (hk : ((k : ℕ) : ℤ) = z + (cfg.fracDelayLength - 1) / 2) (η : ℝ) (hη : 0 < η) :
    ∃ mic' : Fin d → ℝ, Spec.dist mic mic' < η ∧ ∃ f f' : Fin 1 → Fin 1 → Fin K → ℝ,
      simulateRir w (boxRoom L lo hi fs c) (points fun _ : Fin 1 => src) (points fun _ : Fin 1 => mic)
        (omniArgs (d := d) (.order 0) K cfg) = .ok (tensor3 f) ∧
      simulateRir w (boxRoom L lo hi fs c) (points fun _ : Fin 1 => src) (points fun _ : Fin 1 => mic')
        (omniArgs (d := d) (.order 0) K cfg) = .ok (tensor3 f') ∧
      f' 0 0 k ≤ f 0 0 k - windowStep cfg.fracDelayLength.toNat / (2 * (z * c / fs)) := by
  obtain ⟨⟨q, hq, hq'⟩, hg⟩ := valid_kernel hcfg
  have hK : 0 < K := lt_of_le_of_lt (Nat.zero_le _) k.2
  have hz : 0 < z := by
    rcases Nat.eq_zero_or_pos z with h | h
    · rw [h] at hfar
      norm_num at hfar
    · exact h
  have hv : 0 < fs / c := div_pos hfs hc
  set r : ℝ := z * c / fs with hr
  have hr0 : 0 < r := lt_trans (by norm_num) hfar
  have hJ := windowStep_pos q
  -- how far to move
  obtain ⟨e, he0, heη, her, hev, heJ⟩ : ∃ e : ℝ, 0 < e ∧ e < η ∧ e ≤ r - 1e-6 ∧ e * (fs / c) < 1 ∧
      e ≤ windowStep (2 * q + 1) * r / 2 := by
    refine ⟨min (min (η / 2) (r - 1e-6)) (min (1 / (2 * (fs / c))) (windowStep (2 * q + 1) * r / 2)),
      lt_min (lt_min (by linarith) (by linarith)) (lt_min (by positivity) (by positivity)), ?_, ?_, ?_, ?_⟩
    · exact lt_of_le_of_lt ((min_le_left _ _).trans (min_le_left _ _)) (by linarith)
    · exact (min_le_left _ _).trans (min_le_right _ _)
    · have h1 : min (min (η / 2) (r - 1e-6)) (min (1 / (2 * (fs / c))) (windowStep (2 * q + 1) * r / 2)) ≤
        1 / (2 * (fs / c)) := (min_le_right _ _).trans (min_le_left _ _)
      calc _ ≤ 1 / (2 * (fs / c)) * (fs / c) := by gcongr
        _ = 1 / 2 := by field_simp
        _ < 1 := by norm_num
    · exact (min_le_right _ _).trans (min_le_right _ _)
  have hrr : e < r := lt_of_le_of_lt her (by linarith [show (0 : ℝ) < 1e-6 by norm_num])
  set mic' : Fin d → ℝ := fun i => mic i - e / r * (mic i - src i) with hmic'
  have hd0 : Spec.dist mic mic' = e := by
    have h1 : Spec.dist mic mic' = Spec.dist (fun i => e / r * mic i) (fun i => e / r * src i) := by
      unfold Spec.dist
      congr 1
      refine Finset.sum_congr rfl fun i _ => ?_
      rw [hmic']
      ring
    rw [h1, dist_scale (by positivity), hdist]
    field_simp
  have hd1 : Spec.dist mic' src = r - e := by
    have h1 : Spec.dist mic' src = Spec.dist (fun i => (1 - e / r) * mic i) (fun i => (1 - e / r) * src i) := by
      unfold Spec.dist
      congr 1
      refine Finset.sum_congr rfl fun i _ => ?_
      rw [hmic']
      ring
    rw [h1, dist_scale (by rw [sub_nonneg, div_le_one hr0]; exact hrr.le), hdist]
    field_simp
  refine ⟨mic', hd0.trans_lt heη, _, _, C94_direct_sound hd w L lo hi fs c hfs hc K hK cfg hcfg hoff src mic z hz
      hfar.le hdist,
    C05_static_rir_formula hd one_pos one_pos w L lo hi fs c hfs hc (.order 0) K hK cfg hcfg hoff _ _, ?_⟩
  rw [if_pos hk, order_zero_images]
  unfold rir
  rw [Finset.sum_singleton]
  simp only [setupFor, omni, mul_one]
  have er : pathLength mic' (image L src 0) = r - e := by
    unfold pathLength
    rw [image_zero, hd1, max_eq_left (by linarith)]
  rw [er, wallGain_origin, hq]
  have efl : ⌊(r - e) * fs / c⌋ = (z : ℤ) - 1 := by
    have h1 : (r - e) * fs / c = z - e * (fs / c) := by
      rw [hr]
      field_simp
    rw [h1, Int.floor_eq_iff]
    have := mul_pos he0 hv
    push_cast
    constructor <;> linarith
  have hker : kernel (kernelShape (cfg.useLut && w.device ≠ .mps) cfg.sincLutGranularity.toNat) (2 * q + 1)
      ((r - e) * fs / c) k ≤ 1 - windowStep (2 * q + 1) := by
    rw [windowStep_eq, sub_sub_cancel]
    unfold kernel
    rw [efl, hk, ← hq', show (z : ℤ) + q - (z - 1) = q + 1 by ring]
    by_cases hq1 : 1 ≤ q
    · rw [if_pos (by omega), if_pos hq1]
      push_cast
      exact mul_le_of_le_one_right (hann_nonneg _ _) (le_of_abs_le (kernelShape_bounded _ _ _))
    · rw [if_neg (by omega), if_neg hq1]
  have hre : 0 < r - e := by linarith
  calc 1 / (r - e) * kernel _ (2 * q + 1) ((r - e) * fs / c) k
      ≤ 1 / (r - e) * (1 - windowStep (2 * q + 1)) := by gcongr
    _ ≤ 1 / r - windowStep (2 * q + 1) / (2 * r) := by
        rw [one_div_mul_eq_div, div_le_iff₀ hre]
        have h1 : (1 / r - windowStep (2 * q + 1) / (2 * r)) * (r - e) =
            1 - windowStep (2 * q + 1) / 2 - e / r + windowStep (2 * q + 1) * e / (2 * r) := by
          field_simp
          ring
        rw [h1]
        have h2 : e / r ≤ windowStep (2 * q + 1) / 2 := by
          rw [div_le_iff₀ hr0]
          linarith
        have h3 : 0 ≤ windowStep (2 * q + 1) * e / (2 * r) := by positivity
        linarith

/-- A microphone one metre from the source, 100 samples at 34.3 kHz: one sample, at index 100 + 40. -/
example (w : World) :
    simulateRir w (boxRoom ![4, 5] ![0.5, 0.5] ![0.5, 0.5] 34300 343) (points fun _ : Fin 1 => ![1, 2])
        (points fun _ : Fin 1 => ![2, 2]) (omniArgs (d := 2) (.order 0) 200 { rirHpfEnable := false })
      = .ok (tensor3 fun (_ _ : Fin 1) (k : Fin 200) => if ((k : ℕ) : ℤ) = 140 then 1 else 0) := by
  rw [C94_direct_sound (Or.inl rfl) w _ _ _ 34300 343 (by norm_num) (by norm_num) 200 (by norm_num) _
    plainConfig_valid rfl ![1, 2] ![2, 2] 100 (by norm_num) (by norm_num)
    (by unfold Spec.dist; norm_num [Fin.sum_univ_two])]
  norm_num

/-- There the response has a step. -/
example (w : World) (η : ℝ) (hη : 0 < η) := C94_step (Or.inl rfl) w ![4, 5] ![0.5, 0.5] ![0.5, 0.5] 34300 343
  (by norm_num) (by norm_num) 200 { rirHpfEnable := false } plainConfig_valid rfl ![1, 2] ![2, 2] 100 (by norm_num)
  (by unfold Spec.dist; norm_num [Fin.sum_univ_two]) 140 (by norm_num) η hη

/-- Half a sample further away it has none. -/
example (w : World) (ε : ℝ) (hε : 0 < ε) := C94_continuous (Or.inl rfl) one_pos one_pos w ![4, 5] ![0.5, 0.5] ![0.5, 0.5]
  34300 343 (by norm_num) (by norm_num) (.order 0) 200 (by norm_num) { rirHpfEnable := false } plainConfig_valid rfl
  (fun _ => ![1, 2]) (fun _ => ![2.005, 2]) (fun _ _ n hn z h => by
    rw [order_zero_images, Finset.mem_singleton] at hn
    have e : pathLength ![2.005, 2] (image ![4, 5] ![1, 2] n) = 1.005 := by
      rw [hn, image_zero]
      unfold pathLength Spec.dist
      rw [Fin.sum_univ_two]
      norm_num
      rw [show (40401 : ℝ) = 201 ^ 2 by norm_num, show (40000 : ℝ) = 200 ^ 2 by norm_num, Real.sqrt_sq (by norm_num),
        Real.sqrt_sq (by norm_num)]
      norm_num
    rw [e] at h
    have h2 : (201 : ℝ) = ((2 * z : ℤ) : ℝ) := by push_cast; rw [← h]; norm_num
    have h3 : (201 : ℤ) = 2 * z := by exact_mod_cast h2
    omega) ε hε

end Torchrir.Props
