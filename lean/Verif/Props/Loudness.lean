import Verif.Props.FirstOrderMoving
import Verif.Props.Convolver
import Verif.Props.Movement
import Verif.Lemmas.FloatGain
import Verif.Lemmas.Movement

/-!
# C149: how loud the sound at a microphone can become
-/

namespace Torchrir.Props

open Torchrir.Model Torchrir.Spec Torchrir.Lemmas

namespace Loudness

theorem once {N : ℕ} (i k : ℕ) {c : ℝ} (hc : 0 ≤ c) : ∑ j : Fin N, (if (j : ℕ) + i = k then c else 0) ≤ c := by
  rw [← Finset.sum_filter, Finset.sum_const, nsmul_eq_mul]
  have h : ((Finset.univ.filter fun j : Fin N => (j : ℕ) + i = k).card : ℝ) ≤ 1 := by
    have : (Finset.univ.filter fun j : Fin N => (j : ℕ) + i = k).card ≤ 1 := by
      rw [Finset.card_le_one]
      intro a ha b hb
      have h1 := (Finset.mem_filter.mp ha).2
      have h2 := (Finset.mem_filter.mp hb).2
      exact Fin.ext (by omega)
    exact_mod_cast this
  nlinarith

theorem peak {S M N L T : ℕ} (x : Fin S → Fin N → ℝ) (h : Fin T → Fin S → Fin M → Fin L → ℝ) (step : Fin N → Fin T)
    {X : Fin S → ℝ} (hX : ∀ s, 0 ≤ X s) (hx : ∀ s j, |x s j| ≤ X s) {H : Fin S → Fin M → Fin L → ℝ}
    (hH : ∀ t s m i, |h t s m i| ≤ H s m i) (hH0 : ∀ s m i, 0 ≤ H s m i) (m : Fin M) (k : ℕ) :
    |mixVarying x h step m k| ≤ ∑ s, X s * ∑ i, H s m i := by
  unfold mixVarying
  refine (Finset.abs_sum_le_sum_abs _ _).trans (Finset.sum_le_sum fun s _ => ?_)
  calc |∑ j : Fin N, ∑ i : Fin L, if (j : ℕ) + i = k then x s j * h (step j) s m i else 0|
      ≤ ∑ j : Fin N, ∑ i : Fin L, if (j : ℕ) + i = k then X s * H s m i else 0 := by
        refine (Finset.abs_sum_le_sum_abs _ _).trans (Finset.sum_le_sum fun j _ => ?_)
        refine (Finset.abs_sum_le_sum_abs _ _).trans (Finset.sum_le_sum fun i _ => ?_)
        split_ifs
        · rw [abs_mul]
          exact mul_le_mul (hx s j) (hH _ s m i) (abs_nonneg _) (hX s)
        · simp
    _ = ∑ i : Fin L, ∑ j : Fin N, if (j : ℕ) + i = k then X s * H s m i else 0 := Finset.sum_comm
    _ ≤ ∑ i : Fin L, X s * H s m i := Finset.sum_le_sum fun i _ => once _ _ (mul_nonneg (hX s) (hH0 s m i))
    _ = X s * ∑ i, H s m i := (Finset.mul_sum _ _ _).symm

theorem total {S M N L T : ℕ} (x : Fin S → Fin N → ℝ) (h : Fin T → Fin S → Fin M → Fin L → ℝ) (step : Fin N → Fin T)
    {B : Fin S → Fin M → ℝ} (hB : ∀ t s m, ∑ i, |h t s m i| ≤ B s m) (m : Fin M) (len : ℕ) :
    ∑ k ∈ Finset.range len, |mixVarying x h step m k| ≤ ∑ s, (∑ j, |x s j|) * B s m := by
  have one : ∀ (n len : ℕ) {c : ℝ}, 0 ≤ c → ∑ k ∈ Finset.range len, (if n = k then c else 0) ≤ c := by
    intro n len c hc
    rw [Finset.sum_ite_eq]
    split_ifs <;> simp [hc]
  calc ∑ k ∈ Finset.range len, |mixVarying x h step m k|
      ≤ ∑ k ∈ Finset.range len, ∑ s, ∑ j : Fin N, ∑ i : Fin L, (if (j : ℕ) + i = k then |x s j| * |h (step j) s m i| else 0) := by
        refine Finset.sum_le_sum fun k _ => ?_
        unfold mixVarying
        refine (Finset.abs_sum_le_sum_abs _ _).trans (Finset.sum_le_sum fun s _ => ?_)
        refine (Finset.abs_sum_le_sum_abs _ _).trans (Finset.sum_le_sum fun j _ => ?_)
        refine (Finset.abs_sum_le_sum_abs _ _).trans (Finset.sum_le_sum fun i _ => ?_)
        split_ifs
        · rw [abs_mul]
        · simp
    _ = ∑ s, ∑ j : Fin N, ∑ i : Fin L, ∑ k ∈ Finset.range len, (if (j : ℕ) + i = k then |x s j| * |h (step j) s m i| else 0) := by
        rw [Finset.sum_comm]
        refine Finset.sum_congr rfl fun s _ => ?_
        rw [Finset.sum_comm]
        refine Finset.sum_congr rfl fun j _ => ?_
        rw [Finset.sum_comm]
    _ ≤ ∑ s, ∑ j : Fin N, ∑ i : Fin L, |x s j| * |h (step j) s m i| :=
        Finset.sum_le_sum fun s _ => Finset.sum_le_sum fun j _ => Finset.sum_le_sum fun i _ =>
          one _ _ (mul_nonneg (abs_nonneg _) (abs_nonneg _))
    _ ≤ ∑ s, (∑ j, |x s j|) * B s m := by
        refine Finset.sum_le_sum fun s _ => ?_
        rw [Finset.sum_mul]
        refine Finset.sum_le_sum fun j _ => ?_
        rw [← Finset.mul_sum]
        exact mul_le_mul_of_nonneg_left (hB _ s m) (abs_nonneg _)

theorem kernel_total {h : ℝ → ℝ} (hh : ∀ x, |h x| ≤ 1) (fdl K : ℕ) (τ : ℝ) : ∑ k : Fin K, |kernel h fdl τ k| ≤ fdl := by
  have h1 : ∀ k : Fin K, |kernel h fdl τ k| ≤ if 0 ≤ ((k : ℕ) : ℤ) - ⌊τ⌋ ∧ ((k : ℕ) : ℤ) - ⌊τ⌋ < fdl then 1 else 0 := by
    intro k
    unfold kernel
    split_ifs
    · rw [abs_mul, abs_of_nonneg (hann_nonneg _ _)]
      exact mul_le_one₀ (hann_le_one _ _) (abs_nonneg _) (hh _)
    · simp
  refine (Finset.sum_le_sum fun k _ => h1 k).trans ?_
  rw [← Finset.sum_filter, Finset.sum_const, nsmul_eq_mul, mul_one]
  have : (Finset.univ.filter fun k : Fin K => 0 ≤ ((k : ℕ) : ℤ) - ⌊τ⌋ ∧ ((k : ℕ) : ℤ) - ⌊τ⌋ < fdl).card ≤
      (Finset.Ico ⌊τ⌋ (⌊τ⌋ + fdl)).card := by
    refine Finset.card_le_card_of_injOn (fun k => ((k : ℕ) : ℤ)) (fun k hk => ?_) (fun a _ b _ h => ?_)
    · have := (Finset.mem_filter.mp hk).2
      exact Finset.mem_coe.mpr (Finset.mem_Ico.mpr ⟨by dsimp only; omega, by dsimp only; omega⟩)
    · exact Fin.ext (by simpa using h)
  rw [Int.card_Ico] at this
  have h2 : (⌊τ⌋ + (fdl : ℤ) - ⌊τ⌋).toNat = fdl := by omega
  rw [h2] at this
  exact_mod_cast this

theorem rir_total {d : ℕ} (S : Setup d) (hh : ∀ x, |S.shape x| ≤ 1) (A : Finset (Fin d → ℤ)) {gs gm : (Fin d → ℝ) → ℝ}
    (hgs : ∀ v, |gs v| ≤ 1) (hgm : ∀ v, |gm v| ≤ 1) (x y : Fin d → ℝ) (K : ℕ) :
    ∑ k : Fin K, |rir S A gs gm x y k| ≤ S.fdl * ∑ n ∈ A, |wallGain S.lo S.hi n| / pathLength y (image S.L x n) := by
  have hp : ∀ n, 0 < pathLength y (image S.L x n) := fun n => lt_of_lt_of_le (by norm_num) (le_max_right _ _)
  calc ∑ k : Fin K, |rir S A gs gm x y k|
      ≤ ∑ k : Fin K, ∑ n ∈ A, |wallGain S.lo S.hi n| / pathLength y (image S.L x n) *
          |kernel S.shape S.fdl (pathLength y (image S.L x n) * S.fs / S.c) k| := by
        refine Finset.sum_le_sum fun k _ => ?_
        unfold rir
        refine (Finset.abs_sum_le_sum_abs _ _).trans (Finset.sum_le_sum fun n _ => ?_)
        dsimp only
        rw [abs_mul, abs_div, abs_mul, abs_mul, abs_of_pos (hp n)]
        refine mul_le_mul_of_nonneg_right ?_ (abs_nonneg _)
        refine div_le_div_of_nonneg_right ?_ (hp n).le
        rw [mul_assoc]
        exact mul_le_of_le_one_right (abs_nonneg _) (mul_le_one₀ (hgs _) (abs_nonneg _) (hgm _))
    _ = ∑ n ∈ A, |wallGain S.lo S.hi n| / pathLength y (image S.L x n) *
          ∑ k : Fin K, |kernel S.shape S.fdl (pathLength y (image S.L x n) * S.fs / S.c) k| := by
        rw [Finset.sum_comm]
        exact Finset.sum_congr rfl fun n _ => (Finset.mul_sum _ _ _).symm
    _ ≤ ∑ n ∈ A, |wallGain S.lo S.hi n| / pathLength y (image S.L x n) * S.fdl :=
        Finset.sum_le_sum fun n _ => mul_le_mul_of_nonneg_left (kernel_total hh _ _ _) (div_nonneg (abs_nonneg _) (hp n).le)
    _ = S.fdl * ∑ n ∈ A, |wallGain S.lo S.hi n| / pathLength y (image S.L x n) := by
        rw [← Finset.sum_mul, mul_comm]

theorem mix_peak {S M N L : ℕ} (x : Fin S → Fin N → ℝ) (h : Fin S → Fin M → Fin L → ℝ) {X : Fin S → ℝ} (hX : ∀ s, 0 ≤ X s)
    (hx : ∀ s j, |x s j| ≤ X s) (m : Fin M) (k : ℕ) : |mix x h m k| ≤ ∑ s, X s * ∑ i, |h s m i| := by
  have := peak x (fun _ : Fin 1 => h) (fun _ => 0) hX hx (H := fun s m i => |h s m i|) (fun _ _ _ _ => le_rfl)
    (fun _ _ _ => abs_nonneg _) m k
  exact this

end Loudness

/-! ## C149 -/

/-- **C149, peak.** Static, trajectory mode and hop mode: if the samples of source `s` are at most `X s` and the responses
of all steps stay below `H`, then no sample at a microphone is above the sum over the sources of `X s` times the sum of
`H`. -/
theorem C149_peak {T S M N L : ℕ} {c : Convolver} (hc : Usable T N c) (dev : DeviceType)
    (h : Fin T → Fin S → Fin M → Fin L → ℝ) {rirs : Tensor ℝ} (hr : DynamicRirsAre rirs h) (hT : 1 ≤ T)
    (hL : 1 ≤ L) (x : Fin S → Fin N → ℝ) (X : Fin S → ℝ) (hX : ∀ s, 0 ≤ X s) (hx : ∀ s j, |x s j| ≤ X s) :
    (∀ H : Fin S → Fin M → Fin L → ℝ, (∀ t s m i, |h t s m i| ≤ H s m i) →
      ∃ (len : ℕ) (y : Fin M → ℕ → ℝ), c.convolve dev (tensor2 x) rirs = .ok (micTensor len y) ∧
        ∀ m k, |y m k| ≤ ∑ s, X s * ∑ i, H s m i) ∧
    ∀ t, ∃ y : Fin M → ℕ → ℝ, convolveRir (tensor2 x) (tensor3 (h t)) = .ok (micTensor (N + L - 1) y) ∧
      ∀ m k, |y m k| ≤ ∑ s, X s * ∑ i, |h t s m i| := by
  obtain ⟨len, N', hN, step, hf⟩ := convolver_formula hc dev h hr hT hL
  refine ⟨fun H hH => ⟨len, _, hf x _ (Or.inl rfl), fun m k => ?_⟩, fun t =>
    ⟨_, C23_convolve_rir_formula x (h t) (Or.inl rfl) (Or.inl rfl) (by omega), fun m k => Loudness.mix_peak x (h t) hX hx m k⟩⟩
  exact Loudness.peak _ h step hX (fun s j => hx s _) hH (fun s m i => (abs_nonneg _).trans (hH ⟨0, hT⟩ s m i)) m k

/-- **C149, the peak is reached.** For every response and microphone there are signals between -1 and 1 for which a sample
at this microphone is the sum of the magnitudes of the responses. -/
theorem C149_peak_reached {S M L : ℕ} (h : Fin S → Fin M → Fin L → ℝ) (hL : 1 ≤ L) (m : Fin M) :
    ∃ (x : Fin S → Fin L → ℝ) (y : Fin M → ℕ → ℝ), (∀ s j, |x s j| ≤ 1) ∧
      convolveRir (tensor2 x) (tensor3 h) = .ok (micTensor (L + L - 1) y) ∧ y m (L - 1) = ∑ s, ∑ i, |h s m i| := by
  refine ⟨fun s j => SignType.sign (h s m j.rev), _, fun s j => ?_,
    C23_convolve_rir_formula _ h (Or.inl rfl) (Or.inl rfl) (by omega), ?_⟩
  · rcases lt_trichotomy (h s m j.rev) 0 with h0 | h0 | h0
    · simp [sign_neg h0]
    · simp [h0]
    · simp [sign_pos h0]
  · unfold mix conv
    refine Finset.sum_congr rfl fun s _ => ?_
    rw [← Equiv.sum_comp Fin.revPerm]
    refine Finset.sum_congr rfl fun j _ => ?_
    rw [Finset.sum_eq_single j]
    · rw [if_pos (by simp [Fin.val_rev]; omega)]
      simp
    · intro i _ hi
      rw [if_neg]
      intro he
      apply hi
      apply Fin.ext
      simp [Fin.val_rev] at he
      omega
    · simp

/-- **C149, total.** The sum of the magnitudes at a microphone is at most the sum over the sources of the sum of the
magnitudes of the signal times the largest sum of magnitudes among the responses of the steps. -/
theorem C149_total {T S M N L : ℕ} {c : Convolver} (hc : Usable T N c) (dev : DeviceType)
    (h : Fin T → Fin S → Fin M → Fin L → ℝ) {rirs : Tensor ℝ} (hr : DynamicRirsAre rirs h) (hT : 1 ≤ T)
    (hL : 1 ≤ L) (x : Fin S → Fin N → ℝ) (B : Fin S → Fin M → ℝ) (hB : ∀ t s m, ∑ i, |h t s m i| ≤ B s m) :
    ∃ (len : ℕ) (y : Fin M → ℕ → ℝ), c.convolve dev (tensor2 x) rirs = .ok (micTensor len y) ∧
      ∀ m, ∑ k ∈ Finset.range len, |y m k| ≤ ∑ s, (∑ j, |x s j|) * B s m := by
  obtain ⟨len, N', hN, step, hf⟩ := convolver_formula hc dev h hr hT hL
  refine ⟨len, _, hf x _ (Or.inl rfl), fun m => (Loudness.total _ h step hB m len).trans (Finset.sum_le_sum fun s _ => ?_)⟩
  refine mul_le_mul_of_nonneg_right ?_ ((Finset.sum_nonneg fun i _ => abs_nonneg _).trans (hB ⟨0, hT⟩ s m))
  have e : ∑ j : Fin N', |x s (Fin.castLE hN j)| = ∑ j ∈ Finset.univ.map (Fin.castLEEmb hN), |x s j| := by
    rw [Finset.sum_map]
    rfl
  rw [e]
  exact Finset.sum_le_sum_of_subset_of_nonneg (Finset.subset_univ _) fun _ _ _ => abs_nonneg _

/-- **C149, whole scenes.** The peak at a microphone in a simulated room is at most the sum over the sources of the peak of
the signal times the kernel length times the sum over the images of wall gain over distance; with omnidirectional and with
directional devices. -/
theorem C149_scene {d nS nM N : ℕ} (hd : d = 2 ∨ d = 3) (hS : 0 < nS) (hM : 0 < nM)
    (w : World) (L lo hi : Fin d → ℝ) (fs c : ℝ) (hfs : 0 < fs) (hc : 0 < c)
    (sel : Selection d) (K : ℕ) (hK : 0 < K) (cfg : Config) (hcfg : cfg.validate = .ok ()) (hoff : cfg.rirHpfEnable = false)
    (src us : Fin nS → Fin d → ℝ) (mic um : Fin nM → Fin d → ℝ)
    (ps pm : Pattern) (sp mp : String) (hps : sp.toLower ∈ ps.names) (hpm : mp.toLower ∈ pm.names)
    (hus : ∀ s, 1e-8 ≤ Real.sqrt (∑ i, us s i ^ 2)) (hum : ∀ m, 1e-8 ≤ Real.sqrt (∑ i, um m i ^ 2))
    (x : Fin nS → Fin N → ℝ) (X : Fin nS → ℝ) (hX : ∀ s, 0 ≤ X s) (hx : ∀ s j, |x s j| ≤ X s) :
    (∃ y : Fin nM → ℕ → ℝ,
      (simulateRir w (boxRoom L lo hi fs c) (points src) (points mic) (omniArgs sel K cfg) >>= convolveRir (tensor2 x)) =
        .ok (micTensor (N + K - 1) y) ∧
      ∀ m k, |y m k| ≤ ∑ s, X s * (cfg.fracDelayLength.toNat *
        ∑ n ∈ sel.images, |wallGain lo hi n| / pathLength (mic m) (image L (src s) n))) ∧
    ((∀ s m, ∀ n ∈ sel.images, image L (src s) n ≠ mic m) → ∃ y : Fin nM → ℕ → ℝ,
      (simulateRir w (boxRoom L lo hi fs c) (orientedPoints src us) (orientedPoints mic um)
          (directionalArgs sel K cfg sp mp) >>= convolveRir (tensor2 x)) = .ok (micTensor (N + K - 1) y) ∧
      ∀ m k, |y m k| ≤ ∑ s, X s * (cfg.fracDelayLength.toNat *
        ∑ n ∈ sel.images, |wallGain lo hi n| / pathLength (mic m) (image L (src s) n))) := by
  have hh : ∀ x, |(setupFor w cfg L lo hi fs c).shape x| ≤ 1 := fun x => kernelShape_bounded _ _ x
  constructor
  · rw [C05_static_rir_formula hd hS hM w L lo hi fs c hfs hc sel K hK cfg hcfg hoff, ok_bind,
      C23_convolve_rir_formula x _ (Or.inl rfl) (Or.inl rfl) (by omega)]
    refine ⟨_, rfl, fun m k => (Loudness.mix_peak x _ hX hx m k).trans (Finset.sum_le_sum fun s _ => ?_)⟩
    exact mul_le_mul_of_nonneg_left (Loudness.rir_total (setupFor w cfg L lo hi fs c) hh sel.images (by simp [omni])
      (by simp [omni]) (src s) (mic m) K) (hX s)
  · intro hne
    rw [C05_static_rir_formula_directional hd hS hM w L lo hi fs c hfs hc sel K hK cfg hcfg hoff src us mic um ps pm sp mp hps
      hpm hus hum hne, ok_bind, C23_convolve_rir_formula x _ (Or.inl rfl) (Or.inl rfl) (by omega)]
    refine ⟨_, rfl, fun m k => (Loudness.mix_peak x _ hX hx m k).trans (Finset.sum_le_sum fun s _ => ?_)⟩
    exact mul_le_mul_of_nonneg_left (Loudness.rir_total (setupFor w cfg L lo hi fs c) hh sel.images
      (fun v => Pattern.abs_gain_le_one _ (abs_cosAngle_le_one _ _))
      (fun v => Pattern.abs_gain_le_one _ (abs_cosAngle_le_one _ _)) (src s) (mic m) K) (hX s)

/-- Two steps with two taps each, in hop mode: no sample is above 3 times the peak of the signal. -/
example (x : Fin 1 → Fin 7 → ℝ) (hx : ∀ s j, |x s j| ≤ 1 / 4) : ∃ (len : ℕ) (y : Fin 1 → ℕ → ℝ),
    ({ mode := "hop", hop := some ((4 : ℕ) : ℤ) } : Convolver).convolve .cpu (tensor2 x)
      (tensor4 (![![![![2, -1]]], ![![![-2, 0.5]]]] : Fin 2 → Fin 1 → Fin 1 → Fin 2 → ℝ)) = .ok (micTensor len y) ∧
    ∀ m k, |y m k| ≤ 3 / 4 := by
  obtain ⟨len, y, h1, h2⟩ := (C149_peak (.hop 4 (by norm_num) none none) .cpu
    (![![![![2, -1]]], ![![![-2, 0.5]]]] : Fin 2 → Fin 1 → Fin 1 → Fin 2 → ℝ) (Or.inl rfl) (by norm_num) (by norm_num) x
    (fun _ => 1 / 4) (by norm_num) hx).1 (fun _ _ => ![2, 1]) (by
      intro t s m i
      fin_cases t <;> fin_cases s <;> fin_cases m <;> fin_cases i <;> norm_num)
  refine ⟨len, y, h1, fun m k => (h2 m k).trans ?_⟩
  rw [Fin.sum_univ_one, Fin.sum_univ_two]
  norm_num

/-- Without reflections, at a distance of two metres and with the default kernel of 81 taps: at most 40.5 times the peak of
the signal. -/
example (w : World) (x : Fin 1 → Fin 7 → ℝ) (hx : ∀ s j, |x s j| ≤ 1) : ∃ y : Fin 1 → ℕ → ℝ,
    (simulateRir w (boxRoom ![4, 5] ![0.9, 0.8] ![0.7, 0.6] 16000 343) (points ![![1, 2]]) (points ![![3, 2]])
      (omniArgs (d := 2) (.order 0) 1000 { rirHpfEnable := false }) >>= convolveRir (tensor2 x)) = .ok (micTensor 1006 y) ∧
    ∀ m k, |y m k| ≤ 81 / 2 := by
  have low : ∀ s : String, s.toList.map Char.toLower = s.toList → s.toLower = s := by
    intro s h
    apply String.toList_inj.mp
    rw [String.toLower, String.toList_map, h]
  have ho : "omni".toLower ∈ Pattern.omni.names := by
    rw [low _ (by decide)]
    decide
  obtain ⟨y, h1, h2⟩ := (C149_scene (Or.inl rfl) (by norm_num) (by norm_num) w ![4, 5] ![0.9, 0.8] ![0.7, 0.6] 16000 343
    (by norm_num) (by norm_num) (.order 0) 1000 (by norm_num) { rirHpfEnable := false } plainConfig_valid rfl ![![1, 2]]
    ![![1, 0]] ![![3, 2]] ![![1, 0]] .omni .omni "omni" "omni" ho ho
    (by intro s; fin_cases s; simp [Fin.sum_univ_two]; norm_num)
    (by intro s; fin_cases s; simp [Fin.sum_univ_two]; norm_num) x (fun _ => 1) (by norm_num) hx).1
  refine ⟨y, h1, fun m k => (h2 m k).trans ?_⟩
  have e : (Selection.order (d := 2) 0).images = {0} := order_zero_images 2
  fin_cases m
  rw [Fin.sum_univ_one, e, Finset.sum_singleton, Lemmas.image_zero]
  have e1 : |wallGain (![0.9, 0.8] : Fin 2 → ℝ) ![0.7, 0.6] 0| = 1 := by simp [wallGain, absorbed]
  have e2 : pathLength ((![![3, 2]] : Fin 1 → Fin 2 → ℝ) 0) ((![![1, 2]] : Fin 1 → Fin 2 → ℝ) 0) = 2 := by
    unfold pathLength Spec.dist
    rw [Fin.sum_univ_two]
    norm_num
    rw [show (4 : ℝ) = 2 ^ 2 by norm_num, Real.sqrt_sq (by norm_num)]
    norm_num
  show 1 * (((81 : ℤ).toNat : ℝ) * (_ / pathLength ((![![3, 2]] : Fin 1 → Fin 2 → ℝ) 0) ((![![1, 2]] : Fin 1 → Fin 2 → ℝ) 0))) ≤ _
  rw [e1, e2, show (81 : ℤ).toNat = 81 from rfl]
  norm_num

end Torchrir.Props
