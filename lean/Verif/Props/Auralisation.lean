import Verif.Spec.Post
import Verif.Props.Hpf
import Verif.Props.Invariance

/-!
# C92: the paths heard with the default configuration, at rest and in motion
-/

namespace Torchrir.Props

open Torchrir.Model Torchrir.Spec Torchrir.Lemmas

theorem post_formula {d nS nM : ℕ} (hd : d = 2 ∨ d = 3) (hS : 0 < nS) (hM : 0 < nM)
    (w : World) (L lo hi : Fin d → ℝ) (fs c : ℝ) (hfs : 0 < fs) (hc : 0 < c)
    (sel : Selection d) (K : ℕ) (hK : 0 < K) (cfg : Config) (hcfg : cfg.validate = .ok ())
    {G : (Fin K → ℝ) →ₗ[ℝ] (Fin K → ℝ)} (hG : Post w fs cfg G)
    (src : Fin nS → Fin d → ℝ) (mic : Fin nM → Fin d → ℝ) :
    simulateRir w (boxRoom L lo hi fs c) (points src) (points mic) (omniArgs sel K cfg)
      = .ok (tensor3 fun s m => G fun k : Fin K =>
          rir (setupFor w cfg L lo hi fs c) sel.images omni omni (src s) (mic m) k) := by
  cases hG with
  | off h => exact C05_static_rir_formula hd hS hM w L lo hi fs c hfs hc sel K hK cfg hcfg h src mic
  | on hon hkw hfc sos hsos _ hG =>
    have h0 : 0 < cfg.rirHpfFc := ((Config.valid_iff cfg).mp hcfg).2.2.2.2.2.2.2.2.1
    have hsplit := static_split w (boxRoom L lo hi fs c) (points src) (points mic) (omniArgs sel K cfg) cfg
    have e1 : ({ omniArgs sel K cfg with config := some cfg } : SimArgs) = omniArgs sel K cfg := rfl
    have e2 : ({ omniArgs sel K cfg with config := some (unfiltered cfg) } : SimArgs)
      = omniArgs sel K (unfiltered cfg) := rfl
    rw [e1, e2, C05_static_rir_formula hd hS hM w L lo hi fs c hfs hc sel K hK (unfiltered cfg)
      ((unfiltered_validate cfg).trans hcfg) rfl, ok_bind] at hsplit
    rw [hsplit]
    exact applyRirHpf_linear hon (design_default hfs h0 hfc hkw hsos) hG hS hM _

theorem post_split {d K : ℕ} (G : (Fin K → ℝ) →ₗ[ℝ] (Fin K → ℝ)) (S : Setup d)
    (A : Finset (Fin d → ℤ)) (x y : Fin d → ℝ) :
    (G fun k : Fin K => rir S A omni omni x y k) = fun k => ∑ n ∈ A,
      wallGain S.lo S.hi n / pathLength y (image S.L x n) *
        G (fun j : Fin K => kernel S.shape S.fdl (pathLength y (image S.L x n) * S.fs / S.c) j) k := by
  have e : (fun k : Fin K => rir S A omni omni x y k) =
      ∑ n ∈ A, (wallGain S.lo S.hi n / pathLength y (image S.L x n)) •
        fun j : Fin K => kernel S.shape S.fdl (pathLength y (image S.L x n) * S.fs / S.c) j := by
    funext k
    rw [Finset.sum_apply]
    unfold rir
    refine Finset.sum_congr rfl fun n _ => ?_
    dsimp only [Pi.smul_apply, smul_eq_mul]
    simp only [omni]
    ring
  rw [e, map_sum]
  funext k
  rw [Finset.sum_apply]
  refine Finset.sum_congr rfl fun n _ => ?_
  rw [map_smul]
  rfl

theorem tap_sum {K : ℕ} (c : ℝ) (h : Fin K → ℝ) (j t : ℕ) :
    (∑ i : Fin K, if j + (i : ℕ) = t then c * h i else 0) =
      if hj : j ≤ t ∧ t - j < K then c * h ⟨t - j, hj.2⟩ else 0 := by
  by_cases hj : j ≤ t ∧ t - j < K
  · rw [dif_pos hj, Finset.sum_eq_single_of_mem (⟨t - j, hj.2⟩ : Fin K) (Finset.mem_univ _)]
    · rw [if_pos (by simp; omega)]
    · intro i _ hi
      rw [if_neg]
      intro h
      apply hi
      apply Fin.ext
      simp only
      omega
  · rw [dif_neg hj]
    refine Finset.sum_eq_zero fun i _ => if_neg ?_
    have := i.2
    omega

/-- **C92.** Simulating and convolving, with the high-pass filter off or with its default settings: the microphone
signal is the sum over all sources and images of the source signal through the kernel of the path after the filter,
attenuated by walls and distance. -/
theorem C92_auralisation {d nS nM N : ℕ} (hd : d = 2 ∨ d = 3) (hS : 0 < nS) (hM : 0 < nM)
    (w : World) (L lo hi : Fin d → ℝ) (fs c : ℝ) (hfs : 0 < fs) (hc : 0 < c)
    (sel : Selection d) (K : ℕ) (hK : 0 < K) (cfg : Config) (hcfg : cfg.validate = .ok ())
    {G : (Fin K → ℝ) →ₗ[ℝ] (Fin K → ℝ)} (hG : Post w fs cfg G)
    (src : Fin nS → Fin d → ℝ) (mic : Fin nM → Fin d → ℝ) (x : Fin nS → Fin N → ℝ) :
    (simulateRir w (boxRoom L lo hi fs c) (points src) (points mic) (omniArgs sel K cfg)
        >>= convolveRir (tensor2 x))
      = .ok (micTensor (N + K - 1) fun m t => ∑ s, ∑ n ∈ sel.images,
          wallGain lo hi n / pathLength (mic m) (image L (src s) n) *
            ∑ j : Fin N, if (j : ℕ) ≤ t then x s j * postSample G
              (kernel (kernelShape (cfg.useLut && w.device ≠ .mps) cfg.sincLutGranularity.toNat)
                cfg.fracDelayLength.toNat (pathLength (mic m) (image L (src s) n) * fs / c)) (t - j)
            else 0) := by
  rw [post_formula hd hS hM w L lo hi fs c hfs hc sel K hK cfg hcfg hG, ok_bind,
    C23_convolve_rir_formula x _ (Or.inl rfl) (Or.inl rfl) (by omega)]
  congr 2
  funext m t
  unfold mix
  refine Finset.sum_congr rfl fun s _ => ?_
  unfold conv
  simp only [tap_sum, post_split]
  simp only [Finset.mul_sum]
  conv_rhs => rw [Finset.sum_comm]
  refine Finset.sum_congr rfl fun j _ => ?_
  unfold postSample
  by_cases h1 : (j : ℕ) ≤ t
  · by_cases h2 : t - j < K
    · rw [dif_pos ⟨h1, h2⟩]
      refine Finset.sum_congr rfl fun n _ => ?_
      rw [if_pos h1, dif_pos h2]
      dsimp only [setupFor]
      ring
    · rw [dif_neg (fun h => h2 h.2)]
      symm
      refine Finset.sum_eq_zero fun n _ => ?_
      rw [if_pos h1, dif_neg h2]
      ring
  · rw [dif_neg (fun h => h1 h.1)]
    symm
    refine Finset.sum_eq_zero fun n _ => ?_
    rw [if_neg h1]
    ring

/-- **C92, motion.** The same for moving sources and microphones in trajectory mode: the signal sample `j` travels
along the paths of the step that is current at `j`, for every device and choice of timestamps. -/
theorem C92_moving {d T nS nM N : ℕ} (hd : d = 2 ∨ d = 3) (hT : 0 < T) (hS : 0 < nS) (hM : 0 < nM)
    (w : World) (L lo hi : Fin d → ℝ) (fs c : ℝ) (hfs : 0 < fs) (hc : 0 < c)
    (sel : Selection d) (K : ℕ) (hK : 0 < K) (cfg : Config) (hcfg : cfg.validate = .ok ())
    {G : (Fin K → ℝ) →ₗ[ℝ] (Fin K → ℝ)} (hG : Post w fs cfg G)
    (src : Fin T → Fin nS → Fin d → ℝ) (mic : Fin T → Fin nM → Fin d → ℝ) (x : Fin nS → Fin N → ℝ)
    (dev : DeviceType) {ts : Option (Tensor ℝ)} {rate : Option ℝ} {start : Fin T → ℝ}
    (hstart : StartsAt N ts rate start) (step : Fin N → Fin T) (hstep : CurrentStep start step) :
    (simulateDynamicRir w (boxRoom L lo hi fs c) (tensor3 src) (tensor3 mic) (omniArgs sel K cfg)
        >>= ({ timestamps := ts, fs := rate } : Convolver).convolve dev (tensor2 x))
      = .ok (micTensor (N + K - 1) fun m t => ∑ s, ∑ j : Fin N, ∑ n ∈ sel.images, if (j : ℕ) ≤ t then
          wallGain lo hi n / pathLength (mic (step j) m) (image L (src (step j) s) n) * (x s j *
            postSample G
              (kernel (kernelShape (cfg.useLut && w.device ≠ .mps) cfg.sincLutGranularity.toNat)
                cfg.fracDelayLength.toNat
                (pathLength (mic (step j) m) (image L (src (step j) s) n) * fs / c)) (t - j))
          else 0) := by
  have h : simulateDynamicRir w (boxRoom L lo hi fs c) (tensor3 src) (tensor3 mic) (omniArgs sel K cfg) =
      .ok (tensor4 fun t s m => G fun k : Fin K =>
        rir (setupFor w cfg L lo hi fs c) sel.images omni omni (src t s) (mic t m) k) := by
    rw [C13_dynamic_is_static_per_step hT w _ L rfl hfs]
    exact ⟨_, fun t => post_formula hd hS hM w L lo hi fs c hfs hc sel K hK cfg hcfg hG (src t) (mic t),
      (stack_tensor3 hT _).symm⟩
  rw [h, ok_bind, C24_trajectory_formula dev x _ (Or.inl rfl) (Or.inl rfl) hT (by omega) hstart step hstep]
  congr 2
  funext m t
  unfold mixVarying
  refine Finset.sum_congr rfl fun s _ => Finset.sum_congr rfl fun j _ => ?_
  simp only [tap_sum, post_split]
  unfold postSample
  by_cases h1 : (j : ℕ) ≤ t
  · by_cases h2 : t - j < K
    · rw [dif_pos ⟨h1, h2⟩, Finset.mul_sum]
      refine Finset.sum_congr rfl fun n _ => ?_
      rw [if_pos h1, dif_pos h2]
      dsimp only [setupFor]
      ring
    · rw [dif_neg (fun h => h2 h.2)]
      symm
      refine Finset.sum_eq_zero fun n _ => ?_
      rw [if_pos h1, dif_neg h2]
      ring
  · rw [dif_neg (fun h => h1 h.1)]
    symm
    exact Finset.sum_eq_zero fun n _ => if_neg h1

/-- **C92, scale.** Multiplying the room, all positions and the speed of sound by `q` divides every sample by `q`,
also after the filter, as long as no path is shorter than a micrometre before or after. -/
theorem C92_scale {d nS nM : ℕ} (hd : d = 2 ∨ d = 3) (hS : 0 < nS) (hM : 0 < nM)
    (w : World) (L lo hi : Fin d → ℝ) (fs c : ℝ) (hfs : 0 < fs) (hc : 0 < c)
    (sel : Selection d) (K : ℕ) (hK : 0 < K) (cfg : Config) (hcfg : cfg.validate = .ok ())
    {G : (Fin K → ℝ) →ₗ[ℝ] (Fin K → ℝ)} (hG : Post w fs cfg G)
    (src : Fin nS → Fin d → ℝ) (mic : Fin nM → Fin d → ℝ) (q : ℝ) (hq : 0 < q)
    (hfar : ∀ s m, ∀ n ∈ sel.images, 1e-6 ≤ Spec.dist (mic m) (image L (src s) n) ∧
      1e-6 ≤ q * Spec.dist (mic m) (image L (src s) n)) :
    ∃ f : Fin nS → Fin nM → Fin K → ℝ,
      simulateRir w (boxRoom L lo hi fs c) (points src) (points mic) (omniArgs sel K cfg)
        = .ok (tensor3 f) ∧
      simulateRir w (boxRoom (fun i => q * L i) lo hi fs (q * c)) (points (scaled q src))
        (points (scaled q mic)) (omniArgs sel K cfg) = .ok (tensor3 fun s m k => f s m k / q) := by
  refine ⟨_, post_formula hd hS hM w L lo hi fs c hfs hc sel K hK cfg hcfg hG src mic, ?_⟩
  rw [post_formula hd hS hM w _ lo hi fs (q * c) hfs (by positivity) sel K hK cfg hcfg hG]
  congr 2
  funext s m k
  have e : (fun k : Fin K => rir (setupFor w cfg (fun i => q * L i) lo hi fs (q * c)) sel.images omni omni
      (scaled q src s) (scaled q mic m) k) = q⁻¹ • fun k : Fin K =>
        rir (setupFor w cfg L lo hi fs c) sel.images omni omni (src s) (mic m) k := by
    funext k
    have := rir_scale hq (setupFor w cfg L lo hi fs c) sel.images omni omni (fun _ => rfl) (fun _ => rfl)
      (src s) (mic m) (hfar s m) k
    rw [Pi.smul_apply, smul_eq_mul, inv_mul_eq_div]
    exact this
  rw [e, map_smul, Pi.smul_apply, smul_eq_mul, inv_mul_eq_div]

/-- **C92, rate.** Multiplying the sampling rate, the speed of sound and the cutoff by the same factor changes nothing,
for every filter and all settings. -/
theorem C92_rate {d nS nM : ℕ} (hd : d = 2 ∨ d = 3) (hS : 0 < nS) (hM : 0 < nM)
    (w : World) (L lo hi : Fin d → ℝ) (fs c : ℝ) (hfs : 0 < fs) (hc : 0 < c)
    (sel : Selection d) (K : ℕ) (hK : 0 < K) (cfg : Config) (hcfg : cfg.validate = .ok ())
    (src : Fin nS → Fin d → ℝ) (mic : Fin nM → Fin d → ℝ) (q : ℝ) (hq : 0 < q) :
    simulateRir w (boxRoom L lo hi (q * fs) (q * c)) (points src) (points mic)
        (omniArgs sel K { cfg with rirHpfFc := q * cfg.rirHpfFc })
      = simulateRir w (boxRoom L lo hi fs c) (points src) (points mic) (omniArgs sel K cfg) := by
  have hv : ({ cfg with rirHpfFc := q * cfg.rirHpfFc } : Config).validate = .ok () := by
    rw [Config.valid_iff] at hcfg ⊢
    obtain ⟨a1, a2, a3, a4, a5, a6, a7, a8, a9, a10⟩ := hcfg
    exact ⟨a1, a2, a3, a4, a5, a6, a7, a8, by positivity, a10⟩
  have h1 := static_split w (boxRoom L lo hi fs c) (points src) (points mic) (omniArgs sel K cfg) cfg
  have h2 := static_split w (boxRoom L lo hi (q * fs) (q * c)) (points src) (points mic) (omniArgs sel K cfg)
    { cfg with rirHpfFc := q * cfg.rirHpfFc }
  have e1 : ∀ c' : Config, ({ omniArgs sel K cfg with config := some c' } : SimArgs) = omniArgs sel K c' :=
    fun _ => rfl
  rw [e1, e1] at h1 h2
  rw [h1, h2, C05_static_rir_formula hd hS hM w L lo hi fs c hfs hc sel K hK (unfiltered cfg)
      ((unfiltered_validate cfg).trans hcfg) rfl,
    C05_static_rir_formula hd hS hM w L lo hi (q * fs) (q * c) (by positivity) (by positivity) sel K hK
      (unfiltered { cfg with rirHpfFc := q * cfg.rirHpfFc }) ((unfiltered_validate _).trans hv) rfl,
    ok_bind, ok_bind]
  have e2 : ∀ t : Tensor ℝ, applyRirHpf w (q * fs) { cfg with rirHpfFc := q * cfg.rirHpfFc } t =
      applyRirHpf w fs cfg t := by
    intro t
    unfold applyRirHpf designHpfSos
    have : 2 * (q * cfg.rirHpfFc) / (q * fs) = 2 * cfg.rirHpfFc / fs := by field_simp
    dsimp only
    rw [this]
  show applyRirHpf w (q * fs) _ _ = applyRirHpf w fs _ _
  rw [e2]
  congr 2
  funext s m k
  exact rir_rate hq.ne' (setupFor w (unfiltered cfg) L lo hi fs c) _ _ _ _ _ _

/-- **C92, order.** Raising `max_order` by one adds exactly the filtered images of the new order. -/
theorem C92_order_adds {d nS nM : ℕ} (hd : d = 2 ∨ d = 3) (hS : 0 < nS) (hM : 0 < nM)
    (w : World) (L lo hi : Fin d → ℝ) (fs c : ℝ) (hfs : 0 < fs) (hc : 0 < c) (N : ℕ)
    (K : ℕ) (hK : 0 < K) (cfg : Config) (hcfg : cfg.validate = .ok ())
    {G : (Fin K → ℝ) →ₗ[ℝ] (Fin K → ℝ)} (hG : Post w fs cfg G)
    (src : Fin nS → Fin d → ℝ) (mic : Fin nM → Fin d → ℝ) :
    ∃ f : Fin nS → Fin nM → Fin K → ℝ,
      simulateRir w (boxRoom L lo hi fs c) (points src) (points mic) (omniArgs (d := d) (.order N) K cfg)
        = .ok (tensor3 f) ∧
      simulateRir w (boxRoom L lo hi fs c) (points src) (points mic) (omniArgs (d := d) (.order (N + 1)) K cfg)
        = .ok (tensor3 fun s m k => f s m k + G (fun j : Fin K =>
            rir (setupFor w cfg L lo hi fs c) (orderShell d (N + 1)) omni omni (src s) (mic m) j) k) := by
  refine ⟨_, post_formula hd hS hM w L lo hi fs c hfs hc (.order N) K hK cfg hcfg hG src mic, ?_⟩
  rw [post_formula hd hS hM w L lo hi fs c hfs hc (.order (N + 1)) K hK cfg hcfg hG]
  congr 2
  funext s m k
  have e : (Selection.order (d := d) (N + 1)).images
      = (Selection.order (d := d) N).images ∪ orderShell d (N + 1) := by
    ext n
    simp only [Selection.images, orderShell, Finset.mem_union, Finset.mem_filter, mem_orderSet]
    push_cast
    omega
  have hdis : Disjoint (Selection.order (d := d) N).images (orderShell d (N + 1)) := by
    rw [Finset.disjoint_left]
    intro n h1 h2
    simp only [Selection.images, orderShell, Finset.mem_filter, mem_orderSet] at h1 h2
    have := h2.2
    push_cast at this
    omega
  rw [← Pi.add_apply, ← map_add, e]
  refine congrFun (congrArg G ?_) k
  funext j
  exact Finset.sum_union hdis

/-- Two moving talkers and the default configuration, with a filter that halves every sample. -/
example (randn : ℤ → List ℕ → List ℝ) (x : Fin 2 → Fin 48000 → ℝ) : ∃ y : Fin 1 → ℕ → ℝ,
    (simulateDynamicRir (halvingWorld randn) (boxRoom ![4, 5] ![0.9, 0.8] ![0.7, 0.6] 16000 343)
      (tensor3 fun t : Fin 16 => ![![1 + (t : ℝ) / 10, 2], ![3, 1]]) (tensor3 fun _ : Fin 16 => ![![3, 4]])
      (omniArgs (d := 2) (.order 2) 1000 {}) >>= ({} : Convolver).convolve .cuda (tensor2 x))
        = .ok (micTensor 48999 y) := by
  obtain ⟨step, hstep, -⟩ := C24_every_sample_has_one_step (T := 16) (N := 48000) (by norm_num)
    (StartsAt.uniform none)
  exact ⟨_, C92_moving (Or.inl rfl) (by norm_num) (by norm_num) (by norm_num) (halvingWorld randn) ![4, 5]
    ![0.9, 0.8] ![0.7, 0.6] 16000 343 (by norm_num) (by norm_num) (.order 2) 1000 (by norm_num) {}
    (by rw [Config.valid_iff]; simp) (.on rfl rfl (by norm_num) () rfl _ (halving_acts randn 1000)) _ _ x .cuda
    (StartsAt.uniform none) step hstep⟩

/-- Half the sampling rate in a gas carrying sound half as fast, with half the cutoff. -/
example (w : World) : simulateRir w (boxRoom ![4, 5] ![0.9, 0.8] ![0.7, 0.6] (1 / 2 * 16000) (1 / 2 * 343))
      (points ![![1, 2]]) (points ![![3, 4]]) (omniArgs (d := 2) (.order 3) 1000 { rirHpfFc := 1 / 2 * 10 })
    = simulateRir w (boxRoom ![4, 5] ![0.9, 0.8] ![0.7, 0.6] 16000 343)
      (points ![![1, 2]]) (points ![![3, 4]]) (omniArgs (d := 2) (.order 3) 1000 {}) :=
  C92_rate (Or.inl rfl) (by norm_num) (by norm_num) w _ _ _ _ _ (by norm_num) (by norm_num) _ 1000 (by norm_num) {}
    (by rw [Config.valid_iff]; simp) _ _ (1 / 2) (by norm_num)

end Torchrir.Props
