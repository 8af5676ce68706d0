import Verif.Lemmas.Floating
import Verif.Props.Static

/-!
# C104: the simulation in floating point

What rounding does to an omnidirectional simulation, from the image positions to the buffer.
-/

namespace Torchrir.Props

open Torchrir.Model Torchrir.Spec Torchrir.Lemmas

/-! ## The error bound -/

/-- **C104, static.** On a machine with `p` significant bits whose tables are good to `ε`, an
omnidirectional simulation without filter and tail succeeds, and every sample differs from the
image-source formula of C05 by at most `sampleError`.  Every distance must be known well
enough: the numbers it is computed from may not be larger than it by a factor of `2^p / 100`. -/
theorem C104_static {d nS nM : ℕ} (hd : d = 2 ∨ d = 3) (hS : 0 < nS) (hM : 0 < nM)
    (p : ℕ) (hp : 14 ≤ p) (ε : ℝ) (F : Floats) (hF : Accurate p ε F)
    (w : World) (L lo hi : Fin d → ℝ) (fs c : ℝ) (hfs : 0 < fs) (hc : 0 < c)
    (sel : Selection d) (K : ℕ) (hK : 0 < K)
    (cfg : Config) (hcfg : cfg.validate = .ok ()) (hoff : cfg.rirHpfEnable = false)
    (hgran : cfg.sincLutGranularity ≤ 2 ^ p)
    (hsmall : 16 * (cfg.fracDelayLength : ℝ) * roundoff p + 5 * ε ≤ 1 / 10)
    (src : Fin nS → Fin d → ℝ) (mic : Fin nM → Fin d → ℝ)
    (hcond : ∀ s m, ∀ n ∈ sel.images,
      100 * roundoff p * pathScale L (src s) (mic m) n ≤ pathLength (mic m) (image L (src s) n)) :
    ∃ h : Fin nS → Fin nM → Fin K → ℝ,
      simulateRirFloat F w (boxRoom L lo hi fs c) (points src) (points mic) (omniArgs sel K cfg)
        = .ok (tensor3 h) ∧
      ∀ s m k, |h s m k - rir (setupFor w cfg L lo hi fs c) sel.images omni omni (src s) (mic m) k|
        ≤ sampleError (setupFor w cfg L lo hi fs c) sel.images (roundoff p) ε (src s) (mic m) := by
  obtain ⟨nVec, hP⟩ := omniPlan_static hd hS hM L lo hi fs c sel K hK cfg hcfg src mic
  obtain ⟨ns, hns, hnd, hmem⟩ := hP.imgA.exists_list
  have hcs := (Config.valid_iff cfg).mp hcfg
  have hodd : cfg.fracDelayLength.toNat % 2 = 1 := by omega
  have hg : 0 < cfg.sincLutGranularity.toNat := by omega
  have hgran' : cfg.sincLutGranularity.toNat ≤ 2 ^ p := by zify; omega
  have hfdl : ((cfg.fracDelayLength.toNat : ℕ) : ℝ) = (cfg.fracDelayLength : ℝ) := by
    have : ((cfg.fracDelayLength.toNat : ℕ) : ℤ) = cfg.fracDelayLength := by omega
    exact_mod_cast congrArg (Int.cast : ℤ → ℝ) this
  rw [← hfdl] at hsmall
  obtain ⟨f, hf1, hf2⟩ := tapFilter_err hF (rounds_of_nearest hp hF.fl) hodd hg hgran'
    (cfg.useLut && w.device ≠ .mps) hsmall
  obtain ⟨H, hH, hH'⟩ := hP.evalFloat w F orderRel_perm
    (fun i j => covers_of_perm (hF.order i j)) (floatTap_spec F hf1 _) hns
    rfl rfl (floatGains_omni F _ _ ns)
  refine ⟨fun s m k => H s m k, ?_, ?_⟩
  · rw [hH]
    exact applyRirHpf_off _ _ _ hoff _
  · intro s m k
    obtain ⟨l, hl, e⟩ := hH' s m k k.2
    simp only
    rw [e]
    exact response_err_omni (S := setupFor w cfg L lo hi fs c) hp hF hd hodd hg rfl hc hfs hsmall hf2
      (src s) (mic m) sel.images (hcond s m) hnd hmem k hl

/-- **C104, dynamic.** The same for every step of a dynamic simulation. -/
theorem C104_dynamic {d nT nS nM : ℕ} (hd : d = 2 ∨ d = 3) (hT : 0 < nT) (hS : 0 < nS) (hM : 0 < nM)
    (p : ℕ) (hp : 14 ≤ p) (ε : ℝ) (F : Floats) (hF : Accurate p ε F)
    (w : World) (L lo hi : Fin d → ℝ) (fs c : ℝ) (hfs : 0 < fs) (hc : 0 < c)
    (sel : Selection d) (K : ℕ) (hK : 0 < K)
    (cfg : Config) (hcfg : cfg.validate = .ok ()) (hoff : cfg.rirHpfEnable = false)
    (hgran : cfg.sincLutGranularity ≤ 2 ^ p)
    (hsmall : 16 * (cfg.fracDelayLength : ℝ) * roundoff p + 5 * ε ≤ 1 / 10)
    (src : Fin nT → Fin nS → Fin d → ℝ) (mic : Fin nT → Fin nM → Fin d → ℝ)
    (hcond : ∀ t s m, ∀ n ∈ sel.images, 100 * roundoff p * pathScale L (src t s) (mic t m) n
      ≤ pathLength (mic t m) (image L (src t s) n)) :
    ∃ h : Fin nT → Fin nS → Fin nM → Fin K → ℝ,
      simulateDynamicRirFloat F w (boxRoom L lo hi fs c) (tensor3 src) (tensor3 mic)
        (omniArgs sel K cfg) = .ok (tensor4 h) ∧
      ∀ t s m k,
        |h t s m k - rir (setupFor w cfg L lo hi fs c) sel.images omni omni (src t s) (mic t m) k|
        ≤ sampleError (setupFor w cfg L lo hi fs c) sel.images (roundoff p) ε (src t s) (mic t m) := by
  obtain ⟨nVec, hP⟩ := omniPlan_dynamic hd hT hS hM L lo hi fs c sel K hK cfg hcfg src mic
  obtain ⟨ns, hns, hnd, hmem⟩ := hP.imgA.exists_list
  have hcs := (Config.valid_iff cfg).mp hcfg
  have hodd : cfg.fracDelayLength.toNat % 2 = 1 := by omega
  have hg : 0 < cfg.sincLutGranularity.toNat := by omega
  have hgran' : cfg.sincLutGranularity.toNat ≤ 2 ^ p := by zify; omega
  have hfdl : ((cfg.fracDelayLength.toNat : ℕ) : ℝ) = (cfg.fracDelayLength : ℝ) := by
    have : ((cfg.fracDelayLength.toNat : ℕ) : ℤ) = cfg.fracDelayLength := by omega
    exact_mod_cast congrArg (Int.cast : ℤ → ℝ) this
  rw [← hfdl] at hsmall
  obtain ⟨f, hf1, hf2⟩ := tapFilter_err hF (rounds_of_nearest hp hF.fl) hodd hg hgran'
    (cfg.useLut && w.device ≠ .mps) hsmall
  obtain ⟨H, hH, hH'⟩ := hP.evalFloat w (sTraj := tensor3 src) (mTraj := tensor3 mic) rfl rfl
    F orderRel_perm (fun i j => covers_of_perm (hF.order i j)) (floatTap_spec F hf1 _) hns
    rfl rfl (floatGains_omni F _ _ ns)
  refine ⟨fun t s m k => H t s m k, ?_, ?_⟩
  · rw [hH]
    exact applyRirHpf_off _ _ _ hoff _
  · intro t s m k
    obtain ⟨l, hl, e⟩ := hH' t s m k k.2
    simp only
    rw [e]
    exact response_err_omni (S := setupFor w cfg L lo hi fs c) hp hF hd hodd hg rfl hc hfs hsmall hf2
      (src t s) (mic t m) sel.images (hcond t s m) hnd hmem k hl

/-- **C104, when the distances are known well enough.** Inside the room it suffices that source
and microphone are not extremely close: their distance is at least `200 · 2⁻ᵖ` times the sum of
their coordinates, counted twice. -/
theorem C104_condition {d : ℕ} (hd : d = 2 ∨ d = 3) (p : ℕ) (hp : 14 ≤ p) (L src mic : Fin d → ℝ)
    (hs : ∀ i, 0 ≤ src i ∧ src i ≤ L i) (hm : ∀ i, 0 ≤ mic i ∧ mic i ≤ L i)
    (hfar : 200 * roundoff p * (1e-6 + ∑ i, 2 * (src i + mic i)) ≤ Spec.dist mic src) (n : Fin d → ℤ) :
    100 * roundoff p * pathScale L src mic n ≤ pathLength mic (image L src n) := by
  have hu0 : 0 < roundoff p := by unfold roundoff; positivity
  have hu : roundoff p ≤ 1 / 10000 := (rounds_of_nearest hp (toNearest_rounds (by omega))).small
  set r := pathLength mic (image L src n) with hr
  have hr0 : 0 < r := pathLength_pos _ _
  have h1 : Spec.dist mic src ≤ r := (dist_image_ge hs hm n).trans (dist_le_pathLength _ _)
  have hcoord : ∀ i, |image L src n i| ≤ mic i + r := by
    intro i
    have h2 : |mic i - image L src n i| ≤ r := by
      refine le_trans ?_ (dist_le_pathLength _ _)
      unfold Spec.dist
      rw [← Real.sqrt_sq_eq_abs]
      exact Real.sqrt_le_sqrt (Finset.single_le_sum (f := fun i => (mic i - image L src n i) ^ 2)
        (fun i _ => sq_nonneg _) (Finset.mem_univ i))
    have h3 : image L src n i = mic i - (mic i - image L src n i) := by ring
    rw [h3]
    refine (abs_sub _ _).trans ?_
    rw [abs_of_nonneg (hm i).1]
    linarith
  have h2 : pathScale L src mic n ≤ (1e-6 + ∑ i, 2 * (src i + mic i)) + 3 * r := by
    unfold pathScale
    have h3 : ∑ i, (|mic i| + 2 * |src i| + |image L src n i|) ≤ ∑ i : Fin d, (2 * (src i + mic i) + r) := by
      refine Finset.sum_le_sum fun i _ => ?_
      rw [abs_of_nonneg (hm i).1, abs_of_nonneg (hs i).1]
      have := hcoord i
      linarith
    have h5 : ∑ i : Fin d, (2 * (src i + mic i) + r) = ∑ i, 2 * (src i + mic i) + d * r := by
      rw [Finset.sum_add_distrib, Finset.sum_const, Finset.card_univ, Fintype.card_fin, nsmul_eq_mul]
    rw [h5] at h3
    have h4 : (d : ℝ) * r ≤ 3 * r := by
      refine mul_le_mul_of_nonneg_right ?_ hr0.le
      rcases hd with rfl | rfl <;> norm_num
    linarith
  have h3 := mul_le_mul_of_nonneg_left h2 (show 0 ≤ 100 * roundoff p by positivity)
  have h4 := mul_le_mul_of_nonneg_right hu hr0.le
  linarith

/-! ## Machines -/

/-- Every elementary operation rounds to nearest, every function of torch rounds its exact value
to nearest; norms are shortened by `s` before. -/
noncomputable def nearestFloats (p : ℕ) (s : ℝ) : Floats where
  fl := toNearest p
  norm v := toNearest p ((1 - s) * Real.sqrt ((v.map fun x => x ^ 2).sum))
  pow b n := toNearest p (b ^ n)
  prod l := toNearest p l.prod
  sum l := toNearest p l.sum
  cos x := toNearest p (Real.cos x)
  sin x := toNearest p (Real.sin x)
  sinc x := toNearest p (Spec.sinc x)
  window fdl := (List.range fdl).map fun (j : ℕ) => toNearest p (hann fdl j)
  lut fdl gran := (List.range ((fdl + 1) * gran + 1)).map fun (j : ℕ) =>
    toNearest p (Spec.sinc ((j : ℝ) / gran - ((fdl : ℝ) + 1) / 2))
  order _ _ es := es

theorem nearestFloats_accurate {p : ℕ} (hp : 14 ≤ p) {s : ℝ} (hs0 : 0 ≤ s) (hs : s ≤ 2 * roundoff p) :
    Accurate p (roundoff p) (nearestFloats p s) := by
  have hu0 : 0 < roundoff p := by unfold roundoff; positivity
  have hu : roundoff p ≤ 1 / 10000 := (rounds_of_nearest hp (toNearest_rounds (by omega))).small
  have hone : ∀ x, |x| ≤ 1 → |toNearest p x - x| ≤ roundoff p := fun x hx =>
    (toNearest_near p x).trans (mul_le_of_le_one_right hu0.le hx)
  have hfour : ∀ x, |toNearest p x - x| ≤ 4 * roundoff p * |x| := fun x =>
    (toNearest_near p x).trans (mul_le_mul_of_nonneg_right (by linarith) (abs_nonneg x))
  refine ⟨toNearest_rounds (by omega), fun v _ => ?_, fun b n => hfour _, fun l _ => hfour _,
    fun l _ => (hfour _).trans (mul_le_mul_of_nonneg_left (abs_sum_le_list l) (by positivity)),
    fun x => hfour _, fun x => hfour _, fun x => hone _ (abs_sinc_le_one x), fun fdl => by simp [nearestFloats], fun fdl j hj => ?_,
    fun fdl gran => by simp [nearestFloats], fun fdl gran j _ _ hj => ?_, fun _ _ es => List.Perm.refl es⟩
  · show |toNearest p ((1 - s) * Real.sqrt ((v.map fun x => x ^ 2).sum)) - _| ≤ _
    set y := Real.sqrt ((v.map fun x => x ^ 2).sum)
    have hy : 0 ≤ y := Real.sqrt_nonneg _
    have h1 := toNearest_near p ((1 - s) * y)
    rw [abs_of_nonneg (mul_nonneg (by linarith) hy)] at h1
    have h2 : roundoff p * ((1 - s) * y) ≤ roundoff p * y :=
      mul_le_mul_of_nonneg_left (mul_le_of_le_one_left hy (by linarith)) hu0.le
    have h3 : s * y ≤ 2 * roundoff p * y := mul_le_mul_of_nonneg_right hs hy
    have h4 : 0 ≤ s * y := mul_nonneg hs0 hy
    have h5 : 0 ≤ roundoff p * y := mul_nonneg hu0.le hy
    rw [abs_le] at h1 ⊢
    constructor <;> linarith [h1.1, h1.2]
  · have : (((nearestFloats p s).window fdl).getD j 0) = toNearest p (hann fdl j) := by
      simp [nearestFloats, hj]
    rw [this]
    exact hone _ (by rw [abs_of_nonneg (hann_nonneg _ _)]; exact hann_le_one _ _)
  · have : (((nearestFloats p s).lut fdl gran).getD j 0)
        = toNearest p (Spec.sinc ((j : ℝ) / gran - ((fdl : ℝ) + 1) / 2)) := by
      have : j < (fdl + 1) * gran + 1 := by omega
      simp [nearestFloats, this]
    rw [this]
    exact hone _ (abs_sinc_le_one _)

/-- **C104, machines exist.** For every precision there is a machine as required. -/
theorem C104_machine (p : ℕ) (hp : 14 ≤ p) : ∃ F, Accurate p (roundoff p) F :=
  ⟨_, nearestFloats_accurate hp le_rfl (by unfold roundoff; positivity)⟩

/-- Single precision, default configuration without the filter, sources and microphones in a
4 m × 5 m room, order 3. -/
example (w : World) (F : Floats) (hF : Accurate 24 (1 / 1000000) F) :
    ∃ h : Fin 1 → Fin 2 → Fin 1000 → ℝ,
      simulateRirFloat F w (boxRoom ![4, 5] ![0.9, 0.8] ![0.7, 0.6] 16000 343)
        (points ![![1, 2]]) (points ![![3, 4], ![2, 2]])
        (omniArgs (d := 2) (.order 3) 1000 { rirHpfEnable := false }) = .ok (tensor3 h) := by
  obtain ⟨h, h1, -⟩ := C104_static (d := 2) (nS := 1) (nM := 2) (Or.inl rfl) (by norm_num) (by norm_num)
    24 (by norm_num) _ F hF w ![4, 5] ![0.9, 0.8] ![0.7, 0.6] 16000 343 (by norm_num) (by norm_num)
    (.order 3) 1000 (by norm_num) { rirHpfEnable := false } plainConfig_valid rfl (by norm_num)
    (by norm_num [roundoff]) ![![1, 2]] ![![3, 4], ![2, 2]] (by
      intro s m n _
      have hd : 1 ≤ Spec.dist ((![![3, 4], ![2, 2]] : Fin 2 → Fin 2 → ℝ) m) ((![![1, 2]] : Fin 1 → Fin 2 → ℝ) s) := by
        unfold Spec.dist
        rw [Real.one_le_sqrt]
        fin_cases s; fin_cases m <;> simp [Fin.sum_univ_two] <;> norm_num
      refine C104_condition (Or.inl rfl) 24 (by norm_num) _ _ _ ?_ ?_ (le_trans ?_ hd) n
      · intro i; fin_cases s; fin_cases i <;> (simp; try norm_num)
      · intro i; fin_cases m <;> fin_cases i <;> simp <;> norm_num
      · fin_cases s; fin_cases m <;> simp [Fin.sum_univ_two, roundoff] <;> norm_num)
  exact ⟨h, h1⟩

/-! ## The limit of high precision -/

theorem away_from_integers {τ : ℝ} (h : ∀ z : ℤ, τ ≠ z) : ∃ ρ > 0, ∀ z : ℤ, ρ ≤ |τ - z| := by
  have h1 : (⌊τ⌋ : ℝ) < τ := lt_of_le_of_ne (Int.floor_le τ) (h ⌊τ⌋).symm
  have h2 := Int.lt_floor_add_one τ
  refine ⟨min (τ - ⌊τ⌋) (⌊τ⌋ + 1 - τ), lt_min (by linarith) (by linarith), fun z => ?_⟩
  rcases le_or_gt z ⌊τ⌋ with hz | hz
  · have : (z : ℝ) ≤ ⌊τ⌋ := by exact_mod_cast hz
    rw [abs_of_nonneg (by linarith)]
    exact (min_le_left _ _).trans (by linarith)
  · have : (⌊τ⌋ : ℝ) + 1 ≤ z := by exact_mod_cast hz
    rw [abs_of_neg (by linarith)]
    exact (min_le_right _ _).trans (by linarith)

open Filter Topology in
/-- The bound is small for small roundoff and good tables, unless a delay is whole. -/
theorem sampleError_small {d : ℕ} (S : Setup d) (A : Finset (Fin d → ℤ)) (src mic : Fin d → ℝ)
    (hw : ∀ n ∈ A, ∀ z : ℤ, pathLength mic (image S.L src n) * S.fs / S.c ≠ z) (tol : ℝ) (htol : 0 < tol) :
    ∀ᶠ q : ℝ × ℝ in 𝓝 (0, 0), sampleError S A q.1 q.2 src mic < tol := by
  set e : (Fin d → ℤ) → ℝ × ℝ → ℝ := fun n q =>
    (32 * S.fdl * q.1 + 10 * q.2) + 53 * q.1 * (pathScale S.L src mic n / pathLength mic (image S.L src n))
      + 2 * delayError S q.1 (pathScale S.L src mic n) with he
  have hδ : ∀ n, Continuous fun q : ℝ × ℝ => delayError S q.1 (pathScale S.L src mic n) := by
    intro n
    unfold delayError
    fun_prop
  have hstep : ∀ n ∈ A, ∀ᶠ q : ℝ × ℝ in 𝓝 (0, 0), imageError S q.1 q.2 src mic n = e n q := by
    intro n hn
    obtain ⟨ρ, hρ, hz⟩ := away_from_integers (hw n hn)
    have h0 : delayError S (0 : ℝ × ℝ).1 (pathScale S.L src mic n) < ρ := by
      unfold delayError; simpa using hρ
    filter_upwards [(hδ n).continuousAt.eventually_lt continuousAt_const h0] with q hq
    unfold imageError stepError
    simp only [he]
    rw [if_neg, add_zero]
    rintro ⟨z, hz'⟩
    have := hz z
    linarith
  have hcont : Continuous fun q : ℝ × ℝ => ∑ n ∈ A,
      |wallGain S.lo S.hi n| / pathLength mic (image S.L src n) * ((1 + q.1) ^ A.card * (1 + e n q) - 1) := by
    refine continuous_finsetSum _ fun n _ => ?_
    have := hδ n
    simp only [he]
    fun_prop
  have hzero : (∑ n ∈ A, |wallGain S.lo S.hi n| / pathLength mic (image S.L src n)
      * ((1 + (0 : ℝ × ℝ).1) ^ A.card * (1 + e n 0) - 1)) < tol := by
    have : ∀ n, e n 0 = 0 := by
      intro n
      simp [he, delayError]
    simp only [this]
    simpa using htol
  have hall : ∀ᶠ q : ℝ × ℝ in 𝓝 (0, 0), ∀ n ∈ A, imageError S q.1 q.2 src mic n = e n q :=
    (eventually_all_finset A).mpr hstep
  filter_upwards [hcont.continuousAt.eventually_lt continuousAt_const hzero, hall] with q hq hq'
  refine lt_of_le_of_lt (le_of_eq ?_) hq
  unfold sampleError
  refine Finset.sum_congr rfl fun n hn => ?_
  rw [hq' n hn]

open Filter Topology in
/-- **C104, convergence.** If no delay is a whole number of samples, every sample of the
simulation comes arbitrarily close to the image-source formula once the precision is high enough
and the tables are good enough. -/
theorem C104_converges {d nS nM : ℕ} (hd : d = 2 ∨ d = 3) (hS : 0 < nS) (hM : 0 < nM)
    (w : World) (L lo hi : Fin d → ℝ) (fs c : ℝ) (hfs : 0 < fs) (hc : 0 < c)
    (sel : Selection d) (K : ℕ) (hK : 0 < K)
    (cfg : Config) (hcfg : cfg.validate = .ok ()) (hoff : cfg.rirHpfEnable = false)
    (src : Fin nS → Fin d → ℝ) (mic : Fin nM → Fin d → ℝ)
    (hw : ∀ s m, ∀ n ∈ sel.images, ∀ z : ℤ, pathLength (mic m) (image L (src s) n) * fs / c ≠ z)
    (tol : ℝ) (htol : 0 < tol) :
    ∃ p₀ : ℕ, ∃ ε₀ > 0, ∀ p ≥ p₀, ∀ ε ≤ ε₀, ∀ F, Accurate p ε F →
      ∃ h : Fin nS → Fin nM → Fin K → ℝ,
        simulateRirFloat F w (boxRoom L lo hi fs c) (points src) (points mic) (omniArgs sel K cfg)
          = .ok (tensor3 h) ∧
        ∀ s m k,
          |h s m k - rir (setupFor w cfg L lo hi fs c) sel.images omni omni (src s) (mic m) k| < tol := by
  set S := setupFor w cfg L lo hi fs c with hSdef
  have e1 : ∀ᶠ q : ℝ × ℝ in 𝓝 (0, 0), ∀ s m, sampleError S sel.images q.1 q.2 (src s) (mic m) < tol := by
    rw [eventually_all]
    intro s
    rw [eventually_all]
    intro m
    exact sampleError_small S sel.images (src s) (mic m) (hw s m) tol htol
  have e2 : ∀ᶠ q : ℝ × ℝ in 𝓝 (0, 0), 16 * (cfg.fracDelayLength : ℝ) * q.1 + 5 * q.2 < 1 / 10 := by
    have hc : Continuous fun q : ℝ × ℝ => 16 * (cfg.fracDelayLength : ℝ) * q.1 + 5 * q.2 := by fun_prop
    exact hc.continuousAt.eventually_lt continuousAt_const (by norm_num)
  have e3 : ∀ᶠ q : ℝ × ℝ in 𝓝 (0, 0), ∀ s m, ∀ n ∈ sel.images,
      100 * q.1 * pathScale L (src s) (mic m) n < pathLength (mic m) (image L (src s) n) := by
    rw [eventually_all]
    intro s
    rw [eventually_all]
    intro m
    rw [eventually_all_finset]
    intro n _
    have hc : Continuous fun q : ℝ × ℝ => 100 * q.1 * pathScale L (src s) (mic m) n := by fun_prop
    exact hc.continuousAt.eventually_lt continuousAt_const
      (by simpa using pathLength_pos (mic m) (image L (src s) n))
  obtain ⟨η, hη, hball⟩ := Metric.eventually_nhds_iff.mp (e1.and (e2.and e3))
  obtain ⟨p₁, hp₁⟩ := exists_pow_lt_of_lt_one hη (show (2⁻¹ : ℝ) < 1 by norm_num)
  refine ⟨max (max p₁ 14) cfg.sincLutGranularity.toNat, η / 2, by positivity, fun p hp ε hε F hF => ?_⟩
  have hp14 : 14 ≤ p := le_trans (le_trans (le_max_right _ _) (le_max_left _ _)) hp
  have hε0 : 0 ≤ ε := (abs_nonneg _).trans (hF.sinc 0)
  have hu0 : 0 < roundoff p := by unfold roundoff; positivity
  have hu : roundoff p < η := by
    refine lt_of_le_of_lt ?_ hp₁
    unfold roundoff
    exact pow_le_pow_of_le_one (by norm_num) (by norm_num)
      (le_trans (le_trans (le_max_left _ _) (le_max_left _ _)) hp)
  obtain ⟨q1, q2, q3⟩ := hball (y := (roundoff p, ε)) (by
    rw [Prod.dist_eq, max_lt_iff, Real.dist_eq, Real.dist_eq]
    simp only [sub_zero]
    rw [abs_of_pos hu0, abs_of_nonneg hε0]
    exact ⟨hu, by linarith⟩)
  have hgran : cfg.sincLutGranularity ≤ 2 ^ p := by
    have h1 : cfg.sincLutGranularity.toNat ≤ p := le_trans (le_max_right _ _) hp
    have h2 : p < 2 ^ p := Nat.lt_two_pow_self
    have h3 : ((2 ^ p : ℕ) : ℤ) = 2 ^ p := by push_cast; ring
    omega
  obtain ⟨h, h1, h2⟩ := C104_static hd hS hM p hp14 ε F hF w L lo hi fs c hfs hc sel K hK cfg hcfg hoff
    hgran q2.le src mic (fun s m n hn => (q3 s m n hn).le)
  exact ⟨h, h1, fun s m k => (h2 s m k).trans_lt (q1 s m)⟩

/-- One third of a sample is not a whole delay. -/
example (w : World) : ∃ p₀ : ℕ, ∃ ε₀ > 0, ∀ p ≥ p₀, ∀ ε ≤ ε₀, ∀ F, Accurate p ε F →
      ∃ h : Fin 1 → Fin 1 → Fin 100 → ℝ,
        simulateRirFloat F w (boxRoom ![4, 5] ![0.9, 0.8] ![0.7, 0.6] 1 3) (points ![![1, 2]])
          (points ![![2, 2]]) (omniArgs (d := 2) (.order 0) 100 { rirHpfEnable := false })
          = .ok (tensor3 h) ∧
        ∀ s m k, |h s m k - rir (setupFor w { rirHpfEnable := false } ![4, 5] ![0.9, 0.8] ![0.7, 0.6] 1 3)
          (orderSet 2 0) omni omni ((![![1, 2]] : Fin 1 → Fin 2 → ℝ) s) ((![![2, 2]] : Fin 1 → Fin 2 → ℝ) m) k|
          < 1 / 1000 := by
  refine C104_converges (d := 2) (Or.inl rfl) (by norm_num) (by norm_num) w _ _ _ 1 3 (by norm_num)
    (by norm_num) (.order 0) 100 (by norm_num) { rirHpfEnable := false } plainConfig_valid rfl _ _ ?_ _
    (by norm_num)
  intro s m n hn z hz
  have hn' : ∀ i, n i = 0 := by
    have h1 : ∑ i, |n i| ≤ ((0 : ℕ) : ℤ) := (mem_orderSet n).mp hn
    have h2 : ∑ i, |n i| = 0 := le_antisymm (by simpa using h1) (Finset.sum_nonneg fun i _ => abs_nonneg _)
    intro i
    have := (Finset.sum_eq_zero_iff_of_nonneg (fun i _ => abs_nonneg (n i))).mp h2 i (Finset.mem_univ i)
    exact abs_eq_zero.mp this
  have hpl : pathLength ((![![2, 2]] : Fin 1 → Fin 2 → ℝ) m)
      (image ![4, 5] ((![![1, 2]] : Fin 1 → Fin 2 → ℝ) s) n) = 1 := by
    have e : ∀ i, image ![4, 5] ((![![1, 2]] : Fin 1 → Fin 2 → ℝ) s) n i = (![1, 2] : Fin 2 → ℝ) i := by
      intro i
      rw [image_eq, hn' i]
      fin_cases s
      simp [imageSign]
    unfold pathLength Spec.dist
    simp only [e]
    fin_cases m
    simp [Fin.sum_univ_two]
    norm_num
  rw [hpl] at hz
  have h3 : (3 * z : ℝ) = 1 := by rw [← hz]; norm_num
  have h4 : 3 * z = 1 := by exact_mod_cast h3
  omega

/-! ## Real numbers -/

theorem exact_tapEntries (fdl gran : ℕ) (useLut : Bool) (N row : ℕ) (i : ℤ) (f a : ℝ) :
    exactFloats.tapEntries fdl gran useLut N row i f a
      = tapEntries (freshTables fdl gran) fdl gran useLut N row i f a := by
  have hfilt : exactFloats.tapFilter fdl gran useLut f = tapFilter (freshTables fdl gran) fdl gran useLut f := by
    unfold Floats.tapFilter tapFilter
    cases useLut
    · simp only [Bool.false_eq_true, if_false, Floats.filtDirect, filtDirect, freshTables, fdlGrid,
        exactFloats, List.zipWith_map_left]
    · simp only [if_true, Floats.filtLut, filtLut, freshTables, fdlGrid, exactFloats,
        List.mapM_map, Function.comp_def, Int.floor_natCast]
  unfold Floats.tapEntries tapEntries
  rw [hfilt]
  rfl

theorem exact_pair {d : ℕ} (S : Setup d) (hfs : S.fs ≠ 0) (src mic : Fin d → ℝ) (n : Fin d → ℤ) :
    floatPair exactFloats S.c S.fs S.fdl S.L src mic (floatRefl exactFloats S.lo S.hi) n
      = contribOf S (halfLen S.fdl) omni omni src mic n := by
  have hrefl : floatRefl exactFloats S.lo S.hi n = wallGain S.lo S.hi n := by
    have h := reflectionCoefficients_map S.lo S.hi [n]
    simp only [List.map_cons, List.map_nil] at h
    exact (List.cons.inj h).1
  have hvec : vecFloat exactFloats S.L src mic n = mic - image S.L src n := by
    funext i
    rw [Pi.sub_apply, image_eq]
    rfl
  have e : exactFloats.norm (List.ofFn (mic - image S.L src n)) = Spec.dist mic (image S.L src n) := by
    show norm2 _ = _
    rw [norm2_ofFn]; rfl
  unfold floatPair contribOf floatDist
  rw [hrefl, hvec, e]
  simp only [exactFloats, omni, mul_one]
  refine Prod.ext ?_ rfl
  show (max (Spec.dist mic (image S.L src n)) 1e-6 / S.c + (halfLen S.fdl : ℝ) / S.fs) * S.fs = _
  unfold pathLength
  rw [add_mul, div_mul_cancel₀ _ hfs]
  ring

/-- **C104, real numbers.** Without rounding, this is the simulation of C05, with any filter. -/
theorem C104_exact {d nS nM : ℕ} (hd : d = 2 ∨ d = 3) (hS : 0 < nS) (hM : 0 < nM)
    (w : World) (L lo hi : Fin d → ℝ) (fs c : ℝ) (hfs : 0 < fs)
    (sel : Selection d) (K : ℕ) (hK : 0 < K) (cfg : Config) (hcfg : cfg.validate = .ok ())
    (src : Fin nS → Fin d → ℝ) (mic : Fin nM → Fin d → ℝ) :
    simulateRirFloat exactFloats w (boxRoom L lo hi fs c) (points src) (points mic) (omniArgs sel K cfg)
      = simulateRir w (boxRoom L lo hi fs c) (points src) (points mic) (omniArgs sel K cfg) := by
  obtain ⟨nVec, hP⟩ := omniPlan_static hd hS hM L lo hi fs c sel K hK cfg hcfg src mic
  obtain ⟨ns, hns, hnd, hmem⟩ := hP.imgA.exists_list
  have hcs := (Config.valid_iff cfg).mp hcfg
  have hodd : cfg.fracDelayLength.toNat % 2 = 1 := by omega
  have hg : 0 < cfg.sincLutGranularity.toNat := by omega
  obtain ⟨H, hH, hH'⟩ := hP.evalFloat w exactFloats (Rel := (· = ·)) orderRel_eq
    (fun _ _ => ⟨fun es => List.Perm.refl es, fun es q => rfl⟩)
    (T := kernTap (setupFor w cfg L lo hi fs c).shape (setupFor w cfg L lo hi fs c).fdl)
    (fun row q => by
      simp only [exact_tapEntries]
      exact tapEntries_vals hodd hg _ _ row q.1 q.2) hns
    rfl rfl (floatGains_omni exactFloats _ _ ns)
  rw [hH, hP.eval w hfs.ne']
  congr 2
  congr 1
  funext s m k
  obtain ⟨l, hl, e⟩ := hH' s m k k.2
  rw [e, hl]
  have hpair : ns.map (floatPair exactFloats (boxRoom L lo hi fs c).c (boxRoom L lo hi fs c).fs
      (omniPlan nS nM lo hi sel K cfg nVec).cfg.fracDelayLength.toNat L (src s) (mic m)
      (floatRefl exactFloats (omniPlan nS nM lo hi sel K cfg nVec).lo (omniPlan nS nM lo hi sel K cfg nVec).hi))
      = ns.map (contribOf (setupFor w cfg L lo hi fs c) (halfLen (setupFor w cfg L lo hi fs c).fdl)
        omni omni (src s) (mic m)) :=
    List.map_congr_left fun n _ => exact_pair (setupFor w cfg L lo hi fs c) hfs.ne' (src s) (mic m) n
  rw [hpair]
  have hsum := pairTaps_sum (setupFor w cfg L lo hi fs c).shape (setupFor w cfg L lo hi fs c).fdl
    (ns.map (contribOf (setupFor w cfg L lo hi fs c) (halfLen (setupFor w cfg L lo hi fs c).fdl)
        omni omni (src s) (mic m))) k
  rw [pairSum_eq_rir (setupFor w cfg L lo hi fs c) hodd omni omni (src s) (mic m) hnd hmem] at hsum
  refine Eq.trans ?_ hsum
  exact (List.sum_eq_foldl).symm

/-- **C104, real numbers, dynamic.** -/
theorem C104_exact_dynamic {d nT nS nM : ℕ} (hd : d = 2 ∨ d = 3) (hT : 0 < nT) (hS : 0 < nS) (hM : 0 < nM)
    (w : World) (L lo hi : Fin d → ℝ) (fs c : ℝ) (hfs : 0 < fs)
    (sel : Selection d) (K : ℕ) (hK : 0 < K) (cfg : Config) (hcfg : cfg.validate = .ok ())
    (src : Fin nT → Fin nS → Fin d → ℝ) (mic : Fin nT → Fin nM → Fin d → ℝ) :
    simulateDynamicRirFloat exactFloats w (boxRoom L lo hi fs c) (tensor3 src) (tensor3 mic)
        (omniArgs sel K cfg)
      = simulateDynamicRir w (boxRoom L lo hi fs c) (tensor3 src) (tensor3 mic) (omniArgs sel K cfg) := by
  obtain ⟨nVec, hP⟩ := omniPlan_dynamic hd hT hS hM L lo hi fs c sel K hK cfg hcfg src mic
  obtain ⟨ns, hns, hnd, hmem⟩ := hP.imgA.exists_list
  have hcs := (Config.valid_iff cfg).mp hcfg
  have hodd : cfg.fracDelayLength.toNat % 2 = 1 := by omega
  have hg : 0 < cfg.sincLutGranularity.toNat := by omega
  obtain ⟨H, hH, hH'⟩ := hP.evalFloat w (sTraj := tensor3 src) (mTraj := tensor3 mic) rfl rfl
    exactFloats (Rel := (· = ·)) orderRel_eq
    (fun _ _ => ⟨fun es => List.Perm.refl es, fun es q => rfl⟩)
    (T := kernTap (setupFor w cfg L lo hi fs c).shape (setupFor w cfg L lo hi fs c).fdl)
    (fun row q => by
      simp only [exact_tapEntries]
      exact tapEntries_vals hodd hg _ _ row q.1 q.2) hns
    rfl rfl (floatGains_omni exactFloats _ _ ns)
  rw [hH, hP.eval w hfs.ne' rfl rfl]
  congr 2
  funext t s m k
  obtain ⟨l, hl, e⟩ := hH' t s m k k.2
  rw [e, hl]
  have hpair : ns.map (floatPair exactFloats (boxRoom L lo hi fs c).c (boxRoom L lo hi fs c).fs
      (omniPlan nS nM lo hi sel K cfg nVec).cfg.fracDelayLength.toNat L (src t s) (mic t m)
      (floatRefl exactFloats (omniPlan nS nM lo hi sel K cfg nVec).lo (omniPlan nS nM lo hi sel K cfg nVec).hi))
      = ns.map (contribOf (setupFor w cfg L lo hi fs c) (halfLen (setupFor w cfg L lo hi fs c).fdl)
        omni omni (src t s) (mic t m)) :=
    List.map_congr_left fun n _ => exact_pair (setupFor w cfg L lo hi fs c) hfs.ne' (src t s) (mic t m) n
  rw [hpair]
  have hsum := pairTaps_sum (setupFor w cfg L lo hi fs c).shape (setupFor w cfg L lo hi fs c).fdl
    (ns.map (contribOf (setupFor w cfg L lo hi fs c) (halfLen (setupFor w cfg L lo hi fs c).fdl)
        omni omni (src t s) (mic t m))) k
  rw [pairSum_eq_rir (setupFor w cfg L lo hi fs c) hodd omni omni (src t s) (mic t m) hnd hmem] at hsum
  refine Eq.trans ?_ hsum
  exact (List.sum_eq_foldl).symm

/-! ## Whole delays -/

/-- **C104, whole delays (negative).** Precision alone does not help if a delay is a whole number of
samples: for every precision there is a machine, its norms short by two roundings, that loses the
direct sound of a source one sample away when the kernel has one tap.  Exactly, sample 1 is 1. -/
theorem C104_whole_delay_fails (p : ℕ) (hp : 14 ≤ p) (w : World) :
    ∃ F, Accurate p (roundoff p) F ∧ ∃ h : Fin 1 → Fin 1 → Fin 3 → ℝ,
      simulateRirFloat F w (boxRoom ![4, 4] ![0.9, 0.8] ![0.7, 0.6] 1 1) (points ![![1, 1]])
        (points ![![2, 1]])
        (omniArgs (d := 2) (.order 0) 3 { rirHpfEnable := false, fracDelayLength := 1 }) = .ok (tensor3 h) ∧
      h 0 0 1 = 0 ∧
      rir (setupFor w { rirHpfEnable := false, fracDelayLength := 1 } ![4, 4] ![0.9, 0.8] ![0.7, 0.6] 1 1)
        (orderSet 2 0) omni omni ![1, 1] ![2, 1] 1 = 1 := by
  set cfg : Config := { rirHpfEnable := false, fracDelayLength := 1 } with hcfgdef
  have hcfg : cfg.validate = .ok () := by
    rw [Config.valid_iff]; norm_num [hcfgdef]; exact ⟨nofun, nofun, nofun, nofun⟩
  set u := roundoff p with hu
  have hu0 : 0 < u := by rw [hu]; unfold roundoff; positivity
  have hr := rounds_of_nearest hp (toNearest_rounds (p := p) (by omega))
  have hus : u ≤ 1 / 10000 := hr.small
  set F := nearestFloats p (2 * u) with hFdef
  have hF : Accurate p u F := nearestFloats_accurate hp (by positivity) le_rfl
  have hcs := (Config.valid_iff cfg).mp hcfg
  have hsmall : 16 * ((cfg.fracDelayLength.toNat : ℕ) : ℝ) * u + 5 * u ≤ 1 / 10 := by
    norm_num [hcfgdef]; linarith
  have hgran : cfg.sincLutGranularity.toNat ≤ 2 ^ p := by
    have : (2 : ℕ) ^ 14 ≤ 2 ^ p := Nat.pow_le_pow_right (by norm_num) hp
    have h2 : cfg.sincLutGranularity.toNat ≤ 2 ^ 14 := by norm_num [hcfgdef]
    exact h2.trans this
  obtain ⟨f, hf1, hf2⟩ := tapFilter_err hF hr (by norm_num [hcfgdef]) (by norm_num [hcfgdef])
    hgran (cfg.useLut && w.device ≠ .mps) hsmall
  obtain ⟨nVec, hP⟩ := omniPlan_static (d := 2) (nS := 1) (nM := 1) (Or.inl rfl) (by norm_num) (by norm_num)
    ![4, 4] ![0.9, 0.8] ![0.7, 0.6] 1 1 (.order 0) 3 (by norm_num) cfg hcfg ![![1, 1]] ![![2, 1]]
  obtain ⟨ns, hns, hnd, hmem⟩ := hP.imgA.exists_list
  obtain ⟨H, hH, hH'⟩ := hP.evalFloat w F orderRel_perm
    (fun i j => covers_of_perm (hF.order i j)) (floatTap_spec F hf1 _) hns
    rfl rfl (floatGains_omni F _ _ ns)
  have hzero : ∀ n ∈ orderSet 2 0, n = 0 := by
    intro n hn
    have h1 : ∑ i, |n i| ≤ ((0 : ℕ) : ℤ) := (mem_orderSet n).mp hn
    have h2 : ∑ i, |n i| = 0 := le_antisymm (by simpa using h1) (Finset.sum_nonneg fun i _ => abs_nonneg _)
    funext i
    have := (Finset.sum_eq_zero_iff_of_nonneg (fun i _ => abs_nonneg (n i))).mp h2 i (Finset.mem_univ i)
    exact abs_eq_zero.mp this
  have fl0 : F.fl 0 = 0 := by simpa using fl_nat hF.fl (n := 0) (by positivity)
  have fl1 : F.fl 1 = 1 := by simpa using fl_nat hF.fl (n := 1) Nat.one_le_two_pow
  have flx : F.fl (1 - 2 * u) = 1 - 2 * u := by
    refine fl_float hF.fl ⟨2 ^ p - 2, -p, ?_, ?_⟩
    · have : (2 : ℤ) ^ 14 ≤ 2 ^ p := pow_le_pow_right₀ (by norm_num) hp
      rw [abs_of_nonneg (by linarith)]
      linarith
    · rw [hu]
      unfold roundoff
      push_cast
      rw [zpow_neg, zpow_natCast, inv_pow, sub_mul, mul_inv_cancel₀ (by positivity)]
  have hx : (floatPair F 1 1 cfg.fracDelayLength.toNat ![4, 4] ![1, 1] ![2, 1]
      (floatRefl F ![0.9, 0.8] ![0.7, 0.6]) (0 : Fin 2 → ℤ)).1 = 1 - 2 * u := by
    have hv : vecFloat F ![4, 4] ![1, 1] ![2, 1] (0 : Fin 2 → ℤ) = ![1, 0] := by
      funext i
      fin_cases i <;> norm_num [vecFloat, Floats.imageBase, imageSign, fl0, fl1]
    have hn : F.norm (List.ofFn (![1, 0] : Fin 2 → ℝ)) = 1 - 2 * u := by
      have : F.norm (List.ofFn (![1, 0] : Fin 2 → ℝ)) = F.fl ((1 - 2 * u) * Real.sqrt 1) := by
        show toNearest p _ = toNearest p _
        congr 2
        norm_num [List.ofFn_succ]
      rw [this, Real.sqrt_one, mul_one, flx]
    have hm : max (1 - 2 * u) (F.fl 1e-6) = 1 - 2 * u := by
      apply max_eq_left
      have := (abs_le.mp (hr.near 1e-6)).2
      rw [abs_of_pos (by norm_num)] at this
      show toNearest p 1e-6 ≤ _
      norm_num at this ⊢
      linarith
    unfold floatPair floatDist
    rw [hv]
    simp only [hn, hm, fl1]
    have h0 : ((halfLen cfg.fracDelayLength.toNat : ℕ) : ℝ) = 0 := by
      norm_num [hcfgdef, halfLen]
    rw [h0, zero_div, fl0, div_one, flx, add_zero, flx, mul_one, flx]
  refine ⟨F, hF, fun s m k => H s m k, ?_, ?_, ?_⟩
  · rw [hH]
    have hoff : cfg.rirHpfEnable = false := by rw [hcfgdef]
    exact applyRirHpf_off w (1 : ℝ) cfg hoff (tensor3 fun s m (k : Fin 3) => H s m k)
  · obtain ⟨l, hl, e⟩ := hH' 0 0 1 (show 1 < 3 by norm_num)
    have htaps : tapsOf (floatTap F f cfg.fracDelayLength.toNat) (ns.map (floatPair F 1 1
        cfg.fracDelayLength.toNat ![4, 4] ![1, 1] ![2, 1] (floatRefl F ![0.9, 0.8] ![0.7, 0.6]))) 1 = [] := by
      unfold tapsOf
      rw [List.flatten_eq_nil_iff]
      intro t ht
      rw [List.map_map, List.mem_map] at ht
      obtain ⟨n, hn, rfl⟩ := ht
      rw [hzero n ((hmem n).mp hn)]
      simp only [Function.comp]
      unfold floatTap
      rw [if_neg]
      rw [hx]
      have : ⌊1 - 2 * u⌋ = 0 := by
        rw [Int.floor_eq_iff]
        norm_num
        constructor <;> linarith
      rw [this]
      norm_num [hcfgdef, halfLen]
    have hl' : l.Perm [] := hl.trans (List.Perm.of_eq htaps)
    show H 0 0 1 = 0
    rw [e, List.Perm.eq_nil hl']
    rfl
  · have hone : orderSet 2 0 = {0} := by
      ext n
      rw [Finset.mem_singleton]
      refine ⟨hzero n, ?_⟩
      rintro rfl
      rw [mem_orderSet]
      simp
    have himg : image (![4, 4] : Fin 2 → ℝ) ![1, 1] 0 = ![1, 1] := by
      funext i
      fin_cases i <;> norm_num [image_eq, imageSign]
    have hdist : Spec.dist (![2, 1] : Fin 2 → ℝ) ![1, 1] = 1 := by
      norm_num [Spec.dist, Fin.sum_univ_two]
    have hlen : pathLength (![2, 1] : Fin 2 → ℝ) ![1, 1] = 1 := by
      rw [pathLength, hdist]; norm_num
    have hshape : ∀ b g, kernelShape b g 0 = 1 := by
      intro b g
      cases b <;> norm_num [kernelShape, gridLerp, Spec.sinc]
    unfold rir
    rw [hone, Finset.sum_singleton]
    simp only [setupFor, himg, hlen, omni]
    have hw : wallGain (![0.9, 0.8] : Fin 2 → ℝ) ![0.7, 0.6] 0 = 1 := by
      norm_num [wallGain, absorbed, Fin.prod_univ_two]
    have hk : kernel (kernelShape (cfg.useLut && w.device ≠ .mps) cfg.sincLutGranularity.toNat)
        cfg.fracDelayLength.toNat (1 * 1 / 1) 1 = 1 := by
      have h1 : cfg.fracDelayLength.toNat = 1 := by norm_num [hcfgdef]
      rw [h1]
      unfold kernel
      norm_num [hann, hshape]
    rw [hw, hk]
    norm_num

end Torchrir.Props
