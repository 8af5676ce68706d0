import Verif.Lemmas.Signal

/-!
# C22-C29: convolution
-/

namespace Torchrir.Props

open Torchrir.Model Torchrir.Spec Torchrir.Lemmas

/-! ## C22 -/

/-- **C22.** -/
theorem C22_fft_convolve_is_linear_convolution {n l : ℕ} (x : Fin n → ℝ) (h : Fin l → ℝ) (hn : 0 < n)
    (_hl : 0 < l) :
    fftConvolveT ⟨[n], List.ofFn x⟩ ⟨[l], List.ofFn h⟩
      = .ok ⟨[n + l - 1], List.ofFn fun k : Fin (n + l - 1) => conv x h k⟩ := by
  unfold fftConvolveT
  rw [raiseIf_neg (by simp [Tensor.ndim]), ok_bind]
  show Except.ok _ = _
  have hlen : 1 ≤ (List.ofFn x).length + (List.ofFn h).length := by simp; omega
  simp only [fftConvolve_length _ _ hlen, List.length_ofFn]
  congr 2
  rw [fftConvolve_eq _ _ hlen]
  apply List.ext_getElem
  · simp
  · intro i h1 h2
    simp [convAt_ofFn]

/-- **C22.** The transform length is the least power of two that holds the whole result. -/
theorem C22_fft_size_is_least_power_of_two (n : ℕ) (hn : 1 ≤ n) :
    n ≤ fftLen n ∧ (∃ p, fftLen n = 2 ^ p) ∧ ∀ q, n ≤ 2 ^ q → fftLen n ≤ 2 ^ q := by
  refine ⟨by exact_mod_cast le_fftLen n (by omega), ⟨_, fftLen_eq n⟩, fun q hq => ?_⟩
  rw [fftLen_eq]
  refine Nat.pow_le_pow_right (by norm_num) ?_
  unfold bitLength
  rw [Nat.size_le]
  omega

/-- **C22.** Other than 1-D arguments are rejected. -/
theorem C22_not_one_dimensional_rejected (x h : Tensor ℝ) :
    (∃ y, fftConvolveT x h = .ok y) ↔ x.ndim = 1 ∧ h.ndim = 1 := by
  unfold fftConvolveT
  simp only [raiseIf_bind_ok]
  constructor
  · rintro ⟨y, h1, _⟩
    omega
  · rintro ⟨h1, h2⟩
    exact ⟨_, by omega, rfl⟩

example : fftConvolveT ⟨[2], List.ofFn ![1, 2]⟩ ⟨[2], List.ofFn ![3, 5]⟩ = .ok ⟨[3], [3, 11, 10]⟩ := by
  rw [C22_fft_convolve_is_linear_convolution _ _ (by norm_num) (by norm_num)]
  congr 2
  simp [List.ofFn_succ, conv, Fin.sum_univ_two]
  norm_num

/-! ## C23 -/

theorem convolveRir_formula {S S' M N L : ℕ} (x : Fin S' → Fin N → ℝ) (y : Fin S → Fin N → ℝ)
    (h : Fin S → Fin M → Fin L → ℝ)
    (hS : S' = 1 ∨ S' = S)
    (hy : expandSignal (List.ofFn fun s => List.ofFn (x s)) S = List.ofFn (fun s => List.ofFn (y s)) ∨ S = 0)
    {sig rirs : Tensor ℝ} (hs : SignalIs sig x)
    (hr : StaticRirsAre rirs h) (hpos : 1 ≤ N + L) :
    convolveRir sig rirs = .ok (micTensor (N + L - 1) (mix y h)) := by
  unfold convolveRir
  rw [ensureSignal_eq hs, ensureStaticRirs_eq hr, ok_bind, ok_bind]
  show (raiseIf (S' ≠ 1 ∧ S' ≠ S) _ >>= fun _ => _) = _
  rw [raiseIf_neg (by omega), ok_bind]
  show (raiseIf ((N : ℤ) + L - 1 < 0) _ >>= fun _ => _) = _
  rw [raiseIf_neg (by omega), ok_bind]
  rw [tensor2_rows, tensor3_planes]
  have hloop := static_loop (expandSignal (List.ofFn fun s => List.ofFn (x s)) S)
    (List.ofFn fun i => List.ofFn fun j => List.ofFn (h i j)) S M N L hpos
    (fun s hs => by
      rcases hy with hy | hy
      · rw [hy]
        have := rows_getD y ⟨s, hs⟩
        simp only at this
        rw [this]; simp
      · omega)
    (fun s hs m hm => by
      have := planes_getD h ⟨s, hs⟩ ⟨m, hm⟩
      simp only at this
      rw [this]; simp) _ rfl
  show ((List.range S).foldlM _ _ >>= _) = _
  rw [show (tensor2 x).shape.getD 1 0 = N from rfl, show (tensor3 h).shape.getD 1 0 = M from rfl,
    show (tensor3 h).shape.getD 0 0 = S from rfl,
    show (tensor3 h).shape.getD 2 0 = L from rfl, hloop, ok_bind]
  have e : ((N : ℤ) + L - 1).toNat = N + L - 1 := by omega
  rw [e]
  show Except.ok _ = _
  congr 1
  apply squeezeMics_rep
  intro m k _
  unfold mix
  rw [← Fin.sum_univ_eq_sum_range (fun s => convAt
    ((expandSignal (List.ofFn fun s => List.ofFn (x s)) S).getD s [])
    (((List.ofFn fun i => List.ofFn fun j => List.ofFn (h i j)).getD s []).getD m []) k) S]
  refine Finset.sum_congr rfl fun s _ => ?_
  rcases hy with hy | hy
  · rw [hy, rows_getD, planes_getD, convAt_ofFn]
  · subst hy; exact s.elim0

/-- **C23.** One signal per source: every microphone receives the sum over the sources of the
convolution with the response of the pair; 1-D result for one microphone. -/
theorem C23_convolve_rir_formula {S M N L : ℕ} (x : Fin S → Fin N → ℝ) (h : Fin S → Fin M → Fin L → ℝ)
    {sig rirs : Tensor ℝ} (hs : SignalIs sig x) (hr : StaticRirsAre rirs h) (hpos : 1 ≤ N + L) :
    convolveRir sig rirs = .ok (micTensor (N + L - 1) (mix x h)) := by
  refine convolveRir_formula x x h (Or.inr rfl) (Or.inl ?_) hs hr hpos
  unfold expandSignal
  rw [if_neg (by simp; omega)]

/-- **C23.** A single signal is shared by all sources. -/
theorem C23_single_signal_is_shared {S M N L : ℕ} (x : Fin 1 → Fin N → ℝ)
    (h : Fin S → Fin M → Fin L → ℝ) {sig rirs : Tensor ℝ} (hs : SignalIs sig x)
    (hr : StaticRirsAre rirs h) (hpos : 1 ≤ N + L) :
    convolveRir sig rirs = .ok (micTensor (N + L - 1) (mix (fun _ => x 0) h)) := by
  refine convolveRir_formula x (fun _ => x 0) h (Or.inl rfl) ?_ hs hr hpos
  unfold expandSignal
  rcases Nat.lt_trichotomy S 1 with h1 | h1 | h1
  · right; omega
  · left
    subst h1
    rw [if_neg (by simp)]
    simp
  · left
    rw [if_pos (by simpa using h1)]
    apply List.ext_getElem
    · simp
    · intro i h2 h3; simp

/-- **C23.** Any other number of signals is rejected. -/
theorem C23_source_mismatch_rejected {S S' M N L : ℕ} (x : Fin S' → Fin N → ℝ)
    (h : Fin S → Fin M → Fin L → ℝ) {sig rirs : Tensor ℝ} (hs : SignalIs sig x)
    (hr : StaticRirsAre rirs h) (h1 : S' ≠ 1) (h2 : S' ≠ S) :
    convolveRir sig rirs = .error "signal source count does not match rirs" := by
  unfold convolveRir
  rw [ensureSignal_eq hs, ensureStaticRirs_eq hr, ok_bind, ok_bind]
  show (raiseIf (S' ≠ 1 ∧ S' ≠ S) _ >>= fun _ => _) = _
  rw [raiseIf, if_pos ⟨h1, h2⟩]
  rfl

theorem exists_signal {t : Tensor ℝ} (hwf : t.WF) {t' : Tensor ℝ} (h : ensureSignal t = .ok t') :
    ∃ (S N : ℕ) (x : Fin S → Fin N → ℝ), SignalIs t x := by
  obtain ⟨shape, data⟩ := t
  unfold ensureSignal at h
  rcases shape with _ | ⟨a, _ | ⟨b, _ | ⟨c, l⟩⟩⟩
  · simp [Tensor.ndim] at h
  · obtain ⟨x, hx⟩ := exists_tensor2 ⟨[1, a], data⟩ (by simpa [Tensor.WF] using hwf) 1 a rfl
    refine ⟨1, a, x, Or.inr ⟨rfl, ?_⟩⟩
    rw [← hx]
  · obtain ⟨x, hx⟩ := exists_tensor2 ⟨[a, b], data⟩ hwf a b rfl
    exact ⟨a, b, x, Or.inl hx⟩
  · simp [Tensor.ndim] at h

theorem exists_static {t : Tensor ℝ} (hwf : t.WF) {t' : Tensor ℝ} (h : ensureStaticRirs t = .ok t') :
    ∃ (S M L : ℕ) (x : Fin S → Fin M → Fin L → ℝ), StaticRirsAre t x := by
  obtain ⟨shape, data⟩ := t
  unfold ensureStaticRirs at h
  rcases shape with _ | ⟨a, _ | ⟨b, _ | ⟨c, _ | ⟨d, l⟩⟩⟩⟩
  · simp [Tensor.ndim] at h
  · obtain ⟨x, hx⟩ := exists_tensor3 ⟨[1, 1, a], data⟩ (by simpa [Tensor.WF] using hwf) 1 1 a rfl
    refine ⟨1, 1, a, x, Or.inr (Or.inr ⟨rfl, rfl, ?_⟩)⟩
    rw [← hx]
  · obtain ⟨x, hx⟩ := exists_tensor3 ⟨[1, a, b], data⟩ (by simpa [Tensor.WF] using hwf) 1 a b rfl
    refine ⟨1, a, b, x, Or.inr (Or.inl ⟨rfl, ?_⟩)⟩
    rw [← hx]
  · obtain ⟨x, hx⟩ := exists_tensor3 ⟨[a, b, c], data⟩ hwf a b c rfl
    exact ⟨a, b, c, x, Or.inl hx⟩
  · simp [Tensor.ndim] at h

/-- **C23.** Every successful call on arbitrary tensors is one of the two cases above. -/
theorem C23_success_means_matching_shapes {sig rirs y : Tensor ℝ} (hs : sig.WF) (hr : rirs.WF)
    (hy : convolveRir sig rirs = .ok y) :
    ∃ (S S' M N L : ℕ) (x : Fin S' → Fin N → ℝ) (h : Fin S → Fin M → Fin L → ℝ),
      SignalIs sig x ∧ StaticRirsAre rirs h ∧ (S' = 1 ∨ S' = S) ∧ 1 ≤ N + L := by
  have h0 := hy
  unfold convolveRir at hy
  obtain ⟨s', h1, hy⟩ := (bind_eq_ok _ _ _).mp hy
  obtain ⟨r', h2, hy⟩ := (bind_eq_ok _ _ _).mp hy
  obtain ⟨S', N, x, hx⟩ := exists_signal hs h1
  obtain ⟨S, M, L, h, hh⟩ := exists_static hr h2
  refine ⟨S, S', M, N, L, x, h, hx, hh, ?_, ?_⟩
  · by_contra hne
    rw [not_or] at hne
    rw [C23_source_mismatch_rejected x h hx hh hne.1 hne.2] at h0
    cases h0
  · rw [ensureSignal_eq hx] at h1
    rw [ensureStaticRirs_eq hh] at h2
    cases h1; cases h2
    obtain ⟨_, _, hy⟩ := (bind_eq_ok _ _ _).mp hy
    obtain ⟨_, h3, hy⟩ := (bind_eq_ok _ _ _).mp hy
    have h4 := (raiseIf_ok _ _ _).mp h3
    by_contra h5
    apply h4
    show (N : ℤ) + L - 1 < 0
    omega

theorem mix_linear {S M N L : ℕ} (x x' : Fin S → Fin N → ℝ) (h : Fin S → Fin M → Fin L → ℝ) (a b : ℝ)
    (m : Fin M) (k : ℕ) :
    mix (fun s j => a * x s j + b * x' s j) h m k = a * mix x h m k + b * mix x' h m k := by
  unfold mix conv
  simp only [Finset.mul_sum]
  rw [← Finset.sum_add_distrib]
  refine Finset.sum_congr rfl fun s _ => ?_
  rw [← Finset.sum_add_distrib]
  refine Finset.sum_congr rfl fun j _ => ?_
  rw [← Finset.sum_add_distrib]
  refine Finset.sum_congr rfl fun i _ => ?_
  split <;> ring

/-- **C23.** The result is linear in the signal. -/
theorem C23_linear_in_signal {S M N L : ℕ} (x x' : Fin S → Fin N → ℝ) (h : Fin S → Fin M → Fin L → ℝ)
    (hpos : 1 ≤ N + L) (a b : ℝ) :
    ∃ y y' : Fin M → ℕ → ℝ,
      convolveRir (tensor2 x) (tensor3 h) = .ok (micTensor (N + L - 1) y) ∧
      convolveRir (tensor2 x') (tensor3 h) = .ok (micTensor (N + L - 1) y') ∧
      convolveRir (tensor2 fun s j => a * x s j + b * x' s j) (tensor3 h)
        = .ok (micTensor (N + L - 1) fun m k => a * y m k + b * y' m k) := by
  refine ⟨mix x h, mix x' h, C23_convolve_rir_formula x h (Or.inl rfl) (Or.inl rfl) hpos,
    C23_convolve_rir_formula x' h (Or.inl rfl) (Or.inl rfl) hpos, ?_⟩
  rw [C23_convolve_rir_formula _ h (Or.inl rfl) (Or.inl rfl) hpos]
  congr 2
  funext m k
  exact mix_linear x x' h a b m k

/-- Two sources, two microphones. -/
example : convolveRir (tensor2 ![![1, 2], ![3, 4]]) (tensor3 ![![![1], ![10]], ![![100], ![1000]]])
    = .ok (tensor2 ![![301, 402], ![3010, 4020]]) := by
  rw [C23_convolve_rir_formula _ _ (Or.inl rfl) (Or.inl rfl) (by norm_num)]
  unfold micTensor
  rw [if_neg (by norm_num)]
  congr 2
  funext m k
  fin_cases m <;> fin_cases k <;> simp [mix, conv, Fin.sum_univ_two] <;> norm_num

/-! ## C24 -/

theorem truncReal_nonneg {x : ℝ} (hx : 0 ≤ x) : truncReal x = ⌊x⌋ := by
  unfold truncReal; rw [if_pos hx]

/-- The segmentation computed from admissible starts. -/
theorem starts_bounds {T N : ℕ} (hT : 1 ≤ T) {ts : Option (Tensor ℝ)} {fs : Option ℝ} {start : Fin T → ℝ}
    (h : StartsAt N ts fs start) :
    ∃ W : ℕ → ℕ, (∃ l, stepStarts ts fs T N = .ok l ∧ l ++ [(N : ℤ)] = bounds T W) ∧
      (∀ t < T, W t ≤ W (t + 1)) ∧ W T = N ∧ W 0 = 0 ∧ ∀ t : Fin T, (W t : ℤ) = ⌊start t⌋ := by
  have key : (∀ t, 0 ≤ start t) ∧ Monotone start ∧ (∀ t, start t ≤ N) ∧ (∀ t : Fin T, (t : ℕ) = 0 → start t = 0) ∧
      stepStarts ts fs T N = .ok (List.ofFn fun t => truncReal (start t)) := by
    cases h with
    | uniform =>
      have hT' : (0 : ℝ) < T := by exact_mod_cast hT
      refine ⟨fun t => by positivity, ?_, ?_, ?_, ?_⟩
      · intro a b hab
        have : ((a : ℕ) : ℝ) ≤ (b : ℕ) := by exact_mod_cast hab
        show ((a : ℕ) : ℝ) * N / T ≤ (b : ℕ) * N / T
        gcongr
      · intro t
        rw [div_le_iff₀ hT', mul_comm]
        have : ((t : ℕ) : ℝ) ≤ T := by exact_mod_cast t.2.le
        gcongr
      · intro t ht; simp [ht]
      · unfold stepStarts
        rw [raiseIf_neg (by omega)]
        show Except.ok _ = _
        congr 1
        apply List.ext_getElem
        · simp
        · intro i h1 h2
          simp only [List.getElem_map, List.getElem_range, List.getElem_ofFn]
          rw [mul_div_assoc]
    | given τ f first mono rate last =>
      have h0 : ∀ t, 0 ≤ τ t := by
        intro t
        rw [← first ⟨0, hT⟩ rfl]
        exact mono (Fin.mk_le_of_le_val (Nat.zero_le _))
      refine ⟨fun t => mul_nonneg (h0 t) rate, fun a b hab => mul_le_mul_of_nonneg_right (mono hab) rate,
        last, fun t ht => by simp only [first t ht, zero_mul], ?_⟩
      unfold stepStarts startsFromTimestamps
      dsimp only
      rw [raiseIf_neg (by simp [Tensor.ndim, Tensor.numel]), ok_bind,
        raiseIf_neg (by simp [List.ofFn_eq_nil_iff]; omega), ok_bind, raiseIf_neg, ok_bind]
      · show Except.ok _ = _
        rw [List.map_ofFn]
        rfl
      · rw [not_not, List.getD_eq_getElem _ _ (by simp; omega)]
        simp only [List.getElem_ofFn]
        exact first _ rfl
  obtain ⟨hnn, hmono, hlast, hfirst, hst⟩ := key
  have hW : ∀ t, ((⌊start t⌋.toNat : ℕ) : ℤ) = ⌊start t⌋ := fun t =>
    Int.toNat_of_nonneg (Int.floor_nonneg.mpr (hnn t))
  refine ⟨fun t => if ht : t < T then ⌊start ⟨t, ht⟩⌋.toNat else N, ⟨_, hst, ?_⟩, ?_, ?_, ?_, ?_⟩
  · unfold bounds
    rw [List.range_succ, List.map_append]
    congr 1
    · apply List.ext_getElem
      · simp
      · intro i h1 h2
        simp only [List.length_ofFn] at h1
        simp only [List.getElem_ofFn, List.getElem_map, List.getElem_range, dif_pos h1, hW]
        exact truncReal_nonneg (hnn _)
    · simp
  · intro t ht
    beta_reduce
    rw [dif_pos ht]
    by_cases ht2 : t + 1 < T
    · rw [dif_pos ht2]
      have : ⌊start ⟨t, ht⟩⌋ ≤ ⌊start ⟨t + 1, ht2⟩⌋ := Int.floor_mono (hmono (by simp))
      omega
    · rw [dif_neg ht2]
      have : (⌊start ⟨t, ht⟩⌋ : ℤ) ≤ N := by
        have := Int.floor_mono (hlast ⟨t, ht⟩)
        rwa [Int.floor_natCast] at this
      omega
  · simp
  · have hT0 : 0 < T := hT
    simp only [dif_pos hT0, hfirst ⟨0, hT0⟩ rfl]
    simp
  · intro t
    simp only [dif_pos t.2, hW]

theorem step_bounds {T N : ℕ} {start : Fin T → ℝ} {step : Fin N → Fin T} (hstep : CurrentStep start step)
    {W : ℕ → ℕ} (hlast : W T = N) (hW : ∀ t : Fin T, (W t : ℤ) = ⌊start t⌋) (j : Fin N) :
    (step j : ℕ) < T ∧ W (step j) ≤ j ∧ (j : ℕ) < W ((step j : ℕ) + 1) := by
  refine ⟨(step j).2, ?_, ?_⟩
  · have := (hstep j (step j)).mp le_rfl
    rw [← hW] at this
    omega
  · by_cases h : (step j : ℕ) + 1 < T
    · by_contra hc
      have := (hstep j ⟨(step j : ℕ) + 1, h⟩).mpr (by rw [← hW]; simp; omega)
      rw [Fin.le_def] at this
      simp at this
    · have : (step j : ℕ) + 1 = T := by have := (step j).2; omega
      rw [this, hlast]
      exact j.2

theorem trajData_of {T S M N L : ℕ} (x : Fin S → Fin N → ℝ) (h : Fin T → Fin S → Fin M → Fin L → ℝ)
    (W : ℕ → ℕ) (hmono : ∀ t < T, W t ≤ W (t + 1)) (hlast : W T = N) (hpos : 1 ≤ N + L) :
    TrajData (List.ofFn fun s => List.ofFn (x s))
      (List.ofFn fun t => List.ofFn fun s => List.ofFn fun m => List.ofFn (h t s m)) T S M N L W where
  len := by simp
  rows s hs := by
    have := rows_getD x ⟨s, hs⟩
    simp only at this
    rw [this]; simp
  rirs t ht s hs m hm := by
    have := blocks_getD h ⟨t, ht⟩ ⟨s, hs⟩ ⟨m, hm⟩
    simp only at this
    rw [this]; simp
  mono := hmono
  last := hlast
  pos := hpos

/-- **C24.** Trajectory mode, with or without timestamps, on every device: signal sample `j` passes
through the response of the step that is current at `j`. -/
theorem C24_trajectory_formula {T S M N L : ℕ} (dev : DeviceType) (x : Fin S → Fin N → ℝ)
    (h : Fin T → Fin S → Fin M → Fin L → ℝ) {sig rirs : Tensor ℝ} (hs : SignalIs sig x)
    (hr : DynamicRirsAre rirs h) (hT : 1 ≤ T) (hpos : 1 ≤ N + L) {ts : Option (Tensor ℝ)}
    {fs : Option ℝ} {start : Fin T → ℝ} (hstart : StartsAt N ts fs start) (step : Fin N → Fin T)
    (hstep : CurrentStep start step) :
    ({ timestamps := ts, fs := fs } : Convolver).convolve dev sig rirs
      = .ok (micTensor (N + L - 1) (mixVarying x h step)) := by
  obtain ⟨W, ⟨l, hl, hb⟩, hmono, hlast, -, hW⟩ := starts_bounds hT hstart
  have hd := trajData_of x h W hmono hlast hpos
  unfold Convolver.convolve
  rw [if_neg (by simp), if_neg (by simp)]
  unfold convolveTrajectory
  rw [ensureSignal_eq hs, ok_bind, ensureDynamicRirs_eq hr x (Or.inl rfl), ok_bind]
  show (stepStarts ts fs T N >>= _) = _
  rw [hl, ok_bind, tensor2_rows, tensor4_blocks]
  show (if dev = .cuda ∨ dev = .mps then trajectoryBatched _ N _ T S M L (l ++ [(N : ℤ)])
    else trajectoryLoop _ N _ T S M L (l ++ [(N : ℤ)])) = _
  rw [hb, trajectoryBatched_eq hd 8 (by norm_num), trajectoryLoop_eq hd hT, ite_self]
  congr 1
  apply squeezeMics_rep
  intro m k _
  rw [varyingSum_eq_mix x h W le_rfl hmono hlast step (step_bounds hstep hlast hW) m k]
  rfl

/-- **C24.** Every signal sample belongs to exactly one step. -/
theorem C24_every_sample_has_one_step {T N : ℕ} (hT : 1 ≤ T) {ts : Option (Tensor ℝ)} {fs : Option ℝ}
    {start : Fin T → ℝ} (hstart : StartsAt N ts fs start) :
    ∃! step : Fin N → Fin T, CurrentStep start step := by
  obtain ⟨W, -, hmono, hlast, h0, hW⟩ := starts_bounds hT hstart
  have mono : ∀ a b, a ≤ b → b ≤ T → W a ≤ W b := by
    intro a b hab
    induction b, hab using Nat.le_induction with
    | base => intro _; exact le_rfl
    | succ b hab ih => intro hb; exact (ih (by omega)).trans (hmono b (by omega))
  have hlt : ∀ j : ℕ, Nat.findGreatest (fun t => W t ≤ j) (T - 1) < T := fun j => by
    have := Nat.findGreatest_le (P := fun t => W t ≤ j) (T - 1)
    omega
  refine ⟨fun j => ⟨Nat.findGreatest (fun t => W t ≤ j) (T - 1), hlt j⟩, ?_, ?_⟩
  · intro j t
    rw [← hW, Fin.le_def]
    constructor
    · intro hle
      have h1 : W (Nat.findGreatest (fun t => W t ≤ j) (T - 1)) ≤ j :=
        Nat.findGreatest_spec (P := fun t => W t ≤ j) (m := 0) (Nat.zero_le _) (by rw [h0]; omega)
      have := mono t _ hle (hlt j).le
      exact_mod_cast this.trans h1
    · intro hle
      exact Nat.le_findGreatest (by have := t.2; omega) (by exact_mod_cast hle)
  · intro step' hs
    funext j
    apply Fin.ext
    simp only
    apply le_antisymm
    · refine Nat.le_findGreatest (by have := (step' j).2; omega) ?_
      have := (hs j (step' j)).mp le_rfl
      rw [← hW] at this
      exact_mod_cast this
    · have h1 : W (Nat.findGreatest (fun t => W t ≤ j) (T - 1)) ≤ j :=
        Nat.findGreatest_spec (P := fun t => W t ≤ j) (m := 0) (Nat.zero_le _) (by rw [h0]; omega)
      have := (hs j ⟨_, hlt j⟩).mpr (by rw [← hW]; exact_mod_cast h1)
      exact this

/-- **C24.** Timestamps without a sampling rate, of the wrong number, or not starting at 0 are
rejected. -/
theorem C24_bad_timestamps_rejected {T S M N L : ℕ} (dev : DeviceType) (x : Fin S → Fin N → ℝ)
    (h : Fin T → Fin S → Fin M → Fin L → ℝ) {sig rirs : Tensor ℝ} (hs : SignalIs sig x)
    (hr : DynamicRirsAre rirs h) (τ : List ℝ) (fs : Option ℝ)
    (hbad : fs = none ∨ τ.length ≠ T ∨ τ.head? ≠ some 0) :
    ∃ e, ({ timestamps := some ⟨[τ.length], τ⟩, fs := fs } : Convolver).convolve dev sig rirs = .error e := by
  have hst : ∃ e, stepStarts (some ⟨[τ.length], τ⟩) fs T N = .error e := by
    unfold stepStarts startsFromTimestamps
    cases fs with
    | none => exact ⟨_, rfl⟩
    | some f =>
      dsimp only
      by_cases h1 : τ.length = T
      · rw [raiseIf_neg (by simp [Tensor.ndim, Tensor.numel, h1]), ok_bind]
        cases τ with
        | nil => exact ⟨_, rfl⟩
        | cons a l =>
          rw [raiseIf_neg (by simp), ok_bind]
          refine ⟨"first timestamp must be 0", ?_⟩
          rw [raiseIf, if_pos]
          · rfl
          · rcases hbad with h2 | h2 | h2
            · cases h2
            · exact absurd h1 h2
            · simpa using h2
      · refine ⟨"timestamps must be 1D and match number of RIR steps", ?_⟩
        rw [raiseIf, if_pos]
        · rfl
        · right; simpa [Tensor.numel] using h1
  obtain ⟨e, he⟩ := hst
  unfold Convolver.convolve
  rw [if_neg (by simp), if_neg (by simp)]
  unfold convolveTrajectory
  rw [ensureSignal_eq hs, ok_bind, ensureDynamicRirs_eq hr x (Or.inl rfl), ok_bind]
  refine ⟨e, ?_⟩
  show (stepStarts (some ⟨[τ.length], τ⟩) fs T N >>= _) = _
  rw [he]
  rfl

/-- Three samples, two steps: the second step starts at sample 1. -/
example : ({} : Convolver).convolve .cpu (tensor2 ![![1, 2, 3]])
    (tensor4 ![![![![10]]], ![![![100]]]]) = .ok ⟨[3], [10, 200, 300]⟩ := by
  rw [C24_trajectory_formula .cpu _ _ (Or.inl rfl) (Or.inl rfl) (by norm_num) (by norm_num)
    (StartsAt.uniform none) ![0, 1, 1]]
  · unfold micTensor
    rw [if_pos rfl]
    congr 2
    simp [tensor2, mixVarying, List.ofFn_succ, Fin.sum_univ_succ]
    norm_num
  · intro j t
    fin_cases j <;> fin_cases t <;> norm_num [Int.floor_le_iff]

/-! ## C25 -/

theorem mixVarying_const {T S M N L : ℕ} (x : Fin S → Fin N → ℝ) (h : Fin S → Fin M → Fin L → ℝ)
    (step : Fin N → Fin T) : mixVarying x (fun _ => h) step = mix x h := rfl

/-- **C25.** -/
theorem C25_constant_rir_is_static {T S M N L : ℕ} (dev : DeviceType) (x : Fin S → Fin N → ℝ)
    (h : Fin S → Fin M → Fin L → ℝ) {sig rirs rirs₀ : Tensor ℝ} (hs : SignalIs sig x)
    (hr : DynamicRirsAre (T := T) rirs fun _ => h) (hr₀ : StaticRirsAre rirs₀ h) (hT : 1 ≤ T)
    (hpos : 1 ≤ N + L) {ts : Option (Tensor ℝ)} {fs : Option ℝ} {start : Fin T → ℝ}
    (hstart : StartsAt N ts fs start) :
    ({ timestamps := ts, fs := fs } : Convolver).convolve dev sig rirs = convolveRir sig rirs₀ := by
  obtain ⟨step, hstep, -⟩ := C24_every_sample_has_one_step hT hstart
  rw [C24_trajectory_formula dev x _ hs hr hT hpos hstart step hstep,
    C23_convolve_rir_formula x h hs hr₀ hpos, mixVarying_const]

/-- Five steps, timestamps that pile up at the end of the signal. -/
example (x : Fin 2 → Fin 7 → ℝ) (h : Fin 2 → Fin 3 → Fin 4 → ℝ) :
    ({ timestamps := some ⟨[5], List.ofFn ![0, 0, 1, 3, 3]⟩, fs := some 2 } : Convolver).convolve .cuda
      (tensor2 x) (tensor4 (a := 5) fun _ => h) = convolveRir (tensor2 x) (tensor3 h) := by
  refine C25_constant_rir_is_static .cuda x h (Or.inl rfl) (Or.inl rfl) (Or.inl rfl) (by norm_num)
    (by norm_num) (StartsAt.given _ 2 ?_ ?_ (by norm_num) ?_)
  · intro t ht
    have : t = 0 := Fin.ext ht
    subst this; rfl
  · intro a b hab
    fin_cases a <;> fin_cases b <;> simp_all
  · intro t
    fin_cases t <;> norm_num

end Torchrir.Props
