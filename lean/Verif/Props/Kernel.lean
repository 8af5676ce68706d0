import Verif.Lemmas.Sinc
import Verif.Props.Symmetry
import Verif.Model.Acoustics

/-!
# C14–C17: image counts, lookup table and wall absorption
-/

namespace Torchrir.Props

open Torchrir.Model Torchrir.Spec Torchrir.Lemmas

/-! ## C14 -/

theorem axis_far {L s m : ℝ} (hs0 : 0 ≤ s) (hs1 : s ≤ L) (hm0 : 0 ≤ m) (hm1 : m ≤ L) {n : ℤ}
    {nb : ℕ} (h : (nb : ℤ) < |n|) :
    (nb : ℝ) * L ≤ |m - mirrored L s n.natAbs (lastWall n)| := by
  have hL : 0 ≤ L := hs0.trans hs1
  have hn : (nb : ℝ) + 1 ≤ |(n : ℝ)| := by
    have : (nb : ℤ) + 1 ≤ |n| := h
    exact_mod_cast this
  rw [mirrored_cases]
  rcases le_or_gt 0 (n : ℝ) with h0 | h0
  · rw [abs_of_nonneg h0] at hn
    have h1 : ((nb : ℝ) + 1) * L ≤ n * L := by gcongr
    split
    · rw [abs_of_nonpos (by nlinarith)]; nlinarith
    · rw [abs_of_nonpos (by nlinarith)]; nlinarith
  · rw [abs_of_neg h0] at hn
    have h1 : ((nb : ℝ) + 1) * L ≤ -n * L := by gcongr
    have hnb : 0 ≤ (nb : ℝ) * L := by positivity
    split
    · rw [abs_of_nonneg (by nlinarith)]; nlinarith
    · rw [abs_of_nonneg (by nlinarith)]; nlinarith

theorem axis_le_dist {d : ℕ} (x y : Fin d → ℝ) (i : Fin d) : |x i - y i| ≤ Spec.dist x y := by
  unfold Spec.dist
  rw [← Real.sqrt_sq_eq_abs]
  apply Real.sqrt_le_sqrt
  exact Finset.single_le_sum (f := fun i => (x i - y i) ^ 2) (fun _ _ => sq_nonneg _)
    (Finset.mem_univ i)

theorem hann_zero {fdl : ℕ} (h : 3 ≤ fdl) : hann fdl 0 = 0 := by
  unfold hann
  rw [if_neg (by omega)]
  simp

/-- A kernel of at least three taps does not touch samples up to the arrival. -/
theorem kernel_before {h : ℝ → ℝ} {fdl : ℕ} (hf : 3 ≤ fdl) {τ : ℝ} {k : ℕ} (hk : (k : ℝ) ≤ τ) :
    kernel h fdl τ k = 0 := by
  unfold kernel
  split
  · rename_i hh
    have : (k : ℤ) ≤ ⌊τ⌋ := Int.le_floor.mpr (by exact_mod_cast hk)
    have e : (k : ℤ) - ⌊τ⌋ = 0 := by omega
    rw [e]
    simp [hann_zero hf]
  · rfl

theorem rir_box_complete {d : ℕ} (S : Setup d) (hfs : 0 < S.fs) (hc : 0 < S.c) (hf : 3 ≤ S.fdl)
    (tmax : ℝ) (nb nb' : Fin d → ℕ) (hnb : ∀ i, tmax * S.c ≤ nb i * S.L i) (hle : nb ≤ nb')
    (gs gm : (Fin d → ℝ) → ℝ) (src mic : Fin d → ℝ) (hs : ∀ i, 0 ≤ src i ∧ src i ≤ S.L i)
    (hm : ∀ i, 0 ≤ mic i ∧ mic i ≤ S.L i) (k : ℕ) (hk : (k : ℝ) ≤ tmax * S.fs) :
    rir S (boxSet nb') gs gm src mic k = rir S (boxSet nb) gs gm src mic k := by
  unfold rir
  symm
  apply Finset.sum_subset
  · intro n hn
    simp only [boxSet, Fintype.mem_piFinset, Finset.mem_Icc] at hn ⊢
    intro i
    have := hn i
    have h2 : (nb i : ℤ) ≤ nb' i := by exact_mod_cast hle i
    omega
  · intro n _ hn
    simp only [boxSet, Fintype.mem_piFinset, Finset.mem_Icc, not_forall] at hn
    obtain ⟨i, hi⟩ := hn
    have hi' : (nb i : ℤ) < |n i| := by
      rw [Int.abs_eq_natAbs]; omega
    have h1 := axis_far (hs i).1 (hs i).2 (hm i).1 (hm i).2 hi'
    have h2 : tmax * S.c ≤ pathLength mic (image S.L src n) :=
      (hnb i).trans (h1.trans ((axis_le_dist mic (image S.L src n) i).trans
        (dist_le_pathLength _ _)))
    simp only
    rw [kernel_before hf, mul_zero]
    refine hk.trans ?_
    rw [le_div_iff₀ hc]
    nlinarith

/-- **C14.** The counts of `estimate_image_counts_from_tmax` are complete: with a response of
`⌈tmax fs⌉` samples and a kernel of at least 3 taps, whenever a call with a larger image box
succeeds, the same call with the estimated box returns the same tensor — for every
directivity, orientation, tail and filter setting and all sources and microphones in the
room. -/
theorem C14_image_counts_complete {d nS nM : ℕ} (hd : d = 2 ∨ d = 3) (w : World) (room : Room)
    (L : Fin d → ℝ) (hL : ∀ i, 0 < L i) (hsize : room.size = List.ofFn L)
    (hfs : 0 < room.fs) (hc : 0 < room.c) (tmax : ℝ) (ht : 0 < tmax) :
    ∃ nb : Fin d → ℕ,
      estimateImageCountsFromTmax tmax room.size room.c = .ok (List.ofFn fun i => (nb i : ℤ)) ∧
      ∀ (nb' : Fin d → ℕ), (∀ i, nb i ≤ nb' i) →
      ∀ (src : Fin nS → Fin d → ℝ) (us : Option (Fin nS → Fin d → ℝ))
        (mic : Fin nM → Fin d → ℝ) (um : Option (Fin nM → Fin d → ℝ)),
      (∀ s i, 0 ≤ src s i ∧ src s i ≤ L i) → (∀ m i, 0 ≤ mic m i ∧ mic m i ≤ L i) →
      ∀ (a : SimArgs) (cfg : Config), a.config = some cfg → 3 ≤ cfg.fracDelayLength →
      ∀ R : Tensor ℝ,
      simulateRir w room (entityOf src us) (entityOf mic um)
        { a with nbImg := some (List.ofFn fun i => (nb' i : ℤ)),
                 nsample := some ⌈tmax * room.fs⌉ } = .ok R →
      simulateRir w room (entityOf src us) (entityOf mic um)
        { a with nbImg := some (List.ofFn fun i => (nb i : ℤ)),
                 nsample := some ⌈tmax * room.fs⌉ } = .ok R := by
  have hpos : ∀ i, 0 ≤ ⌈tmax * room.c / L i⌉ := fun i =>
    Int.ceil_nonneg (by have := hL i; positivity)
  refine ⟨fun i => ⌈tmax * room.c / L i⌉.toNat, ?_, ?_⟩
  · unfold estimateImageCountsFromTmax
    rw [if_neg (by linarith), hsize, if_pos (by simpa using hd)]
    congr 1
    rw [List.map_ofFn]
    congr 1
    funext i
    exact (Int.toNat_of_nonneg (hpos i)).symm
  · intro nb' hle src us mic um hs hm a cfg hcfg hf R h
    obtain ⟨P, hP⟩ := StaticPlan.exists (src := src) (mic := mic) hsize rfl rfl h
    obtain ⟨l', hl'1, hl'2⟩ := imageSourceIndices_box P.N nb'
    have e1 : P.nVec = l' := by
      have := hP.img
      simp only at this
      rw [hl'1] at this
      exact (Except.ok.inj this).symm
    have e2 : P.A = boxSet nb' := by
      have := hP.imgA
      rw [e1] at this
      exact this.unique hl'2
    obtain ⟨l, hl1, hl2⟩ := imageSourceIndices_box P.N (fun i => ⌈tmax * room.c / L i⌉.toNat)
    have hsub : boxSet (fun i => ⌈tmax * room.c / L i⌉.toNat) ⊆ P.A := by
      rw [e2]
      intro n hn
      simp only [boxSet, Fintype.mem_piFinset, Finset.mem_Icc] at hn ⊢
      intro i
      have := hn i
      have h2 : ⌈tmax * room.c / L i⌉.toNat ≤ nb' i := hle i
      omega
    have hP' : StaticPlan room (entityOf src us) (entityOf mic um)
        { a with nbImg := some (List.ofFn fun i => ((⌈tmax * room.c / L i⌉.toNat : ℕ) : ℤ)),
                 nsample := some ⌈tmax * room.fs⌉ } L src mic
        { P with nVec := l, A := boxSet (fun i => ⌈tmax * room.c / L i⌉.toNat) } := by
      refine ⟨⟨hP.hd, hP.hS, hP.hM, hP.size, hP.beta, hP.res, hP.val, hl1, hl2, hP.split, hP.hmd,
        hP.hsd, hP.gains.src_some, hP.gains.mic_some, ?_, ?_⟩, hP.hsrc, hP.hmic⟩
      · rintro s m v ⟨n, hn, rfl⟩
        exact hP.gains.src s m _ ⟨n, hsub hn, rfl⟩
      · intro m
        obtain ⟨mv, h1, h2⟩ := hP.gains.mic m
        refine ⟨mv, h1, ?_⟩
        rintro s v ⟨n, hn, rfl⟩
        exact h2 s _ ⟨n, hsub hn, rfl⟩
    rw [hP.eval w hfs.ne'] at h
    rw [hP'.eval w hfs.ne', ← h]
    have hcfg' : P.cfg = cfg := cfg_of_resolve hcfg hP.res
    have hK : P.K = ⌈tmax * room.fs⌉ := by
      have := (validateArgs_inv hP.val).1
      simp only [resolveNsample] at this
      exact (Except.ok.inj this).symm
    have : ({ P with nVec := l, A := boxSet (fun i => ⌈tmax * room.c / L i⌉.toNat) } : Plan d nS nM).static
        w room L src mic = P.static w room L src mic := by
      unfold Plan.static
      congr 1
      funext s m k
      rw [e2]
      refine (rir_box_complete (P.setup w room L) hfs hc ?_ tmax _ nb' ?_ hle _ _ _ _ (hs s) (hm m)
        k ?_).symm
      · show 3 ≤ P.cfg.fracDelayLength.toNat
        rw [hcfg']; omega
      · intro i
        show tmax * room.c ≤ (⌈tmax * room.c / L i⌉.toNat : ℝ) * L i
        rw [← div_le_iff₀ (hL i)]
        have h1 := Int.le_ceil (tmax * room.c / L i)
        have h2 : ((⌈tmax * room.c / L i⌉.toNat : ℤ) : ℝ) = (⌈tmax * room.c / L i⌉ : ℝ) := by
          rw [Int.toNat_of_nonneg (hpos i)]
        have h3 : ((⌈tmax * room.c / L i⌉.toNat : ℕ) : ℝ) = (⌈tmax * room.c / L i⌉ : ℝ) := by
          rw [← h2]; rfl
        rw [h3]; exact h1
      · show (k : ℝ) ≤ tmax * room.fs
        have hk : (k : ℕ) < P.K.toNat := k.2
        have hk' : ((k : ℕ) : ℤ) < ⌈tmax * room.fs⌉ := by rw [← hK]; omega
        exact (Int.lt_ceil.mp hk').le
    rw [this]

/-- A 4 m × 5 m room and 20 ms: the estimated box
is `[2, 2]`, and every larger box gives the same samples. -/
example (w : World) (nb' : Fin 2 → ℕ) (hnb : ∀ i, 2 ≤ nb' i) :
    simulateRir w (boxRoom ![4, 5] ![0.9, 0.8] ![0.7, 0.6] 16000 343)
      (points ![![1, 2]]) (points ![![3, 4]])
      { omniArgs (d := 2) (.box 0 nb') 320 { rirHpfEnable := false } with } =
    simulateRir w (boxRoom ![4, 5] ![0.9, 0.8] ![0.7, 0.6] 16000 343)
      (points ![![1, 2]]) (points ![![3, 4]])
      { omniArgs (d := 2) (.box 0 ![2, 2]) 320 { rirHpfEnable := false } with } := by
  obtain ⟨nb, h1, h2⟩ := C14_image_counts_complete (d := 2) (nS := 1) (nM := 1) (Or.inl rfl) w
    (boxRoom ![4, 5] ![0.9, 0.8] ![0.7, 0.6] 16000 343) ![4, 5]
    (by intro i; fin_cases i <;> norm_num) rfl (by norm_num [boxRoom]) (by norm_num [boxRoom])
    0.02 (by norm_num)
  have hnb2 : nb = ![2, 2] := by
    unfold estimateImageCountsFromTmax at h1
    rw [if_neg (by norm_num), if_pos (by simp [boxRoom])] at h1
    have h3 := Except.ok.inj h1
    have c1 : ⌈(0.02 : ℝ) * 343 / 4⌉ = 2 := by rw [Int.ceil_eq_iff]; norm_num
    have c2 : ⌈(0.02 : ℝ) * 343 / 5⌉ = 2 := by rw [Int.ceil_eq_iff]; norm_num
    simp only [boxRoom, List.ofFn_succ, List.ofFn_zero, List.map_cons, List.map_nil] at h3
    have h4 := (List.cons.inj h3).1
    have h5 := (List.cons.inj (List.cons.inj h3).2).1
    simp only [Matrix.cons_val_zero, Matrix.cons_val_one, Fin.succ_zero_eq_one] at h4 h5
    rw [c1] at h4
    rw [c2] at h5
    funext i
    fin_cases i
    · show nb 0 = 2
      omega
    · show nb 1 = 2
      omega
  subst hnb2
  have hcl : ⌈(0.02 : ℝ) * 16000⌉ = 320 := by rw [Int.ceil_eq_iff]; norm_num
  have h0 := C05_static_rir_formula (Or.inl rfl) (by norm_num) (by norm_num) w ![4, 5]
    ![0.9, 0.8] ![0.7, 0.6] 16000 343 (by norm_num) (by norm_num) (.box 0 nb') 320 (by norm_num) _
    plainConfig_valid rfl ![![1, 2]] ![![3, 4]]
  have h3 := h2 nb' (by intro i; fin_cases i <;> exact hnb _) ![![1, 2]] none ![![3, 4]] none
    (by intro s i; fin_cases s; fin_cases i <;> norm_num)
    (by intro s i; fin_cases s; fin_cases i <;> norm_num)
    (omniArgs (d := 2) (.box 0 nb') 320 { rirHpfEnable := false }) _ rfl (by norm_num) _
    (by rw [show (boxRoom ![4, 5] ![0.9, 0.8] ![0.7, 0.6] 16000 343 : Room).fs = 16000 from rfl, hcl]
        exact h0)
  rw [show (boxRoom ![4, 5] ![0.9, 0.8] ![0.7, 0.6] 16000 343 : Room).fs = 16000 from rfl, hcl] at h3
  exact h0.trans h3.symm

/-! ## C15 -/

/-- **C15.** For an odd kernel length and a positive granularity every table read of the lookup
path is in bounds (and never a negative index, which Python would wrap around). -/
theorem C15_table_reads_in_bounds (fdl gran : ℕ) (hodd : fdl % 2 = 1) (hg : 0 < gran) (frac : ℝ)
    (h0 : 0 ≤ frac) (h1 : frac < 1) (j : ℕ) (hj : j < fdl) :
    0 ≤ ⌊(1 - frac) * gran⌋ + (j : ℤ) * gran ∧
      ⌊(1 - frac) * gran⌋ + (j : ℤ) * gran + 1 < ((sincLut fdl gran).length : ℤ) := by
  have hgr : (0 : ℝ) < gran := by exact_mod_cast hg
  have a : 0 ≤ ⌊(1 - frac) * (gran : ℝ)⌋ :=
    Int.floor_nonneg.mpr (mul_nonneg (by linarith) hgr.le)
  have b : ⌊(1 - frac) * (gran : ℝ)⌋ ≤ gran := by
    have : ⌊(1 - frac) * (gran : ℝ)⌋ ≤ ⌊((gran : ℤ) : ℝ)⌋ := by
      apply Int.floor_le_floor
      push_cast
      nlinarith
    simpa using this
  have c : (j : ℤ) * gran ≤ ((fdl : ℤ) - 1) * gran := by
    have : (j : ℤ) ≤ fdl - 1 := by omega
    exact mul_le_mul_of_nonneg_right this (by omega)
  have e : 0 ≤ (j : ℤ) * gran := by positivity
  refine ⟨by omega, ?_⟩
  rw [sincLut_length]
  push_cast
  have : ((fdl : ℤ) + 1) * gran = (fdl - 1) * gran + 2 * gran := by ring
  omega

/-- **C15.** The lookup path succeeds, and tap `j` is the piecewise linear interpolant (grid
step `1/gran`) of sinc at `j - (fdl-1)/2 - frac`, times the window; the direct path evaluates
sinc itself at that very argument. -/
theorem C15_table_samples_the_right_argument (fdl gran : ℕ) (hodd : fdl % 2 = 1) (hg : 0 < gran)
    (frac : ℝ) (h0 : 0 ≤ frac) (h1 : frac < 1) :
    filtLut (freshTables fdl gran) gran frac
      = .ok (List.ofFn fun j : Fin fdl =>
          gridLerp gran Spec.sinc ((j : ℝ) - ((fdl : ℝ) - 1) / 2 - frac) * hann fdl j) ∧
    filtDirect (freshTables fdl gran) fdl frac
      = List.ofFn fun j : Fin fdl =>
          Spec.sinc ((j : ℝ) - ((fdl : ℝ) - 1) / 2 - frac) * hann fdl j := by
  have hh : ((fdl : ℝ) - 1) / 2 = halfLen fdl := by
    have : (2 * (halfLen fdl : ℝ) + 1) = fdl := by exact_mod_cast halfLen_odd hodd
    rw [← this]; ring
  rw [filtLut_eq hodd hg frac h0 h1, filtDirect_eq (by omega) frac, hh]
  constructor
  · congr 1
    exact rowOf_eq_ofFn fdl fun j =>
      gridLerp gran Spec.sinc ((j : ℝ) - halfLen fdl - frac) * hann fdl j
  · exact rowOf_eq_ofFn fdl fun j => Spec.sinc ((j : ℝ) - halfLen fdl - frac) * hann fdl j

/-- `gridLerp` interpolates: it agrees with the function on the grid ... -/
theorem gridLerp_grid (g : ℕ) (hg : 0 < g) (f : ℝ → ℝ) (i : ℤ) :
    gridLerp g f (i / g) = f (i / g) := by
  have hgr : (g : ℝ) ≠ 0 := by positivity
  have e : (i : ℝ) / g * g = i := by field_simp
  unfold gridLerp
  simp only [e, Int.floor_intCast, sub_self, zero_mul, add_zero]

/-- ... and is affine in between. -/
theorem gridLerp_affine (g : ℕ) (hg : 0 < g) (f : ℝ → ℝ) (i : ℤ) (θ : ℝ) (h0 : 0 ≤ θ) (h1 : θ < 1) :
    gridLerp g f ((i + θ) / g) = (1 - θ) * f (i / g) + θ * f ((i + 1) / g) := by
  have hgr : (g : ℝ) ≠ 0 := by positivity
  have e : ((i : ℝ) + θ) / g * g = i + θ := by field_simp
  have e2 : ⌊(i : ℝ) + θ⌋ = i := by
    rw [Int.floor_eq_iff]; constructor <;> linarith
  unfold gridLerp
  simp only [e, e2]
  ring

/-- The default table (81 taps, granularity 20) and a delay of a quarter sample. -/
example : ∃ taps, filtLut (freshTables 81 20) 20 (1 / 4) = .ok taps ∧ taps.length = 81 := by
  refine ⟨_, (C15_table_samples_the_right_argument 81 20 (by norm_num) (by norm_num) (1 / 4)
    (by norm_num) (by norm_num)).1, by simp⟩

/-! ## C16 -/

theorem rir_shape_error {d : ℕ} (S : Setup d) {h h' : ℝ → ℝ} {ε : ℝ} (hε : 0 ≤ ε)
    (hh : ∀ x, |h x - h' x| ≤ ε) (A : Finset (Fin d → ℤ)) (gs gm : (Fin d → ℝ) → ℝ)
    (src mic : Fin d → ℝ) (k : ℕ) :
    |rir { S with shape := h } A gs gm src mic k - rir { S with shape := h' } A gs gm src mic k|
      ≤ ε * ∑ n ∈ A, |wallGain S.lo S.hi n * gs (mic - image S.L src n) * gm (image S.L src n - mic)|
          / pathLength mic (image S.L src n) := by
  unfold rir
  rw [← Finset.sum_sub_distrib]
  refine (Finset.abs_sum_le_sum_abs _ _).trans ?_
  rw [Finset.mul_sum]
  apply Finset.sum_le_sum
  intro n _
  simp only
  rw [← mul_sub, abs_mul, abs_div, abs_of_pos (pathLength_pos _ _), mul_comm]
  exact mul_le_mul_of_nonneg_right (kernel_shape_error hε hh _ _ _)
    (div_nonneg (abs_nonneg _) (pathLength_pos _ _).le)

theorem kernelShape_error (b : Bool) (g : ℕ) (hg : 0 < g) (x : ℝ) :
    |kernelShape b g x - kernelShape false g x| ≤ Real.pi ^ 2 / (24 * g ^ 2) := by
  cases b
  · simp only [sub_self, abs_zero]; positivity
  · exact gridLerp_sinc_error g hg x

theorem validate_useLut {cfg : Config} (h : cfg.validate = .ok ()) (b : Bool) :
    ({ cfg with useLut := b } : Config).validate = .ok () := h

/-- **C16, omnidirectional devices.** With the table and without it the responses differ at
every sample by at most `π² / (24 g²)` times the sum of `|gain| / distance`. -/
theorem C16_table_error_bounded {d nS nM : ℕ} (hd : d = 2 ∨ d = 3) (hS : 0 < nS) (hM : 0 < nM)
    (w : World) (L lo hi : Fin d → ℝ) (fs c : ℝ) (hfs : 0 < fs) (hc : 0 < c)
    (sel : Selection d) (K : ℕ) (hK : 0 < K)
    (cfg : Config) (hcfg : cfg.validate = .ok ()) (hoff : cfg.rirHpfEnable = false)
    (src : Fin nS → Fin d → ℝ) (mic : Fin nM → Fin d → ℝ) :
    ∃ f g : Fin nS → Fin nM → Fin K → ℝ,
      simulateRir w (boxRoom L lo hi fs c) (points src) (points mic)
        (omniArgs sel K { cfg with useLut := true }) = .ok (tensor3 f) ∧
      simulateRir w (boxRoom L lo hi fs c) (points src) (points mic)
        (omniArgs sel K { cfg with useLut := false }) = .ok (tensor3 g) ∧
      ∀ s m k, |f s m k - g s m k| ≤ Real.pi ^ 2 / (24 * (cfg.sincLutGranularity : ℝ) ^ 2)
        * ∑ n ∈ sel.images, |wallGain lo hi n| / pathLength (mic m) (image L (src s) n) := by
  refine ⟨_, _, C05_static_rir_formula hd hS hM w L lo hi fs c hfs hc sel K hK _
    (validate_useLut hcfg true) hoff src mic, C05_static_rir_formula hd hS hM w L lo hi fs c hfs hc
    sel K hK _ (validate_useLut hcfg false) hoff src mic, fun s m k => ?_⟩
  have hg : 0 < cfg.sincLutGranularity := ((Config.valid_iff cfg).mp hcfg).2.2.2.2.2.1
  have hgn : (0 : ℕ) < cfg.sincLutGranularity.toNat := by omega
  have hgc : ((cfg.sincLutGranularity.toNat : ℕ) : ℝ) = cfg.sincLutGranularity := by
    have : ((cfg.sincLutGranularity.toNat : ℕ) : ℤ) = cfg.sincLutGranularity :=
      Int.toNat_of_nonneg hg.le
    exact_mod_cast congrArg (fun z : ℤ => (z : ℝ)) this
  have := rir_shape_error (setupFor w cfg L lo hi fs c)
    (h := kernelShape (true && w.device ≠ .mps) cfg.sincLutGranularity.toNat)
    (h' := kernelShape false cfg.sincLutGranularity.toNat) (by positivity)
    (kernelShape_error _ _ hgn) sel.images omni omni (src s) (mic m) k
  rw [hgc] at this
  simpa [omni, setupFor] using this

/-- **C16, directional devices.** -/
theorem C16_table_error_bounded_directional {d nS nM : ℕ} (hd : d = 2 ∨ d = 3) (hS : 0 < nS)
    (hM : 0 < nM) (w : World) (L lo hi : Fin d → ℝ) (fs c : ℝ) (hfs : 0 < fs) (hc : 0 < c)
    (sel : Selection d) (K : ℕ) (hK : 0 < K)
    (cfg : Config) (hcfg : cfg.validate = .ok ()) (hoff : cfg.rirHpfEnable = false)
    (src us : Fin nS → Fin d → ℝ) (mic um : Fin nM → Fin d → ℝ)
    (ps pm : Pattern) (sp mp : String) (hps : sp.toLower ∈ ps.names) (hpm : mp.toLower ∈ pm.names)
    (hus : ∀ s, 1e-8 ≤ Real.sqrt (∑ i, us s i ^ 2))
    (hum : ∀ m, 1e-8 ≤ Real.sqrt (∑ i, um m i ^ 2))
    (hne : ∀ s m, ∀ n ∈ sel.images, image L (src s) n ≠ mic m) :
    ∃ f g : Fin nS → Fin nM → Fin K → ℝ,
      simulateRir w (boxRoom L lo hi fs c) (orientedPoints src us) (orientedPoints mic um)
        (directionalArgs sel K { cfg with useLut := true } sp mp) = .ok (tensor3 f) ∧
      simulateRir w (boxRoom L lo hi fs c) (orientedPoints src us) (orientedPoints mic um)
        (directionalArgs sel K { cfg with useLut := false } sp mp) = .ok (tensor3 g) ∧
      ∀ s m k, |f s m k - g s m k| ≤ Real.pi ^ 2 / (24 * (cfg.sincLutGranularity : ℝ) ^ 2)
        * ∑ n ∈ sel.images,
            |wallGain lo hi n * ps.towards (us s) (mic m - image L (src s) n)
              * pm.towards (um m) (image L (src s) n - mic m)|
            / pathLength (mic m) (image L (src s) n) := by
  refine ⟨_, _, C05_static_rir_formula_directional hd hS hM w L lo hi fs c hfs hc sel K hK _
    (validate_useLut hcfg true) hoff src us mic um ps pm sp mp hps hpm hus hum hne,
    C05_static_rir_formula_directional hd hS hM w L lo hi fs c hfs hc
    sel K hK _ (validate_useLut hcfg false) hoff src us mic um ps pm sp mp hps hpm hus hum hne,
    fun s m k => ?_⟩
  have hg : 0 < cfg.sincLutGranularity := ((Config.valid_iff cfg).mp hcfg).2.2.2.2.2.1
  have hgn : (0 : ℕ) < cfg.sincLutGranularity.toNat := by omega
  have hgc : ((cfg.sincLutGranularity.toNat : ℕ) : ℝ) = cfg.sincLutGranularity := by
    have : ((cfg.sincLutGranularity.toNat : ℕ) : ℤ) = cfg.sincLutGranularity :=
      Int.toNat_of_nonneg hg.le
    exact_mod_cast congrArg (fun z : ℤ => (z : ℝ)) this
  have := rir_shape_error (setupFor w cfg L lo hi fs c)
    (h := kernelShape (true && w.device ≠ .mps) cfg.sincLutGranularity.toNat)
    (h' := kernelShape false cfg.sincLutGranularity.toNat) (by positivity)
    (kernelShape_error _ _ hgn) sel.images (ps.towards (us s)) (pm.towards (um m)) (src s) (mic m) k
  rw [hgc] at this
  exact this

/-- **C16.** The bound vanishes as the granularity grows: for every `ε > 0` and every set of
paths a granularity exists from which on it is below `ε`. -/
theorem C16_error_vanishes (total ε : ℝ) (hε : 0 < ε) :
    ∃ g₀ : ℕ, 0 < g₀ ∧ ∀ g : ℕ, g₀ ≤ g → Real.pi ^ 2 / (24 * (g : ℝ) ^ 2) * total < ε := by
  obtain ⟨N, hN⟩ := exists_nat_gt (Real.pi ^ 2 * |total| / ε)
  refine ⟨N + 1, by omega, fun g hg => ?_⟩
  have hg1 : (1 : ℝ) ≤ g := by
    have : 1 ≤ g := by omega
    exact_mod_cast this
  have hgN : (N : ℝ) ≤ g := by
    have : N ≤ g := by omega
    exact_mod_cast this
  have h1 : Real.pi ^ 2 * |total| < ε * g := by
    rw [div_lt_iff₀ hε] at hN
    nlinarith
  have h2 : Real.pi ^ 2 / (24 * (g : ℝ) ^ 2) * total ≤ Real.pi ^ 2 * |total| / g := by
    rw [div_mul_eq_mul_div]
    have h3 : Real.pi ^ 2 * total ≤ Real.pi ^ 2 * |total| := by
      gcongr; exact le_abs_self _
    calc Real.pi ^ 2 * total / (24 * (g : ℝ) ^ 2)
        ≤ Real.pi ^ 2 * |total| / (24 * (g : ℝ) ^ 2) := by gcongr
      _ ≤ Real.pi ^ 2 * |total| / g := by
          gcongr
          nlinarith
  refine h2.trans_lt ?_
  rw [div_lt_iff₀ (by linarith)]
  exact h1

/-- The default granularity 20 bounds the error of a direct path over 2 m by `π²/19200`. -/
example (w : World) : ∃ f g : Fin 1 → Fin 1 → Fin 1000 → ℝ,
    simulateRir w (boxRoom ![4, 5] ![0.9, 0.8] ![0.7, 0.6] 16000 343)
      (points ![![1, 2]]) (points ![![3, 2]])
      (omniArgs (d := 2) (.order 2) 1000 { rirHpfEnable := false, useLut := true }) = .ok (tensor3 f) ∧
    simulateRir w (boxRoom ![4, 5] ![0.9, 0.8] ![0.7, 0.6] 16000 343)
      (points ![![1, 2]]) (points ![![3, 2]])
      (omniArgs (d := 2) (.order 2) 1000 { rirHpfEnable := false, useLut := false }) = .ok (tensor3 g) := by
  obtain ⟨f, g, h1, h2, _⟩ := C16_table_error_bounded (Or.inl rfl) (by norm_num) (by norm_num) w
    ![4, 5] ![0.9, 0.8] ![0.7, 0.6] 16000 343 (by norm_num) (by norm_num) (.order 2) 1000
    (by norm_num) _ plainConfig_valid rfl ![![1, 2]] ![![3, 2]]
  exact ⟨f, g, h1, h2⟩

/-! ## C17 -/

theorem absorbed_nonneg {a b : ℝ} (ha : 0 ≤ a) (hb : 0 ≤ b) :
    ∀ (k : ℕ) (w : Wall), 0 ≤ absorbed a b k w
  | 0, _ => zero_le_one
  | k + 1, .hi => mul_nonneg hb (absorbed_nonneg ha hb k .lo)
  | k + 1, .lo => mul_nonneg ha (absorbed_nonneg ha hb k .hi)

theorem absorbed_mono {a b a' b' : ℝ} (ha : 0 ≤ a) (hb : 0 ≤ b) (haa : a ≤ a') (hbb : b ≤ b') :
    ∀ (k : ℕ) (w : Wall), absorbed a b k w ≤ absorbed a' b' k w
  | 0, _ => le_rfl
  | k + 1, .hi => mul_le_mul hbb (absorbed_mono ha hb haa hbb k .lo) (absorbed_nonneg ha hb k .lo)
      (hb.trans hbb)
  | k + 1, .lo => mul_le_mul haa (absorbed_mono ha hb haa hbb k .hi) (absorbed_nonneg ha hb k .hi)
      (ha.trans haa)

theorem absorbed_one : ∀ (k : ℕ) (w : Wall), absorbed 1 1 k w = 1
  | 0, _ => rfl
  | k + 1, .hi => by simp [absorbed, absorbed_one k .lo]
  | k + 1, .lo => by simp [absorbed, absorbed_one k .hi]

theorem absorbed_zero {k : ℕ} (h : k ≠ 0) (w : Wall) : absorbed 0 0 k w = 0 := by
  obtain ⟨j, rfl⟩ := Nat.exists_eq_succ_of_ne_zero h
  cases w <;> simp [absorbed]

/-- **C17.** Image gains for coefficients in `[0, 1]` are in `[0, 1]`. -/
theorem C17_gain_between_zero_and_one {d : ℕ} (lo hi : Fin d → ℝ) (n : Fin d → ℤ)
    (hlo : ∀ i, 0 ≤ lo i ∧ lo i ≤ 1) (hhi : ∀ i, 0 ≤ hi i ∧ hi i ≤ 1) :
    ∃ g, reflectionCoefficients [List.ofFn n] (wallList lo hi) = [g] ∧ 0 ≤ g ∧ g ≤ 1 := by
  refine ⟨_, by unfold reflectionCoefficients; simp only [List.map_cons, List.map_nil];
                rw [reflectionCoefficients_eq], ?_, ?_⟩
  · exact Finset.prod_nonneg fun i _ => absorbed_nonneg (hlo i).1 (hhi i).1 _ _
  · apply Finset.prod_le_one
    · exact fun i _ => absorbed_nonneg (hlo i).1 (hhi i).1 _ _
    · intro i _
      have := absorbed_mono (hlo i).1 (hhi i).1 (hlo i).2 (hhi i).2 (n i).natAbs (lastWall (n i))
      rwa [absorbed_one] at this

/-- **C17.** Gains never increase when coefficients decrease. -/
theorem C17_gain_monotone {d : ℕ} (lo hi lo' hi' : Fin d → ℝ) (n : Fin d → ℤ)
    (hlo : ∀ i, 0 ≤ lo i ∧ lo i ≤ lo' i) (hhi : ∀ i, 0 ≤ hi i ∧ hi i ≤ hi' i) :
    ∃ g g', reflectionCoefficients [List.ofFn n] (wallList lo hi) = [g] ∧
      reflectionCoefficients [List.ofFn n] (wallList lo' hi') = [g'] ∧ g ≤ g' := by
  refine ⟨_, _, by unfold reflectionCoefficients; simp only [List.map_cons, List.map_nil];
                   rw [reflectionCoefficients_eq],
    by unfold reflectionCoefficients; simp only [List.map_cons, List.map_nil];
       rw [reflectionCoefficients_eq], ?_⟩
  apply Finset.prod_le_prod
  · exact fun i _ => absorbed_nonneg (hlo i).1 (hhi i).1 _ _
  · exact fun i _ => absorbed_mono (hlo i).1 (hhi i).1 (hlo i).2 (hhi i).2 _ _

/-- **C17.** Perfectly reflecting walls do not attenuate. -/
theorem C17_rigid_gain_one {d : ℕ} (n : Fin d → ℤ) :
    reflectionCoefficients [List.ofFn n] (wallList (d := d) (fun _ => 1) (fun _ => 1)) = [1] := by
  unfold reflectionCoefficients
  simp only [List.map_cons, List.map_nil]
  rw [reflectionCoefficients_eq]
  unfold wallGain
  simp [absorbed_one]

theorem wallGain_zero {d : ℕ} (n : Fin d → ℤ) (h : n ≠ 0) :
    wallGain (fun _ => 0) (fun _ => 0) n = 0 := by
  obtain ⟨i, hi⟩ := Function.ne_iff.mp h
  unfold wallGain
  apply Finset.prod_eq_zero (Finset.mem_univ i)
  exact absorbed_zero (by simpa using hi) _

theorem image_zero {d : ℕ} (L x : Fin d → ℝ) : image L x 0 = x := by
  funext i; simp [image, mirrored]

/-- **C17.** With fully absorbing walls the omnidirectional response is the direct path alone,
whatever the reflection order or image box. -/
theorem C17_anechoic_is_direct_path {d nS nM : ℕ} (hd : d = 2 ∨ d = 3) (hS : 0 < nS) (hM : 0 < nM)
    (w : World) (L : Fin d → ℝ) (fs c : ℝ) (hfs : 0 < fs) (hc : 0 < c)
    (sel : Selection d) (K : ℕ) (hK : 0 < K)
    (cfg : Config) (hcfg : cfg.validate = .ok ()) (hoff : cfg.rirHpfEnable = false)
    (src : Fin nS → Fin d → ℝ) (mic : Fin nM → Fin d → ℝ) :
    simulateRir w (boxRoom L (fun _ => 0) (fun _ => 0) fs c) (points src) (points mic)
        (omniArgs sel K cfg)
      = .ok (tensor3 fun s m (k : Fin K) => 1 / pathLength (mic m) (src s) *
          kernel (kernelShape (cfg.useLut && w.device ≠ .mps) cfg.sincLutGranularity.toNat)
            cfg.fracDelayLength.toNat (pathLength (mic m) (src s) * fs / c) k) := by
  rw [C05_static_rir_formula hd hS hM w L _ _ fs c hfs hc sel K hK cfg hcfg hoff src mic]
  congr 2
  funext s m k
  unfold rir
  have h0 : (0 : Fin d → ℤ) ∈ sel.images := by
    cases sel <;> simp [Selection.images, orderSet, boxSet]
  rw [Finset.sum_eq_single_of_mem 0 h0]
  · simp [setupFor, omni, image_zero, wallGain, absorbed]
  · intro n _ hn
    simp [setupFor, wallGain_zero n hn]

/-- Order 5 in an anechoic 4 m × 5 m room. -/
example (w : World) : ∃ f : Fin 1 → Fin 1 → Fin 1000 → ℝ,
    simulateRir w (boxRoom ![4, 5] (fun _ => 0) (fun _ => 0) 16000 343)
      (points ![![1, 2]]) (points ![![3, 2]])
      (omniArgs (d := 2) (.order 5) 1000 { rirHpfEnable := false }) = .ok (tensor3 f) :=
  ⟨_, C17_anechoic_is_direct_path (Or.inl rfl) (by norm_num) (by norm_num) w _ _ _ (by norm_num)
    (by norm_num) _ _ (by norm_num) _ plainConfig_valid rfl _ _⟩

example : ∃ g, reflectionCoefficients [List.ofFn ![2, -1]] (wallList ![0.5, 0.1] ![0.25, 0.2]) = [g]
    ∧ 0 ≤ g ∧ g ≤ 1 :=
  C17_gain_between_zero_and_one _ _ _ (by intro i; fin_cases i <;> norm_num)
    (by intro i; fin_cases i <;> norm_num)

end Torchrir.Props
