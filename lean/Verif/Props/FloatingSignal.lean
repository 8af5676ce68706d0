import Verif.Lemmas.SignalFloat
import Verif.Props.Convolver

/-!
# C126: convolution in floating point
-/

namespace Torchrir.Props

open Torchrir.Model Torchrir.Spec Torchrir.Lemmas

namespace FloatingSignal

open Torchrir.Lemmas.SignalFloat

variable {u ε : ℝ} {n₀ : ℕ} {F : SignalFloats}

/-- The microphone signals in a buffer. -/
theorem Close.mics {ρ : ℝ} {M K : ℕ} {v A : ℕ → ℕ → ℝ} {out : List (List ℝ)} (h : Close ρ M K v A out)
    (e B : Fin M → ℕ → ℝ) (hv : ∀ (m : Fin M) k, k < K → v m k = e m k) (hA : ∀ (m : Fin M) k, k < K → A m k = B m k) :
    ∃ y : Fin M → ℕ → ℝ, squeezeMics M K out = micTensor K y ∧ ∀ m k, k < K → |y m k - e m k| ≤ ρ * B m k := by
  obtain ⟨w, rfl, hw⟩ := h
  refine ⟨fun m k => w m k, squeezeMics_rep K w _ fun m k _ => rfl, fun m k hk => ?_⟩
  rw [← hv m k hk, ← hA m k hk]
  exact (hw m m.2 k hk).1

/-! ## Static responses -/

theorem static_general (hF : AccurateSignals u ε n₀ F) (hu : 0 ≤ u) (hε : 0 ≤ ε) {S S' M N L : ℕ} (x : Fin S' → Fin N → ℝ)
    (y : Fin S → Fin N → ℝ) (h : Fin S → Fin M → Fin L → ℝ) (hS : S' = 1 ∨ S' = S)
    (hy : expandSignal (List.ofFn fun s => List.ofFn (x s)) S = List.ofFn (fun s => List.ofFn (y s)) ∨ S = 0)
    {sig rirs : Tensor ℝ} (hs : SignalIs sig x) (hr : StaticRirsAre rirs h) (hN : 1 ≤ N) (hL : 1 ≤ L)
    (hn₀ : 2 * (N + L) ≤ n₀) :
    ∃ z : Fin M → ℕ → ℝ, F.convolveRir sig rirs = .ok (micTensor (N + L - 1) z) ∧
      ∀ m k, k < N + L - 1 → |z m k - mix y h m k| ≤ convError u ε S * loudness y h m := by
  unfold SignalFloats.convolveRir
  rw [ensureSignal_eq hs, ensureStaticRirs_eq hr, ok_bind, ok_bind]
  show ∃ z : Fin M → ℕ → ℝ, (raiseIf (S' ≠ 1 ∧ S' ≠ S) _ >>= fun _ => _) = _ ∧ _
  rw [raiseIf_neg (by omega), ok_bind]
  show ∃ z : Fin M → ℕ → ℝ, (raiseIf ((N : ℤ) + L - 1 < 0) _ >>= fun _ => _) = _ ∧ _
  rw [raiseIf_neg (by omega), ok_bind]
  rw [tensor2_rows, tensor3_planes]
  obtain ⟨out, hloop, hc⟩ := close_static hF hu hε (expandSignal (List.ofFn fun s => List.ofFn (x s)) S)
    (List.ofFn fun i => List.ofFn fun j => List.ofFn (h i j)) S M N L hN hL
    (fun s hs => by
      rcases hy with hy | hy
      · rw [hy]
        have := rows_getD y ⟨s, hs⟩
        simp only at this
        rw [this]; simp
      · omega)
    (fun s hs m hm => by
      have := planes_getD h ⟨s, hs⟩ ⟨m, hm⟩
      simp only at this
      rw [this]; simp) ((fftLen_le (by omega)).trans (by omega)) _ rfl
  obtain ⟨z, hz, hze⟩ := Close.mics hc (mix y h) (fun m _ => loudness y h m) (fun m k _ => by
      unfold mix
      rw [← Fin.sum_univ_eq_sum_range (fun s => convAt
        ((expandSignal (List.ofFn fun s => List.ofFn (x s)) S).getD s [])
        (((List.ofFn fun i => List.ofFn fun j => List.ofFn (h i j)).getD s []).getD m []) k) S]
      refine Finset.sum_congr rfl fun s _ => ?_
      rcases hy with hy | hy
      · rw [hy, rows_getD, planes_getD, convAt_ofFn]
      · subst hy; exact s.elim0) (fun m k _ => by
      unfold loudness
      rw [← Fin.sum_univ_eq_sum_range (fun s => l1
        ((expandSignal (List.ofFn fun s => List.ofFn (x s)) S).getD s []) *
        l1 (((List.ofFn fun i => List.ofFn fun j => List.ofFn (h i j)).getD s []).getD m [])) S]
      refine Finset.sum_congr rfl fun s _ => ?_
      rcases hy with hy | hy
      · rw [hy, rows_getD, planes_getD, l1_ofFn, l1_ofFn]
      · subst hy; exact s.elim0)
  refine ⟨z, ?_, hze⟩
  show ((List.range S).foldlM _ _ >>= _) = _
  rw [show (tensor2 x).shape.getD 1 0 = N from rfl, show (tensor3 h).shape.getD 1 0 = M from rfl,
    show (tensor3 h).shape.getD 0 0 = S from rfl,
    show (tensor3 h).shape.getD 2 0 = L from rfl, hloop, ok_bind]
  have e : ((N : ℤ) + L - 1).toNat = N + L - 1 := by omega
  rw [e]
  show Except.ok _ = _
  rw [hz]

end FloatingSignal

open FloatingSignal

/-- **C126, static responses.** The computed microphone signals differ from the sums of the convolutions by the errors
of one convolution and of one addition per source. -/
theorem C126_static {u ε : ℝ} {n₀ : ℕ} {F : SignalFloats} (hF : AccurateSignals u ε n₀ F) (hu : 0 ≤ u) (hε : 0 ≤ ε)
    {S M N L : ℕ} (x : Fin S → Fin N → ℝ) (h : Fin S → Fin M → Fin L → ℝ) {sig rirs : Tensor ℝ} (hs : SignalIs sig x)
    (hr : StaticRirsAre rirs h) (hN : 1 ≤ N) (hL : 1 ≤ L) (hn₀ : 2 * (N + L) ≤ n₀) :
    ∃ y : Fin M → ℕ → ℝ, F.convolveRir sig rirs = .ok (micTensor (N + L - 1) y) ∧
      ∀ m k, k < N + L - 1 → |y m k - mix x h m k| ≤ convError u ε S * loudness x h m := by
  refine static_general hF hu hε x x h (Or.inr rfl) (Or.inl ?_) hs hr hN hL hn₀
  unfold expandSignal
  rw [if_neg (by simp; omega)]

/-- **C126, static responses, one signal for all sources.** -/
theorem C126_static_shared {u ε : ℝ} {n₀ : ℕ} {F : SignalFloats} (hF : AccurateSignals u ε n₀ F) (hu : 0 ≤ u)
    (hε : 0 ≤ ε) {S M N L : ℕ} (x : Fin 1 → Fin N → ℝ) (h : Fin S → Fin M → Fin L → ℝ) {sig rirs : Tensor ℝ}
    (hs : SignalIs sig x) (hr : StaticRirsAre rirs h) (hN : 1 ≤ N) (hL : 1 ≤ L) (hn₀ : 2 * (N + L) ≤ n₀) :
    ∃ y : Fin M → ℕ → ℝ, F.convolveRir sig rirs = .ok (micTensor (N + L - 1) y) ∧
      ∀ m k, k < N + L - 1 → |y m k - mix (fun _ => x 0) h m k| ≤ convError u ε S * loudness (fun _ => x 0) h m := by
  refine static_general hF hu hε x (fun _ => x 0) h (Or.inl rfl) ?_ hs hr hN hL hn₀
  unfold expandSignal
  rcases Nat.lt_trichotomy S 1 with h1 | h1 | h1
  · right; omega
  · left
    subst h1
    rw [if_neg (by simp)]
    simp
  · left
    rw [if_pos (by simpa using h1)]
    apply List.ext_getElem
    · simp
    · intro i h2 h3; simp

namespace FloatingSignal

/-! ## Trajectories -/

theorem near_mul {u e1 e2 a b a' b' : ℝ} {fl : ℝ → ℝ} (hfl : ∀ x, |fl x - x| ≤ u * |x|) (hu : 0 ≤ u) (h1 : 0 ≤ e1)
    (ha : 0 ≤ a) (hb : 0 ≤ b) (ha' : |a' - a| ≤ e1 * a) (hb' : |b' - b| ≤ e2 * b) :
    |fl (a' * b') - a * b| ≤ ((1 + e1) * (1 + e2) * (1 + u) - 1) * (a * b) := by
  have hab := mul_nonneg ha hb
  have h3 : |a'| ≤ (1 + e1) * a := by
    have : a' = (a' - a) + a := by ring
    rw [this]; refine (abs_add_le _ _).trans ?_; rw [abs_of_nonneg ha]; linarith
  have h4 : |a' * b' - a * b| ≤ ((1 + e1) * (1 + e2) - 1) * (a * b) := by
    have : a' * b' - a * b = a' * (b' - b) + (a' - a) * b := by ring
    rw [this]
    refine (abs_add_le _ _).trans ?_
    rw [abs_mul, abs_mul, abs_of_nonneg hb]
    have h5 := mul_le_mul h3 hb' (abs_nonneg _) (mul_nonneg (by linarith) ha)
    have h6 := mul_le_mul_of_nonneg_right ha' hb
    nlinarith
  have h5 : |a' * b'| ≤ (1 + e1) * (1 + e2) * (a * b) := by
    have : a' * b' = (a' * b' - a * b) + a * b := by ring
    rw [this]; refine (abs_add_le _ _).trans ?_; rw [abs_of_nonneg hab]; linarith
  have : fl (a' * b') - a * b = (fl (a' * b') - a' * b') + (a' * b' - a * b) := by ring
  rw [this]
  refine (abs_add_le _ _).trans ?_
  have := (hfl (a' * b')).trans (mul_le_mul_of_nonneg_left h5 hu)
  nlinarith

theorem fl_zero {p : ℕ} {fl : ℝ → ℝ} (h : RoundsToNearest p fl) : fl 0 = 0 := by
  have := fl_nat h (n := 0) (Nat.zero_le _)
  simpa using this

theorem fl_nonneg {p : ℕ} {fl : ℝ → ℝ} (h : RoundsToNearest p fl) {x : ℝ} (hx : 0 ≤ x) : 0 ≤ fl x := by
  rw [← fl_zero h]; exact fl_mono h hx

theorem roundoff_pos (p : ℕ) : 0 < roundoff p := by unfold roundoff; positivity

theorem roundoff_anti {p q : ℕ} (h : q ≤ p) : roundoff p ≤ roundoff q := by
  unfold roundoff; exact pow_le_pow_of_le_one (by norm_num) (by norm_num) h

/-- The segmentation computed from admissible starts. -/
theorem starts_bounds_float {F : SignalFloats} {q T N : ℕ} {dev : DeviceType} (htime : RoundsToNearest q (F.time dev))
    (hpy : RoundsToNearest 53 F.py) (hq : q ≤ 53) (hT : 1 ≤ T) {ts : Option (Tensor ℝ)} {fs : Option ℝ} {start : Fin T → ℝ}
    (h : StartsAt N ts fs start) (hend : ∀ t, (1 + clockError q) * start t < N + 1) :
    ∃ W : ℕ → ℕ, (∃ l, F.stepStarts dev ts fs T N = .ok l ∧ l ++ [(N : ℤ)] = bounds T W) ∧
      (∀ t < T, W t ≤ W (t + 1)) ∧ W T = N ∧ W 0 = 0 ∧
      ∀ t : Fin T, ∃ s : ℝ, (W t : ℤ) = ⌊s⌋ ∧ |s - start t| ≤ clockError q * start t := by
  have hu := (roundoff_pos q).le
  have key : ∃ s : Fin T → ℝ, (∀ t, 0 ≤ start t) ∧ Monotone s ∧ (∀ t : Fin T, (t : ℕ) = 0 → s t = 0) ∧
      (∀ t, |s t - start t| ≤ clockError q * start t) ∧
      F.stepStarts dev ts fs T N = .ok (List.ofFn fun t => truncReal (s t)) := by
    cases h with
    | uniform =>
      have hT' : (0 : ℝ) < T := by exact_mod_cast hT
      have hb : (0 : ℝ) ≤ (N : ℝ) / T := by positivity
      have hf := fl_nonneg htime (fl_nonneg hpy hb)
      refine ⟨fun t => F.time dev (F.time dev (t : ℕ) * F.time dev (F.py ((N : ℝ) / T))), fun t => by positivity, ?_, ?_, ?_, ?_⟩
      · intro a b hab
        exact fl_mono htime (mul_le_mul_of_nonneg_right (fl_mono htime (by exact_mod_cast hab)) hf)
      · intro t ht
        simp only [ht, Nat.cast_zero, fl_zero htime, zero_mul]
      · intro t
        beta_reduce
        rw [mul_div_assoc]
        have hpy' : |F.py ((N : ℝ) / T) - (N : ℝ) / T| ≤ roundoff q * ((N : ℝ) / T) := by
          refine (fl_near hpy _).trans ?_
          rw [abs_of_nonneg hb]
          exact mul_le_mul_of_nonneg_right (roundoff_anti hq) hb
        have h2 : |F.time dev (F.py ((N : ℝ) / T)) - (N : ℝ) / T| ≤ ((1 + roundoff q) ^ 2 - 1) * ((N : ℝ) / T) := by
          have := near_mul (fl_near htime) hu (e1 := roundoff q) (e2 := 0) (a := (N : ℝ) / T) (b := 1)
            (a' := F.py ((N : ℝ) / T)) (b' := 1) hu hb zero_le_one hpy' (by simp)
          rw [mul_one, mul_one] at this
          refine this.trans (le_of_eq ?_)
          ring
        have h1 : |F.time dev ((t : ℕ) : ℝ) - ((t : ℕ) : ℝ)| ≤ roundoff q * ((t : ℕ) : ℝ) := by
          have := fl_near htime ((t : ℕ) : ℝ)
          rwa [abs_of_nonneg (by positivity : (0 : ℝ) ≤ ((t : ℕ) : ℝ))] at this
        refine (near_mul (fl_near htime) hu hu (by positivity) hb h1 h2).trans (le_of_eq ?_)
        unfold clockError
        ring
      · unfold SignalFloats.stepStarts
        rw [raiseIf_neg (by omega)]
        show Except.ok _ = _
        congr 1
        apply List.ext_getElem
        · simp
        · intro i h1 h2
          simp only [List.getElem_map, List.getElem_range, List.getElem_ofFn]
    | given τ f first mono rate last =>
      have h0 : ∀ t, 0 ≤ τ t := by
        intro t
        rw [← first ⟨0, hT⟩ rfl]
        exact mono (Fin.mk_le_of_le_val (Nat.zero_le _))
      refine ⟨fun t => F.time dev (F.time dev (τ t) * F.time dev f), fun t => mul_nonneg (h0 t) rate, fun a b hab =>
        fl_mono htime (mul_le_mul_of_nonneg_right (fl_mono htime (mono hab)) (fl_nonneg htime rate)),
        fun t ht => by simp only [first t ht, fl_zero htime, zero_mul], fun t => ?_, ?_⟩
      · have h1 := fl_near htime (τ t)
        have h2 := fl_near htime f
        rw [abs_of_nonneg (h0 t)] at h1
        rw [abs_of_nonneg rate] at h2
        refine (near_mul (fl_near htime) hu hu (h0 t) rate h1 h2).trans ?_
        refine mul_le_mul_of_nonneg_right ?_ (mul_nonneg (h0 t) rate)
        unfold clockError
        have : (1 : ℝ) ≤ (1 + roundoff q) := by linarith
        have h3 : (0 : ℝ) ≤ (1 + roundoff q) ^ 3 := by positivity
        nlinarith
      · unfold SignalFloats.stepStarts SignalFloats.startsFromTimestamps
        dsimp only
        rw [raiseIf_neg (by simp [Tensor.ndim, Tensor.numel]), ok_bind,
          raiseIf_neg (by simp [List.ofFn_eq_nil_iff]; omega), ok_bind, raiseIf_neg, ok_bind]
        · show Except.ok _ = _
          rw [List.map_ofFn]
          rfl
        · rw [not_not, List.getD_eq_getElem _ _ (by simp; omega)]
          simp only [List.getElem_ofFn]
          rw [first _ rfl, fl_zero htime]
  obtain ⟨s, hpos, hmono, hfirst, hnear, hst⟩ := key
  have hnn : ∀ t, 0 ≤ s t := fun t => by
    rw [← hfirst ⟨0, hT⟩ rfl]
    exact hmono (Fin.mk_le_of_le_val (Nat.zero_le _))
  have hle : ∀ t, ⌊s t⌋ ≤ N := fun t => by
    have h1 := (abs_le.mp (hnear t)).2
    have h2 := hend t
    have : s t < ((N + 1 : ℤ) : ℝ) := by push_cast; linarith
    have := Int.floor_lt.mpr this
    omega
  have hW : ∀ t, ((⌊s t⌋.toNat : ℕ) : ℤ) = ⌊s t⌋ := fun t =>
    Int.toNat_of_nonneg (Int.floor_nonneg.mpr (hnn t))
  refine ⟨fun t => if ht : t < T then ⌊s ⟨t, ht⟩⌋.toNat else N, ⟨_, hst, ?_⟩, ?_, ?_, ?_, ?_⟩
  · unfold bounds
    rw [List.range_succ, List.map_append]
    congr 1
    · apply List.ext_getElem
      · simp
      · intro i h1 h2
        simp only [List.length_ofFn] at h1
        simp only [List.getElem_ofFn, List.getElem_map, List.getElem_range, dif_pos h1, hW]
        exact truncReal_nonneg (hnn _)
    · simp
  · intro t ht
    beta_reduce
    rw [dif_pos ht]
    by_cases ht2 : t + 1 < T
    · rw [dif_pos ht2]
      have : ⌊s ⟨t, ht⟩⌋ ≤ ⌊s ⟨t + 1, ht2⟩⌋ := Int.floor_mono (hmono (by simp))
      omega
    · rw [dif_neg ht2]
      have := hle ⟨t, ht⟩
      omega
  · simp
  · have hT0 : 0 < T := hT
    simp only [dif_pos hT0, hfirst ⟨0, hT0⟩ rfl]
    simp
  · intro t
    refine ⟨s t, ?_, hnear t⟩
    simp only [dif_pos t.2, hW]

theorem begins_of_bounds {T N : ℕ} (hT : 1 ≤ T) {W : ℕ → ℕ} (hmono : ∀ t < T, W t ≤ W (t + 1)) (hlast : W T = N)
    (h0 : W 0 = 0) : ∃ step : Fin N → Fin T, Begins (fun t => W t) step ∧
      ∀ j, (step j : ℕ) < T ∧ W (step j) ≤ j ∧ (j : ℕ) < W ((step j : ℕ) + 1) := by
  have mono : ∀ a b, a ≤ b → b ≤ T → W a ≤ W b := by
    intro a b hab
    induction b, hab using Nat.le_induction with
    | base => intro _; exact le_rfl
    | succ b hab ih => intro hb; exact (ih (by omega)).trans (hmono b (by omega))
  have hst : StartsAt N (some ⟨[T], List.ofFn fun t : Fin T => ((W t : ℕ) : ℝ)⟩) (some 1) fun t : Fin T => ((W t : ℕ) : ℝ) * 1 :=
    .given _ 1 (fun t ht => by rw [ht, h0, Nat.cast_zero])
      (fun a b hab => by exact_mod_cast mono a b hab (by omega)) zero_le_one
      (fun t => by rw [mul_one]; exact_mod_cast hlast ▸ mono t T t.2.le le_rfl)
  obtain ⟨step, hs, -⟩ := C24_every_sample_has_one_step hT hst
  refine ⟨step, fun j t => ?_, step_bounds hs hlast fun t => ?_⟩
  · rw [hs j t]
    beta_reduce
    rw [mul_one, Int.floor_natCast]
    exact_mod_cast Iff.rfl
  · rw [mul_one, Int.floor_natCast]

open Torchrir.Lemmas.SignalFloat

variable {u ε : ℝ} {n₀ : ℕ} {F : SignalFloats}

/-- Trajectory mode from any table of first samples. -/
theorem trajectory_general (hF : AccurateSignals u ε n₀ F) (hu : 0 ≤ u) (hε : 0 ≤ ε)
    {dev : DeviceType} {T S M N L : ℕ} (x : Fin S → Fin N → ℝ) (h : Fin T → Fin S → Fin M → Fin L → ℝ) {sig rirs : Tensor ℝ}
    (hs : SignalIs sig x) (hr : DynamicRirsAre rirs h) (hT : 1 ≤ T) (hL : 1 ≤ L) (hn₀ : 2 * (N + L) ≤ n₀)
    {ts : Option (Tensor ℝ)} {fs : Option ℝ} {W : ℕ → ℕ} {l : List ℤ} (hl : F.stepStarts dev ts fs T N = .ok l)
    (hb : l ++ [(N : ℤ)] = bounds T W) (hmono : ∀ t < T, W t ≤ W (t + 1)) (hlast : W T = N) (step : Fin N → Fin T)
    (hstep : ∀ j, (step j : ℕ) < T ∧ W (step j) ≤ j ∧ (j : ℕ) < W ((step j : ℕ) + 1)) :
    ∃ y : Fin M → ℕ → ℝ, F.convolve { timestamps := ts, fs := fs } dev sig rirs = .ok (micTensor (N + L - 1) y) ∧
      ∀ m k, k < N + L - 1 →
        |y m k - mixVarying x h step m k| ≤ convError u ε (additions dev S T) * loudnessAt x h step m k := by
  have hd := trajData_of x h W hmono hlast (by omega)
  have hlen : fftLen ((N + L - 1 : ℕ) : ℤ) ≤ n₀ := by
    rcases Nat.eq_zero_or_pos (N + L - 1) with h | h
    · rw [h]
      have : fftLen ((0 : ℕ) : ℤ) ≤ 2 := by decide
      omega
    · exact (fftLen_le h).trans (by omega)
  have hfin : ∃ out, (if dev = .cuda ∨ dev = .mps then
      F.trajectoryBatched (List.ofFn fun s => List.ofFn (x s)) N
        (List.ofFn fun t => List.ofFn fun s => List.ofFn fun m => List.ofFn (h t s m)) T S M L (l ++ [(N : ℤ)])
      else F.trajectoryLoop (List.ofFn fun s => List.ofFn (x s)) N
        (List.ofFn fun t => List.ofFn fun s => List.ofFn fun m => List.ofFn (h t s m)) T S M L (l ++ [(N : ℤ)]))
        = .ok (squeezeMics M (N + L - 1) out) ∧
      Close (convError u ε (additions dev S T)) M (N + L - 1)
        (varyingSum (List.ofFn fun s => List.ofFn (x s))
          (List.ofFn fun t => List.ofFn fun s => List.ofFn fun m => List.ofFn (h t s m)) S T W)
        (varyingBound (List.ofFn fun s => List.ofFn (x s))
          (List.ofFn fun t => List.ofFn fun s => List.ofFn fun m => List.ofFn (h t s m)) S T L W) out := by
    unfold additions
    rw [hb]
    split
    · exact close_batched hF hu hε hd hL hlen 8 (by norm_num)
    · exact close_trajectory hF hu hε hd hT hL hlen
  obtain ⟨out, hout, hc⟩ := hfin
  obtain ⟨y, hy, hye⟩ := Close.mics hc (mixVarying x h step) (loudnessAt x h step)
    (fun m k _ => varyingSum_eq_mix x h W le_rfl hmono hlast step hstep m k)
    (fun m k _ => varyingBound_eq x h hL W le_rfl hmono hlast step hstep m k)
  refine ⟨y, ?_, hye⟩
  unfold SignalFloats.convolve
  rw [if_neg (by simp), if_neg (by simp)]
  unfold SignalFloats.convolveTrajectory
  rw [ensureSignal_eq hs, ok_bind, ensureDynamicRirs_eq hr x (Or.inl rfl), ok_bind]
  show (F.stepStarts dev ts fs T N >>= _) = _
  rw [hl, ok_bind, tensor2_rows, tensor4_blocks]
  refine Eq.trans hout ?_
  rw [hy]

end FloatingSignal

open FloatingSignal

/-- **C126, trajectories.** In trajectory mode, with or without timestamps, on every device: the steps begin at the
integer parts of numbers that differ from the exact starts by at most four roundings, and the computed microphone
signals differ from those that these steps give by the errors of one convolution and of the additions. The starts must
not pass the end of the signal by a sample. -/
theorem C126_trajectory {u ε : ℝ} {n₀ q : ℕ} {F : SignalFloats} (hF : AccurateSignals u ε n₀ F) (hu : 0 ≤ u) (hε : 0 ≤ ε)
    {dev : DeviceType} (htime : RoundsToNearest q (F.time dev)) (hpy : RoundsToNearest 53 F.py) (hq : q ≤ 53)
    {T S M N L : ℕ} (x : Fin S → Fin N → ℝ) (h : Fin T → Fin S → Fin M → Fin L → ℝ) {sig rirs : Tensor ℝ}
    (hs : SignalIs sig x) (hr : DynamicRirsAre rirs h) (hT : 1 ≤ T) (hL : 1 ≤ L) (hn₀ : 2 * (N + L) ≤ n₀)
    {ts : Option (Tensor ℝ)} {fs : Option ℝ} {start : Fin T → ℝ} (hstart : StartsAt N ts fs start)
    (hend : ∀ t, (1 + clockError q) * start t < N + 1) :
    ∃ (first : Fin T → ℕ) (step : Fin N → Fin T) (y : Fin M → ℕ → ℝ), BeginsNear q start first ∧ Begins first step ∧
      F.convolve { timestamps := ts, fs := fs } dev sig rirs = .ok (micTensor (N + L - 1) y) ∧
      ∀ m k, k < N + L - 1 →
        |y m k - mixVarying x h step m k| ≤ convError u ε (additions dev S T) * loudnessAt x h step m k := by
  obtain ⟨W, ⟨l, hl, hb⟩, hmono, hlast, h0, hW⟩ := starts_bounds_float htime hpy hq hT hstart hend
  obtain ⟨step, hbeg, hstep⟩ := begins_of_bounds hT hmono hlast h0
  obtain ⟨y, h1, h2⟩ := trajectory_general hF hu hε x h hs hr hT hL hn₀ hl hb hmono hlast step hstep
  exact ⟨fun t => W t, step, y, hW, hbeg, h1, h2⟩

/-- **C126, trajectories, same steps.** If no start is within its rounding error of an integer, other than one that it
has reached with certainty, the steps are those of the exact calculation. -/
theorem C126_trajectory_steps {T N q : ℕ} {start : Fin T → ℝ} {first : Fin T → ℕ} {step : Fin N → Fin T}
    (hnear : BeginsNear q start first) (hbeg : Begins first step)
    (hsafe : ∀ t, ⌊start t - clockError q * start t⌋ = ⌊start t + clockError q * start t⌋) : CurrentStep start step := by
  intro j t
  obtain ⟨s, hs, he⟩ := hnear t
  obtain ⟨h1, h2⟩ := abs_le.mp he
  have h0 : 0 ≤ clockError q * start t := (abs_nonneg _).trans he
  have h3 : ⌊s⌋ = ⌊start t⌋ := by
    have a1 : ⌊start t - clockError q * start t⌋ ≤ ⌊s⌋ := Int.floor_mono (by linarith)
    have a2 : ⌊s⌋ ≤ ⌊start t + clockError q * start t⌋ := Int.floor_mono (by linarith)
    have a3 : ⌊start t - clockError q * start t⌋ ≤ ⌊start t⌋ := Int.floor_mono (by linarith)
    have a4 : ⌊start t⌋ ≤ ⌊start t + clockError q * start t⌋ := Int.floor_mono (by linarith)
    have := hsafe t
    omega
  rw [hbeg j t, ← h3, ← hs]
  exact_mod_cast Iff.rfl

/-- **C126, hops.** In hop mode the computed microphone signals have the length and, up to the errors of one convolution
and of the additions, the values of C27; signals of up to 2⁵³ samples are cut into the right number of hops. -/
theorem C126_hop {u ε : ℝ} {n₀ : ℕ} {F : SignalFloats} (hF : AccurateSignals u ε n₀ F) (hu : 0 ≤ u) (hε : 0 ≤ ε)
    (hpy : RoundsToNearest 53 F.py) (dev : DeviceType) {T S M N L H : ℕ} (x : Fin S → Fin N → ℝ)
    (h : Fin T → Fin S → Fin M → Fin L → ℝ) {sig rirs : Tensor ℝ} (hs : SignalIs sig x) (hr : DynamicRirsAre rirs h)
    (hH : 1 ≤ H) (hL : 1 ≤ L) (hn₀ : 2 * (H + L) ≤ n₀) (hN : N < 2 ^ 53) (step : Fin (min N (T * H)) → Fin T)
    (hstep : ∀ j, (step j : ℕ) = j / H) :
    ∃ y : Fin M → ℕ → ℝ, F.convolve { mode := "hop", hop := some (H : ℤ) } dev sig rirs
        = .ok (micTensor (H * min ⌈(N : ℝ) / H⌉₊ T + L - 1) y) ∧
      ∀ m k, k < H * min ⌈(N : ℝ) / H⌉₊ T + L - 1 →
        |y m k - mixVarying (fun s j => x s (Fin.castLE (min_le_left N (T * H)) j)) h step m k|
          ≤ convError u ε (S * min ⌈(N : ℝ) / H⌉₊ T)
            * loudnessAt (fun s j => x s (Fin.castLE (min_le_left N (T * H)) j)) h step m k := by
  have hc : ⌈(N : ℝ) / H⌉₊ = (N + H - 1) / H := by
    have := ceil_div_nat N H hH
    rw [Int.cast_natCast] at this
    have h2 : (⌈(N : ℝ) / H⌉₊ : ℤ) = ⌈(N : ℝ) / H⌉ := Int.natCast_ceil_eq_ceil (by positivity)
    rw [this] at h2
    exact_mod_cast h2
  rw [hc]
  obtain ⟨hG, hlast⟩ := hop_frames (N := N) (T := T) hH
  have hH' : (0 : ℝ) < H := by exact_mod_cast hH
  have hceil : ⌈F.py (((N : ℕ) : ℝ) / ((H : ℤ) : ℝ))⌉ = (((N + H - 1) / H : ℕ) : ℤ) := by
    have h3 := Nat.div_add_mod (N + H - 1) H
    have h4 := Nat.mod_lt (N + H - 1) hH
    set c := (N + H - 1) / H with hcdef
    have hcN : c ≤ N := by
      rw [hcdef]
      rcases Nat.eq_zero_or_pos N with h | h
      · subst h; rw [Nat.div_eq_of_lt (by omega)]
      · rw [← Nat.lt_succ_iff, Nat.div_lt_iff_lt_mul hH]
        have a1 : N.succ * H = N * H + H := Nat.succ_mul _ _
        have a2 : N ≤ N * H := Nat.le_mul_of_pos_right N hH
        omega
    rw [Int.cast_natCast, Int.ceil_eq_iff]
    have hb : (0 : ℝ) ≤ (N : ℝ) / H := by positivity
    have h5 : (N : ℝ) + (H - 1) ≥ H * c := by
      have : H * c ≤ N + H - 1 := by omega
      have h6 : H * c + 1 ≤ N + H := by omega
      have h7 : ((H * c + 1 : ℕ) : ℝ) ≤ ((N + H : ℕ) : ℝ) := by exact_mod_cast h6
      push_cast at h7
      linarith
    constructor
    · have h6 := (abs_le.mp (fl_near hpy ((N : ℝ) / H))).1
      rw [abs_of_nonneg hb] at h6
      have h7 : roundoff 53 * (N / H : ℝ) < 1 / H := by
        rw [← mul_div_assoc, div_lt_div_iff_of_pos_right hH']
        unfold roundoff
        have : (N : ℝ) < 2 ^ 53 := by exact_mod_cast hN
        rw [inv_pow, inv_mul_lt_iff₀ (by positivity), mul_one]
        exact this
      have h8 : (c : ℝ) - 1 + 1 / H ≤ N / H := by
        rw [le_div_iff₀ hH', add_mul, one_div, inv_mul_cancel₀ hH'.ne']
        linarith
      push_cast
      linarith
    · have h6 : (N : ℝ) / H ≤ c := by
        rw [div_le_iff₀ hH', mul_comm]
        have : N ≤ H * c := by omega
        exact_mod_cast this
      have h7 := fl_mono hpy h6
      rw [fl_nat hpy (by omega)] at h7
      exact_mod_cast h7
  set G := min ((N + H - 1) / H) T with hGdef
  have hfr : min ⌈F.py (((N : ℕ) : ℝ) / ((H : ℤ) : ℝ))⌉ (T : ℤ) = (G : ℤ) := by
    rw [hceil, hGdef]; push_cast; rfl
  have ho : (H : ℤ) * ((G : ℤ) - 1) + H + L - 1 = (H : ℤ) * G + L - 1 := by ring
  have hcast : ((H * G : ℕ) : ℤ) = (H : ℤ) * G := by push_cast; ring
  obtain ⟨out, hloop, hcl⟩ := SignalFloat.close_hop hF hu hε (List.ofFn fun s => List.ofFn (x s))
    (List.ofFn fun t => List.ofFn fun s => List.ofFn fun m => List.ofFn (h t s m)) S M N L H G (by simp)
    (fun s hs' => by
      have := rows_getD x ⟨s, hs'⟩
      simp only at this
      rw [this]; simp)
    (fun t ht s hs' m hm => by
      have := blocks_getD h ⟨t, by omega⟩ ⟨s, hs'⟩ ⟨m, hm⟩
      simp only at this
      rw [this]; simp) hH hL hG
    ((SignalFloat.fftLen_le (by omega)).trans (by omega)) _ rfl
  have e : ((H : ℤ) * G + L - 1).toNat = H * G + L - 1 := by omega
  rw [e] at hcl
  have hmono : ∀ t < G, min (t * H) N ≤ min ((t + 1) * H) N := fun t _ => by
    have : (t + 1) * H = t * H + H := by ring
    omega
  have hst : ∀ j, (step j : ℕ) < G ∧ min ((step j : ℕ) * H) N ≤ j ∧ (j : ℕ) < min (((step j : ℕ) + 1) * H) N := by
    intro j
    have hj := j.2
    have h5 := Nat.div_add_mod (j : ℕ) H
    have h6 := Nat.mod_lt (j : ℕ) hH
    rw [mul_comm] at h5
    have h7 : ((j : ℕ) / H + 1) * H = (j : ℕ) / H * H + H := by ring
    rw [hstep]
    refine ⟨?_, ?_, ?_⟩
    · by_contra hc
      have : G * H ≤ (j : ℕ) / H * H := Nat.mul_le_mul_right _ (by omega)
      omega
    · omega
    · omega
  obtain ⟨y, hy, hye⟩ := Close.mics hcl (mixVarying (fun s j => x s (Fin.castLE (min_le_left N (T * H)) j)) h step)
    (loudnessAt (fun s j => x s (Fin.castLE (min_le_left N (T * H)) j)) h step)
    (fun m k _ => varyingSum_eq_mix (F := G) x h _ (min_le_left N (T * H)) hmono hlast step hst m k)
    (fun m k _ => SignalFloat.varyingBound_eq (G := G) x h hL _ (min_le_left N (T * H)) hmono hlast step hst m k)
  refine ⟨y, ?_, hye⟩
  unfold SignalFloats.convolve
  rw [if_neg (by simp), if_pos rfl]
  show F.convolveHop sig rirs H = _
  unfold SignalFloats.convolveHop
  rw [ensureSignal_eq hs, ok_bind, ensureDynamicRirs_eq hr x (Or.inl rfl), ok_bind]
  dsimp only
  rw [show (tensor4 h).shape.getD 0 0 = T from rfl, show (tensor4 h).shape.getD 1 0 = S from rfl,
    show (tensor4 h).shape.getD 2 0 = M from rfl, show (tensor4 h).shape.getD 3 0 = L from rfl,
    show (tensor2 x).shape.getD 1 0 = N from rfl]
  rw [raiseIf_neg (by omega), ok_bind, hfr, ho, raiseIf_neg (by omega), ok_bind, Int.toNat_natCast, tensor2_rows,
    tensor4_blocks, hloop, ok_bind, e]
  show Except.ok _ = _
  rw [hy]

/-! ## Machines -/

/-- **C126, exact numbers.** Without rounding the model is that of C22 to C28, for all inputs. -/
theorem C126_exact (c : Convolver) (dev : DeviceType) (signal rirs : Tensor ℝ) :
    exactSignals.convolve c dev signal rirs = c.convolve dev signal rirs ∧
      exactSignals.convolveRir signal rirs = convolveRir signal rirs := by
  have hsum : ∀ segs rirs nSrc convLen m, exactSignals.convSum segs rirs nSrc convLen m = convSum segs rirs nSrc convLen m := by
    intro segs rirs nSrc convLen m
    unfold SignalFloats.convSum convSum
    dsimp only
    set n := fftLen convLen with hn
    have e0 : List.replicate (pyBound n convLen) (0 : ℝ) = (List.range (pyBound n convLen)).map fun _ => 0 := by simp
    have hb : pyBound n convLen ≤ n := by unfold pyBound; split <;> omega
    rw [e0, foldl_zipWith_add (pyBound n convLen) nSrc
      (fun s k => (pySlice (fftProduct (segs.getD s []) ((rirs.getD s []).getD m []) n) 0 convLen).getD k 0)]
    · refine List.map_congr_left fun k _ => ?_
      rw [zero_add]
      rfl
    · intro s _
      apply List.ext_getElem
      · have hl := fftProduct_length (segs.getD s []) ((rirs.getD s []).getD m []) n
        simp only [pySlice, List.length_take, List.length_drop, List.length_map, List.length_range, hl]
        simp [pyBound] at hb ⊢
        omega
      · intro i h1 h2
        rw [List.getElem_map, List.getElem_range, List.getD_eq_getElem _ _ h1]
  have hchunk : ∀ rows rirs nSrc nMic rirLen wIni wLen t0 t1 out,
      exactSignals.batchedChunk rows rirs nSrc nMic rirLen wIni wLen t0 t1 out
        = batchedChunk rows rirs nSrc nMic rirLen wIni wLen t0 t1 out := by
    intro rows rirs nSrc nMic rirLen wIni wLen t0 t1 out
    unfold SignalFloats.batchedChunk batchedChunk
    simp only [hsum]
    rfl
  refine ⟨?_, rfl⟩
  unfold SignalFloats.convolve Convolver.convolve
  split
  · rfl
  split
  · rfl
  unfold SignalFloats.convolveTrajectory convolveTrajectory SignalFloats.trajectoryBatched trajectoryBatched
  simp only [hchunk]
  rfl

namespace FloatingSignal

/-- A complex number with both parts rounded. -/
noncomputable def roundC (p : ℕ) (z : ℂ) : ℂ := ⟨toNearest p z.re, toNearest p z.im⟩

theorem roundC_near (p : ℕ) (z : ℂ) : ‖roundC p z - z‖ ≤ roundoff p * ‖z‖ := by
  have h1 := toNearest_near p z.re
  have h2 := toNearest_near p z.im
  have hu := (roundoff_pos p).le
  refine abs_le_of_sq_le_sq' ?_ (mul_nonneg hu (norm_nonneg _)) |>.2
  rw [mul_pow, Complex.sq_norm, Complex.sq_norm, Complex.normSq_apply, Complex.normSq_apply]
  have e1 : (roundC p z - z).re = toNearest p z.re - z.re := rfl
  have e2 : (roundC p z - z).im = toNearest p z.im - z.im := rfl
  rw [e1, e2]
  have h3 := mul_self_le_mul_self (abs_nonneg _) h1
  have h4 := mul_self_le_mul_self (abs_nonneg _) h2
  rw [abs_mul_abs_self] at h3 h4
  have h5 := abs_mul_abs_self z.re
  have h6 := abs_mul_abs_self z.im
  nlinarith

/-- A machine with `p` significant bits that rounds every result once. -/
noncomputable def nearestSignals (p : ℕ) : SignalFloats where
  fl := toNearest p
  time dev := toNearest (if dev = .mps then 24 else 53)
  py := toNearest 53
  mul a b := roundC p (a * b)
  rfft x n := (rfft x n).map (roundC p)
  irfft X n := (irfft X n).map (toNearest p)
  sum l := toNearest p l.sum

theorem nearestSignals_accurate (p n₀ : ℕ) :
    AccurateSignals (roundoff p) (roundoff p) n₀ (nearestSignals p) := by
  have hu := (roundoff_pos p).le
  refine ⟨toNearest_near p, fun a b => roundC_near p _, fun x n => by simp [nearestSignals, rfft], fun x n k _ hk => ?_,
    fun X n => by simp [nearestSignals, irfft], fun X n j _ hj => ?_, fun l => ?_⟩
  · have e : ((nearestSignals p).rfft x n).getD k 0 = roundC p (SignalFloat.bin x n k) := by
      show ((rfft x n).map (roundC p)).getD k 0 = _
      rw [List.getD_eq_getElem _ _ (by simp [rfft]; omega), List.getElem_map]
      simp [rfft, SignalFloat.bin]
    rw [e]
    exact (roundC_near p _).trans (mul_le_mul_of_nonneg_left (SignalFloat.bin_le x n k) hu)
  · have e : ((nearestSignals p).irfft X n).getD j 0 = toNearest p
        ((∑ k ∈ Finset.range (n / 2 + 1), (if k = 0 ∨ 2 * k = n then (1 : ℝ) else 2) *
          (X.getD k 0 * Complex.exp (2 * Real.pi * Complex.I * j * k / n)).re) / n) := by
      show ((irfft X n).map (toNearest p)).getD j 0 = _
      rw [List.getD_eq_getElem _ _ (by simpa [irfft] using hj), List.getElem_map]
      simp [irfft]
    rw [e]
    refine (toNearest_near p _).trans (mul_le_mul_of_nonneg_left ?_ hu)
    rw [abs_div, abs_of_nonneg (Nat.cast_nonneg n : (0 : ℝ) ≤ n)]
    refine div_le_div_of_nonneg_right ((Finset.abs_sum_le_sum_abs _ _).trans (Finset.sum_le_sum fun k _ => ?_))
      (Nat.cast_nonneg n)
    have w0 : (0 : ℝ) ≤ (if k = 0 ∨ 2 * k = n then (1 : ℝ) else 2) := by split <;> norm_num
    rw [abs_mul, abs_of_nonneg w0]
    refine mul_le_mul_of_nonneg_left ((Complex.abs_re_le_norm _).trans ?_) w0
    rw [norm_mul, SignalFloat.norm_exp_pos, mul_one]
  · show |toNearest p l.sum - l.sum| ≤ _
    cases l with
    | nil =>
      have := toNearest_near p 0
      simpa using this
    | cons x l =>
      refine (toNearest_near p _).trans ?_
      have h1 : |(x :: l).sum| ≤ ((x :: l).map fun x => |x|).sum := by
        generalize x :: l = l
        induction l with
        | nil => simp
        | cons x l ih =>
          rw [List.sum_cons, List.map_cons, List.sum_cons]
          exact (abs_add_le _ _).trans (by linarith)
      have h2 : roundoff p ≤ (1 + roundoff p) ^ (x :: l).length - 1 := by
        have := one_add_mul_le_pow (show (-2 : ℝ) ≤ roundoff p by linarith) (x :: l).length
        have h3 : (1 : ℝ) ≤ (x :: l).length := by simp
        nlinarith
      exact mul_le_mul h2 h1 (abs_nonneg _) (by linarith)

end FloatingSignal

/-- **C126, a machine.** There is a machine as assumed for every precision. -/
theorem C126_machine (p : ℕ) : ∃ F, (∀ n₀, AccurateSignals (roundoff p) (roundoff p) n₀ F) ∧
    RoundsToNearest 24 (F.time .mps) ∧ RoundsToNearest 53 (F.time .cuda) ∧ RoundsToNearest 53 (F.time .cpu) ∧
    RoundsToNearest 53 F.py :=
  ⟨nearestSignals p, nearestSignals_accurate p, toNearest_rounds (by norm_num), toNearest_rounds (by norm_num),
    toNearest_rounds (by norm_num), toNearest_rounds (by norm_num)⟩

/-- **C126, convergence.** The error goes to zero with the precision. -/
theorem C126_converges (n : ℕ) {δ : ℝ} (hδ : 0 < δ) : ∃ p₀, ∀ p ≥ p₀, |convError (roundoff p) (roundoff p) n| < δ := by
  have h0 : Filter.Tendsto roundoff Filter.atTop (nhds 0) :=
    tendsto_pow_atTop_nhds_zero_of_lt_one (by norm_num) (by norm_num)
  have h1 : Filter.Tendsto (fun p => convError (roundoff p) (roundoff p) n) Filter.atTop (nhds ((1 + 0) ^ n * (1 + 0) ^ 4 - 1)) :=
    (((h0.const_add 1).pow n).mul ((h0.const_add 1).pow 4)).sub_const 1
  rw [add_zero, one_pow, one_pow, mul_one, sub_self] at h1
  obtain ⟨p₀, hp⟩ := (Metric.tendsto_atTop.mp h1) δ hδ
  exact ⟨p₀, fun p hp' => by simpa [Real.dist_eq] using hp p hp'⟩

namespace FloatingSignal

/-- In double precision `49 * (2 / 98)` is less than 1. -/
theorem start_below_one {fl py : ℝ → ℝ} (hfl : RoundsToNearest 53 fl) (hpy : RoundsToNearest 53 py) :
    fl (fl ((49 : ℕ) : ℝ) * fl (py (((2 : ℕ) : ℝ) / ((98 : ℕ) : ℝ)))) < 1 := by
  have e1 : (((2 : ℕ) : ℝ) / ((98 : ℕ) : ℝ)) = 1 / 49 := by norm_num
  rw [e1, fl_float hfl (hpy (1 / 49)).1, fl_nat hfl (by norm_num)]
  obtain ⟨m, e, hm, hme⟩ := (hpy (1 / 49)).1
  have hy := (hpy (1 / 49)).2 (5882252574524729 / 2 ^ 58) ⟨5882252574524729, -58, by norm_num, by norm_num [zpow_neg]⟩
  have hd : |(5882252574524729 / 2 ^ 58 : ℝ) - 1 / 49| = 23 / (49 * 2 ^ 58) := by
    rw [abs_of_nonpos (by norm_num)]; norm_num
  rw [hd] at hy
  obtain ⟨h1, h2⟩ := abs_le.mp hy
  have hpos : (1 : ℝ) / 64 < py (1 / 49) := by
    have : (1 : ℝ) / 64 < 1 / 49 - 23 / (49 * 2 ^ 58) := by norm_num
    linarith
  have he : -58 ≤ e := by
    by_contra hc
    have hc' : e ≤ -59 := by omega
    have h3 : (2 : ℝ) ^ e ≤ 2 ^ (-59 : ℤ) := zpow_le_zpow_right₀ (by norm_num) hc'
    have h4 : (m : ℝ) ≤ 2 ^ 53 := by exact_mod_cast (le_abs_self m).trans hm
    have h5 : (0 : ℝ) < 2 ^ e := by positivity
    have h6 : (m : ℝ) * 2 ^ e ≤ 2 ^ 53 * 2 ^ (-59 : ℤ) := mul_le_mul h4 h3 h5.le (by positivity)
    have h7 : (2 : ℝ) ^ 53 * 2 ^ (-59 : ℤ) = 1 / 64 := by norm_num [zpow_neg]
    rw [h7, ← hme] at h6
    linarith
  obtain ⟨d, hd'⟩ : ∃ d : ℕ, e = d + (-58) := ⟨(e + 58).toNat, by omega⟩
  have hk : py (1 / 49) = ((m * 2 ^ d : ℤ) : ℝ) / 2 ^ 58 := by
    rw [hme, hd', zpow_add₀ (by norm_num), zpow_natCast, zpow_neg]
    push_cast
    rw [← mul_assoc]
    rfl
  generalize m * 2 ^ d = k at hk
  rw [hk] at h1 h2 ⊢
  have hk1 : (k : ℝ) < 5882252574524730 := by
    have : (k : ℝ) / 2 ^ 58 < 5882252574524730 / 2 ^ 58 := by
      have : (1 : ℝ) / 49 + 23 / (49 * 2 ^ 58) < 5882252574524730 / 2 ^ 58 := by norm_num
      linarith
    exact (div_lt_div_iff_of_pos_right (by positivity)).mp this
  have hk2 : (5882252574524728 : ℝ) < k := by
    have : (5882252574524728 : ℝ) / 2 ^ 58 < k / 2 ^ 58 := by
      have : (5882252574524728 : ℝ) / 2 ^ 58 < 1 / 49 - 23 / (49 * 2 ^ 58) := by norm_num
      linarith
    exact (div_lt_div_iff_of_pos_right (by positivity)).mp this
  have hk3 : k = 5882252574524729 := by
    have h1 : k < 5882252574524730 := by exact_mod_cast hk1
    have h2 : 5882252574524728 < k := by exact_mod_cast hk2
    omega
  subst hk3
  have hz := (hfl (((49 : ℕ) : ℝ) * (((5882252574524729 : ℤ) : ℝ) / 2 ^ 58))).2 (9007199254740991 / 2 ^ 53)
    ⟨9007199254740991, -53, by norm_num, by norm_num [zpow_neg]⟩
  have hd2 : |(9007199254740991 / 2 ^ 53 : ℝ) - ((49 : ℕ) : ℝ) * (((5882252574524729 : ℤ) : ℝ) / 2 ^ 58)| = 9 / 2 ^ 58 := by
    norm_num
  rw [hd2] at hz
  have h3 := (abs_le.mp hz).2
  have h4 : ((49 : ℕ) : ℝ) * (((5882252574524729 : ℤ) : ℝ) / 2 ^ 58) + 9 / 2 ^ 58 < 1 := by norm_num
  linarith

theorem clockError_small : 2 * clockError 53 < 1 / 98 := by
  unfold clockError roundoff
  norm_num

/-- No start passes the end of the signal by a sample if the signal is short. -/
theorem end_of_short {T N q : ℕ} {ts : Option (Tensor ℝ)} {fs : Option ℝ} {start : Fin T → ℝ} (h : StartsAt N ts fs start)
    (hN : N * clockError q < 1) (t : Fin T) : (1 + clockError q) * start t < N + 1 := by
  have hc : 0 ≤ clockError q := by
    unfold clockError
    have := roundoff_pos q
    have := one_le_pow₀ (show (1 : ℝ) ≤ 1 + roundoff q by linarith) (n := 4)
    linarith
  have h1 : start t ≤ N := by
    cases h with
    | uniform =>
      have hT : (0 : ℝ) < T := by exact_mod_cast t.pos
      rw [div_le_iff₀ hT, mul_comm]
      exact mul_le_mul_of_nonneg_left (by exact_mod_cast t.2.le) (Nat.cast_nonneg N)
    | given τ f first mono rate last => exact last t
  nlinarith

end FloatingSignal

/-- **C126, a step too early.** Two samples and 98 responses without timestamps: the exact start of response 49 is sample
1, and in double precision it is sample 0. If only this response is not silent, the exact output is silent for an impulse
at sample 0, the computed one is not. -/
theorem C126_early_step_fails {u ε : ℝ} {n₀ : ℕ} {F : SignalFloats} (hF : AccurateSignals u ε n₀ F) (hu : 0 ≤ u) (hε : 0 ≤ ε)
    (hn₀ : 6 ≤ n₀) {dev : DeviceType} (htime : RoundsToNearest 53 (F.time dev)) (hpy : RoundsToNearest 53 F.py) :
    let x : Fin 1 → Fin 2 → ℝ := fun _ => ![1, 0]
    let h : Fin 98 → Fin 1 → Fin 1 → Fin 1 → ℝ := fun t _ _ _ => if (t : ℕ) = 49 then 1 else 0
    (∃ y : Fin 1 → ℕ → ℝ, F.convolve {} dev (tensor2 x) (tensor4 h) = .ok (micTensor 2 y) ∧
        |y 0 0 - 1| ≤ convError u ε (additions dev 1 98)) ∧
      (∃ y : Fin 1 → ℕ → ℝ, ({} : Convolver).convolve dev (tensor2 x) (tensor4 h) = .ok (micTensor 2 y) ∧ y 0 0 = 0) := by
  intro x h
  have hst : StartsAt (T := 98) 2 none none _ := .uniform none
  constructor
  · obtain ⟨W, ⟨l, hl, hb⟩, hmono, hlast, h0, hW⟩ := starts_bounds_float htime hpy le_rfl (by norm_num) hst
      (end_of_short hst (by have := clockError_small; push_cast; linarith))
    obtain ⟨step, hbeg, hstep⟩ := begins_of_bounds (by norm_num) hmono hlast h0
    obtain ⟨y, h1, h2⟩ := trajectory_general hF hu hε x h (Or.inl rfl) (Or.inl rfl) (by norm_num) le_rfl (by simpa using hn₀)
      hl hb hmono hlast step hstep
    refine ⟨y, h1, ?_⟩
    have w49 : W 49 = 0 := by
      have e1 : (l ++ [((2 : ℕ) : ℤ)]).getD 49 0 = (W 49 : ℤ) := by
        rw [hb]; simp [bounds]
      have hl' : l = (List.range 98).map fun t =>
          truncReal (F.time dev (F.time dev (t : ℕ) * F.time dev (F.py (((2 : ℕ) : ℝ) / ((98 : ℕ) : ℝ))))) := by
        unfold SignalFloats.stepStarts at hl
        rw [raiseIf_neg (by omega)] at hl
        exact (Except.ok.inj hl).symm
      rw [hl', List.getD_eq_getElem _ _ (by simp), List.getElem_append_left (by simp), List.getElem_map,
        List.getElem_range] at e1
      have hlt := start_below_one htime hpy
      have hnn : 0 ≤ F.time dev (F.time dev ((49 : ℕ) : ℝ) * F.time dev (F.py (((2 : ℕ) : ℝ) / ((98 : ℕ) : ℝ)))) :=
        fl_nonneg htime (mul_nonneg (fl_nonneg htime (by positivity)) (fl_nonneg htime (fl_nonneg hpy (by positivity))))
      rw [truncReal_nonneg hnn, Int.floor_eq_zero_iff.mpr ⟨hnn, hlt⟩] at e1
      exact_mod_cast e1.symm
    have w50 : 1 ≤ W 50 := by
      obtain ⟨s, hs, he⟩ := hW ⟨50, by norm_num⟩
      have h3 := (abs_le.mp he).1
      have := clockError_small
      norm_num at h3
      have : (1 : ℤ) ≤ ⌊s⌋ := Int.le_floor.mpr (by push_cast; linarith)
      rw [← hs] at this
      exact_mod_cast this
    have s0 : ((step 0 : Fin 98) : ℕ) = 49 := by
      have a1 : (⟨49, by norm_num⟩ : Fin 98) ≤ step 0 := (hbeg 0 ⟨49, by norm_num⟩).mpr (by simpa using w49)
      have a2 : ¬ (⟨50, by norm_num⟩ : Fin 98) ≤ step 0 := fun hc => by
        have := (hbeg 0 ⟨50, by norm_num⟩).mp hc
        simp at this
        omega
      rw [Fin.le_def] at a1 a2
      simp only at a1 a2
      omega
    have hk := h2 0 0 (by norm_num)
    have e1 : mixVarying x h step 0 0 = 1 := by
      simp [mixVarying, x, h, s0]
    have e2 : loudnessAt x h step 0 0 = 1 := by
      simp [loudnessAt, total, x, h, s0]
    rwa [e1, e2, mul_one] at hk
  · obtain ⟨step, hstep, -⟩ := C24_every_sample_has_one_step (by norm_num) hst
    refine ⟨_, C24_trajectory_formula dev x h (Or.inl rfl) (Or.inl rfl) (by norm_num) (by norm_num) hst step hstep, ?_⟩
    have s0 : ((step 0 : Fin 98) : ℕ) < 49 := by
      by_contra hc
      have := (hstep 0 ⟨49, by norm_num⟩).mp (Fin.le_def.mpr (by simpa using hc))
      norm_num at this
    simp [mixVarying, x, h]
    intro hc
    omega

/-! ## Examples -/

namespace FloatingSignal

/-- Single precision: two sources of two samples, one microphone. -/
example : ∃ y : Fin 1 → ℕ → ℝ,
    (nearestSignals 24).convolveRir (tensor2 ![![1, 1 / 3], ![1 / 5, 2]]) (tensor3 ![![![1, 1 / 7]], ![![1 / 2, 3]]])
      = .ok (micTensor 3 y) ∧ |y 0 1 - 218 / 105| ≤ 100 / 2 ^ 24 := by
  obtain ⟨y, h1, h2⟩ := C126_static (nearestSignals_accurate 24 8) (roundoff_pos _).le (roundoff_pos _).le
    (![![1, 1 / 3], ![1 / 5, 2]] : Fin 2 → Fin 2 → ℝ) (![![![1, 1 / 7]], ![![1 / 2, 3]]] : Fin 2 → Fin 1 → Fin 2 → ℝ)
    (Or.inl rfl) (Or.inl rfl) (by norm_num) (by norm_num) (by norm_num)
  refine ⟨y, h1, ?_⟩
  have h3 := h2 0 1 (by norm_num)
  have e1 : mix (![![1, 1 / 3], ![1 / 5, 2]] : Fin 2 → Fin 2 → ℝ) ![![![1, 1 / 7]], ![![1 / 2, 3]]] 0 1 = 218 / 105 := by
    simp [mix, conv, Fin.sum_univ_two]
    norm_num
  have e2 : loudness (![![1, 1 / 3], ![1 / 5, 2]] : Fin 2 → Fin 2 → ℝ)
      (![![![1, 1 / 7]], ![![1 / 2, 3]]] : Fin 2 → Fin 1 → Fin 2 → ℝ) 0 = 1937 / 210 := by
    simp [loudness, total, Fin.sum_univ_two, abs_of_pos]
    norm_num
  rw [e1, e2] at h3
  refine h3.trans ?_
  unfold convError roundoff
  norm_num

/-- Three samples, two responses, on the device with single precision clocks: the second response begins at sample 1. -/
example (x : Fin 1 → Fin 3 → ℝ) (h : Fin 2 → Fin 1 → Fin 1 → Fin 4 → ℝ) : ∃ y : Fin 1 → ℕ → ℝ,
    (nearestSignals 24).convolve {} .mps (tensor2 x) (tensor4 h) = .ok (micTensor 6 y) ∧
      ∀ k < 6, |y 0 k - mixVarying x h ![0, 1, 1] 0 k|
        ≤ convError (roundoff 24) (roundoff 24) 3 * loudnessAt x h ![0, 1, 1] 0 k := by
  have hst : StartsAt (T := 2) 3 none none _ := .uniform none
  have hc : 3 * clockError 24 < 1 / 3 ∧ 0 ≤ clockError 24 := by unfold clockError roundoff; norm_num
  obtain ⟨first, step, y, h1, h2, h3, h4⟩ := C126_trajectory (nearestSignals_accurate 24 14) (roundoff_pos _).le
    (roundoff_pos _).le (dev := .mps) (q := 24) (toNearest_rounds (by norm_num)) (toNearest_rounds (by norm_num)) (by norm_num) x h
    (Or.inl rfl) (Or.inl rfl) (by norm_num) (by norm_num) (by norm_num) hst
    (end_of_short hst (by push_cast; linarith [hc.1]))
  have hs := C126_trajectory_steps h1 h2 fun t => by
    fin_cases t
    · simp
    · have a1 : ⌊(3 / 2 : ℝ) - clockError 24 * (3 / 2)⌋ = 1 := by
        rw [Int.floor_eq_iff]; push_cast; constructor <;> linarith [hc.1, hc.2]
      have a2 : ⌊(3 / 2 : ℝ) + clockError 24 * (3 / 2)⌋ = 1 := by
        rw [Int.floor_eq_iff]; push_cast; constructor <;> linarith [hc.1, hc.2]
      simp
      rw [a1, a2]
  have e : step = ![0, 1, 1] := by
    have b : ⌊(3 / 2 : ℝ)⌋ = 1 := by norm_num
    funext j
    have b1 := hs j 1
    simp [b] at b1
    fin_cases j <;> simp at b1 ⊢ <;> omega
  rw [e] at h4
  exact ⟨y, h3, fun k hk => h4 0 k hk⟩

/-- Five samples in hops of two, three responses. -/
example (x : Fin 1 → Fin 5 → ℝ) (h : Fin 3 → Fin 1 → Fin 1 → Fin 4 → ℝ) : ∃ y : Fin 1 → ℕ → ℝ,
    (nearestSignals 53).convolve { mode := "hop", hop := some ((2 : ℕ) : ℤ) } .cpu (tensor2 x) (tensor4 h)
      = .ok (micTensor 9 y) ∧
      ∀ k < 9, |y 0 k - mixVarying x h ![0, 0, 1, 1, 2] 0 k|
        ≤ convError (roundoff 53) (roundoff 53) 3 * loudnessAt x h ![0, 0, 1, 1, 2] 0 k := by
  have hc : ⌈((5 : ℕ) : ℝ) / ((2 : ℕ) : ℝ)⌉₊ = 3 := by
    rw [Nat.ceil_eq_iff (by norm_num)]; norm_num
  obtain ⟨y, h1, h2⟩ := C126_hop (nearestSignals_accurate 53 12) (roundoff_pos _).le (roundoff_pos _).le
    (toNearest_rounds (by norm_num)) .cpu (H := 2) x h (Or.inl rfl) (Or.inl rfl) (by norm_num) (by norm_num) (by norm_num)
    (by norm_num) (![0, 0, 1, 1, 2] : Fin 5 → Fin 3) (fun j : Fin 5 => by fin_cases j <;> rfl)
  rw [hc] at h1 h2
  exact ⟨y, h1, fun k hk => h2 0 k hk⟩

/-- The hypotheses of the last theorem. -/
example := C126_early_step_fails (nearestSignals_accurate 24 6) (roundoff_pos _).le (roundoff_pos _).le le_rfl (dev := .cpu)
  (toNearest_rounds (by norm_num)) (toNearest_rounds (by norm_num))

end FloatingSignal

end Torchrir.Props
