import Verif.Props.Refine
import Verif.Spec.OverTime

/-!
# C140: convolution over time

Static convolution commutes with delays, works block by block, and looks only backwards; the convolution with a
sequence of responses is the sum of static convolutions of the pieces of the signal.
-/

namespace Torchrir.Props

open Torchrir.Model Torchrir.Spec Torchrir.Lemmas

namespace OverTime

/-- The sum over the pairs `(j, i)` with `j + i = k` for a later part of a signal. -/
theorem tap_shift {L : ℕ} (n j k : ℕ) (i : Fin L) (v : ℝ) :
    (if n + j + (i : ℕ) = k then v else 0) = if n ≤ k then (if j + (i : ℕ) = k - n then v else 0) else 0 := by
  split_ifs <;> first | rfl | omega

theorem mix_append {S M n N L : ℕ} (x : Fin S → Fin n → ℝ) (x' : Fin S → Fin N → ℝ)
    (h : Fin S → Fin M → Fin L → ℝ) (m : Fin M) (k : ℕ) :
    mix (fun s => Fin.append (x s) (x' s)) h m k = mix x h m k + if n ≤ k then mix x' h m (k - n) else 0 := by
  unfold mix conv
  simp only [Fin.sum_univ_add, Fin.append_left, Fin.append_right, Finset.sum_add_distrib, Fin.val_castAdd,
    Fin.val_natAdd, tap_shift]
  split_ifs
  · rfl
  · simp

end OverTime

/-- **C140, blocks.** Convolving a signal made of two blocks is convolving the blocks and adding the second result
where the second block starts. -/
theorem C140_blocks {S M n N L : ℕ} (x : Fin S → Fin n → ℝ) (x' : Fin S → Fin N → ℝ)
    (h : Fin S → Fin M → Fin L → ℝ) (hn : 1 ≤ n + L) (hN : 1 ≤ N + L) :
    ∃ y y' : Fin M → ℕ → ℝ,
      convolveRir (tensor2 x) (tensor3 h) = .ok (micTensor (n + L - 1) y) ∧
      (∀ m k, n + L - 1 ≤ k → y m k = 0) ∧
      convolveRir (tensor2 x') (tensor3 h) = .ok (micTensor (N + L - 1) y') ∧
      (∀ m k, N + L - 1 ≤ k → y' m k = 0) ∧
      convolveRir (tensor2 fun s => Fin.append (x s) (x' s)) (tensor3 h) =
        .ok (micTensor (n + N + L - 1) fun m k => y m k + if n ≤ k then y' m (k - n) else 0) := by
  have tail : ∀ {N : ℕ} (x : Fin S → Fin N → ℝ) m k, N + L - 1 ≤ k → mix x h m k = 0 := by
    intro N x m k hk
    unfold mix conv
    refine Finset.sum_eq_zero fun s _ => Finset.sum_eq_zero fun j _ => Finset.sum_eq_zero fun i _ => ?_
    rw [if_neg (by omega)]
  refine ⟨mix x h, mix x' h, C23_convolve_rir_formula x h (Or.inl rfl) (Or.inl rfl) hn, tail x,
    C23_convolve_rir_formula x' h (Or.inl rfl) (Or.inl rfl) hN, tail x', ?_⟩
  rw [C23_convolve_rir_formula _ h (Or.inl rfl) (Or.inl rfl) (by omega)]
  congr 2
  funext m k
  exact OverTime.mix_append x x' h m k

/-- **C140, delay.** A signal that starts `n` samples later gives the same result `n` samples later, after `n` zeros. -/
theorem C140_delay {S M N L : ℕ} (n : ℕ) (x : Fin S → Fin N → ℝ) (h : Fin S → Fin M → Fin L → ℝ) (hN : 1 ≤ N + L) :
    ∃ y : Fin M → ℕ → ℝ,
      convolveRir (tensor2 x) (tensor3 h) = .ok (micTensor (N + L - 1) y) ∧
      convolveRir (tensor2 fun s => Fin.append (fun _ : Fin n => (0 : ℝ)) (x s)) (tensor3 h) =
        .ok (micTensor (n + N + L - 1) fun m k => if n ≤ k then y m (k - n) else 0) := by
  refine ⟨mix x h, C23_convolve_rir_formula x h (Or.inl rfl) (Or.inl rfl) hN, ?_⟩
  rw [C23_convolve_rir_formula _ h (Or.inl rfl) (Or.inl rfl) (by omega)]
  congr 2
  funext m k
  rw [OverTime.mix_append (fun _ _ => 0) x h m k]
  simp [mix, conv]

/-- **C140, only the past.** Two signals, of possibly different lengths, that agree on their first `n` samples give
outputs that agree on their first `n` samples. -/
theorem C140_past {S M N N' L n : ℕ} (x : Fin S → Fin N → ℝ) (x' : Fin S → Fin N' → ℝ)
    (h : Fin S → Fin M → Fin L → ℝ) (hn : n ≤ N) (hn' : n ≤ N') (hL : 1 ≤ L)
    (hx : ∀ s (j : Fin n), x s (Fin.castLE hn j) = x' s (Fin.castLE hn' j)) :
    ∃ y y' : Fin M → ℕ → ℝ,
      convolveRir (tensor2 x) (tensor3 h) = .ok (micTensor (N + L - 1) y) ∧
      convolveRir (tensor2 x') (tensor3 h) = .ok (micTensor (N' + L - 1) y') ∧
      ∀ m k, k < n → y m k = y' m k := by
  refine ⟨mix x h, mix x' h, C23_convolve_rir_formula x h (Or.inl rfl) (Or.inl rfl) (by omega),
    C23_convolve_rir_formula x' h (Or.inl rfl) (Or.inl rfl) (by omega), fun m k hk => ?_⟩
  have cut : ∀ {N : ℕ} (hn : n ≤ N) (x : Fin S → Fin N → ℝ),
      mix x h m k = mix (fun s (j : Fin n) => x s (Fin.castLE hn j)) h m k := by
    intro N hn x
    obtain ⟨r, rfl⟩ := Nat.exists_eq_add_of_le hn
    have e : x = fun s => Fin.append (fun j : Fin n => x s (Fin.castAdd r j)) fun j : Fin r => x s (Fin.natAdd n j) := by
      funext s
      exact (Fin.append_castAdd_natAdd (f := x s)).symm
    conv_lhs => rw [e]
    rw [OverTime.mix_append, if_neg (by omega), add_zero]
    rfl
  rw [cut hn x, cut hn' x']
  congr 1
  funext s j
  exact hx s j

/-- **C140, pieces.** The convolution with a sequence of responses, on every device, is the sum over the steps of the
static convolutions of the pieces of the signal with the responses of their steps. -/
theorem C140_pieces {T S M N L : ℕ} (dev : DeviceType) (x : Fin S → Fin N → ℝ)
    (h : Fin T → Fin S → Fin M → Fin L → ℝ) {sig rirs : Tensor ℝ} (hs : SignalIs sig x)
    (hr : DynamicRirsAre rirs h) (hT : 1 ≤ T) (hpos : 1 ≤ N + L) {ts : Option (Tensor ℝ)}
    {fs : Option ℝ} {start : Fin T → ℝ} (hstart : StartsAt N ts fs start) (step : Fin N → Fin T)
    (hstep : CurrentStep start step) :
    ∃ y : Fin T → Fin M → ℕ → ℝ,
      (∀ t, convolveRir (tensor2 (pieceOf x step t)) (tensor3 (h t)) = .ok (micTensor (N + L - 1) (y t))) ∧
      ({ timestamps := ts, fs := fs } : Convolver).convolve dev sig rirs =
        .ok (micTensor (N + L - 1) fun m k => ∑ t, y t m k) := by
  refine ⟨fun t => mix (pieceOf x step t) (h t),
    fun t => C23_convolve_rir_formula _ _ (Or.inl rfl) (Or.inl rfl) hpos, ?_⟩
  rw [C24_trajectory_formula dev x h hs hr hT hpos hstart step hstep]
  congr 2
  funext m k
  unfold mixVarying mix conv pieceOf
  symm
  rw [Finset.sum_comm]
  refine Finset.sum_congr rfl fun s _ => ?_
  rw [Finset.sum_comm]
  refine Finset.sum_congr rfl fun j _ => ?_
  rw [Finset.sum_comm]
  refine Finset.sum_congr rfl fun i _ => ?_
  rw [Finset.sum_eq_single (step j)]
  · simp
  · intro t _ ht
    simp [Ne.symm ht]
  · simp

/-- **C140, only the past, moving.** With or without timestamps, the first `n` output samples depend only on the first `n` signal
samples and on the responses of the steps that have begun. -/
theorem C140_moving_past {T S M N L n : ℕ} (dev dev' : DeviceType) (x x' : Fin S → Fin N → ℝ)
    (h h' : Fin T → Fin S → Fin M → Fin L → ℝ) (hT : 1 ≤ T) (hpos : 1 ≤ N + L)
    {ts ts' : Option (Tensor ℝ)} {fs fs' : Option ℝ} {start start' : Fin T → ℝ} (hstart : StartsAt N ts fs start)
    (hstart' : StartsAt N ts' fs' start')
    (hx : ∀ s (j : Fin N), (j : ℕ) < n → x s j = x' s j)
    (hst : ∀ t, start t < n ∨ start' t < n → start t = start' t ∧ h t = h' t) :
    ∃ y y' : Fin M → ℕ → ℝ,
      ({ timestamps := ts, fs := fs } : Convolver).convolve dev (tensor2 x) (tensor4 h) =
        .ok (micTensor (N + L - 1) y) ∧
      ({ timestamps := ts', fs := fs' } : Convolver).convolve dev' (tensor2 x') (tensor4 h') =
        .ok (micTensor (N + L - 1) y') ∧
      ∀ m k, k < n → y m k = y' m k := by
  obtain ⟨step, hstep, -⟩ := C24_every_sample_has_one_step hT hstart
  obtain ⟨step', hstep', -⟩ := C24_every_sample_has_one_step hT hstart'
  refine ⟨_, _, C24_trajectory_formula dev x h (Or.inl rfl) (Or.inl rfl) hT hpos hstart step hstep,
    C24_trajectory_formula dev' x' h' (Or.inl rfl) (Or.inl rfl) hT hpos hstart' step' hstep', fun m k hk => ?_⟩
  have begun : ∀ (a : ℝ) (j : Fin N), (j : ℕ) < n → ⌊a⌋ ≤ (j : ℤ) → a < n := fun a j hj ha => by
    have h1 : a < ((j : ℕ) : ℝ) + 1 := by
      have := Int.floor_le_iff.mp ha
      push_cast at this
      exact this
    have h2 : ((j : ℕ) : ℝ) + 1 ≤ n := by exact_mod_cast hj
    linarith
  have e : ∀ j : Fin N, (j : ℕ) < n → step j = step' j := fun j hj => by
    apply eq_of_forall_le_iff
    intro t
    rw [hstep, hstep']
    constructor
    · intro ht
      rw [← (hst t (Or.inl (begun _ j hj ht))).1]
      exact ht
    · intro ht
      rw [(hst t (Or.inr (begun _ j hj ht))).1]
      exact ht
  unfold mixVarying
  refine Finset.sum_congr rfl fun s _ => Finset.sum_congr rfl fun j _ => Finset.sum_congr rfl fun i _ => ?_
  split_ifs with hji
  · have hj : (j : ℕ) < n := by omega
    have hb := (hst (step j) (Or.inl (begun _ j hj ((hstep j _).mp le_rfl)))).2
    rw [hx s j hj, hb, e j hj]
  · rfl

/-- Non-vacuous: two blocks of different lengths. -/
example (h : Fin 1 → Fin 1 → Fin 2 → ℝ) : ∃ y y' : Fin 1 → ℕ → ℝ,
    convolveRir (tensor2 fun (_ : Fin 1) (j : Fin 3) => (j : ℝ) + 1) (tensor3 h) = .ok (micTensor 4 y) ∧
    convolveRir (tensor2 fun (_ : Fin 1) (_ : Fin 2) => (5 : ℝ)) (tensor3 h) = .ok (micTensor 3 y') := by
  obtain ⟨y, y', h1, -, h2, -⟩ := C140_blocks (fun (_ : Fin 1) (j : Fin 3) => (j : ℝ) + 1)
    (fun (_ : Fin 1) (_ : Fin 2) => (5 : ℝ)) h (by norm_num) (by norm_num)
  exact ⟨y, y', h1, h2⟩

/-- Two steps of three samples each: the sixth sample of the signal and the second response do not matter for the first
three output samples. -/
example (x : Fin 1 → Fin 6 → ℝ) (h₁ h₂ h₂' : Fin 1 → Fin 2 → Fin 4 → ℝ) : ∃ y y' : Fin 2 → ℕ → ℝ,
    ({} : Convolver).convolve .cpu (tensor2 x) (tensor4 ![h₁, h₂]) = .ok (micTensor 9 y) ∧
    ({} : Convolver).convolve .cuda (tensor2 fun s j => if j = 5 then 0 else x s j) (tensor4 ![h₁, h₂']) =
      .ok (micTensor 9 y') ∧ ∀ m k, k < 3 → y m k = y' m k := by
  refine C140_moving_past (n := 3) .cpu .cuda x _ ![h₁, h₂] ![h₁, h₂'] (by norm_num) (by norm_num)
    (StartsAt.uniform none) (StartsAt.uniform none) (fun s j hj => ?_) fun t ht => ⟨rfl, ?_⟩
  · rw [if_neg]
    rintro rfl
    simp at hj
  · rw [or_self] at ht
    fin_cases t
    · rfl
    · norm_num at ht

end Torchrir.Props
