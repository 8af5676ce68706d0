import Verif.Spec.Refine
import Verif.Props.Convolver

/-!
# C93: different descriptions of the same motion sound the same
-/

namespace Torchrir.Props

open Torchrir.Model Torchrir.Spec Torchrir.Lemmas

/-- **C93.** Dividing the steps of a trajectory into several steps with the same responses changes nothing, with
uniform steps or given timestamps on either side. -/
theorem C93_refined {T T' S M N L : ℕ} (dev : DeviceType) (x : Fin S → Fin N → ℝ)
    (h : Fin T → Fin S → Fin M → Fin L → ℝ) (hT : 1 ≤ T) (hT' : 1 ≤ T') (hpos : 1 ≤ N + L)
    {part : Fin T' → Fin T} {first : Fin T → Fin T'}
    {sig rirs rirs' : Tensor ℝ} (hs : SignalIs sig x) (hr : DynamicRirsAre rirs h)
    (hr' : DynamicRirsAre rirs' fun u => h (part u))
    {ts ts' : Option (Tensor ℝ)} {fs fs' : Option ℝ} {start : Fin T → ℝ} {start' : Fin T' → ℝ}
    (hstart : StartsAt N ts fs start) (hstart' : StartsAt N ts' fs' start')
    (href : Refines start start' part first) :
    ({ timestamps := ts', fs := fs' } : Convolver).convolve dev sig rirs' =
      ({ timestamps := ts, fs := fs } : Convolver).convolve dev sig rirs := by
  obtain ⟨step, hstep, -⟩ := C24_every_sample_has_one_step hT hstart
  obtain ⟨step', hstep', -⟩ := C24_every_sample_has_one_step hT' hstart'
  rw [C24_trajectory_formula dev x _ hs hr hT hpos hstart step hstep,
    C24_trajectory_formula dev x _ hs hr' hT' hpos hstart' step' hstep']
  have e : ∀ j, part (step' j) = step j := fun j => by
    apply eq_of_forall_le_iff
    intro t
    rw [← href.order, hstep', href.begins, hstep]
  congr 2
  funext m k
  unfold mixVarying
  simp only [e]

/-- **C93, repeated steps.** Repeating every step of a trajectory `k` times, without timestamps, changes nothing. -/
theorem C93_repeated {T S M N L : ℕ} (dev : DeviceType) (x : Fin S → Fin N → ℝ)
    (h : Fin T → Fin S → Fin M → Fin L → ℝ) (hT : 1 ≤ T) (hpos : 1 ≤ N + L) (k : ℕ) (hk : 1 ≤ k) :
    ({} : Convolver).convolve dev (tensor2 x)
        (tensor4 fun u : Fin (T * k) => h u.divNat) =
      ({} : Convolver).convolve dev (tensor2 x) (tensor4 h) := by
  refine C93_refined dev x h hT (Nat.mul_pos hT hk) hpos (Or.inl rfl) (Or.inl rfl) (Or.inl rfl)
    (StartsAt.uniform none) (StartsAt.uniform none)
    (first := fun t => ⟨t * k, Nat.mul_lt_mul_of_pos_right t.2 hk⟩) ⟨fun t u => ?_, fun t => ?_⟩
  · rw [Fin.le_def, Fin.le_def]
    exact (Nat.le_div_iff_mul_le hk).symm
  · have h1 : (T : ℝ) ≠ 0 := by exact_mod_cast (by omega : T ≠ 0)
    have h2 : (k : ℝ) ≠ 0 := by exact_mod_cast (by omega : k ≠ 0)
    push_cast
    field_simp

/-- **C93, hop mode.** If the signal has exactly `hop` samples per step, hop mode gives the result of trajectory
mode. -/
theorem C93_hop_is_trajectory {T S M L H : ℕ} (dev : DeviceType) (x : Fin S → Fin (T * H) → ℝ)
    (h : Fin T → Fin S → Fin M → Fin L → ℝ) (hT : 1 ≤ T) (hH : 1 ≤ H)
    {sig rirs : Tensor ℝ} (hs : SignalIs sig x) (hr : DynamicRirsAre rirs h) :
    ({ mode := "hop", hop := some (H : ℤ) } : Convolver).convolve dev sig rirs =
      ({} : Convolver).convolve dev sig rirs := by
  have hpos : 1 ≤ T * H + L := by
    have := Nat.mul_pos hT hH
    omega
  obtain ⟨step, hstep, -⟩ := C24_every_sample_has_one_step (N := T * H) hT (StartsAt.uniform none)
  have hval : ∀ j : Fin (T * H), (step j : ℕ) = j / H := fun j => by
    have hlt : (j : ℕ) / H < T := Nat.div_lt_of_lt_mul (lt_of_lt_of_eq j.2 (mul_comm _ _))
    have key : ∀ t : Fin T, t ≤ step j ↔ (t : ℕ) ≤ j / H := fun t => by
      rw [hstep, Nat.le_div_iff_mul_le hH]
      have e : (t : ℕ) * ((T * H : ℕ) : ℝ) / (T : ℝ) = ((t * H : ℕ) : ℝ) := by
        have : (T : ℝ) ≠ 0 := by exact_mod_cast (by omega : T ≠ 0)
        push_cast
        field_simp
      beta_reduce
      rw [e, Int.floor_natCast]
      exact_mod_cast Iff.rfl
    apply le_antisymm
    · exact (key _).mp le_rfl
    · exact Fin.le_def.mp ((key ⟨j / H, hlt⟩).mpr le_rfl)
  rw [C27_hop_uses_whole_signal_partial dev x h hs hr hH le_rfl hpos step hval,
    C24_trajectory_formula dev x h hs hr hT hpos (StartsAt.uniform none) step hstep]
  have e : H * ⌈((T * H : ℕ) : ℝ) / H⌉₊ + L - 1 = T * H + L - 1 := by
    have : ((T * H : ℕ) : ℝ) / H = (T : ℕ) := by
      have : (H : ℝ) ≠ 0 := by exact_mod_cast (by omega : H ≠ 0)
      push_cast
      field_simp
    rw [this, Nat.ceil_natCast, mul_comm]
  rw [e]

/-- **C93, hop mode and timestamps.** Hop mode is trajectory mode with the timestamps `t · hop / fs`, followed by
zeros, if the last step begins within the signal and the steps cover it. -/
theorem C93_hop_is_timestamps {T S M N L H : ℕ} (dev : DeviceType) (x : Fin S → Fin N → ℝ)
    (h : Fin T → Fin S → Fin M → Fin L → ℝ) (hT : 1 ≤ T) (hH : 1 ≤ H) (hN : N ≤ T * H) (hlast : (T - 1) * H ≤ N)
    (hpos : 1 ≤ N + L) (f : ℝ) (hf : 0 < f)
    {sig rirs : Tensor ℝ} (hs : SignalIs sig x) (hr : DynamicRirsAre rirs h) :
    ∃ y : Fin M → ℕ → ℝ,
      ({ timestamps := some ⟨[T], List.ofFn fun t : Fin T => (t : ℕ) * (H : ℝ) / f⟩, fs := some f } : Convolver).convolve
          dev sig rirs = .ok (micTensor (N + L - 1) y) ∧
      ({ mode := "hop", hop := some (H : ℤ) } : Convolver).convolve dev sig rirs =
          .ok (micTensor (H * ⌈(N : ℝ) / H⌉₊ + L - 1) y) ∧
      ∀ m k, N + L - 1 ≤ k → y m k = 0 := by
  have hst : StartsAt N (some ⟨[T], List.ofFn fun t : Fin T => (t : ℕ) * (H : ℝ) / f⟩) (some f)
      (fun t : Fin T => (t : ℕ) * (H : ℝ) / f * f) := by
    refine .given _ f (fun t ht => ?_) (fun a b hab => ?_) hf.le (fun t => ?_)
    · rw [ht]; simp
    · have : ((a : ℕ) : ℝ) ≤ (b : ℕ) := by exact_mod_cast Fin.le_def.mp hab
      gcongr
    · rw [div_mul_cancel₀ _ hf.ne']
      have h1 : (t : ℕ) * H ≤ N := le_trans (Nat.mul_le_mul_right H (by have := t.2; omega)) hlast
      exact_mod_cast h1
  obtain ⟨step, hstep, -⟩ := C24_every_sample_has_one_step hT hst
  have hval : ∀ j : Fin N, (step j : ℕ) = j / H := fun j => by
    have hlt : (j : ℕ) / H < T :=
      Nat.div_lt_of_lt_mul (lt_of_lt_of_le j.2 (hN.trans_eq (mul_comm _ _)))
    have key : ∀ t : Fin T, t ≤ step j ↔ (t : ℕ) ≤ j / H := fun t => by
      rw [hstep, Nat.le_div_iff_mul_le hH]
      have e : (t : ℕ) * (H : ℝ) / f * f = ((t * H : ℕ) : ℝ) := by
        rw [div_mul_cancel₀ _ hf.ne']
        push_cast
        rfl
      beta_reduce
      rw [e, Int.floor_natCast]
      exact_mod_cast Iff.rfl
    apply le_antisymm
    · exact (key _).mp le_rfl
    · exact Fin.le_def.mp ((key ⟨j / H, hlt⟩).mpr le_rfl)
  refine ⟨_, C24_trajectory_formula dev x h hs hr hT hpos hst step hstep,
    C27_hop_uses_whole_signal_partial dev x h hs hr hH hN hpos step hval, fun m k hk => ?_⟩
  unfold mixVarying
  refine Finset.sum_eq_zero fun s _ => Finset.sum_eq_zero fun j _ => Finset.sum_eq_zero fun i _ => if_neg ?_
  have := j.2
  have := i.2
  omega

/-- Two steps of three samples each, every step written four times; and hop mode with a hop of three. -/
example (x : Fin 1 → Fin 6 → ℝ) (h : Fin 2 → Fin 1 → Fin 1 → Fin 5 → ℝ) :
    ({} : Convolver).convolve .cuda (tensor2 x)
        (tensor4 fun u : Fin (2 * 4) => h u.divNat) =
      ({ mode := "hop", hop := some ((3 : ℕ) : ℤ) } : Convolver).convolve .cuda (tensor2 x) (tensor4 h) := by
  rw [C93_repeated .cuda x h (by norm_num) (by norm_num) 4 (by norm_num)]
  exact (C93_hop_is_trajectory (T := 2) (H := 3) .cuda x h (by norm_num) (by norm_num) (Or.inl rfl)
    (Or.inl rfl)).symm

end Torchrir.Props
