import Verif.Props.Convolver

/-! # When the dynamic convolver accepts its arguments, exactly: C27, C28 -/

namespace Torchrir.Props

open Torchrir.Model Torchrir.Lemmas
open Torchrir.Spec

/-- **C28, exactly (trajectory mode).** For four-dimensional responses and a non-empty signal, trajectory
mode returns a result exactly if there is one signal per source or a single signal. -/
theorem C28_trajectory_accepts_exactly {T S S' M N L : ℕ} (dev : DeviceType) (x : Fin S' → Fin N → ℝ)
    (h : Fin T → Fin S → Fin M → Fin L → ℝ) {ts : Option (Tensor ℝ)} {fs : Option ℝ}
    {start : Fin T → ℝ} (hstart : StartsAt N ts fs start) (hT : 1 ≤ T) (hN : 1 ≤ N) :
    (∃ y, ({ timestamps := ts, fs := fs } : Convolver).convolve dev (tensor2 x) (tensor4 h) = .ok y) ↔
      S' = S ∨ S' = 1 := by
  constructor
  · rintro ⟨y, hy⟩
    by_contra hc
    push Not at hc
    obtain ⟨e, he⟩ := C28_trajectory_mismatch_raises_partial dev x h (Or.inl rfl) (Or.inl rfl) hstart hT hN
      hc.2 hc.1
    rw [he] at hy
    cases hy
  · rintro (rfl | rfl)
    · obtain ⟨step, hstep, -⟩ := C24_every_sample_has_one_step hT hstart
      exact ⟨_, C24_trajectory_formula dev x h (Or.inl rfl) (Or.inl rfl) hT (by omega) hstart step hstep⟩
    · obtain ⟨y, hy, -⟩ := C28_single_signal_is_duplicated_fails dev x h hT (by omega) hstart
      exact ⟨y, hy⟩

/-- **C28, exactly (hop mode).** For four-dimensional responses and a non-empty signal, hop mode returns a
result exactly if there are at least as many signals as sources, and then it is the result for the
first signals alone. -/
theorem C28_hop_accepts_exactly {T S S' M N L H : ℕ} (dev : DeviceType) (x : Fin S' → Fin N → ℝ)
    (h : Fin T → Fin S → Fin M → Fin L → ℝ) (hT : 1 ≤ T) (hN : 1 ≤ N) (hH : 1 ≤ H) :
    ((∃ y, ({ mode := "hop", hop := some (H : ℤ) } : Convolver).convolve dev (tensor2 x) (tensor4 h) = .ok y) ↔
      S ≤ S') ∧
    ∀ hS : S ≤ S', ({ mode := "hop", hop := some (H : ℤ) } : Convolver).convolve dev (tensor2 x) (tensor4 h) =
      ({ mode := "hop", hop := some (H : ℤ) } : Convolver).convolve dev
        (tensor2 fun s => x (Fin.castLE hS s)) (tensor4 h) := by
  have hpos : 1 ≤ H * min ((N + H - 1) / H) T + L := by
    have h1 : 1 ≤ min ((N + H - 1) / H) T := by
      rw [le_min_iff]
      exact ⟨(Nat.one_le_div_iff hH).mpr (by omega), hT⟩
    have := Nat.mul_le_mul hH h1
    omega
  have hlt : ∀ j : Fin (min N (T * H)), (j : ℕ) / H < T := by
    intro j
    have := j.2
    rw [Nat.div_lt_iff_lt_mul hH]
    omega
  have key : ∀ hS : S ≤ S', _ := fun hS => hop_formula dev x h (Or.inl rfl) hS (Or.inl rfl)
    (Or.inr (Or.inr (Or.inl rfl))) hH hpos (fun j => ⟨j / H, hlt j⟩) (fun _ => rfl)
  refine ⟨⟨?_, fun hS => ⟨_, key hS⟩⟩, fun hS => ?_⟩
  · rintro ⟨y, hy⟩
    by_contra hc
    obtain ⟨e, he⟩ := C28_hop_too_few_signals_raises_partial dev x h (Or.inl rfl) (Or.inl rfl) hH hT hN
      (not_le.mp hc)
    rw [he] at hy
    cases hy
  · rw [key hS, C27_hop_formula_partial dev _ h (Or.inl rfl) (Or.inl rfl) hH hpos (fun j => ⟨j / H, hlt j⟩)
      (fun _ => rfl)]

/-- Three sources: three signals or one signal are accepted by trajectory mode, two are not; hop mode
accepts four. -/
example (x : Fin 2 → Fin 5 → ℝ) (y : Fin 4 → Fin 5 → ℝ) (h : Fin 3 → Fin 3 → Fin 1 → Fin 4 → ℝ) :
    (¬ ∃ z, ({} : Convolver).convolve .cpu (tensor2 x) (tensor4 h) = .ok z) ∧
    ∃ z, ({ mode := "hop", hop := some ((2 : ℕ) : ℤ) } : Convolver).convolve .cpu (tensor2 y) (tensor4 h) = .ok z := by
  rw [C28_trajectory_accepts_exactly .cpu x h (StartsAt.uniform none) (by norm_num) (by norm_num),
    (C28_hop_accepts_exactly .cpu y h (by norm_num) (by norm_num) (by norm_num)).1]
  omega

theorem micTensor_injective {M len : ℕ} {y z : Fin M → ℕ → ℝ} (h : micTensor len y = micTensor len z)
    (m : Fin M) (k : ℕ) (hk : k < len) : y m k = z m k := by
  have h' : (tensor2 fun m (k : Fin len) => y m k).data = (tensor2 fun m (k : Fin len) => z m k).data := by
    unfold micTensor at h
    split_ifs at h with h1
    · have := congrArg Tensor.data h
      exact this
    · exact congrArg Tensor.data h
  have hd : (tensor2 fun m (k : Fin len) => y m k) = tensor2 fun m (k : Fin len) => z m k := by
    show (⟨[M, len], (tensor2 fun m (k : Fin len) => y m k).data⟩ : Tensor ℝ) =
      ⟨[M, len], (tensor2 fun m (k : Fin len) => z m k).data⟩
    rw [h']
  have hr := congrArg Tensor.rows hd
  rw [tensor2_rows, tensor2_rows] at hr
  have h1 := congrFun (List.ofFn_injective hr) m
  exact congrFun (List.ofFn_injective h1) ⟨k, hk⟩

/-- **C27, exactly which samples are used.** In hop mode the samples from number `T·H` on do not matter;
and a change of an earlier sample `j` of one source changes the result whenever the response of that
source at step `⌊j/H⌋` is not zero at some microphone. -/
theorem C27_used_samples {T S M N L H : ℕ} (dev : DeviceType) (x x' : Fin S → Fin N → ℝ)
    (h : Fin T → Fin S → Fin M → Fin L → ℝ) (hH : 1 ≤ H) (hL : 1 ≤ L) :
    ((∀ s (j : Fin N), (j : ℕ) < T * H → x s j = x' s j) →
      ({ mode := "hop", hop := some (H : ℤ) } : Convolver).convolve dev (tensor2 x) (tensor4 h) =
        ({ mode := "hop", hop := some (H : ℤ) } : Convolver).convolve dev (tensor2 x') (tensor4 h)) ∧
    ∀ (s₀ : Fin S) (j₀ : Fin N) (t : Fin T), (t : ℕ) = j₀ / H → x s₀ j₀ ≠ x' s₀ j₀ →
      (∀ s j, ¬ (s = s₀ ∧ j = j₀) → x s j = x' s j) → (∃ m i, h t s₀ m i ≠ 0) →
      ({ mode := "hop", hop := some (H : ℤ) } : Convolver).convolve dev (tensor2 x) (tensor4 h) ≠
        ({ mode := "hop", hop := some (H : ℤ) } : Convolver).convolve dev (tensor2 x') (tensor4 h) := by
  have hlt : ∀ j : Fin (min N (T * H)), (j : ℕ) / H < T := by
    intro j
    have := j.2
    rw [Nat.div_lt_iff_lt_mul hH]
    omega
  have key := fun x => C27_hop_formula_partial dev (N := N) x h (Or.inl rfl) (Or.inl rfl) hH (by omega)
    (fun j => ⟨j / H, hlt j⟩) (fun _ => rfl)
  refine ⟨fun he => ?_, fun s₀ j₀ t ht hne he hh => ?_⟩
  · rw [key x, key x']
    congr 3
    funext s j
    exact he s _ (lt_of_lt_of_le j.2 (min_le_right _ _))
  · obtain ⟨m, i, hi⟩ := hh
    rw [key x, key x']
    intro hc
    have hj : (j₀ : ℕ) < min N (T * H) := by
      refine lt_min j₀.2 ?_
      have := t.2
      rw [ht, Nat.div_lt_iff_lt_mul hH] at this
      exact this
    have hlen : (j₀ : ℕ) + i < H * min ((N + H - 1) / H) T + L - 1 := by
      obtain ⟨-, h2⟩ := hop_frames (N := N) (T := T) hH
      rw [← h2, mul_comm _ H] at hj
      have := i.2
      have := lt_of_lt_of_le hj (min_le_left _ _)
      omega
    have hd := micTensor_injective (Except.ok.inj hc) m _ hlen
    rw [← sub_eq_zero] at hd
    unfold mixVarying at hd
    simp only [← Finset.sum_sub_distrib] at hd
    rw [Finset.sum_eq_single s₀, Finset.sum_eq_single ⟨j₀, hj⟩, Finset.sum_eq_single i] at hd
    · rw [if_pos rfl, if_pos rfl, ← sub_mul] at hd
      have e : (⟨((⟨j₀, hj⟩ : Fin (min N (T * H))) : ℕ) / H, hlt _⟩ : Fin T) = t := Fin.ext ht.symm
      rw [e] at hd
      rcases mul_eq_zero.mp hd with h0 | h0
      · exact hne (sub_eq_zero.mp h0)
      · exact hi h0
    · intro i' _ hi'
      have : ¬ (j₀ : ℕ) + i' = j₀ + i := fun e => hi' (Fin.ext (by omega))
      rw [if_neg this, if_neg this, sub_zero]
    · simp
    · intro j _ hj'
      refine Finset.sum_eq_zero fun i' _ => ?_
      rw [he s₀ _ (fun ⟨_, e⟩ => hj' (Fin.ext (congrArg (fun a : Fin N => (a : ℕ)) e))), sub_self]
    · simp
    · intro s _ hs
      refine Finset.sum_eq_zero fun j _ => Finset.sum_eq_zero fun i' _ => ?_
      rw [he s _ (fun ⟨e, _⟩ => hs e), sub_self]
    · simp

/-- Two responses, hop 3: the seventh sample does not matter, the sixth does. -/
example (x : Fin 1 → Fin 7 → ℝ) (dev : DeviceType) :
    ({ mode := "hop", hop := some ((3 : ℕ) : ℤ) } : Convolver).convolve dev
        (tensor2 fun s j => x s j + if (j : ℕ) = 6 then 1 else 0)
        (tensor4 (a := 2) (b := 1) (c := 1) (e := 1) fun _ _ _ _ => 1) =
      ({ mode := "hop", hop := some ((3 : ℕ) : ℤ) } : Convolver).convolve dev (tensor2 x)
        (tensor4 (a := 2) (b := 1) (c := 1) (e := 1) fun _ _ _ _ => 1) ∧
    ({ mode := "hop", hop := some ((3 : ℕ) : ℤ) } : Convolver).convolve dev
        (tensor2 fun s j => x s j + if (j : ℕ) = 5 then 1 else 0)
        (tensor4 (a := 2) (b := 1) (c := 1) (e := 1) fun _ _ _ _ => 1) ≠
      ({ mode := "hop", hop := some ((3 : ℕ) : ℤ) } : Convolver).convolve dev (tensor2 x)
        (tensor4 (a := 2) (b := 1) (c := 1) (e := 1) fun _ _ _ _ => 1) := by
  refine ⟨(C27_used_samples dev _ x _ (by norm_num) le_rfl).1 fun s j hj => ?_,
    (C27_used_samples dev _ x _ (by norm_num) le_rfl).2 0 5 1 rfl (by simp) (fun s j hj => ?_)
      ⟨0, 0, one_ne_zero⟩⟩
  · rw [if_neg (by omega), add_zero]
  · have : ¬ (j : ℕ) = 5 := fun e => hj ⟨Subsingleton.elim _ _, Fin.ext e⟩
    rw [if_neg this, add_zero]

/-- **C27, all negative hops.** A negative hop `-H` is accepted for every signal and every sequence of
responses with one response sample at least, and the result is silence. -/
theorem C27_negative_hops_are_silent {T S M N L H : ℕ} (dev : DeviceType) (x : Fin S → Fin N → ℝ)
    (h : Fin T → Fin S → Fin M → Fin L → ℝ) (hH : 1 ≤ H) (hL : 1 ≤ L) :
    ({ mode := "hop", hop := some (-(H : ℤ)) } : Convolver).convolve dev (tensor2 x) (tensor4 h) =
      .ok (micTensor (H * (N / H) + L - 1) fun (_ : Fin M) _ => 0) := by
  unfold Convolver.convolve
  rw [if_neg (by simp), if_pos rfl]
  show convolveHop _ _ (-(H : ℤ)) = _
  unfold convolveHop
  rw [ensureSignal_eq (Or.inl rfl), ok_bind, ensureDynamicRirs_eq (Or.inl rfl) _ (Or.inl rfl), ok_bind]
  dsimp only
  rw [show (tensor4 h).shape.getD 0 0 = T from rfl, show (tensor4 h).shape.getD 1 0 = S from rfl,
    show (tensor4 h).shape.getD 2 0 = M from rfl, show (tensor4 h).shape.getD 3 0 = L from rfl,
    show (tensor2 x).shape.getD 1 0 = N from rfl]
  have hc : min ⌈((N : ℕ) : ℝ) / ((-(H : ℤ) : ℤ) : ℝ)⌉ (T : ℤ) = -((N / H : ℕ) : ℤ) := by
    have e : ((N : ℕ) : ℝ) / ((-(H : ℤ) : ℤ) : ℝ) = -(((N : ℕ) : ℝ) / (H : ℕ)) := by
      push_cast
      rw [div_neg]
    rw [e, Int.ceil_neg, Int.floor_div_natCast, Int.floor_natCast, min_eq_left, Int.natCast_div]
    have : (0 : ℤ) ≤ (N : ℤ) / H := Int.ediv_nonneg (by omega) (by omega)
    omega
  rw [raiseIf_neg (by omega), ok_bind, hc]
  have ho : -(H : ℤ) * (-((N / H : ℕ) : ℤ) - 1) + -(H : ℤ) + L - 1 = ((H * (N / H) + L - 1 : ℕ) : ℤ) := by
    have : ((H * (N / H) + L - 1 : ℕ) : ℤ) = (H : ℤ) * ((N / H : ℕ) : ℤ) + L - 1 := by
      rw [Nat.cast_sub (by omega)]
      push_cast
      ring
    rw [this]
    ring
  rw [ho, raiseIf_neg (not_lt.mpr (Int.natCast_nonneg _)), ok_bind, Int.toNat_natCast,
    Int.toNat_of_nonpos (neg_nonpos.mpr (Int.natCast_nonneg _)), List.range_zero, List.foldlM_nil, pure_bind]
  show Except.ok _ = _
  congr 1
  rw [← squeezeMics_rep (H * (N / H) + L - 1) (fun _ _ => 0) (fun (_ : Fin M) _ => 0) (fun _ _ _ => rfl)]
  congr 1
  simp [rep]

end Torchrir.Props
