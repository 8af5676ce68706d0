import Verif.Props.Kernel
import Verif.Props.Invariance
import Mathlib.Algebra.BigOperators.Intervals

/-!
# C122–C124: rigid walls, scaled walls and the number of images

Consequences of the image method as it is computed, stated for calls of `simulate_rir`.
-/

namespace Torchrir.Props

open Torchrir.Model Torchrir.Spec Torchrir.Lemmas

/-! ## Specification -/

/-- Points with coordinate `a` replaced by a function of itself. -/
def onAxis {n d : ℕ} (a : Fin d) (f : ℝ → ℝ) (p : Fin n → Fin d → ℝ) : Fin n → Fin d → ℝ :=
  fun s => Function.update (p s) a (f (p s a))

namespace Mirror

/-! ## Images that arrive too late -/

/-- Two sets of images that differ in late images only give the same samples. -/
theorem rir_late {d : ℕ} (S : Setup d) (hfs : 0 < S.fs) (hc : 0 < S.c) (hf : 3 ≤ S.fdl) (tmax : ℝ)
    (A B : Finset (Fin d → ℤ)) (gs gm : (Fin d → ℝ) → ℝ) (src mic : Fin d → ℝ)
    (hA : ∀ n ∈ A, n ∉ B → tmax * S.c ≤ pathLength mic (image S.L src n))
    (hB : ∀ n ∈ B, n ∉ A → tmax * S.c ≤ pathLength mic (image S.L src n))
    (k : ℕ) (hk : (k : ℝ) ≤ tmax * S.fs) :
    rir S A gs gm src mic k = rir S B gs gm src mic k := by
  have key : ∀ n : Fin d → ℤ, tmax * S.c ≤ pathLength mic (image S.L src n) →
      kernel S.shape S.fdl (pathLength mic (image S.L src n) * S.fs / S.c) k = 0 := by
    intro n h
    apply kernel_before hf
    refine hk.trans ?_
    rw [le_div_iff₀ hc]
    nlinarith
  unfold rir
  have e1 := Finset.sum_subset (f := fun n => wallGain S.lo S.hi n * gs (mic - image S.L src n)
    * gm (image S.L src n - mic) / pathLength mic (image S.L src n)
    * kernel S.shape S.fdl (pathLength mic (image S.L src n) * S.fs / S.c) k)
    (Finset.inter_subset_left (s₁ := A) (s₂ := B)) (by
      intro n h1 h2
      rw [key n (hA n h1 fun h => h2 (Finset.mem_inter.mpr ⟨h1, h⟩)), mul_zero])
  have e2 := Finset.sum_subset (f := fun n => wallGain S.lo S.hi n * gs (mic - image S.L src n)
    * gm (image S.L src n - mic) / pathLength mic (image S.L src n)
    * kernel S.shape S.fdl (pathLength mic (image S.L src n) * S.fs / S.c) k)
    (Finset.inter_subset_right (s₁ := A) (s₂ := B)) (by
      intro n h1 h2
      rw [key n (hB n h1 fun h => h2 (Finset.mem_inter.mpr ⟨h, h1⟩)), mul_zero])
  exact e1.symm.trans e2

/-- An image far out on one axis is late. -/
theorem far {d : ℕ} {L src mic : Fin d → ℝ} (hs : ∀ i, 0 ≤ src i ∧ src i ≤ L i)
    (hm : ∀ i, 0 ≤ mic i ∧ mic i ≤ L i) {r : ℝ} {n : Fin d → ℤ} (i : Fin d) (q : ℕ) (hq : r ≤ q * L i)
    (h : (q : ℤ) < |n i|) : r ≤ pathLength mic (image L src n) :=
  hq.trans ((axis_far (hs i).1 (hs i).2 (hm i).1 (hm i).2 h).trans
    ((axis_le_dist mic (image L src n) i).trans (dist_le_pathLength _ _)))

/-! ## The two halves of a room -/

/-- Images of the half room that belong to one of the two sources of the whole room. -/
def Upper (n : ℤ) : Prop := n % 4 = 0 ∨ n % 4 = 1

instance : DecidablePred Upper := fun n => inferInstanceAs (Decidable (n % 4 = 0 ∨ n % 4 = 1))

/-- The image of the whole room for an image of the half room. -/
def whole (n : ℤ) : ℤ := (n + 1) / 2

/-- The image of the half room for an image of the source itself. -/
def upper (j : ℤ) : ℤ := if j % 2 = 0 then 2 * j else 2 * j - 1

/-- The image of the half room for an image of the mirrored source. -/
def lower (j : ℤ) : ℤ := if j % 2 = 0 then 2 * j - 1 else 2 * j

theorem axis_upper (L x : ℝ) (j : ℤ) :
    L + mirrored L x (upper j).natAbs (lastWall (upper j))
      = mirrored (2 * L) (L + x) j.natAbs (lastWall j) := by
  rw [mirrored_cases, mirrored_cases]
  unfold upper
  by_cases h : j % 2 = 0
  · rw [if_pos h, if_pos h, if_pos (by omega)]; push_cast; ring
  · rw [if_neg h, if_neg h, if_neg (by omega)]; push_cast; ring

theorem axis_lower (L x : ℝ) (j : ℤ) :
    L + mirrored L x (lower j).natAbs (lastWall (lower j))
      = mirrored (2 * L) (L - x) j.natAbs (lastWall j) := by
  rw [mirrored_cases, mirrored_cases]
  unfold lower
  by_cases h : j % 2 = 0
  · rw [if_pos h, if_pos h, if_neg (by omega)]; push_cast; ring
  · rw [if_neg h, if_neg h, if_pos (by omega)]; push_cast; ring

theorem absorbed_same (b : ℝ) (k : ℕ) (w : Wall) : absorbed b b k w = b ^ k := by
  induction k generalizing w with
  | zero => cases w <;> simp [absorbed]
  | succ k ih => cases w <;> simp [absorbed, ih, pow_succ, mul_comm]

/-- With a rigid low wall only the reflections at the high wall count. -/
theorem absorbed_rigid (b : ℝ) (n : ℤ) :
    absorbed 1 b n.natAbs (lastWall n) = b ^ (whole n).natAbs := by
  unfold whole
  obtain ⟨j, h | h | h | h⟩ := int_cases n
  · have e : n.natAbs = 2 * j := by omega
    rw [show lastWall n = .hi from if_pos (by omega), e, (absorbed_closed 1 b j).1,
      show ((n + 1) / 2).natAbs = j by omega]
    simp
  · have e : n.natAbs = 2 * j + 1 := by omega
    rw [show lastWall n = .hi from if_pos (by omega), e, (absorbed_closed 1 b j).2.2.1,
      show ((n + 1) / 2).natAbs = j + 1 by omega]
    simp
  · have e : n.natAbs = 2 * j + 1 := by omega
    rw [show lastWall n = .lo from if_neg (by omega), e, (absorbed_closed 1 b j).2.2.2,
      show ((n + 1) / 2).natAbs = j by omega]
    simp
  · have e : n.natAbs = 2 * (j + 1) := by omega
    rw [show lastWall n = .lo from if_neg (by omega), e, (absorbed_closed 1 b (j + 1)).2.1,
      show ((n + 1) / 2).natAbs = j + 1 by omega]
    simp

/-- One image of the half room and the image of the whole room it corresponds to. -/
theorem term_eq {d : ℕ} (S S' : Setup d) (a : Fin d) (src mic src' mic' : Fin d → ℝ)
    (hfs : S'.fs = S.fs) (hc : S'.c = S.c) (hfd : S'.fdl = S.fdl) (hsh : S'.shape = S.shape)
    (hL : ∀ i, i ≠ a → S'.L i = S.L i) (hlo : ∀ i, i ≠ a → S'.lo i = S.lo i)
    (hhi : ∀ i, i ≠ a → S'.hi i = S.hi i) (hla : S.lo a = 1) (hla' : S'.lo a = S.hi a)
    (hha' : S'.hi a = S.hi a) (hsrc : ∀ i, i ≠ a → src' i = src i)
    (hmic : ∀ i, i ≠ a → mic' i = mic i) (hma : mic' a = S.L a + mic a) (n j : Fin d → ℤ)
    (hnj : ∀ i, i ≠ a → n i = j i) (hw : whole (n a) = j a)
    (him : S.L a + mirrored (S.L a) (src a) (n a).natAbs (lastWall (n a))
      = mirrored (S'.L a) (src' a) (j a).natAbs (lastWall (j a))) (k : ℕ) :
    wallGain S.lo S.hi n * omni (mic - image S.L src n) * omni (image S.L src n - mic)
        / pathLength mic (image S.L src n)
        * kernel S.shape S.fdl (pathLength mic (image S.L src n) * S.fs / S.c) k
      = wallGain S'.lo S'.hi j * omni (mic' - image S'.L src' j) * omni (image S'.L src' j - mic')
        / pathLength mic' (image S'.L src' j)
        * kernel S'.shape S'.fdl (pathLength mic' (image S'.L src' j) * S'.fs / S'.c) k := by
  have e1 : wallGain S.lo S.hi n = wallGain S'.lo S'.hi j := by
    unfold wallGain
    refine Finset.prod_congr rfl fun i _ => ?_
    by_cases h : i = a
    · subst h
      rw [hla, hla', hha', absorbed_same, absorbed_rigid, hw]
    · rw [hnj i h, hlo i h, hhi i h]
  have e2 : Spec.dist mic (image S.L src n) = Spec.dist mic' (image S'.L src' j) := by
    unfold Spec.dist
    congr 1
    refine Finset.sum_congr rfl fun i _ => ?_
    by_cases h : i = a
    · subst h
      unfold image
      rw [← him, hma]
      ring
    · unfold image
      rw [hnj i h, hL i h, hsrc i h, hmic i h]
  have e3 : pathLength mic (image S.L src n) = pathLength mic' (image S'.L src' j) := by
    unfold pathLength; rw [e2]
  rw [e1, e3, hfs, hc, hfd, hsh]
  rfl

/-- The images of the half room that correspond to a box of the whole room. -/
noncomputable def halfSet {d : ℕ} (nb : Fin d → ℕ) (a : Fin d) : Finset (Fin d → ℤ) :=
  Fintype.piFinset fun i =>
    if i = a then Finset.Icc (-(2 * (nb i : ℤ) + 1)) (2 * nb i) else Finset.Icc (-(nb i : ℤ)) (nb i)

theorem mem_halfSet {d : ℕ} (nb : Fin d → ℕ) (a : Fin d) (n : Fin d → ℤ) :
    n ∈ halfSet nb a ↔ (-(2 * (nb a : ℤ) + 1) ≤ n a ∧ n a ≤ 2 * nb a) ∧
      ∀ i, i ≠ a → -(nb i : ℤ) ≤ n i ∧ n i ≤ nb i := by
  simp only [halfSet, Fintype.mem_piFinset]
  constructor
  · intro h
    refine ⟨?_, fun i hi => ?_⟩
    · have := h a
      rw [if_pos rfl, Finset.mem_Icc] at this
      exact this
    · have := h i
      rw [if_neg hi, Finset.mem_Icc] at this
      exact this
  · rintro ⟨h1, h2⟩ i
    by_cases hi : i = a
    · subst hi
      rw [if_pos rfl, Finset.mem_Icc]; exact h1
    · rw [if_neg hi, Finset.mem_Icc]; exact h2 i hi

theorem mem_boxSet {d : ℕ} (nb : Fin d → ℕ) (n : Fin d → ℤ) :
    n ∈ boxSet nb ↔ ∀ i, -(nb i : ℤ) ≤ n i ∧ n i ≤ nb i := by
  simp only [boxSet, Fintype.mem_piFinset, Finset.mem_Icc]

/-- The images of the half room split into those of the two sources of the whole room. -/
theorem sum_halves {d : ℕ} (nb : Fin d → ℕ) (a : Fin d) (F G H : (Fin d → ℤ) → ℝ)
    (hG : ∀ j, F (Function.update j a (upper (j a))) = G j)
    (hH : ∀ j, F (Function.update j a (lower (j a))) = H j) :
    ∑ n ∈ halfSet nb a, F n = ∑ j ∈ boxSet nb, G j + ∑ j ∈ boxSet nb, H j := by
  rw [← Finset.sum_filter_add_sum_filter_not (halfSet nb a) (fun n => Upper (n a))]
  congr 1
  · refine Finset.sum_nbij' (fun n => Function.update n a (whole (n a)))
      (fun j => Function.update j a (upper (j a))) ?_ ?_ ?_ ?_ ?_
    · intro n hn
      rw [Finset.mem_filter, mem_halfSet] at hn
      rw [mem_boxSet]
      intro i
      by_cases hi : i = a
      · subst hi
        rw [Function.update_self]
        unfold whole
        have := hn.1.1
        omega
      · rw [Function.update_of_ne hi]
        exact hn.1.2 i hi
    · intro j hj
      rw [mem_boxSet] at hj
      rw [Finset.mem_filter, mem_halfSet, Function.update_self]
      refine ⟨⟨?_, fun i hi => ?_⟩, ?_⟩
      · have := hj a
        unfold upper
        split <;> omega
      · rw [Function.update_of_ne hi]
        exact hj i
      · unfold Upper upper
        split <;> omega
    · intro n hn
      rw [Finset.mem_filter] at hn
      have h2 := hn.2
      rw [Function.update_idem, Function.update_self]
      have : upper (whole (n a)) = n a := by
        unfold Upper at h2
        unfold upper whole
        split <;> omega
      rw [this, Function.update_eq_self]
    · intro j _
      rw [Function.update_idem, Function.update_self]
      have : whole (upper (j a)) = j a := by
        unfold upper whole
        split <;> omega
      rw [this, Function.update_eq_self]
    · intro n hn
      rw [Finset.mem_filter] at hn
      have h2 := hn.2
      rw [← hG, Function.update_idem, Function.update_self]
      have : upper (whole (n a)) = n a := by
        unfold Upper at h2
        unfold upper whole
        split <;> omega
      rw [this, Function.update_eq_self]
  · refine Finset.sum_nbij' (fun n => Function.update n a (whole (n a)))
      (fun j => Function.update j a (lower (j a))) ?_ ?_ ?_ ?_ ?_
    · intro n hn
      rw [Finset.mem_filter, mem_halfSet] at hn
      rw [mem_boxSet]
      intro i
      by_cases hi : i = a
      · subst hi
        rw [Function.update_self]
        unfold whole
        have := hn.1.1
        omega
      · rw [Function.update_of_ne hi]
        exact hn.1.2 i hi
    · intro j hj
      rw [mem_boxSet] at hj
      rw [Finset.mem_filter, mem_halfSet, Function.update_self]
      refine ⟨⟨?_, fun i hi => ?_⟩, ?_⟩
      · have := hj a
        unfold lower
        split <;> omega
      · rw [Function.update_of_ne hi]
        exact hj i
      · unfold Upper lower
        split <;> omega
    · intro n hn
      rw [Finset.mem_filter] at hn
      have h2 := hn.2
      rw [Function.update_idem, Function.update_self]
      have : lower (whole (n a)) = n a := by
        unfold Upper at h2
        unfold lower whole
        split <;> omega
      rw [this, Function.update_eq_self]
    · intro j _
      rw [Function.update_idem, Function.update_self]
      have : whole (lower (j a)) = j a := by
        unfold lower whole
        split <;> omega
      rw [this, Function.update_eq_self]
    · intro n hn
      rw [Finset.mem_filter] at hn
      have h2 := hn.2
      rw [← hH, Function.update_idem, Function.update_self]
      have : lower (whole (n a)) = n a := by
        unfold Upper at h2
        unfold lower whole
        split <;> omega
      rw [this, Function.update_eq_self]

/-- What the estimate says, one axis at a time. -/
theorem estimate_inv {d : ℕ} {tmax c : ℝ} {L : Fin d → ℝ} {nb : Fin d → ℕ}
    (h : estimateImageCountsFromTmax tmax (List.ofFn L) c = .ok (List.ofFn fun i => (nb i : ℤ))) :
    0 < tmax ∧ ∀ i, ⌈tmax * c / L i⌉ = nb i := by
  unfold estimateImageCountsFromTmax at h
  split at h
  · cases h
  · split at h
    · refine ⟨by linarith, fun i => ?_⟩
      have h1 := Except.ok.inj h
      rw [List.map_ofFn] at h1
      exact congrFun (List.ofFn_injective h1) i
    · cases h

theorem estimate_covers {d : ℕ} {tmax c : ℝ} {L : Fin d → ℝ} (hL : ∀ i, 0 < L i) {nb : Fin d → ℕ}
    (h : estimateImageCountsFromTmax tmax (List.ofFn L) c = .ok (List.ofFn fun i => (nb i : ℤ)))
    (i : Fin d) : tmax * c ≤ nb i * L i := by
  have h1 := Int.le_ceil (tmax * c / L i)
  rw [(estimate_inv h).2 i, div_le_iff₀ (hL i)] at h1
  exact_mod_cast h1

end Mirror

open Mirror

/-! ## C122 -/

/-- **C122.** A rigid wall is a mirror. In a room whose low wall on axis `a` is rigid, the response is the sum of two
responses in the room that is twice as long on this axis and has the other wall on both ends: of the source and of its
mirror image, each at the same distance from the middle. The numbers of images are those that
`estimate_image_counts_from_tmax` gives for the two rooms. -/
theorem C122_rigid_wall_mirrors {d nS nM : ℕ} (hd : d = 2 ∨ d = 3) (hS : 0 < nS) (hM : 0 < nM) (w : World)
    (L lo hi : Fin d → ℝ) (hL : ∀ i, 0 < L i) (a : Fin d) (hlo : lo a = 1)
    (fs c : ℝ) (hfs : 0 < fs) (hc : 0 < c) (tmax : ℝ) (N N' : ℕ) (nb nb' : Fin d → ℕ)
    (hnb : estimateImageCountsFromTmax tmax (List.ofFn L) c = .ok (List.ofFn fun i => (nb i : ℤ)))
    (hnb' : estimateImageCountsFromTmax tmax (List.ofFn (Function.update L a (2 * L a))) c
      = .ok (List.ofFn fun i => (nb' i : ℤ)))
    (K : ℕ) (hK : (K : ℤ) = ⌈tmax * fs⌉)
    (cfg : Config) (hcfg : cfg.validate = .ok ()) (hoff : cfg.rirHpfEnable = false) (hf : 3 ≤ cfg.fracDelayLength)
    (src : Fin nS → Fin d → ℝ) (mic : Fin nM → Fin d → ℝ)
    (hs : ∀ s i, 0 ≤ src s i ∧ src s i ≤ L i) (hm : ∀ m i, 0 ≤ mic m i ∧ mic m i ≤ L i) :
    ∃ f g : Fin nS → Fin nM → Fin K → ℝ,
      simulateRir w (boxRoom (Function.update L a (2 * L a)) (Function.update lo a (hi a)) hi fs c)
          (points (onAxis a (L a + ·) src)) (points (onAxis a (L a + ·) mic)) (omniArgs (.box N' nb') K cfg)
        = .ok (tensor3 f) ∧
      simulateRir w (boxRoom (Function.update L a (2 * L a)) (Function.update lo a (hi a)) hi fs c)
          (points (onAxis a (L a - ·) src)) (points (onAxis a (L a + ·) mic)) (omniArgs (.box N' nb') K cfg)
        = .ok (tensor3 g) ∧
      simulateRir w (boxRoom L lo hi fs c) (points src) (points mic) (omniArgs (.box N nb) K cfg)
        = .ok (tensor3 fun s m k => f s m k + g s m k) := by
  have ht := (estimate_inv hnb).1
  have hK0 : 0 < K := by
    have : 0 < ⌈tmax * fs⌉ := Int.ceil_pos.mpr (by positivity)
    omega
  refine ⟨_, _, C05_static_rir_formula hd hS hM w _ _ _ fs c hfs hc (.box N' nb') K hK0 cfg hcfg hoff _ _,
    C05_static_rir_formula hd hS hM w _ _ _ fs c hfs hc (.box N' nb') K hK0 cfg hcfg hoff _ _, ?_⟩
  rw [C05_static_rir_formula hd hS hM w _ _ _ fs c hfs hc (.box N nb) K hK0 cfg hcfg hoff]
  congr 2
  funext s m k
  have hcov := estimate_covers hL hnb
  have hL' : ∀ i, 0 < Function.update L a (2 * L a) i := by
    intro i
    by_cases h : i = a
    · subst h; rw [Function.update_self]; have := hL i; positivity
    · rw [Function.update_of_ne h]; exact hL i
  have hcov' := estimate_covers hL' hnb'
  have hsame : ∀ i, i ≠ a → nb' i = nb i := by
    intro i hi
    have h1 := (estimate_inv hnb).2 i
    have h2 := (estimate_inv hnb').2 i
    rw [Function.update_of_ne hi] at h2
    omega
  have hcova : tmax * c ≤ ((2 * nb' a : ℕ) : ℝ) * L a := by
    have := hcov' a
    rw [Function.update_self] at this
    push_cast
    linarith
  rw [rir_late (setupFor w cfg L lo hi fs c) hfs hc (by show 3 ≤ cfg.fracDelayLength.toNat; omega) tmax _
    (halfSet nb' a) omni omni (src s) (mic m) ?_ ?_ k ?_]
  · unfold rir
    refine sum_halves nb' a _ _ _ (fun j => ?_) (fun j => ?_)
    · refine term_eq (setupFor w cfg L lo hi fs c)
        (setupFor w cfg (Function.update L a (2 * L a)) (Function.update lo a (hi a)) hi fs c) a _ _ _ _
        rfl rfl rfl rfl ?_ ?_ ?_ hlo ?_ rfl ?_ ?_ ?_ _ _ ?_ ?_ ?_ k
      · intro i h; exact Function.update_of_ne h _ _
      · intro i h; exact Function.update_of_ne h _ _
      · intro i h; rfl
      · exact Function.update_self _ _ _
      · intro i h; exact Function.update_of_ne h _ _
      · intro i h; exact Function.update_of_ne h _ _
      · exact Function.update_self _ _ _
      · intro i h; exact Function.update_of_ne h _ _
      · rw [Function.update_self]; unfold whole upper; split <;> omega
      · rw [Function.update_self]
        simp only [setupFor, onAxis, Function.update_self]
        exact axis_upper _ _ _
    · refine term_eq (setupFor w cfg L lo hi fs c)
        (setupFor w cfg (Function.update L a (2 * L a)) (Function.update lo a (hi a)) hi fs c) a _ _ _ _
        rfl rfl rfl rfl ?_ ?_ ?_ hlo ?_ rfl ?_ ?_ ?_ _ _ ?_ ?_ ?_ k
      · intro i h; exact Function.update_of_ne h _ _
      · intro i h; exact Function.update_of_ne h _ _
      · intro i h; rfl
      · exact Function.update_self _ _ _
      · intro i h; exact Function.update_of_ne h _ _
      · intro i h; exact Function.update_of_ne h _ _
      · exact Function.update_self _ _ _
      · intro i h; exact Function.update_of_ne h _ _
      · rw [Function.update_self]; unfold whole lower; split <;> omega
      · rw [Function.update_self]
        simp only [setupFor, onAxis, Function.update_self]
        exact axis_lower _ _ _
  · intro n h1 h2
    change n ∈ boxSet nb at h1
    rw [mem_boxSet] at h1
    rw [mem_halfSet, not_and_or] at h2
    have : ¬ (-(2 * (nb' a : ℤ) + 1) ≤ n a ∧ n a ≤ 2 * nb' a) := by
      rcases h2 with h2 | h2
      · exact h2
      · exact absurd (fun i hi => by rw [hsame i hi]; exact h1 i) h2
    refine far (hs s) (hm m) a (2 * nb' a) hcova ?_
    rw [Int.abs_eq_natAbs]
    omega
  · intro n h1 h2
    rw [mem_halfSet] at h1
    change n ∉ boxSet nb at h2
    rw [mem_boxSet, not_forall] at h2
    obtain ⟨i, hi⟩ := h2
    refine far (hs s) (hm m) i (nb i) (hcov i) ?_
    rw [Int.abs_eq_natAbs]
    omega
  · have h1 : ((k : ℕ) : ℤ) < ⌈tmax * fs⌉ := by rw [← hK]; exact_mod_cast k.2
    exact (Int.lt_ceil.mp h1).le

/-- A 3 m × 5 m room with a rigid wall at `x = 0`, 20 ms. -/
example (w : World) : ∃ f g : Fin 1 → Fin 1 → Fin 320 → ℝ,
    simulateRir w (boxRoom ![6, 5] ![0.7, 0.8] ![0.7, 0.6] 16000 343) (points ![![4, 2]]) (points ![![5, 4]])
      (omniArgs (d := 2) (.box 0 ![2, 2]) 320 { rirHpfEnable := false }) = .ok (tensor3 f) ∧
    simulateRir w (boxRoom ![6, 5] ![0.7, 0.8] ![0.7, 0.6] 16000 343) (points ![![2, 2]]) (points ![![5, 4]])
      (omniArgs (d := 2) (.box 0 ![2, 2]) 320 { rirHpfEnable := false }) = .ok (tensor3 g) ∧
    simulateRir w (boxRoom ![3, 5] ![1, 0.8] ![0.7, 0.6] 16000 343) (points ![![1, 2]]) (points ![![2, 4]])
      (omniArgs (d := 2) (.box 0 ![3, 2]) 320 { rirHpfEnable := false })
      = .ok (tensor3 fun s m k => f s m k + g s m k) := by
  have c1 : ⌈(0.02 : ℝ) * 343 / 3⌉ = 3 := by rw [Int.ceil_eq_iff]; norm_num
  have c2 : ⌈(0.02 : ℝ) * 343 / 5⌉ = 2 := by rw [Int.ceil_eq_iff]; norm_num
  have c3 : ⌈(0.02 : ℝ) * 343 / 6⌉ = 2 := by rw [Int.ceil_eq_iff]; norm_num
  have c4 : ⌈(0.02 : ℝ) * 16000⌉ = 320 := by rw [Int.ceil_eq_iff]; norm_num
  have u : ∀ x y z : ℝ, Function.update ![x, y] (0 : Fin 2) z = ![z, y] := by
    intro x y z; funext i; fin_cases i <;> simp
  have h := C122_rigid_wall_mirrors (d := 2) (nS := 1) (nM := 1) (Or.inl rfl) (by norm_num) (by norm_num) w
    ![3, 5] ![1, 0.8] ![0.7, 0.6] (by intro i; fin_cases i <;> norm_num) 0 rfl 16000 343 (by norm_num) (by norm_num)
    0.02 0 0 ![3, 2] ![2, 2]
    (by
      unfold estimateImageCountsFromTmax
      rw [if_neg (by norm_num), if_pos (by simp)]
      simp [c1, c2])
    (by
      unfold estimateImageCountsFromTmax
      rw [if_neg (by norm_num), if_pos (by simp), u]
      have : (2 : ℝ) * (![3, 5] : Fin 2 → ℝ) 0 = 6 := by norm_num
      simp only [this]
      simp [c2, c3])
    320 (by rw [c4]; norm_num) _ plainConfig_valid rfl (by norm_num) ![![1, 2]] ![![2, 4]]
    (by intro s i; fin_cases s; fin_cases i <;> norm_num)
    (by intro s i; fin_cases s; fin_cases i <;> norm_num)
  have e1 : onAxis 0 ((![3, 5] : Fin 2 → ℝ) 0 + ·) ![![1, 2]] = ![![4, 2]] := by
    funext s; fin_cases s
    show Function.update ![1, 2] (0 : Fin 2) (3 + 1 : ℝ) = ![4, 2]
    rw [u]; norm_num
  have e2 : onAxis 0 ((![3, 5] : Fin 2 → ℝ) 0 - ·) ![![1, 2]] = ![![2, 2]] := by
    funext s; fin_cases s
    show Function.update ![1, 2] (0 : Fin 2) (3 - 1 : ℝ) = ![2, 2]
    rw [u]; norm_num
  have e3 : onAxis 0 ((![3, 5] : Fin 2 → ℝ) 0 + ·) ![![2, 4]] = ![![5, 4]] := by
    funext s; fin_cases s
    show Function.update ![2, 4] (0 : Fin 2) (3 + 2 : ℝ) = ![5, 4]
    rw [u]; norm_num
  have e4 : (2 : ℝ) * (![3, 5] : Fin 2 → ℝ) 0 = 6 := by norm_num
  rw [e1, e2, e3, u, u, e4] at h
  exact h

/-! ## C123 -/

namespace Mirror

theorem absorbed_scale (t x y : ℝ) (k : ℕ) (w : Wall) :
    absorbed (t * x) (t * y) k w = t ^ k * absorbed x y k w := by
  induction k generalizing w with
  | zero => cases w <;> simp [absorbed]
  | succ k ih => cases w <;> simp only [absorbed, ih, pow_succ] <;> ring

theorem wallGain_scale {d : ℕ} (t : ℝ) (lo hi : Fin d → ℝ) (n : Fin d → ℤ) :
    wallGain (fun i => t * lo i) (fun i => t * hi i) n = t ^ (∑ i, (n i).natAbs) * wallGain lo hi n := by
  unfold wallGain
  simp only [absorbed_scale]
  rw [Finset.prod_mul_distrib, Finset.prod_pow_eq_pow_sum]

theorem order_natAbs {d : ℕ} (n : Fin d → ℤ) : ((∑ i, (n i).natAbs : ℕ) : ℤ) = ∑ i, |n i| := by
  push_cast
  rfl

/-- The images up to an order, one order after the other. -/
theorem rir_shells {d : ℕ} (S : Setup d) (gs gm : (Fin d → ℝ) → ℝ) (src mic : Fin d → ℝ) (k N : ℕ) :
    rir S (orderSet d N) gs gm src mic k
      = ∑ j ∈ Finset.range (N + 1), rir S (orderShell d j) gs gm src mic k := by
  unfold rir
  rw [← Finset.sum_fiberwise_of_maps_to (s := orderSet d N) (t := Finset.range (N + 1))
    (g := fun n => ∑ i, (n i).natAbs)]
  · refine Finset.sum_congr rfl fun j hj => Finset.sum_congr ?_ fun _ _ => rfl
    ext n
    rw [Finset.mem_range] at hj
    simp only [orderShell, Finset.mem_filter, mem_orderSet]
    have := order_natAbs n
    omega
  · intro n hn
    rw [mem_orderSet] at hn
    have := order_natAbs n
    rw [Finset.mem_range]
    omega

theorem rir_shell_scale {d : ℕ} (S S' : Setup d) (t : ℝ) (hL : S'.L = S.L) (hlo : S'.lo = fun i => t * S.lo i)
    (hhi : S'.hi = fun i => t * S.hi i) (hfs : S'.fs = S.fs) (hc : S'.c = S.c) (hfd : S'.fdl = S.fdl)
    (hsh : S'.shape = S.shape) (gs gm : (Fin d → ℝ) → ℝ) (src mic : Fin d → ℝ) (k j : ℕ) :
    rir S' (orderShell d j) gs gm src mic k = t ^ j * rir S (orderShell d j) gs gm src mic k := by
  unfold rir
  rw [Finset.mul_sum]
  refine Finset.sum_congr rfl fun n hn => ?_
  simp only [orderShell, Finset.mem_filter, mem_orderSet] at hn
  have h1 := order_natAbs n
  have h2 : ∑ i, (n i).natAbs = j := by omega
  simp only [hL, hlo, hhi, hfs, hc, hfd, hsh, wallGain_scale, h2]
  ring

end Mirror

/-- **C123.** Multiplying every wall coefficient by `t` multiplies the contribution of the reflections of order `j` by
`t ^ j` and changes nothing else: with `part j` the contribution of order `j` to the response, the responses for all
`max_order` and all `t` are the sums of `t ^ j * part j` over the orders up to `max_order`. -/
theorem C123_orders_scale {d nS nM : ℕ} (hd : d = 2 ∨ d = 3) (hS : 0 < nS) (hM : 0 < nM) (w : World)
    (L lo hi : Fin d → ℝ) (fs c : ℝ) (hfs : 0 < fs) (hc : 0 < c) (K : ℕ) (hK : 0 < K)
    (cfg : Config) (hcfg : cfg.validate = .ok ()) (hoff : cfg.rirHpfEnable = false)
    (src : Fin nS → Fin d → ℝ) (mic : Fin nM → Fin d → ℝ) :
    ∃ part : ℕ → Fin nS → Fin nM → Fin K → ℝ, ∀ (N : ℕ) (t : ℝ),
      simulateRir w (boxRoom L (fun i => t * lo i) (fun i => t * hi i) fs c) (points src) (points mic)
          (omniArgs (d := d) (.order N) K cfg)
        = .ok (tensor3 fun s m k => ∑ j ∈ Finset.range (N + 1), t ^ j * part j s m k) := by
  refine ⟨fun j s m k => rir (setupFor w cfg L lo hi fs c) (orderShell d j) omni omni (src s) (mic m) k,
    fun N t => ?_⟩
  rw [C05_static_rir_formula hd hS hM w _ _ _ fs c hfs hc (.order N) K hK cfg hcfg hoff]
  congr 2
  funext s m k
  rw [show (Selection.order (d := d) N).images = orderSet d N from rfl, rir_shells]
  exact Finset.sum_congr rfl fun j _ => rir_shell_scale (setupFor w cfg L lo hi fs c)
    (setupFor w cfg L (fun i => t * lo i) (fun i => t * hi i) fs c) t rfl rfl rfl rfl rfl rfl rfl _ _ _ _ _ _

/-- **C123, uniform walls.** The response of a room in which all walls have the coefficient `b` follows from the
responses of the same room with rigid walls: the difference of the rigid responses of orders `j` and `j - 1` counts
`b ^ j` times. -/
theorem C123_uniform {d nS nM : ℕ} (hd : d = 2 ∨ d = 3) (hS : 0 < nS) (hM : 0 < nM) (w : World)
    (L : Fin d → ℝ) (fs c : ℝ) (hfs : 0 < fs) (hc : 0 < c) (K : ℕ) (hK : 0 < K)
    (cfg : Config) (hcfg : cfg.validate = .ok ()) (hoff : cfg.rirHpfEnable = false)
    (src : Fin nS → Fin d → ℝ) (mic : Fin nM → Fin d → ℝ) :
    ∃ rigid : ℕ → Fin nS → Fin nM → Fin K → ℝ,
      (∀ N, simulateRir w (boxRoom L (fun _ => 1) (fun _ => 1) fs c) (points src) (points mic)
        (omniArgs (d := d) (.order N) K cfg) = .ok (tensor3 (rigid N))) ∧
      ∀ (N : ℕ) (b : ℝ),
        simulateRir w (boxRoom L (fun _ => b) (fun _ => b) fs c) (points src) (points mic)
          (omniArgs (d := d) (.order N) K cfg)
        = .ok (tensor3 fun s m k => rigid 0 s m k +
            ∑ j ∈ Finset.range N, b ^ (j + 1) * (rigid (j + 1) s m k - rigid j s m k)) := by
  obtain ⟨part, h⟩ := C123_orders_scale hd hS hM w L (fun _ => 1) (fun _ => 1) fs c hfs hc K hK cfg hcfg hoff src mic
  refine ⟨fun N s m k => ∑ j ∈ Finset.range (N + 1), part j s m k, fun N => ?_, fun N b => ?_⟩
  · have := h N 1
    simpa only [mul_one, one_pow, one_mul] using this
  · have := h N b
    simp only [mul_one] at this
    rw [this]
    congr 2
    funext s m k
    rw [Finset.sum_range_succ']
    simp only [Finset.sum_range_succ _ (_ + 1), add_sub_cancel_left]
    simp [add_comm]

/-- A 4 m × 5 m room at order 2, with coefficients 0.9, 0.8, 0.7 and 0.6 and with their halves. -/
example (w : World) : ∃ part : ℕ → Fin 1 → Fin 1 → Fin 320 → ℝ,
    simulateRir w (boxRoom ![4, 5] ![0.9, 0.8] ![0.7, 0.6] 16000 343) (points ![![1, 2]]) (points ![![3, 4]])
      (omniArgs (d := 2) (.order 2) 320 { rirHpfEnable := false })
      = .ok (tensor3 fun s m k => part 0 s m k + part 1 s m k + part 2 s m k) ∧
    simulateRir w (boxRoom ![4, 5] ![0.45, 0.4] ![0.35, 0.3] 16000 343) (points ![![1, 2]]) (points ![![3, 4]])
      (omniArgs (d := 2) (.order 2) 320 { rirHpfEnable := false })
      = .ok (tensor3 fun s m k => part 0 s m k + 1 / 2 * part 1 s m k + 1 / 4 * part 2 s m k) := by
  obtain ⟨part, h⟩ := C123_orders_scale (d := 2) (nS := 1) (nM := 1) (Or.inl rfl) (by norm_num) (by norm_num) w
    ![4, 5] ![0.9, 0.8] ![0.7, 0.6] 16000 343 (by norm_num) (by norm_num) 320 (by norm_num) _ plainConfig_valid rfl
    ![![1, 2]] ![![3, 4]]
  refine ⟨part, ?_, ?_⟩
  · have := h 2 1
    simpa only [one_mul, one_pow, Finset.sum_range_succ, Finset.sum_range_zero, zero_add] using this
  · have := h 2 (1 / 2)
    have e1 : (fun i => 1 / 2 * (![0.9, 0.8] : Fin 2 → ℝ) i) = ![0.45, 0.4] := by
      funext i; fin_cases i <;> norm_num
    have e2 : (fun i => 1 / 2 * (![0.7, 0.6] : Fin 2 → ℝ) i) = ![0.35, 0.3] := by
      funext i; fin_cases i <;> norm_num
    rw [e1, e2] at this
    rw [this]
    congr 2
    funext s m k
    simp only [Finset.sum_range_succ, Finset.sum_range_zero]
    ring

/-! ## C124 -/

/-- **C124.** From some `max_order` on the response does not change any more, and it is then the response with the
estimated numbers of images: with `⌈tmax fs⌉` samples, a kernel of at least 3 taps and `max_order` at least the sum of
the counts of `estimate_image_counts_from_tmax`, a call with `max_order` that succeeds returns what the same call with
the counts returns — for every directivity, orientation, tail and filter setting and all sources and microphones in
the room. -/
theorem C124_order_saturates {d nS nM : ℕ} (w : World) (room : Room)
    (L : Fin d → ℝ) (hL : ∀ i, 0 < L i) (hsize : room.size = List.ofFn L)
    (hfs : 0 < room.fs) (hc : 0 < room.c) (tmax : ℝ) (nb : Fin d → ℕ)
    (hnb : estimateImageCountsFromTmax tmax room.size room.c = .ok (List.ofFn fun i => (nb i : ℤ)))
    (N : ℕ) (hN : ∑ i, nb i ≤ N)
    (src : Fin nS → Fin d → ℝ) (us : Option (Fin nS → Fin d → ℝ))
    (mic : Fin nM → Fin d → ℝ) (um : Option (Fin nM → Fin d → ℝ))
    (hs : ∀ s i, 0 ≤ src s i ∧ src s i ≤ L i) (hm : ∀ m i, 0 ≤ mic m i ∧ mic m i ≤ L i)
    (a : SimArgs) (cfg : Config) (hcfg : a.config = some cfg) (hf : 3 ≤ cfg.fracDelayLength) (R : Tensor ℝ)
    (h : simulateRir w room (entityOf src us) (entityOf mic um)
        { a with maxOrder := some (N : ℤ), nbImg := none, nsample := some ⌈tmax * room.fs⌉ } = .ok R) :
    simulateRir w room (entityOf src us) (entityOf mic um)
        { a with maxOrder := some (N : ℤ), nbImg := some (List.ofFn fun i => (nb i : ℤ)),
                 nsample := some ⌈tmax * room.fs⌉ } = .ok R := by
  rw [hsize] at hnb
  have hcov := estimate_covers hL hnb
  obtain ⟨P, hP⟩ := StaticPlan.exists (src := src) (mic := mic) hsize rfl rfl h
  have hPN : P.N = N := by
    obtain ⟨_, _, h1⟩ := (bind_eq_ok _ _ _).mp hP.res
    exact (congrArg (fun x => x.2.1) (Except.ok.inj h1)).symm
  obtain ⟨l', hl'1, hl'2⟩ := imageSourceIndices_order d N
  have e1 : P.nVec = l' := by
    have := hP.img
    simp only [hPN] at this
    rw [hl'1] at this
    exact (Except.ok.inj this).symm
  have e2 : P.A = orderSet d N := by
    have := hP.imgA
    rw [e1] at this
    exact this.unique hl'2
  obtain ⟨l, hl1, hl2⟩ := imageSourceIndices_box P.N nb
  have hsub : boxSet nb ⊆ P.A := by
    rw [e2]
    intro n hn
    rw [mem_boxSet] at hn
    rw [mem_orderSet]
    have h1 : ∑ i, |n i| ≤ ∑ i, (nb i : ℤ) := Finset.sum_le_sum fun i _ => abs_le.mpr (hn i)
    have h2 : ∑ i, (nb i : ℤ) ≤ N := by exact_mod_cast hN
    omega
  have hP' : StaticPlan room (entityOf src us) (entityOf mic um)
      { a with maxOrder := some (N : ℤ), nbImg := some (List.ofFn fun i => (nb i : ℤ)),
               nsample := some ⌈tmax * room.fs⌉ } L src mic { P with nVec := l, A := boxSet nb } := by
    refine ⟨⟨hP.hd, hP.hS, hP.hM, hP.size, hP.beta, hP.res, hP.val, hl1, hl2, hP.split, hP.hmd,
      hP.hsd, hP.gains.src_some, hP.gains.mic_some, ?_, ?_⟩, hP.hsrc, hP.hmic⟩
    · rintro s m v ⟨n, hn, rfl⟩
      exact hP.gains.src s m _ ⟨n, hsub hn, rfl⟩
    · intro m
      obtain ⟨mv, h1, h2⟩ := hP.gains.mic m
      refine ⟨mv, h1, ?_⟩
      rintro s v ⟨n, hn, rfl⟩
      exact h2 s _ ⟨n, hsub hn, rfl⟩
  rw [hP.eval w hfs.ne'] at h
  rw [hP'.eval w hfs.ne', ← h]
  have hcfg' : P.cfg = cfg := cfg_of_resolve (a := { a with
    maxOrder := some (N : ℤ), nbImg := none, nsample := some ⌈tmax * room.fs⌉ }) hcfg hP.res
  have hK : P.K = ⌈tmax * room.fs⌉ := by
    have := (validateArgs_inv hP.val).1
    simp only [resolveNsample] at this
    exact (Except.ok.inj this).symm
  have : ({ P with nVec := l, A := boxSet nb } : Plan d nS nM).static w room L src mic
      = P.static w room L src mic := by
    unfold Plan.static
    congr 1
    funext s m k
    refine rir_late (P.setup w room L) hfs hc ?_ tmax _ _ _ _ _ _ ?_ ?_ k ?_
    · show 3 ≤ P.cfg.fracDelayLength.toNat
      rw [hcfg']; omega
    · intro n h1 h2
      exact absurd (hsub h1) h2
    · intro n _ h2
      rw [mem_boxSet, not_forall] at h2
      obtain ⟨i, hi⟩ := h2
      refine far (hs s) (hm m) i (nb i) (hcov i) ?_
      rw [Int.abs_eq_natAbs]
      omega
    · have hk : (k : ℕ) < P.K.toNat := k.2
      have hk' : ((k : ℕ) : ℤ) < ⌈tmax * room.fs⌉ := by rw [← hK]; omega
      exact (Int.lt_ceil.mp hk').le
  rw [this]

/-- A 4 m × 5 m room and 20 ms: every order from 4 on gives what `nb_img = [2, 2]` gives. -/
example (w : World) (N : ℕ) (hN : 4 ≤ N) :
    simulateRir w (boxRoom ![4, 5] ![0.9, 0.8] ![0.7, 0.6] 16000 343) (points ![![1, 2]]) (points ![![3, 4]])
      (omniArgs (d := 2) (.order N) 320 { rirHpfEnable := false }) =
    simulateRir w (boxRoom ![4, 5] ![0.9, 0.8] ![0.7, 0.6] 16000 343) (points ![![1, 2]]) (points ![![3, 4]])
      (omniArgs (d := 2) (.box N ![2, 2]) 320 { rirHpfEnable := false }) := by
  have c1 : ⌈(0.02 : ℝ) * 343 / 4⌉ = 2 := by rw [Int.ceil_eq_iff]; norm_num
  have c2 : ⌈(0.02 : ℝ) * 343 / 5⌉ = 2 := by rw [Int.ceil_eq_iff]; norm_num
  have c4 : ⌈(0.02 : ℝ) * 16000⌉ = 320 := by rw [Int.ceil_eq_iff]; norm_num
  have h0 := C05_static_rir_formula (Or.inl rfl) (by norm_num) (by norm_num) w ![4, 5]
    ![0.9, 0.8] ![0.7, 0.6] 16000 343 (by norm_num) (by norm_num) (.order N) 320 (by norm_num) _
    plainConfig_valid rfl ![![1, 2]] ![![3, 4]]
  have h := C124_order_saturates (d := 2) (nS := 1) (nM := 1) w
    (boxRoom ![4, 5] ![0.9, 0.8] ![0.7, 0.6] 16000 343) ![4, 5]
    (by intro i; fin_cases i <;> norm_num) rfl (by norm_num [boxRoom]) (by norm_num [boxRoom]) 0.02 ![2, 2]
    (by
      unfold estimateImageCountsFromTmax
      rw [if_neg (by norm_num), if_pos (by simp [boxRoom])]
      simp [boxRoom, c1, c2])
    N (by simpa using hN) ![![1, 2]] none ![![3, 4]] none
    (by intro s i; fin_cases s; fin_cases i <;> norm_num)
    (by intro s i; fin_cases s; fin_cases i <;> norm_num)
    (omniArgs (d := 2) (.order N) 320 { rirHpfEnable := false }) _ rfl (by norm_num) _
    (by rw [show (boxRoom ![4, 5] ![0.9, 0.8] ![0.7, 0.6] 16000 343 : Room).fs = 16000 from rfl, c4]
        exact h0)
  rw [show (boxRoom ![4, 5] ![0.9, 0.8] ![0.7, 0.6] 16000 343 : Room).fs = 16000 from rfl, c4] at h
  exact h0.trans h.symm

end Torchrir.Props
