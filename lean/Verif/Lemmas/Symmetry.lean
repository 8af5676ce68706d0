import Verif.Lemmas.Plan

/-! # Geometry of the image lattice: lower distance bound and symmetries -/

namespace Torchrir.Lemmas

open Torchrir.Model
open Torchrir.Spec

theorem mirrored_cases (L s : ℝ) (n : ℤ) :
    mirrored L s n.natAbs (lastWall n) = if n % 2 = 0 then n * L + s else (n + 1) * L - s := by
  obtain ⟨j, h | h | h | h⟩ := int_cases n
  · have e : n.natAbs = 2 * j := by omega
    rw [show lastWall n = .hi from if_pos (by omega), e, (mirrored_closed L s j).1,
      if_pos (by omega), h]
    push_cast; ring
  · have e : n.natAbs = 2 * j + 1 := by omega
    rw [show lastWall n = .hi from if_pos (by omega), e, (mirrored_closed L s j).2.2.1,
      if_neg (by omega), h]
    push_cast; ring
  · have e : n.natAbs = 2 * j + 1 := by omega
    rw [show lastWall n = .lo from if_neg (by omega), e, (mirrored_closed L s j).2.2.2,
      if_neg (by omega), h]
    push_cast; ring
  · have e : n.natAbs = 2 * (j + 1) := by omega
    rw [show lastWall n = .lo from if_neg (by omega), e, (mirrored_closed L s (j + 1)).2.1,
      if_pos (by omega), h]
    push_cast; ring

theorem image_apply {d : ℕ} (L x : Fin d → ℝ) (n : Fin d → ℤ) (i : Fin d) :
    image L x n i = if n i % 2 = 0 then n i * L i + x i else (n i + 1) * L i - x i :=
  mirrored_cases _ _ _

/-! ## Distances -/

theorem axis_dist_ge {L s m : ℝ} (hs0 : 0 ≤ s) (hs1 : s ≤ L) (hm0 : 0 ≤ m) (hm1 : m ≤ L) (n : ℤ) :
    (m - s) ^ 2 ≤ (m - mirrored L s n.natAbs (lastWall n)) ^ 2 := by
  rw [mirrored_cases, sq_le_sq, abs_le]
  have hL : 0 ≤ L := hs0.trans hs1
  split
  · rename_i he
    rcases lt_trichotomy n 0 with h | h | h
    · have h2 : n ≤ -2 := by omega
      have h2' : (n : ℝ) ≤ -2 := by exact_mod_cast h2
      have h3 : (n : ℝ) * L ≤ -2 * L := by nlinarith
      rw [abs_of_nonneg (by linarith)]
      constructor <;> linarith
    · subst h
      simp only [Int.cast_zero, zero_mul, zero_add]
      exact abs_le.mp le_rfl
    · have h2 : 2 ≤ n := by omega
      have h2' : (2 : ℝ) ≤ n := by exact_mod_cast h2
      have h3 : 2 * L ≤ (n : ℝ) * L := by nlinarith
      rw [abs_of_nonpos (by linarith)]
      constructor <;> linarith
  · rename_i ho
    rcases lt_or_ge n 0 with h | h
    · have h2 : n + 1 ≤ 0 := by omega
      have h2' : (n : ℝ) + 1 ≤ 0 := by exact_mod_cast h2
      have h3 : ((n : ℝ) + 1) * L ≤ 0 := by nlinarith
      rw [abs_of_nonneg (by linarith)]
      constructor <;> linarith
    · have h2 : 2 ≤ n + 1 := by omega
      have h2' : (2 : ℝ) ≤ n + 1 := by exact_mod_cast h2
      have h3 : 2 * L ≤ ((n : ℝ) + 1) * L := by nlinarith
      rw [abs_of_nonpos (by linarith)]
      constructor <;> linarith

theorem dist_image_ge {d : ℕ} {L s m : Fin d → ℝ} (hs : ∀ i, 0 ≤ s i ∧ s i ≤ L i)
    (hm : ∀ i, 0 ≤ m i ∧ m i ≤ L i) (n : Fin d → ℤ) : Spec.dist m s ≤ Spec.dist m (image L s n) := by
  unfold Spec.dist
  apply Real.sqrt_le_sqrt
  apply Finset.sum_le_sum
  intro i _
  exact axis_dist_ge (hs i).1 (hs i).2 (hm i).1 (hm i).2 (n i)

theorem dist_nonneg {d : ℕ} (x y : Fin d → ℝ) : 0 ≤ Spec.dist x y := Real.sqrt_nonneg _

theorem pathLength_pos {d : ℕ} (x y : Fin d → ℝ) : 0 < pathLength x y :=
  lt_of_lt_of_le (by norm_num) (le_max_right _ _)

theorem dist_le_pathLength {d : ℕ} (x y : Fin d → ℝ) : Spec.dist x y ≤ pathLength x y :=
  le_max_left _ _

theorem dist_comm {d : ℕ} (x y : Fin d → ℝ) : Spec.dist x y = Spec.dist y x := by
  unfold Spec.dist
  congr 1
  apply Finset.sum_congr rfl
  intro i _
  ring

theorem kernel_early {h : ℝ → ℝ} {fdl : ℕ} {τ : ℝ} {k : ℕ} (hk : (k : ℝ) < τ - 1) :
    kernel h fdl τ k = 0 := by
  unfold kernel
  rw [if_neg]
  rintro ⟨h1, _⟩
  have h2 : (⌊τ⌋ : ℝ) ≤ k := by
    have : ⌊τ⌋ ≤ (k : ℤ) := by omega
    exact_mod_cast this
  have := Int.sub_one_lt_floor τ
  linarith

theorem rir_early {d : ℕ} (S : Setup d) (hfs : 0 < S.fs) (hc : 0 < S.c) (A : Finset (Fin d → ℤ))
    (gs gm : (Fin d → ℝ) → ℝ) (src mic : Fin d → ℝ) (hs : ∀ i, 0 ≤ src i ∧ src i ≤ S.L i)
    (hm : ∀ i, 0 ≤ mic i ∧ mic i ≤ S.L i) (k : ℕ)
    (hk : (k : ℝ) < Spec.dist src mic * S.fs / S.c - 1) : rir S A gs gm src mic k = 0 := by
  unfold rir
  apply Finset.sum_eq_zero
  intro n _
  simp only
  rw [kernel_early, mul_zero]
  refine lt_of_lt_of_le hk ?_
  have h1 : Spec.dist src mic ≤ pathLength mic (image S.L src n) := by
    rw [dist_comm]
    exact (dist_image_ge hs hm n).trans (dist_le_pathLength _ _)
  have : Spec.dist src mic * S.fs / S.c ≤ pathLength mic (image S.L src n) * S.fs / S.c := by
    gcongr
  linarith

/-! ## Exchange of source and microphone -/

/-- The image index seen from the other end. -/
def swapIdx (n : ℤ) : ℤ := if n % 2 = 0 then -n else n

theorem swapIdx_swapIdx (n : ℤ) : swapIdx (swapIdx n) = n := by
  unfold swapIdx
  by_cases h : n % 2 = 0
  · rw [if_pos h, if_pos (by omega)]; omega
  · rw [if_neg h, if_neg h]

theorem abs_swapIdx (n : ℤ) : |swapIdx n| = |n| := by
  unfold swapIdx
  split
  · exact abs_neg n
  · rfl

theorem axis_swap (L x y : ℝ) (n : ℤ) :
    (y - mirrored L x n.natAbs (lastWall n)) ^ 2
      = (x - mirrored L y (swapIdx n).natAbs (lastWall (swapIdx n))) ^ 2 := by
  rw [mirrored_cases, mirrored_cases]
  unfold swapIdx
  split
  · rw [if_pos (by omega)]; push_cast; ring
  · ring

theorem absorbed_swap (a b : ℝ) (n : ℤ) :
    absorbed a b (swapIdx n).natAbs (lastWall (swapIdx n)) = absorbed a b n.natAbs (lastWall n) := by
  unfold swapIdx
  split
  · have hk : ∃ j : ℕ, n.natAbs = 2 * j := ⟨n.natAbs / 2, by omega⟩
    obtain ⟨j, hj⟩ := hk
    have e : ∀ w : Wall, absorbed a b (2 * j) w = b ^ j * a ^ j := by
      intro w; cases w
      · exact (absorbed_closed a b j).2.1
      · exact (absorbed_closed a b j).1
    rw [Int.natAbs_neg, hj, e, e]
  · rfl

/-- A set of images invariant under coordinatewise sign changes. -/
def SignInvariant {d : ℕ} (A : Finset (Fin d → ℤ)) : Prop :=
  ∀ n ∈ A, ∀ m : Fin d → ℤ, (∀ i, |m i| = |n i|) → m ∈ A

theorem orderSet_signInvariant (d N : ℕ) : SignInvariant (orderSet d N) := by
  intro n hn m h
  simp only [orderSet, Finset.mem_filter, Fintype.mem_piFinset, Finset.mem_Icc] at hn ⊢
  refine ⟨fun i => abs_le.mp ?_, ?_⟩
  · rw [h i]; exact abs_le.mpr (hn.1 i)
  · rw [Finset.sum_congr rfl fun i _ => h i]; exact hn.2

theorem boxSet_signInvariant {d : ℕ} (nb : Fin d → ℕ) : SignInvariant (boxSet nb) := by
  intro n hn m h
  simp only [boxSet, Fintype.mem_piFinset, Finset.mem_Icc] at hn ⊢
  intro i
  apply abs_le.mp
  rw [h i]; exact abs_le.mpr (hn i)

theorem selection_signInvariant {d : ℕ} (sel : Selection d) : SignInvariant sel.images := by
  cases sel with
  | order N => exact orderSet_signInvariant d N
  | box N nb => exact boxSet_signInvariant nb

theorem rir_reciprocal {d : ℕ} (S : Setup d) (A : Finset (Fin d → ℤ)) (hA : SignInvariant A)
    (x y : Fin d → ℝ) (k : ℕ) : rir S A omni omni x y k = rir S A omni omni y x k := by
  unfold rir
  apply Finset.sum_bij' (fun n _ => fun i => swapIdx (n i)) (fun n _ => fun i => swapIdx (n i))
  · intro n hn; exact hA n hn _ fun i => abs_swapIdx _
  · intro n hn; exact hA n hn _ fun i => abs_swapIdx _
  · intro n _; funext i; exact swapIdx_swapIdx _
  · intro n _; funext i; exact swapIdx_swapIdx _
  · intro n _
    have hd : pathLength y (image S.L x n) = pathLength x (image S.L y fun i => swapIdx (n i)) := by
      unfold pathLength Spec.dist
      congr 2
      apply Finset.sum_congr rfl
      intro i _
      exact axis_swap _ _ _ _
    have hg : wallGain S.lo S.hi (fun i => swapIdx (n i)) = wallGain S.lo S.hi n := by
      unfold wallGain
      apply Finset.prod_congr rfl
      intro i _
      exact absorbed_swap _ _ _
    simp only [omni]
    rw [hd, hg]

/-! ## Mirroring -/

/-- Replace one coordinate `x i` by `L i - x i`. -/
def mirrorPoint {d : ℕ} (L : Fin d → ℝ) (i : Fin d) (x : Fin d → ℝ) : Fin d → ℝ :=
  Function.update x i (L i - x i)

theorem absorbed_flip (a b : ℝ) (k : ℕ) :
    absorbed a b k .hi = absorbed b a k .lo ∧ absorbed a b k .lo = absorbed b a k .hi := by
  induction k with
  | zero => simp [absorbed]
  | succ k ih => exact ⟨by rw [absorbed, absorbed, ih.2], by rw [absorbed, absorbed, ih.1]⟩

theorem absorbed_neg (a b : ℝ) (n : ℤ) :
    absorbed b a (-n).natAbs (lastWall (-n)) = absorbed a b n.natAbs (lastWall n) := by
  rw [Int.natAbs_neg]
  rcases lt_trichotomy n 0 with h | h | h
  · rw [show lastWall (-n) = .hi from if_pos (by omega), show lastWall n = .lo from if_neg (by omega)]
    exact (absorbed_flip a b _).2.symm
  · subst h; simp [absorbed]
  · rw [show lastWall (-n) = .lo from if_neg (by omega), show lastWall n = .hi from if_pos (by omega)]
    exact (absorbed_flip a b _).1.symm

theorem rir_mirror {d : ℕ} (S : Setup d) (A : Finset (Fin d → ℤ)) (hA : SignInvariant A)
    (i : Fin d) (x y : Fin d → ℝ) (k : ℕ) :
    rir { S with lo := Function.update S.lo i (S.hi i), hi := Function.update S.hi i (S.lo i) } A
      omni omni (mirrorPoint S.L i x) (mirrorPoint S.L i y) k = rir S A omni omni x y k := by
  have habs : ∀ n : Fin d → ℤ, ∀ j, |Function.update n i (-n i) j| = |n j| := by
    intro n j
    by_cases h : j = i
    · subst h; simp
    · rw [Function.update_of_ne h]
  have hinv : ∀ n : Fin d → ℤ,
      Function.update (Function.update n i (-n i)) i (-(Function.update n i (-n i)) i) = n := by
    intro n
    simp
  unfold rir
  refine Finset.sum_bij' (fun n _ => Function.update n i (-n i))
    (fun n _ => Function.update n i (-n i)) ?_ ?_ ?_ ?_ ?_
  · intro n hn; exact hA n hn _ (habs n)
  · intro n hn; exact hA n hn _ (habs n)
  · intro n _; exact hinv n
  · intro n _; exact hinv n
  · intro n _
    have hd : pathLength (mirrorPoint S.L i y) (image S.L (mirrorPoint S.L i x) n)
        = pathLength y (image S.L x (Function.update n i (-n i))) := by
      unfold pathLength Spec.dist
      congr 2
      apply Finset.sum_congr rfl
      intro j _
      rw [image_apply, image_apply]
      unfold mirrorPoint
      by_cases h : j = i
      · subst h
        simp only [Function.update_self]
        by_cases he : n j % 2 = 0
        · rw [if_pos he, if_pos (by omega)]; push_cast; ring
        · rw [if_neg he, if_neg (by omega)]; push_cast; ring
      · simp only [Function.update_of_ne h]
    have hg : wallGain (Function.update S.lo i (S.hi i)) (Function.update S.hi i (S.lo i)) n
        = wallGain S.lo S.hi (Function.update n i (-n i)) := by
      unfold wallGain
      apply Finset.prod_congr rfl
      intro j _
      by_cases h : j = i
      · subst h
        simp only [Function.update_self]
        have := absorbed_neg (S.lo j) (S.hi j) (-(n j))
        rw [neg_neg] at this
        exact this
      · simp only [Function.update_of_ne h]
    simp only [omni]
    rw [hd, hg]

end Torchrir.Lemmas
