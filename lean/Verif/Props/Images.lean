import Verif.Lemmas.Images
import Mathlib.Algebra.Order.Floor.Ring
import Mathlib.Data.Int.Interval

/-!
# C01–C04: which images are used, where they are and how much they are attenuated
-/

namespace Torchrir.Props

open Torchrir.Model Torchrir.Spec Torchrir.Lemmas

/-! ## C01 -/

/-- **C01.** For every dimension and every `max_order = N ≥ 0` the image list exists, has no
repetition and contains exactly the integer vectors whose absolute values add up to at most
`N`. -/
theorem C01_order_images_exact (d : ℕ) (N : ℤ) (hN : 0 ≤ N) :
    ∃ l, imageSourceIndices N d none = .ok l ∧ l.Nodup ∧
      ∀ v : List ℤ, v ∈ l ↔ v.length = d ∧ (v.map fun i => |i|).sum ≤ N := by
  obtain ⟨l, h1, h2, h3⟩ := imageSourceIndices_order d N.toNat
  rw [Int.toNat_of_nonneg hN] at h1
  refine ⟨l, h1, h2, ?_⟩
  intro v
  rw [h3]
  constructor
  · rintro ⟨n, hn, rfl⟩
    simp only [orderSet, Finset.mem_filter] at hn
    rw [sum_abs_ofFn]
    exact ⟨by simp, by have := hn.2; rwa [Int.toNat_of_nonneg hN] at this⟩
  · rintro ⟨rfl, hv⟩
    refine ⟨fun i => v[i], ?_, by simp⟩
    have hs : ∑ i : Fin v.length, |v[i]| ≤ N := by
      rw [← sum_abs_ofFn]; simpa using hv
    simp only [orderSet, Finset.mem_filter, Fintype.mem_piFinset, Finset.mem_Icc,
      Int.toNat_of_nonneg hN]
    exact ⟨fun i => abs_le_of_sum_le hs i, hs⟩

/-- A negative order is rejected. -/
theorem C01_negative_order_rejected (d : ℕ) (N : ℤ) (hN : N < 0) :
    ∃ e, imageSourceIndices N d none = .error e := by
  refine ⟨"RuntimeError: upper bound and lower bound inconsistent with step sign", ?_⟩
  unfold imageSourceIndices symRange
  rw [if_pos hN]
  rfl

example : ∃ l, imageSourceIndices 3 2 none = .ok l ∧ [-2, 1] ∈ l ∧ [2, 2] ∉ l := by
  obtain ⟨l, h1, -, h3⟩ := C01_order_images_exact 2 3 (by norm_num)
  refine ⟨l, h1, (h3 _).mpr (by simp), fun h => ?_⟩
  have := ((h3 _).mp h).2
  simp at this

/-! ## C02 -/

/-- **C02.** With `nb_img = nb` the image list is exactly the box `|i_k| ≤ nb_k`, without
repetition and of size `∏ (2 nb_k + 1)`, whatever `max_order` is. -/
theorem C02_box_images_exact (N : ℤ) (nb : List ℕ) :
    ∃ l, imageSourceIndices N nb.length (some (nb.map fun (n : ℕ) => (n : ℤ))) = .ok l ∧ l.Nodup ∧
      (∀ v : List ℤ, v ∈ l ↔ List.Forall₂ (fun (i : ℤ) (n : ℕ) => |i| ≤ (n : ℤ)) v nb) ∧
      l.length = (nb.map fun n => 2 * n + 1).prod := by
  have hnb : (nb.map fun (n : ℕ) => (n : ℤ)) = List.ofFn fun i : Fin nb.length => ((nb[i] : ℕ) : ℤ) := by
    apply List.ext_getElem <;> simp
  obtain ⟨l, h1, h⟩ := imageSourceIndices_box N (fun i : Fin nb.length => nb[i])
  rw [← hnb] at h1
  refine ⟨l, h1, h.1, ?_, ?_⟩
  · intro v
    rw [h.2]
    constructor
    · rintro ⟨n, hn, rfl⟩
      simp only [boxSet, Fintype.mem_piFinset, Finset.mem_Icc] at hn
      rw [List.forall₂_iff_get]
      refine ⟨by simp, ?_⟩
      intro i hi1 hi2
      have := hn ⟨i, hi2⟩
      simp only [List.get_eq_getElem, List.getElem_ofFn]
      exact abs_le.mpr this
    · intro hv
      have hlen := hv.length_eq
      have h2 := (List.forall₂_iff_get.mp hv).2
      refine ⟨fun i => v[i]'(by rw [hlen]; exact i.2), ?_, ?_⟩
      · simp only [boxSet, Fintype.mem_piFinset, Finset.mem_Icc]
        intro i
        have := h2 i (by rw [hlen]; exact i.2) i.2
        simp only [List.get_eq_getElem] at this
        exact abs_le.mp this
      · apply List.ext_getElem
        · simp [hlen]
        · simp
  · rw [h.length, boxSet, Fintype.card_piFinset]
    have : ∀ i : Fin nb.length, (Finset.Icc (-((nb[i] : ℕ) : ℤ)) ((nb[i] : ℕ) : ℤ)).card
        = 2 * nb[i] + 1 := by
      intro i
      rw [Int.card_Icc]
      omega
    rw [Finset.prod_congr rfl fun i _ => this i, ← List.prod_ofFn]
    congr 1
    apply List.ext_getElem <;> simp

/-- **C02.** An `nb_img` of the wrong length is rejected. -/
theorem C02_wrong_length_rejected (N : ℤ) (d : ℕ) (nb : List ℤ) (h : nb.length ≠ d) :
    ∃ e, imageSourceIndices N d (some nb) = .error e :=
  ⟨_, by unfold imageSourceIndices; simp only; rw [if_pos h]⟩

example : ∃ l, imageSourceIndices 0 2 (some [2, 0]) = .ok l ∧ [-2, 0] ∈ l ∧ [0, 1] ∉ l ∧
    l.length = 5 := by
  obtain ⟨l, h1, -, h3, h4⟩ := C02_box_images_exact 0 [2, 0]
  refine ⟨l, h1, (h3 _).mpr (by simp), fun h => ?_, h4⟩
  have := (h3 _).mp h
  simp at this

/-! ## C03 -/

/-- **C03.** The image positions the simulation uses (every source `src`, every index vector
`n`) are the mirror images of the specification. -/
theorem C03_images_are_mirror_images {d : ℕ} (L : Fin d → ℝ) (src : Fin d → ℝ)
    (ns : List (Fin d → ℤ)) :
    imagePositions (List.ofFn src) (List.ofFn L) (ns.map List.ofFn)
      = ns.map fun n => List.ofFn (image L src n) := by
  unfold imagePositions
  rw [List.map_map]
  apply List.map_congr_left
  intro n _
  simp only [Function.comp, zipWith_ofFn]
  congr 1
  funext i
  exact axis_image _ _ _

/-- **C03.** The batched function used by the static simulation gives the same positions for
each of its sources. -/
theorem C03_batched_images_are_mirror_images {d : ℕ} (L : Fin d → ℝ) (srcs : List (Fin d → ℝ))
    (ns : List (Fin d → ℤ)) :
    imagePositionsBatch (srcs.map List.ofFn) (List.ofFn L) (ns.map List.ofFn)
      = srcs.map fun src => ns.map fun n => List.ofFn (image L src n) := by
  unfold imagePositionsBatch
  simp only [List.map_map]
  apply List.map_congr_left
  intro src _
  simp only [Function.comp, List.zipWith_map, List.zipWith_self]
  apply List.map_congr_left
  intro n _
  rw [zipWith_ofFn, List.map_ofFn, zipWith_ofFn, zipWith_ofFn]
  congr 1
  funext i
  exact axis_image _ _ _

/-- **C03.** The image of a point inside the room lies in the `n`-th copy of the room. -/
theorem C03_image_in_mirrored_room {d : ℕ} (L x : Fin d → ℝ) (n : Fin d → ℤ)
    (h0 : ∀ i, 0 ≤ x i) (h1 : ∀ i, x i ≤ L i) (i : Fin d) :
    n i * L i ≤ image L x n i ∧ image L x n i ≤ (n i + 1) * L i := by
  unfold image
  have a0 := h0 i
  have a1 := h1 i
  generalize L i = l at *
  generalize x i = y at *
  generalize n i = k
  obtain ⟨j, h | h | h | h⟩ := int_cases k
  · have e : k.natAbs = 2 * j := by omega
    rw [lastWall, if_pos (by omega), e, (mirrored_closed l y j).1, h]
    push_cast; constructor <;> linarith
  · have e : k.natAbs = 2 * j + 1 := by omega
    rw [lastWall, if_pos (by omega), e, (mirrored_closed l y j).2.2.1, h]
    push_cast; constructor <;> linarith
  · have e : k.natAbs = 2 * j + 1 := by omega
    rw [lastWall, if_neg (by omega), e, (mirrored_closed l y j).2.2.2, h]
    push_cast; constructor <;> linarith
  · have e : k.natAbs = 2 * (j + 1) := by omega
    rw [lastWall, if_neg (by omega), e, (mirrored_closed l y (j + 1)).2.1, h]
    push_cast; constructor <;> linarith

example : imagePositions [1, 2] [4, 5] [[-1, 2], [1, 0]] = [[-1, 12], [7, 2]] := by
  have h := C03_images_are_mirror_images ![4, 5] ![1, 2] [![-1, 2], ![1, 0]]
  simp [image, mirrored, lastWall] at h
  rw [h]
  norm_num

/-! ## C04 -/

/-- The wall planes of the unfolded room on one axis are at the multiples of `l`; this is the
set of those strictly between `a` and `b`. -/
noncomputable def crossedPlanes (l a b : ℝ) : Finset ℤ :=
  (Finset.Icc ⌊min a b / l⌋ ⌈max a b / l⌉).filter fun j => min a b < j * l ∧ j * l < max a b

theorem mem_crossedPlanes {l : ℝ} (hl : 0 < l) (a b : ℝ) (j : ℤ) :
    j ∈ crossedPlanes l a b ↔ min a b < j * l ∧ j * l < max a b := by
  unfold crossedPlanes
  rw [Finset.mem_filter, Finset.mem_Icc]
  constructor
  · exact fun h => h.2
  · intro h
    refine ⟨⟨?_, ?_⟩, h⟩
    · have : min a b / l < j := by rw [div_lt_iff₀ hl]; exact h.1
      exact_mod_cast (Int.floor_le _).trans this.le
    · have : (j : ℝ) < max a b / l := by rw [lt_div_iff₀ hl]; exact h.2
      exact_mod_cast this.le.trans (Int.le_ceil _)

theorem crossedPlanes_eq {l x y : ℝ} (hx : 0 < x) (hx' : x < l) (hy : 0 < y) (hy' : y < l) (n : ℤ) :
    crossedPlanes l y (mirrored l x n.natAbs (lastWall n))
      = if 0 ≤ n then Finset.Icc 1 n else Finset.Icc (n + 1) 0 := by
  have hl : 0 < l := hx.trans hx'
  -- position of the image strictly inside its copy
  have hpos : n * l < mirrored l x n.natAbs (lastWall n) ∧
      mirrored l x n.natAbs (lastWall n) < (n + 1) * l := by
    obtain ⟨j, h | h | h | h⟩ := int_cases n
    · have e : n.natAbs = 2 * j := by omega
      rw [lastWall, if_pos (by omega), e, (mirrored_closed l x j).1, h]
      push_cast; constructor <;> linarith
    · have e : n.natAbs = 2 * j + 1 := by omega
      rw [lastWall, if_pos (by omega), e, (mirrored_closed l x j).2.2.1, h]
      push_cast; constructor <;> linarith
    · have e : n.natAbs = 2 * j + 1 := by omega
      rw [lastWall, if_neg (by omega), e, (mirrored_closed l x j).2.2.2, h]
      push_cast; constructor <;> linarith
    · have e : n.natAbs = 2 * (j + 1) := by omega
      rw [lastWall, if_neg (by omega), e, (mirrored_closed l x (j + 1)).2.1, h]
      push_cast; constructor <;> linarith
  generalize mirrored l x n.natAbs (lastWall n) = z at hpos ⊢
  ext j
  rw [mem_crossedPlanes hl]
  have key : ∀ a b : ℤ, (a : ℝ) * l < b * l → a < b := fun a b h => by
    have := lt_of_mul_lt_mul_right h hl.le
    exact_mod_cast this
  have key2 : ∀ a b : ℤ, a ≤ b → (a : ℝ) * l ≤ b * l := fun a b h => by
    apply mul_le_mul_of_nonneg_right _ hl.le
    exact_mod_cast h
  split
  · rename_i hn
    rw [Finset.mem_Icc]
    constructor
    · rintro ⟨h1, h2⟩
      have a1 : (0 : ℤ) < j := by
        by_contra hj
        have := key2 j 0 (by omega)
        push_cast at this
        rcases min_lt_iff.mp h1 with h | h
        · linarith
        · have := key2 0 n hn
          push_cast at this
          linarith
      have a2 : j < n + 1 := by
        by_contra hj
        have h3 := key2 (n + 1) j (by omega)
        push_cast at h3
        rcases lt_max_iff.mp h2 with h | h
        · have := key2 1 (n + 1) (by omega)
          push_cast at this
          linarith
        · linarith
      omega
    · rintro ⟨h1, h2⟩
      have b1 := key2 1 j h1
      have b2 := key2 j n h2
      push_cast at b1 b2
      exact ⟨min_lt_iff.mpr (Or.inl (by linarith)), lt_max_iff.mpr (Or.inr (by linarith))⟩
  · rename_i hn
    rw [Finset.mem_Icc]
    constructor
    · rintro ⟨h1, h2⟩
      have a1 : j < 1 := by
        by_contra hj
        have h3 := key2 1 j (by omega)
        push_cast at h3
        rcases lt_max_iff.mp h2 with h | h
        · linarith
        · have := key2 (n + 1) 0 (by omega)
          push_cast at this
          linarith
      have a2 : n < j := by
        by_contra hj
        have h3 := key2 j n (by omega)
        rcases min_lt_iff.mp h1 with h | h
        · have := key2 n 0 (by omega)
          push_cast at this
          linarith
        · linarith
      omega
    · rintro ⟨h1, h2⟩
      have b1 := key2 (n + 1) j h1
      have b2 := key2 j 0 h2
      push_cast at b1 b2
      exact ⟨min_lt_iff.mpr (Or.inr (by linarith)), lt_max_iff.mpr (Or.inl (by linarith))⟩

theorem absorbed_eq_prod (a b : ℝ) (n : ℤ) :
    absorbed a b n.natAbs (lastWall n)
      = ∏ j ∈ (if 0 ≤ n then Finset.Icc 1 n else Finset.Icc (n + 1) 0), if Even j then a else b := by
  have up : ∀ k : ℕ, (∏ j ∈ Finset.Icc (1 : ℤ) k, if Even j then a else b)
      = absorbed a b k .hi := by
    intro k
    induction k using Nat.twoStepInduction with
    | zero => simp [absorbed]
    | one => simp [absorbed]
    | more k ih1 ih2 =>
      have e : ∀ m : ℕ, Finset.Icc (1 : ℤ) ((m + 1 : ℕ) : ℤ)
          = insert ((m + 1 : ℕ) : ℤ) (Finset.Icc (1 : ℤ) m) := by
        intro m; ext x; simp only [Finset.mem_Icc, Finset.mem_insert]; push_cast; omega
      have ni : ∀ m : ℕ, ((m + 1 : ℕ) : ℤ) ∉ Finset.Icc (1 : ℤ) m := by
        intro m; simp only [Finset.mem_Icc]; push_cast; omega
      rw [e, Finset.prod_insert (ni _), e, Finset.prod_insert (ni _), ih1, absorbed, absorbed]
      by_cases hk : Even k
      · have h1 : ¬ Even (((k + 1 : ℕ)) : ℤ) := by
          rw [Int.even_coe_nat]; exact Nat.not_even_iff_odd.mpr hk.add_one
        have h2 : Even (((k + 1 + 1 : ℕ)) : ℤ) := by
          rw [Int.even_coe_nat, Nat.even_add_one, Nat.even_add_one, not_not]; exact hk
        rw [if_neg h1, if_pos h2]; ring
      · have h1 : Even (((k + 1 : ℕ)) : ℤ) := by
          rw [Int.even_coe_nat, Nat.even_add_one]; exact hk
        have h2 : ¬ Even (((k + 1 + 1 : ℕ)) : ℤ) := by
          rw [Int.even_coe_nat, Nat.even_add_one, Nat.even_add_one, not_not]; exact hk
        rw [if_pos h1, if_neg h2]
  have down : ∀ k : ℕ, (∏ j ∈ Finset.Icc (-(k : ℤ) + 1) 0, if Even j then a else b)
      = absorbed a b k .lo := by
    intro k
    induction k using Nat.twoStepInduction with
    | zero => simp [absorbed]
    | one => simp [absorbed]
    | more k ih1 ih2 =>
      have e : ∀ m : ℕ, Finset.Icc (-((m + 1 : ℕ) : ℤ) + 1) 0
          = insert (-(m : ℤ)) (Finset.Icc (-(m : ℤ) + 1) 0) := by
        intro m; ext x; simp only [Finset.mem_Icc, Finset.mem_insert]; push_cast; omega
      have ni : ∀ m : ℕ, (-(m : ℤ)) ∉ Finset.Icc (-(m : ℤ) + 1) 0 := by
        intro m; simp only [Finset.mem_Icc]; omega
      rw [e, Finset.prod_insert (ni _), e, Finset.prod_insert (ni _), ih1, absorbed, absorbed]
      by_cases hk : Even k
      · have h1 : ¬ Even (-(((k + 1 : ℕ)) : ℤ)) := by
          rw [even_neg, Int.even_coe_nat]; exact Nat.not_even_iff_odd.mpr hk.add_one
        have h2 : Even (-(k : ℤ)) := by rw [even_neg, Int.even_coe_nat]; exact hk
        rw [if_neg h1, if_pos h2]; ring
      · have h1 : Even (-(((k + 1 : ℕ)) : ℤ)) := by
          rw [even_neg, Int.even_coe_nat, Nat.even_add_one]; exact hk
        have h2 : ¬ Even (-(k : ℤ)) := by rw [even_neg, Int.even_coe_nat]; exact hk
        rw [if_pos h1, if_neg h2]
  unfold lastWall
  split
  · rename_i hn
    have := up n.natAbs
    rw [Int.natAbs_of_nonneg hn] at this
    exact this.symm
  · rename_i hn
    have := down n.natAbs
    rw [show -((n.natAbs : ℕ) : ℤ) = n by omega] at this
    exact this.symm

/-- **C04.** For a source and a microphone strictly inside the room, the reflection coefficient
computed for image `n` is the product over all wall planes crossed by the straight line from
the microphone to the image; planes at even multiples of the side length belong to the low
wall, odd ones to the high wall. -/
theorem C04_gain_is_product_over_crossed_walls {d : ℕ} (L src mic lo hi : Fin d → ℝ)
    (n : Fin d → ℤ) (hs : ∀ i, 0 < src i ∧ src i < L i) (hm : ∀ i, 0 < mic i ∧ mic i < L i) :
    reflectionCoefficients [List.ofFn n] (wallList lo hi)
      = [∏ i, ∏ j ∈ crossedPlanes (L i) (mic i) (image L src n i),
          if Even j then lo i else hi i] := by
  unfold reflectionCoefficients
  simp only [List.map_cons, List.map_nil]
  rw [reflectionCoefficients_eq]
  congr 1
  unfold wallGain
  apply Finset.prod_congr rfl
  intro i _
  unfold image
  rw [crossedPlanes_eq (hs i).1 (hs i).2 (hm i).1 (hm i).2, absorbed_eq_prod]

/-- **C04.** The number of crossed walls is the reflection order of the image. -/
theorem C04_number_of_crossings_is_order {d : ℕ} (L src mic : Fin d → ℝ)
    (n : Fin d → ℤ) (hs : ∀ i, 0 < src i ∧ src i < L i) (hm : ∀ i, 0 < mic i ∧ mic i < L i) :
    ((∑ i, (crossedPlanes (L i) (mic i) (image L src n i)).card : ℕ) : ℤ) = ∑ i, |n i| := by
  push_cast
  apply Finset.sum_congr rfl
  intro i _
  unfold image
  rw [crossedPlanes_eq (hs i).1 (hs i).2 (hm i).1 (hm i).2]
  split
  · rename_i h; rw [Int.card_Icc, abs_of_nonneg h]; omega
  · rename_i h; rw [Int.card_Icc, abs_of_neg (by omega)]; omega

/-- The hypotheses of C04 are met by any room with positive sides, e.g. a 3 m × 4 m room; image
`(2, -1)` crosses planes 1, 2 on the first axis and plane 0 on the second. -/
example : reflectionCoefficients [[2, -1]] [0.5, 0.25, 0.1, 0.2] = [0.25 * 0.5 * 0.1] ∧
    ((∀ i, 0 < ![(1 : ℝ), 2] i ∧ ![(1 : ℝ), 2] i < ![(3 : ℝ), 4] i)) := by
  constructor
  · have h := reflectionCoefficients_eq ![(0.5 : ℝ), 0.1] ![0.25, 0.2] ![2, -1]
    simp [wallList, wallGain, Fin.prod_univ_two, absorbed, lastWall] at h
    simp [reflectionCoefficients, h]
  · intro i; fin_cases i <;> norm_num

end Torchrir.Props
