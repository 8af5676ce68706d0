import Verif.Props.Acoustics
import Mathlib.Topology.Instances.Real.Lemmas
import Mathlib.Topology.Algebra.Order.Field
import Mathlib.Analysis.Real.Sqrt
import Mathlib.Tactic.FinCases

/-!
# C141: laws of the Sabine estimates
-/

namespace Torchrir.Props

open Torchrir.Model Torchrir.Spec

/-- **C141, flat rooms.** The reverberation time of a 2-D room is the one of every 3-D room over the same floor plan
whose floor and ceiling absorb nothing. -/
theorem C141_flat (lx ly h : ℝ) (hh : 0 < h) (b₀ b₁ b₂ b₃ : ℝ) :
    estimateT60FromBeta [lx, ly] [b₀, b₁, b₂, b₃] = estimateT60FromBeta [lx, ly, h] [b₀, b₁, b₂, b₃, 1, 1] := by
  unfold estimateT60FromBeta
  simp only [List.length_cons, List.length_nil, ne_eq, not_true_eq_false, if_false, List.map_cons, List.map_nil,
    List.zipWith_cons_cons, List.zipWith_nil_left, List.sum_cons, List.sum_nil]
  set A := ly * 1 * (1 - b₀ ^ 2) + (ly * 1 * (1 - b₁ ^ 2) + (lx * 1 * (1 - b₂ ^ 2) + (lx * 1 * (1 - b₃ ^ 2) + 0)))
    with hA
  have e : ly * h * (1 - b₀ ^ 2) + (ly * h * (1 - b₁ ^ 2) + (lx * h * (1 - b₂ ^ 2) + (lx * h * (1 - b₃ ^ 2) +
      (lx * ly * (1 - 1 ^ 2) + (lx * ly * (1 - 1 ^ 2) + 0))))) = h * A := by rw [hA]; ring
  norm_num at e ⊢
  rw [e]
  by_cases hA0 : A ≤ 0
  · rw [if_pos hA0, if_pos (mul_nonpos_of_nonneg_of_nonpos hh.le hA0)]
  · have hA1 : 0 < A := not_le.mp hA0
    rw [if_neg hA0, if_neg (not_le.mpr (mul_pos hh hA1))]
    congr 2
    field_simp

/-- **C141, scale.** In a room `q` times as large sound lasts `q` times as long. -/
theorem C141_scale_t60 (size β : List ℝ) (q : ℝ) (hq : 0 < q) :
    estimateT60FromBeta (size.map (q * ·)) β = (estimateT60FromBeta size β).map (Option.map (q * ·)) := by
  unfold estimateT60FromBeta
  match size with
  | [] => rfl
  | [_] => rfl
  | _ :: _ :: _ :: _ :: _ => rfl
  | [lx, ly] =>
    simp only [List.map_cons, List.map_nil]
    by_cases hl : β.length = 4
    · rw [if_neg (not_not.mpr hl), if_neg (not_not.mpr hl)]
      obtain ⟨b₀, b₁, b₂, b₃, rfl⟩ := List.length_eq_four.mp hl
      simp only [List.map_cons, List.map_nil, List.zipWith_cons_cons, List.zipWith_nil_left, List.sum_cons,
        List.sum_nil]
      set A := ly * 1 * (1 - b₀ ^ 2) + (ly * 1 * (1 - b₁ ^ 2) + (lx * 1 * (1 - b₂ ^ 2) +
        (lx * 1 * (1 - b₃ ^ 2) + 0))) with hA
      have e : q * ly * 1 * (1 - b₀ ^ 2) + (q * ly * 1 * (1 - b₁ ^ 2) + (q * lx * 1 * (1 - b₂ ^ 2) +
        (q * lx * 1 * (1 - b₃ ^ 2) + 0))) = q * A := by rw [hA]; ring
      rw [e]
      by_cases hA0 : A ≤ 0
      · rw [if_pos hA0, if_pos (mul_nonpos_of_nonneg_of_nonpos hq.le hA0)]
        rfl
      · have hA1 : 0 < A := not_le.mp hA0
        rw [if_neg hA0, if_neg (not_le.mpr (mul_pos hq hA1))]
        simp only [Except.map, Option.map]
        congr 2
        field_simp
    · rw [if_pos hl, if_pos hl]
      rfl
  | [lx, ly, lz] =>
    simp only [List.map_cons, List.map_nil]
    by_cases hl : β.length = 6
    · rw [if_neg (not_not.mpr hl), if_neg (not_not.mpr hl)]
      match β, hl with
      | [b₀, b₁, b₂, b₃, b₄, b₅], _ =>
        simp only [List.map_cons, List.map_nil, List.zipWith_cons_cons, List.zipWith_nil_left, List.sum_cons,
          List.sum_nil]
        set A := ly * lz * (1 - b₀ ^ 2) + (ly * lz * (1 - b₁ ^ 2) + (lx * lz * (1 - b₂ ^ 2) +
          (lx * lz * (1 - b₃ ^ 2) + (lx * ly * (1 - b₄ ^ 2) + (lx * ly * (1 - b₅ ^ 2) + 0))))) with hA
        have e : q * ly * (q * lz) * (1 - b₀ ^ 2) + (q * ly * (q * lz) * (1 - b₁ ^ 2) +
          (q * lx * (q * lz) * (1 - b₂ ^ 2) + (q * lx * (q * lz) * (1 - b₃ ^ 2) +
          (q * lx * (q * ly) * (1 - b₄ ^ 2) + (q * lx * (q * ly) * (1 - b₅ ^ 2) + 0))))) = q * q * A := by
          rw [hA]; ring
        rw [e]
        by_cases hA0 : A ≤ 0
        · rw [if_pos hA0, if_pos (mul_nonpos_of_nonneg_of_nonpos (mul_pos hq hq).le hA0)]
          rfl
        · have hA1 : 0 < A := not_le.mp hA0
          rw [if_neg hA0, if_neg (not_le.mpr (mul_pos (mul_pos hq hq) hA1))]
          simp only [Except.map, Option.map]
          congr 2
          field_simp
    · rw [if_pos hl, if_pos hl]
      rfl

/-- **C141, scale.** A room `q` times as large with a reverberation time `q` times as long has the same walls. -/
theorem C141_scale_beta {d : ℕ} (size : Fin d → ℝ) (hsize : RealRoom size) (t60 q : ℝ) (hq : 0 < q) :
    estimateBetaFromT60 (List.ofFn fun i => q * size i) (q * t60) = estimateBetaFromT60 (List.ofFn size) t60 := by
  by_cases ht : t60 ≤ 0
  · unfold estimateBetaFromT60
    rw [if_pos ht, if_pos (mul_nonpos_of_nonneg_of_nonpos hq.le ht)]
  · have ht' : 0 < t60 := not_le.mp ht
    have hs' : RealRoom fun i => q * size i := ⟨hsize.dim, fun i => mul_pos hq (hsize.pos i)⟩
    rw [beta_formula hs' (mul_pos hq ht'), beta_formula hsize ht']
    have hv := volume_pos hsize
    have hS := surface_pos hsize
    have e : 0.161 * volume (fun i => q * size i) / (q * t60 * surface fun i => q * size i) =
        0.161 * volume size / (t60 * surface size) := by
      rcases hsize.dim with rfl | rfl
      · have e1 : volume (fun i => q * size i) = q * q * volume size := by
          unfold volume
          rw [Fin.prod_univ_two, Fin.prod_univ_two]
          ring
        have e2 : (surface fun i => q * size i) = q * surface size := by
          obtain ⟨a, b, c, e⟩ := wallArea_two size
          obtain ⟨a', b', c', e'⟩ := wallArea_two fun i => q * size i
          unfold surface
          rw [sum_walls_two, sum_walls_two, a, b, c, e, a', b', c', e']
          ring
        rw [e1, e2]
        field_simp
      · have e1 : volume (fun i => q * size i) = q * q * q * volume size := by
          unfold volume
          rw [Fin.prod_univ_three, Fin.prod_univ_three]
          ring
        have e2 : (surface fun i => q * size i) = q * q * surface size := by
          obtain ⟨a, b, c, e, f, g⟩ := wallArea_three size
          obtain ⟨a', b', c', e', f', g'⟩ := wallArea_three fun i => q * size i
          unfold surface
          rw [sum_walls_three, sum_walls_three, a, b, c, e, f, g, a', b', c', e', f', g']
          ring
        rw [e1, e2]
        field_simp
    rw [e]

/-- **C141, axes.** Exchanging two neighbouring axes together with their walls, or two opposite walls, changes no
estimate (so no permutation of the axes does). -/
theorem C141_axes (x y z t60 a₀ a₁ b₀ b₁ c₀ c₁ : ℝ) :
    estimateT60FromBeta [x, y, z] [a₀, a₁, b₀, b₁, c₀, c₁] = estimateT60FromBeta [y, x, z] [b₀, b₁, a₀, a₁, c₀, c₁] ∧
    estimateT60FromBeta [x, y, z] [a₀, a₁, b₀, b₁, c₀, c₁] = estimateT60FromBeta [x, z, y] [a₀, a₁, c₀, c₁, b₀, b₁] ∧
    estimateT60FromBeta [x, y, z] [a₀, a₁, b₀, b₁, c₀, c₁] = estimateT60FromBeta [x, y, z] [a₁, a₀, b₀, b₁, c₀, c₁] ∧
    estimateT60FromBeta [x, y] [a₀, a₁, b₀, b₁] = estimateT60FromBeta [y, x] [b₀, b₁, a₀, a₁] ∧
    estimateT60FromBeta [x, y] [a₀, a₁, b₀, b₁] = estimateT60FromBeta [x, y] [a₁, a₀, b₀, b₁] ∧
    estimateBetaFromT60 [x, y, z] t60 = estimateBetaFromT60 [y, x, z] t60 ∧
    estimateBetaFromT60 [x, y, z] t60 = estimateBetaFromT60 [x, z, y] t60 ∧
    estimateBetaFromT60 [x, y] t60 = estimateBetaFromT60 [y, x] t60 := by
  refine ⟨?_, ?_, ?_, ?_, ?_, ?_, ?_, ?_⟩
  all_goals first
    | (unfold estimateT60FromBeta
       simp only [List.length_cons, List.length_nil, ne_eq, not_true_eq_false, if_false, List.map_cons, List.map_nil,
         List.zipWith_cons_cons, List.zipWith_nil_left, List.sum_cons, List.sum_nil]
       ring_nf)
    | (unfold estimateBetaFromT60
       simp only
       ring_nf)

/-- **C141, tall rooms.** The walls estimated for a 2-D room are the limit of the walls estimated for ever higher
rooms over the same floor plan. -/
theorem C141_tall (lx ly t60 : ℝ) (hx : 0 < lx) (hy : 0 < ly) (ht : 0 < t60) :
    ∃ (b : ℝ) (b' : ℝ → ℝ), estimateBetaFromT60 [lx, ly] t60 = .ok (List.replicate 4 b) ∧
      (∀ h, 0 < h → estimateBetaFromT60 [lx, ly, h] t60 = .ok (List.replicate 6 (b' h))) ∧
      Filter.Tendsto b' Filter.atTop (nhds b) := by
  refine ⟨Real.sqrt (1 - max 0 (min (0.161 * (lx * ly) / (t60 * (2 * (lx + ly)))) 0.999)),
    fun h => Real.sqrt (1 - max 0 (min (0.161 * (lx * ly * h) /
    (t60 * (2 * (lx * ly + ly * h + lx * h)))) 0.999)), ?_, fun h hh => ?_, ?_⟩
  · unfold estimateBetaFromT60
    rw [if_neg (not_le.mpr ht)]
    simp only [mul_one]
  · unfold estimateBetaFromT60
    rw [if_neg (not_le.mpr ht)]
  · have key : Filter.Tendsto (fun h : ℝ => 0.161 * (lx * ly * h) / (t60 * (2 * (lx * ly + ly * h + lx * h))))
        Filter.atTop (nhds (0.161 * (lx * ly) / (t60 * (2 * (lx + ly))))) := by
      have h1 : Filter.Tendsto (fun h : ℝ => 0.161 * (lx * ly) / (t60 * (2 * (lx * ly * h⁻¹ + (lx + ly)))))
          Filter.atTop (nhds (0.161 * (lx * ly) / (t60 * (2 * (lx * ly * 0 + (lx + ly)))))) := by
        refine Filter.Tendsto.div tendsto_const_nhds ?_ (by positivity)
        refine Filter.Tendsto.const_mul _ (Filter.Tendsto.const_mul _ ?_)
        exact (Filter.Tendsto.const_mul _ tendsto_inv_atTop_zero).add_const _
      rw [mul_zero, zero_add] at h1
      refine h1.congr' ?_
      filter_upwards [Filter.eventually_gt_atTop (0 : ℝ)] with h hh
      field_simp
      ring
    refine (Real.continuous_sqrt.tendsto _).comp ?_
    exact tendsto_const_nhds.sub (tendsto_const_nhds.max (key.min tendsto_const_nhds))

/-- **C141, image counts.** Only the ratio of the distance travelled to the side lengths matters. -/
theorem C141_counts (tmax c q : ℝ) (size : List ℝ) (hq : 0 < q) :
    estimateImageCountsFromTmax (q * tmax) (size.map (q * ·)) c = estimateImageCountsFromTmax tmax size c ∧
    estimateImageCountsFromTmax tmax (size.map (q * ·)) (q * c) = estimateImageCountsFromTmax tmax size c := by
  have hsign : q * tmax ≤ 0 ↔ tmax ≤ 0 := by
    constructor
    · intro h
      by_contra h'
      exact absurd h (not_le.mpr (mul_pos hq (not_le.mp h')))
    · exact fun h => mul_nonpos_of_nonneg_of_nonpos hq.le h
  unfold estimateImageCountsFromTmax
  simp only [hsign, List.length_map, List.map_map]
  constructor
  · split_ifs <;> first | rfl | skip
    congr 1
    refine List.map_congr_left fun l _ => ?_
    show ⌈q * tmax * c / (q * l)⌉ = _
    rw [mul_assoc, mul_div_mul_left _ _ hq.ne']
  · split_ifs <;> first | rfl | skip
    congr 1
    refine List.map_congr_left fun l _ => ?_
    show ⌈tmax * (q * c) / (q * l)⌉ = _
    rw [mul_left_comm, mul_div_mul_left _ _ hq.ne']

/-- **C141, attenuation.** The times for two attenuations add up to the time for their sum. -/
theorem C141_attenuation (a b t60 : ℝ) (ha : 0 < a) (hb : 0 < b) (ht : 0 < t60) :
    ∃ s t, attenuationDbToTimeSabine a t60 = .ok s ∧ attenuationDbToTimeSabine b t60 = .ok t ∧
      attenuationDbToTimeSabine (a + b) t60 = .ok (s + t) ∧ attenuationDbToTimeSabine 60 t60 = .ok t60 := by
  unfold attenuationDbToTimeSabine
  simp only [not_le.mpr ha, not_le.mpr hb, not_le.mpr ht, not_le.mpr (add_pos ha hb), if_false]
  refine ⟨_, _, rfl, rfl, ?_, ?_⟩
  · congr 1
    ring
  · norm_num

/-- A 2-D room of 2 m by 3 m and a hall of 10 m over it. -/
example : estimateT60FromBeta [2, 3, 10] [0, 1, 1, 1, 1, 1] = .ok (some 0.322) := by
  rw [← C141_flat 2 3 10 (by norm_num)]
  unfold estimateT60FromBeta
  norm_num

/-- A model of a room at one tenth of its size. -/
example : estimateBetaFromT60 (List.ofFn fun i => (1 / 10) * (![6, 4, 3] : Fin 3 → ℝ) i) (1 / 10 * 0.4) =
    estimateBetaFromT60 (List.ofFn (![6, 4, 3] : Fin 3 → ℝ)) 0.4 :=
  C141_scale_beta _ ⟨Or.inr rfl, fun i => by fin_cases i <;> norm_num⟩ _ _ (by norm_num)

end Torchrir.Props
