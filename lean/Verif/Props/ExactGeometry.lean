import Verif.Props.Arrays
import Verif.Props.Sampling

/-! # Clamping, sampling and binaural arrays for all margins and number types: C42, C45, C46 -/

namespace Torchrir.Props

open Torchrir.Model Torchrir.Lemmas
open Torchrir.Spec

/-- A number as it is stored in a tensor of the given type. -/
noncomputable def storedAs (type : NumType) (x : ℝ) : ℝ := (castVec type [x]).getD 0 0

theorem storedAs_floating (x : ℝ) : storedAs .floating x = x := rfl

/-- **C45, exactly.** For every room size of floats or integers and every margin: on each axis a coordinate
becomes the nearest number between the lower bound, the margin as stored with the type of the size,
and the upper bound, the length minus the margin; and if the lower bound exceeds the upper one it
becomes the lower bound. -/
theorem C45_clamp_exactly {n d : ℕ} (type : NumType) (size : Fin d → ℝ) (margin : ℝ)
    (x : Fin n → Fin d → ℝ) :
    ∃ q : Fin n → Fin d → ℝ,
      clampPositions (rows x) ⟨type, List.ofFn size⟩ margin = rows q ∧ ∀ k i,
        (storedAs type margin ≤ size i - margin →
          (storedAs type margin ≤ q k i ∧ q k i ≤ size i - margin) ∧
          ∀ y, storedAs type margin ≤ y → y ≤ size i - margin → |x k i - q k i| ≤ |x k i - y|) ∧
        (size i - margin < storedAs type margin → q k i = storedAs type margin) := by
  refine ⟨_, clampPositions_rows size type margin x, fun k i => ?_⟩
  change (storedAs type margin ≤ size i - margin → _) ∧ (_ → max (min (x k i) (size i - margin))
    (storedAs type margin) = _)
  refine ⟨fun h => ⟨⟨le_max_right _ _, max_le (min_le_right _ _) h⟩, fun y h1 h2 => ?_⟩, fun h =>
    max_eq_right ((min_le_right _ _).trans h.le)⟩
  change |x k i - max (min (x k i) (size i - margin)) (storedAs type margin)| ≤ _
  generalize storedAs type margin = lo at *
  generalize size i - margin = hi at *
  rcases le_total (x k i) hi with h' | h'
  · rw [min_eq_left h']
    rcases le_total (x k i) lo with h'' | h''
    · rw [max_eq_right h'', abs_of_nonpos (by linarith), abs_of_nonpos (by linarith)]
      linarith
    · rw [max_eq_left h'', sub_self, abs_zero]
      exact abs_nonneg _
  · rw [min_eq_right h', max_eq_left h, abs_of_nonneg (by linarith), abs_of_nonneg (by linarith)]
    linarith

/-- A margin of 2 in a corridor 3 m wide: the second coordinate becomes 2. -/
example (x : Fin 1 → Fin 2 → ℝ) : ∃ q : Fin 1 → Fin 2 → ℝ,
    clampPositions (rows x) ⟨.floating, List.ofFn ![10, 3]⟩ 2 = rows q ∧ q 0 1 = 2 ∧
      2 ≤ q 0 0 ∧ q 0 0 ≤ 8 := by
  obtain ⟨q, h1, h2⟩ := C45_clamp_exactly .floating ![10, 3] 2 x
  refine ⟨q, h1, (h2 0 1).2 (by rw [storedAs_floating]; norm_num), ?_⟩
  have := ((h2 0 0).1 (by rw [storedAs_floating]; norm_num)).1
  rw [storedAs_floating] at this
  norm_num at this
  exact this

/-- **C46, all margins.** `sample_positions` returns exactly `num` points for every margin; on each axis a
coordinate lies between the margin and the length minus the margin, whichever is smaller. -/
theorem C46_positions_exactly (r : ℕ → ℝ) (hr : UnitStream r) {d : ℕ} (size : Fin d → ℝ) (margin : ℝ)
    (num k : ℕ) :
    ∃ p : Fin num → Fin d → ℝ, (samplePositions r num (List.ofFn size) margin k).1 = rows p ∧
      ∀ j i, min margin (size i - margin) ≤ p j i ∧ p j i ≤ max margin (size i - margin) := by
  unfold samplePositions
  rw [drawPoints_rows]
  refine ⟨_, rfl, fun j i => ?_⟩
  have h := hr (k + j * d + i)
  change min margin (size i - margin) ≤ margin + (size i - margin - margin) * r (k + j * d + i) ∧
    margin + (size i - margin - margin) * r (k + j * d + i) ≤ _
  generalize r (k + j * d + i) = t at *
  rcases le_total margin (size i - margin) with hm | hm
  · rw [min_eq_left hm, max_eq_right hm]
    exact uniform_mem hm h.1 h.2
  · rw [min_eq_right hm, max_eq_left hm]
    have := uniform_mem hm (sub_nonneg.mpr h.2) (show 1 - t ≤ 1 by linarith [h.1])
    constructor <;> nlinarith [this.1, this.2]

/-- In a corridor 0.8 m wide with margin 0.5 the coordinates lie between 0.3 and 0.5. -/
example (r : ℕ → ℝ) (hr : UnitStream r) : ∃ p : Fin 5 → Fin 2 → ℝ,
    (samplePositions r 5 (List.ofFn ![4, 0.8]) 0.5 0).1 = rows p ∧ ∀ j, 0.3 ≤ p j 1 ∧ p j 1 ≤ 0.5 := by
  obtain ⟨p, h1, h2⟩ := C46_positions_exactly r hr ![4, 0.8] 0.5 5 0
  refine ⟨p, h1, fun j => ?_⟩
  have := h2 j 1
  norm_num at this ⊢
  exact this

/-- **C42, binaural arrays for all number types.** The two microphones are symmetric about the centre, and
half their distance is the offset as stored with the type of the centre. -/
theorem C42_binaural_exactly {d : ℕ} (type : NumType) (c : Fin (d + 1) → ℝ) (offset : ℝ) :
    ∃ p : Fin 2 → Fin (d + 1) → ℝ,
      binauralArray ⟨type, List.ofFn c⟩ offset = .ok (rows p) ∧
      (∀ i, c i - p 0 i = p 1 i - c i) ∧ Spec.dist (p 0) (p 1) = 2 * |storedAs type offset| ∧
      p 1 0 = c 0 + storedAs type offset := by
  obtain ⟨p, h1, h2, h3, h4⟩ := C42_binaural_partial c (storedAs type offset)
  exact ⟨p, h1, h2, h3, h4⟩

/-- Integer centre, offset 2.7: the microphones are 4 m apart. -/
example : ∃ p : Fin 2 → Fin 3 → ℝ, binauralArray ⟨.int64, List.ofFn ![5, 2, 1]⟩ 2.7 = .ok (rows p) ∧
    Spec.dist (p 0) (p 1) = 4 := by
  obtain ⟨p, h1, -, h3, -⟩ := C42_binaural_exactly .int64 ![5, 2, 1] 2.7
  refine ⟨p, h1, ?_⟩
  have ht : trunc 2.7 = 2 := by
    unfold trunc
    rw [if_pos (by norm_num), Int.floor_eq_iff]
    norm_num
  rw [h3]
  simp only [storedAs, castVec, List.map_cons, List.getD_cons_zero, ht]
  norm_num

end Torchrir.Props
