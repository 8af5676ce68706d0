import Verif.Lemmas.Geometry
import Mathlib.Analysis.Convex.Basic

/-! # Clamping, sampling and trajectories: C45, C46, C47 -/

namespace Torchrir.Props

open Torchrir.Model Torchrir.Lemmas
open Torchrir.Spec

/-! ## C45: clamping -/

theorem clampPositions_rows {n d : ℕ} (size : Fin d → ℝ) (type : NumType) (margin : ℝ)
    (x : Fin n → Fin d → ℝ) :
    clampPositions (rows x) ⟨type, List.ofFn size⟩ margin = rows fun k i =>
      max (min (x k i) (size i - margin)) ((castVec type [margin]).getD 0 0) := by
  unfold clampPositions clampPosition rows
  rw [List.map_ofFn]
  congr 1
  funext k
  apply List.ext_getElem <;> simp

/-- **C45.** For a room size of floats and a margin of at most half the room, `clamp_positions` returns
points inside the margins, leaves points already inside unchanged, is idempotent, and moves every
point to the nearest point inside the margins, on every axis and in Euclidean distance. Missing for
the full claim: larger margins and integer room sizes, see the `_fails` theorems. -/
theorem C45_clamp_partial {n d : ℕ} (size : Fin d → ℝ) (margin : ℝ) (hm : ∀ i, 2 * margin ≤ size i)
    (x : Fin n → Fin d → ℝ) :
    ∃ q : Fin n → Fin d → ℝ,
      clampPositions (rows x) ⟨.floating, List.ofFn size⟩ margin = rows q ∧
      (∀ k, Within size margin (q k)) ∧
      (∀ k, Within size margin (x k) → q k = x k) ∧
      clampPositions (rows q) ⟨.floating, List.ofFn size⟩ margin = rows q ∧
      ∀ k y, Within size margin y →
        (∀ i, |x k i - q k i| ≤ |x k i - y i|) ∧ Spec.dist (x k) (q k) ≤ Spec.dist (x k) y := by
  have hin : ∀ a : ℝ, ∀ i, margin ≤ max (min a (size i - margin)) margin ∧
      max (min a (size i - margin)) margin ≤ size i - margin := fun a i =>
    ⟨le_max_right _ _, max_le (min_le_right _ _) (by linarith [hm i])⟩
  have hfix : ∀ a : ℝ, ∀ i, margin ≤ a → a ≤ size i - margin →
      max (min a (size i - margin)) margin = a := fun a i h1 h2 => by
    rw [min_eq_left h2, max_eq_left h1]
  refine ⟨fun k i => max (min (x k i) (size i - margin)) margin, clampPositions_rows _ _ _ _,
    fun k i => hin _ i, fun k h => funext fun i => hfix _ i (h i).1 (h i).2, ?_, ?_⟩
  · rw [clampPositions_rows]
    congr 1
    funext k i
    exact hfix _ i (hin _ i).1 (hin _ i).2
  · intro k y hy
    have hax : ∀ i, |x k i - max (min (x k i) (size i - margin)) margin| ≤ |x k i - y i| := by
      intro i
      have h1 := (hy i).1
      have h2 := (hy i).2
      rcases le_total (x k i) (size i - margin) with h | h
      · rw [min_eq_left h]
        rcases le_total (x k i) margin with h' | h'
        · rw [max_eq_right h', abs_of_nonpos (by linarith), abs_of_nonpos (by linarith)]
          linarith
        · rw [max_eq_left h', sub_self, abs_zero]
          exact abs_nonneg _
      · rw [min_eq_right h, max_eq_left (by linarith [hm i]), abs_of_nonneg (by linarith),
          abs_of_nonneg (by linarith)]
        linarith
    refine ⟨hax, Real.sqrt_le_sqrt (Finset.sum_le_sum fun i _ => ?_)⟩
    exact sq_le_sq.mpr (hax i)

example : ∃ q : Fin 1 → Fin 2 → ℝ,
    clampPositions (rows ![![-1, 2]]) ⟨.floating, List.ofFn ![4, 3]⟩ = rows q ∧
      ∀ k, Within ![4, 3] 0.1 (q k) := by
  obtain ⟨q, h1, h2, -⟩ := C45_clamp_partial (n := 1) ![4, 3] 0.1
    (fun i => by fin_cases i <;> norm_num) ![![-1, 2]]
  exact ⟨q, h1, h2⟩

/-- **C45 fails for large margins.** If the margin exceeds half the room on some axis, the result is
never inside the margins. -/
theorem C45_large_margin_fails {n d : ℕ} (size : Fin d → ℝ) (margin : ℝ) (i : Fin d)
    (hm : size i < 2 * margin) (x : Fin n → Fin d → ℝ) :
    ∃ q : Fin n → Fin d → ℝ,
      clampPositions (rows x) ⟨.floating, List.ofFn size⟩ margin = rows q ∧
      ∀ k, ¬ Within size margin (q k) := by
  refine ⟨_, clampPositions_rows _ _ _ _, fun k h => ?_⟩
  have h1 := (h i).1
  have h2 := (h i).2
  linarith

example : ∃ q : Fin 1 → Fin 2 → ℝ,
    clampPositions (rows ![![1, 1]]) ⟨.floating, List.ofFn ![4, 0.15]⟩ 0.1 = rows q ∧
      ∀ k, ¬ Within ![4, 0.15] 0.1 (q k) :=
  C45_large_margin_fails _ _ 1 (by norm_num) _

/-- **C45 fails for integer room sizes.** The lower bound is stored with the type of the room size: a
margin below one metre becomes zero and a point on the wall stays there. -/
theorem C45_integer_size_fails {d : ℕ} (size : Fin d → ℝ) (margin : ℝ) (h0 : 0 < margin)
    (h1 : margin < 1) (hm : ∀ i, 2 * margin ≤ size i) (i : Fin d) :
    clampPositions (rows (n := 1) (d := d) fun _ _ => 0) ⟨.int64, List.ofFn size⟩ margin =
      rows (n := 1) (d := d) (fun _ _ => 0) ∧ ¬ Within size margin fun _ => 0 := by
  constructor
  · rw [clampPositions_rows]
    congr 1
    funext k j
    have ht : trunc margin = 0 := by
      unfold trunc
      rw [if_pos h0.le, Int.floor_eq_zero_iff]
      exact ⟨h0.le, h1⟩
    dsimp only [castVec]
    rw [List.map_cons, List.getD_cons_zero, ht, Int.cast_zero, min_eq_left (by linarith [hm j]),
      max_self]
  · intro h
    linarith [(h i).1]

example : clampPositions (rows (n := 1) (d := 2) fun _ _ => 0) ⟨.int64, List.ofFn ![4, 3]⟩ =
      rows (n := 1) (d := 2) (fun _ _ => 0) ∧ ¬ Within ![4, 3] 0.1 fun _ => 0 :=
  C45_integer_size_fails ![4, 3] 0.1 (by norm_num) (by norm_num)
    (fun i => by fin_cases i <;> norm_num) 0

/-! ## C46: sampling -/

theorem drawPoint_ofFn (r : ℕ → ℝ) : ∀ {d : ℕ} (b : Fin d → ℝ × ℝ) (k : ℕ),
    drawPoint r (List.ofFn b) k =
      (List.ofFn fun i => uniform (b i).1 (b i).2 (r (k + i)), k + d)
  | 0, b, k => by simp [drawPoint]
  | d + 1, b, k => by
    rw [List.ofFn_succ]
    unfold drawPoint
    dsimp only
    rw [drawPoint_ofFn r (fun i => b i.succ) (k + 1), List.ofFn_succ]
    simp only [Fin.val_zero, Fin.val_succ, Nat.add_zero, Prod.mk.injEq, List.cons.injEq, true_and]
    constructor
    · congr 1
      funext i
      rw [show k + 1 + (i : ℕ) = k + (i + 1) by omega]
    · omega

theorem marginBox_ofFn {d : ℕ} (size : Fin d → ℝ) (margin : ℝ) :
    marginBox (List.ofFn size) margin = List.ofFn fun i => (margin, size i - margin) := by
  unfold marginBox
  rw [List.map_ofFn]
  rfl

theorem drawPoints_rows (r : ℕ → ℝ) {d : ℕ} (size : Fin d → ℝ) (margin : ℝ) : ∀ n k : ℕ,
    drawPoints r (marginBox (List.ofFn size) margin) n k =
      (rows fun (j : Fin n) => candidate r size none margin k j, k + n * d)
  | 0, k => by simp [drawPoints, rows]
  | n + 1, k => by
    unfold drawPoints
    dsimp only
    rw [marginBox_ofFn, drawPoint_ofFn, ← marginBox_ofFn]
    dsimp only
    rw [drawPoints_rows r size margin n (k + d)]
    unfold rows
    rw [List.ofFn_succ]
    simp only [Prod.mk.injEq, List.cons.injEq]
    refine ⟨⟨?_, ?_⟩, by ring⟩
    · congr 1
      funext i
      simp [candidate, uniform]
    · congr 1
      funext j
      congr 1
      funext i
      simp only [candidate, Fin.val_succ]
      rw [show k + d + (j : ℕ) * d + (i : ℕ) = k + (j + 1) * d + i by ring]

theorem uniform_mem {a b t : ℝ} (hab : a ≤ b) (h0 : 0 ≤ t) (h1 : t ≤ 1) :
    a ≤ a + (b - a) * t ∧ a + (b - a) * t ≤ b := by
  have := mul_nonneg (sub_nonneg.mpr hab) h0
  have := mul_nonneg (sub_nonneg.mpr hab) (sub_nonneg.mpr h1)
  constructor <;> linarith

/-- **C46 (`sample_positions`).** For a margin of at most half the room exactly `num` points inside
the margins are returned, whatever the random stream. -/
theorem C46_positions_partial (r : ℕ → ℝ) (hr : UnitStream r) {d : ℕ} (size : Fin d → ℝ) (margin : ℝ)
    (hm : ∀ i, 2 * margin ≤ size i) (num k : ℕ) :
    ∃ p : Fin num → Fin d → ℝ, (samplePositions r num (List.ofFn size) margin k).1 = rows p ∧
      ∀ j, Within size margin (p j) := by
  unfold samplePositions
  rw [drawPoints_rows]
  refine ⟨_, rfl, fun j i => ?_⟩
  have h := hr (k + j * d + i)
  exact uniform_mem (by linarith [hm i]) h.1 h.2

example (r : ℕ → ℝ) (hr : UnitStream r) : ∃ p : Fin 5 → Fin 3 → ℝ,
    (samplePositions r 5 (List.ofFn ![4, 3, 2.5]) 0.5 0).1 = rows p ∧
      ∀ j, Within ![4, 3, 2.5] 0.5 (p j) :=
  C46_positions_partial r hr _ _ (fun i => by fin_cases i <;> norm_num) 5 0

/-- **C46 fails for large margins.** If the margin exceeds half the room on some axis, no sampled
point is inside the margins, whatever the random stream. -/
theorem C46_large_margin_fails (r : ℕ → ℝ) {d : ℕ} (size : Fin d → ℝ)
    (margin : ℝ) (i : Fin d) (hm : size i < 2 * margin) (num k : ℕ) :
    ∃ p : Fin num → Fin d → ℝ, (samplePositions r num (List.ofFn size) margin k).1 = rows p ∧
      ∀ j, ¬ Within size margin (p j) := by
  unfold samplePositions
  rw [drawPoints_rows]
  refine ⟨_, rfl, fun j h => ?_⟩
  have h1 := (h i).1
  have h2 := (h i).2
  linarith

example (r : ℕ → ℝ) : ∃ p : Fin 5 → Fin 2 → ℝ,
    (samplePositions r 5 (List.ofFn ![4, 0.8]) 0.5 0).1 = rows p ∧
      ∀ j, ¬ Within ![4, 0.8] 0.5 (p j) :=
  C46_large_margin_fails r _ _ 1 (by norm_num) 5 0

theorem drawHeights_ofFn (r : ℕ → ℝ) (lo hi : ℝ) : ∀ n k : ℕ,
    drawHeights r lo hi n k = (List.ofFn fun (j : Fin n) => lo + (hi - lo) * r (k + j), k + n)
  | 0, k => by simp [drawHeights]
  | n + 1, k => by
    unfold drawHeights
    dsimp only
    rw [drawHeights_ofFn r lo hi n (k + 1), List.ofFn_succ]
    simp only [Prod.mk.injEq, List.cons.injEq]
    refine ⟨⟨by simp [uniform], ?_⟩, by ring⟩
    congr 1
    funext j
    rw [Fin.val_succ, show k + 1 + (j : ℕ) = k + (j + 1) by omega]

theorem set_ofFn {d : ℕ} (p : Fin d → ℝ) (a : Fin d) (x : ℝ) :
    (List.ofFn p).set a x = List.ofFn fun i => if (i : ℕ) = a then x else p i := by
  apply List.ext_getElem
  · simp
  · intro n h1 h2
    rw [List.getElem_set]
    simp only [List.getElem_ofFn]
    split_ifs <;> first | rfl | omega

theorem heightRange_ofFn {d : ℕ} (size : Fin d → ℝ) (h : 2 < d) (margin zMin zMax : ℝ) :
    heightRange (List.ofFn size) margin zMin zMax =
      (max margin zMin, min (size ⟨2, h⟩ - margin) zMax) := by
  unfold heightRange
  rw [List.getD_eq_getElem _ _ (by simpa using h), List.getElem_ofFn]

/-- **C46 (`sample_positions_with_z_range`).** If the `z` range leaves an interval inside the margins,
exactly `num ≥ 1` points are returned, inside the margins and the `z` range. Missing for the full
claim: `z` ranges that leave no interval, see `C46_heights_fails`. -/
theorem C46_heights_partial (r : ℕ → ℝ) (hr : UnitStream r) {d : ℕ} (hd : 2 < d) (size : Fin d → ℝ)
    (margin : ℝ) (hm : ∀ i, 2 * margin ≤ size i) (zMin zMax : ℝ)
    (hz : max margin zMin < min (size ⟨2, hd⟩ - margin) zMax) (num : ℕ) (hn : 0 < num) (k : ℕ) :
    ∃ (p : Fin num → Fin d → ℝ) (k' : ℕ),
      samplePositionsZ r num (List.ofFn size) zMin zMax margin k = .ok (rows p, k') ∧
      ∀ j, Within size margin (p j) ∧ zMin ≤ p j ⟨2, hd⟩ ∧ p j ⟨2, hd⟩ ≤ zMax := by
  refine ⟨fun j i => if (i : ℕ) = 2 then max margin zMin +
    (min (size ⟨2, hd⟩ - margin) zMax - max margin zMin) * r (k + num * d + j)
    else candidate r size none margin k j i, k + num * d + num, ?_, ?_⟩
  · unfold samplePositionsZ samplePositions
    rw [drawPoints_rows]
    dsimp only
    rw [if_neg (by rw [List.length_ofFn]; omega), heightRange_ofFn size hd]
    dsimp only
    rw [if_neg (not_le.mpr hz), if_neg hn.ne', drawHeights_ofFn]
    refine congrArg (fun x => Except.ok (x, _)) ?_
    unfold rows
    apply List.ext_getElem
    · simp
    · intro j h1 h2
      simp only [List.getElem_zipWith, List.getElem_ofFn]
      exact set_ofFn _ ⟨2, hd⟩ _
  · intro j
    have hj := hr (k + num * d + j)
    have hu := uniform_mem hz.le hj.1 hj.2
    refine ⟨fun i => ?_, ?_, ?_⟩
    · dsimp only
      split_ifs with h
      · obtain rfl : i = ⟨2, hd⟩ := Fin.ext h
        exact ⟨(le_max_left _ _).trans hu.1, hu.2.trans (min_le_left _ _)⟩
      · have h := hr (k + j * d + i)
        exact uniform_mem (by linarith [hm i]) h.1 h.2
    · exact (le_max_right _ _).trans hu.1
    · exact hu.2.trans (min_le_right _ _)

example (r : ℕ → ℝ) (hr : UnitStream r) : ∃ (p : Fin 5 → Fin 3 → ℝ) (k' : ℕ),
    samplePositionsZ r 5 (List.ofFn ![4, 3, 2.5]) 1.5 1.8 0.5 0 = .ok (rows p, k') ∧
      ∀ j, Within ![4, 3, 2.5] 0.5 (p j) ∧ 1.5 ≤ p j ⟨2, by decide⟩ ∧ p j ⟨2, by decide⟩ ≤ 1.8 :=
  C46_heights_partial r hr (by decide) _ _ (fun i => by fin_cases i <;> norm_num) _ _
    (by norm_num [Matrix.cons_val]) 5 (by decide) 0

/-- **C46 (no third axis).** In fewer than three dimensions the `z` range is ignored. -/
theorem C46_heights_planar (r : ℕ → ℝ) (size : Vec) (hd : size.length < 3) (margin zMin zMax : ℝ)
    (num k : ℕ) :
    samplePositionsZ r num size zMin zMax margin k = .ok (samplePositions r num size margin k) := by
  unfold samplePositionsZ
  dsimp only
  rw [if_pos hd]

/-- **C46 fails for unusable heights.** If the `z` range leaves no interval inside the margins, it is
ignored without an error: with the stream of zeros every point is below the `z` range. -/
theorem C46_heights_fails {d : ℕ} (hd : 2 < d) (size : Fin d → ℝ) (margin zMin zMax : ℝ)
    (hlow : margin < zMin) (hz : min (size ⟨2, hd⟩ - margin) zMax ≤ max margin zMin) (num k : ℕ) :
    ∃ p : Fin num → Fin d → ℝ, ∃ k',
      samplePositionsZ (fun _ => 0) num (List.ofFn size) zMin zMax margin k = .ok (rows p, k') ∧
      ∀ j, p j ⟨2, hd⟩ < zMin := by
  refine ⟨fun j => candidate (fun _ => 0) size none margin k j, k + num * d, ?_, ?_⟩
  · unfold samplePositionsZ samplePositions
    rw [drawPoints_rows]
    dsimp only
    rw [if_neg (by rw [List.length_ofFn]; omega), heightRange_ofFn size hd]
    dsimp only
    rw [if_pos hz]
  · intro j
    simpa [candidate] using hlow

example : ∃ p : Fin 2 → Fin 3 → ℝ, ∃ k',
    samplePositionsZ (fun _ => 0) 2 (List.ofFn ![4, 3, 1.9]) 1.5 1.8 0.5 0 = .ok (rows p, k') ∧
      ∀ j, p j ⟨2, by decide⟩ < 1.5 :=
  C46_heights_fails (by decide) _ _ _ _ (by norm_num)
    (by
      refine (min_le_left _ _).trans ?_
      refine le_trans ?_ (le_max_right _ _)
      norm_num [Matrix.cons_val]) 2 0

/-- **C46 (no positions).** Asking for no positions raises if the `z` range is usable. -/
theorem C46_zero_positions_raises (r : ℕ → ℝ) {d : ℕ} (hd : 2 < d) (size : Fin d → ℝ)
    (margin zMin zMax : ℝ) (hz : max margin zMin < min (size ⟨2, hd⟩ - margin) zMax) (k : ℕ) :
    ∃ e, samplePositionsZ r 0 (List.ofFn size) zMin zMax margin k = .error e := by
  unfold samplePositionsZ samplePositions
  rw [drawPoints_rows]
  dsimp only
  rw [if_neg (by rw [List.length_ofFn]; omega), heightRange_ofFn size hd]
  dsimp only
  rw [if_neg (not_le.mpr hz), if_pos rfl]
  exact ⟨_, rfl⟩

/-! ### Minimum distance -/

/-- Draws per candidate. -/
def drawsPer (d : ℕ) (heights : Option (ℝ × ℝ)) : ℕ := if heights.isSome then d + 1 else d

theorem candidate_shift (r : ℕ → ℝ) {d : ℕ} (size : Fin d → ℝ) (h : Option (ℝ × ℝ)) (margin : ℝ)
    (k j : ℕ) : candidate r size h margin (k + drawsPer d h) j = candidate r size h margin k (j + 1) := by
  funext i
  unfold candidate drawsPer
  cases h with
  | none =>
    simp only [Option.isSome_none, Bool.false_eq_true, if_false]
    rw [show k + d + j * d + (i : ℕ) = k + (j + 1) * d + i by ring]
  | some b =>
    simp only [Option.isSome_some, if_true]
    rw [show k + (d + 1) + j * (d + 1) + (i : ℕ) = k + (j + 1) * (d + 1) + i by ring,
      show k + (d + 1) + j * (d + 1) + d = k + (j + 1) * (d + 1) + d by ring]

theorem draw_candidate (r : ℕ → ℝ) {d : ℕ} (size : Fin d → ℝ) (zRange : Option (ℝ × ℝ)) (margin : ℝ)
    (k : ℕ) :
    adjustHeight r (List.ofFn size) zRange margin
      (drawPoint r (marginBox (List.ofFn size) margin) k).1
      (drawPoint r (marginBox (List.ofFn size) margin) k).2 =
    (List.ofFn (candidate r size (usableHeights size zRange margin) margin k 0),
      k + drawsPer d (usableHeights size zRange margin)) := by
  rw [marginBox_ofFn, drawPoint_ofFn]
  have plain : (List.ofFn (fun i : Fin d => uniform margin (size i - margin) (r (k + i))), k + d) =
      (List.ofFn (candidate r size none margin k 0), k + drawsPer d none) := by
    simp only [drawsPer, Option.isSome_none, Bool.false_eq_true, if_false, Prod.mk.injEq, and_true]
    congr 1
    funext i
    simp [candidate, uniform]
  unfold adjustHeight usableHeights
  cases zRange with
  | none => exact plain
  | some z =>
    obtain ⟨zMin, zMax⟩ := z
    dsimp only
    by_cases hd : 2 < d
    · rw [if_neg (by rw [List.length_ofFn]; omega), dif_pos hd, heightRange_ofFn size hd]
      dsimp only
      by_cases hz : max margin zMin < min (size ⟨2, hd⟩ - margin) zMax
      · rw [if_pos hz, if_pos hz]
        simp only [drawsPer, Option.isSome_some, if_true, Prod.mk.injEq]
        refine ⟨?_, by ring⟩
        rw [set_ofFn _ ⟨2, hd⟩]
        congr 1
        funext i
        simp [candidate, uniform]
      · rw [if_neg hz, if_neg hz]
        exact plain
    · rw [if_pos (by rw [List.length_ofFn]; omega), dif_neg hd]
      exact plain

theorem norm2_vsub {d : ℕ} (p c : Fin d → ℝ) :
    norm2 (vsub (List.ofFn p) (List.ofFn c)) = Spec.dist p c := by
  rw [vsub_ofFn', norm2_ofFn]
  rfl

theorem minDistanceLoop_eq (r : ℕ → ℝ) {d : ℕ} (size center : Fin d → ℝ) (minDistance : ℝ)
    (zRange : Option (ℝ × ℝ)) (margin : ℝ) : ∀ (attempts wanted : ℕ) (acc : List Vec) (k : ℕ),
    ∃ k', k' ≤ k + attempts * (d + 1) ∧
    minDistanceLoop r (List.ofFn size) (List.ofFn center) minDistance zRange margin attempts wanted
      acc k = (acc ++ ((farCandidates (candidate r size (usableHeights size zRange margin) margin k)
        center minDistance attempts).take wanted).map List.ofFn, k')
  | 0, wanted, acc, k => ⟨k, by simp, by simp [minDistanceLoop, farCandidates]⟩
  | attempts + 1, 0, acc, k => ⟨k, by simp, by simp [minDistanceLoop]⟩
  | attempts + 1, wanted + 1, acc, k => by
    unfold minDistanceLoop
    dsimp only
    rw [draw_candidate]
    dsimp only
    rw [norm2_vsub]
    have hstep : farCandidates (candidate r size (usableHeights size zRange margin) margin k) center
        minDistance (attempts + 1) =
        if minDistance ≤ Spec.dist (candidate r size (usableHeights size zRange margin) margin k 0) center
        then candidate r size (usableHeights size zRange margin) margin k 0 :: farCandidates
          (candidate r size (usableHeights size zRange margin) margin
            (k + drawsPer d (usableHeights size zRange margin))) center minDistance attempts
        else farCandidates (candidate r size (usableHeights size zRange margin) margin
            (k + drawsPer d (usableHeights size zRange margin))) center minDistance attempts := by
      unfold farCandidates
      rw [List.range_succ_eq_map, List.map_cons, List.map_map, List.filter_cons]
      simp only [decide_eq_true_eq]
      have : (candidate r size (usableHeights size zRange margin) margin k ∘ Nat.succ) =
          candidate r size (usableHeights size zRange margin) margin
            (k + drawsPer d (usableHeights size zRange margin)) := by
        funext j
        rw [candidate_shift]
        rfl
      rw [this]
    have hw : drawsPer d (usableHeights size zRange margin) ≤ d + 1 := by
      unfold drawsPer
      split_ifs <;> omega
    rw [hstep]
    by_cases hfar : minDistance ≤
        Spec.dist (candidate r size (usableHeights size zRange margin) margin k 0) center
    · rw [if_pos hfar, if_pos hfar]
      obtain ⟨k', hk', h⟩ := minDistanceLoop_eq r size center minDistance zRange margin attempts wanted
        (acc ++ [List.ofFn (candidate r size (usableHeights size zRange margin) margin k 0)])
        (k + drawsPer d (usableHeights size zRange margin))
      refine ⟨k', ?_, ?_⟩
      · have : (attempts + 1) * (d + 1) = attempts * (d + 1) + (d + 1) := by ring
        omega
      · rw [h]
        simp
    · rw [if_neg hfar, if_neg hfar]
      obtain ⟨k', hk', h⟩ := minDistanceLoop_eq r size center minDistance zRange margin attempts
        (wanted + 1) acc (k + drawsPer d (usableHeights size zRange margin))
      refine ⟨k', ?_, h⟩
      have : (attempts + 1) * (d + 1) = attempts * (d + 1) + (d + 1) := by ring
      omega

/-- **C46 (`sample_positions_min_distance`, outcome).** The call draws at most `max_attempts`
candidates. If fewer than `num` of them are far enough from the centre it raises, otherwise it
returns the first `num` of those. -/
theorem C46_min_distance_outcome (r : ℕ → ℝ) {d : ℕ} (size center : Fin d → ℝ) (minDistance : ℝ)
    (zRange : Option (ℝ × ℝ)) (margin : ℝ) (maxAttempts num k : ℕ) :
    let far := farCandidates (candidate r size (usableHeights size zRange margin) margin k) center
      minDistance maxAttempts
    (far.length < num → ∃ e, samplePositionsMinDistance r num (List.ofFn size) (List.ofFn center)
      minDistance zRange margin maxAttempts k = .error e) ∧
    (num ≤ far.length → ∃ k' ≤ k + maxAttempts * (d + 1),
      samplePositionsMinDistance r num (List.ofFn size) (List.ofFn center) minDistance zRange margin
        maxAttempts k = .ok ((far.take num).map List.ofFn, k')) := by
  intro far
  obtain ⟨k', hk', h⟩ := minDistanceLoop_eq r size center minDistance zRange margin maxAttempts num [] k
  unfold samplePositionsMinDistance
  rw [if_neg (by simp), h]
  simp only [List.nil_append, List.length_map, List.length_take]
  constructor
  · intro hlt
    rw [if_pos (lt_of_le_of_lt (min_le_right _ _) hlt)]
    exact ⟨_, rfl⟩
  · intro hle
    rw [if_neg (by simp only [min_lt_iff]; push Not; exact ⟨le_rfl, hle⟩)]
    exact ⟨k', hk', rfl⟩

theorem candidate_within (r : ℕ → ℝ) (hr : UnitStream r) {d : ℕ} (size : Fin d → ℝ)
    (zRange : Option (ℝ × ℝ)) (margin : ℝ) (hm : ∀ i, 2 * margin ≤ size i) (k j : ℕ) :
    Within size margin (candidate r size (usableHeights size zRange margin) margin k j) := by
  intro i
  have hplain : ∀ n, margin ≤ margin + (size i - margin - margin) * r n ∧
      margin + (size i - margin - margin) * r n ≤ size i - margin := fun n =>
    uniform_mem (by linarith [hm i]) (hr n).1 (hr n).2
  unfold usableHeights
  cases zRange with
  | none => exact hplain _
  | some z =>
    obtain ⟨zMin, zMax⟩ := z
    dsimp only
    by_cases hd : 2 < d
    · rw [dif_pos hd]
      by_cases hz : max margin zMin < min (size ⟨2, hd⟩ - margin) zMax
      · rw [if_pos hz]
        unfold candidate
        dsimp only
        split_ifs with h
        · obtain rfl : i = ⟨2, hd⟩ := Fin.ext h
          have hj := hr (k + j * (d + 1) + d)
          have hu := uniform_mem hz.le hj.1 hj.2
          exact ⟨(le_max_left _ _).trans hu.1, hu.2.trans (min_le_left _ _)⟩
        · exact hplain _
      · rw [if_neg hz]
        exact hplain _
    · rw [dif_neg hd]
      exact hplain _

theorem candidate_height (r : ℕ → ℝ) (hr : UnitStream r) {d : ℕ} (hd : 2 < d) (size : Fin d → ℝ)
    (margin zMin zMax : ℝ) (hz : max margin zMin < min (size ⟨2, hd⟩ - margin) zMax) (k j : ℕ) :
    zMin ≤ candidate r size (usableHeights size (some (zMin, zMax)) margin) margin k j ⟨2, hd⟩ ∧
    candidate r size (usableHeights size (some (zMin, zMax)) margin) margin k j ⟨2, hd⟩ ≤ zMax := by
  unfold usableHeights
  dsimp only
  rw [dif_pos hd, if_pos hz]
  unfold candidate
  dsimp only
  rw [if_pos rfl]
  have hj := hr (k + j * (d + 1) + d)
  have hu := uniform_mem hz.le hj.1 hj.2
  exact ⟨(le_max_right _ _).trans hu.1, hu.2.trans (min_le_right _ _)⟩

/-- **C46 (`sample_positions_min_distance`, constraints).** Whatever the random stream, a call that
returns gives exactly `num` points, none closer to the centre than the minimum distance; they are
inside the margins if the margin is at most half the room, and inside the `z` range if that leaves an
interval inside the margins. -/
theorem C46_min_distance_partial (r : ℕ → ℝ) (hr : UnitStream r) {d : ℕ} (size center : Fin d → ℝ)
    (minDistance : ℝ) (zRange : Option (ℝ × ℝ)) (margin : ℝ) (maxAttempts num k : ℕ)
    (ps : List Vec) (k' : ℕ)
    (h : samplePositionsMinDistance r num (List.ofFn size) (List.ofFn center) minDistance zRange margin
      maxAttempts k = .ok (ps, k')) :
    ∃ p : Fin num → Fin d → ℝ, ps = rows p ∧ (∀ j, minDistance ≤ Spec.dist (p j) center) ∧
      ((∀ i, 2 * margin ≤ size i) → ∀ j, Within size margin (p j)) ∧
      ∀ (hd : 2 < d) (zMin zMax : ℝ), zRange = some (zMin, zMax) →
        max margin zMin < min (size ⟨2, hd⟩ - margin) zMax →
        ∀ j, zMin ≤ p j ⟨2, hd⟩ ∧ p j ⟨2, hd⟩ ≤ zMax := by
  obtain ⟨h1, h2⟩ := C46_min_distance_outcome r size center minDistance zRange margin maxAttempts num k
  rcases Nat.lt_or_ge (farCandidates (candidate r size (usableHeights size zRange margin) margin k)
    center minDistance maxAttempts).length num with hlt | hge
  · obtain ⟨e, he⟩ := h1 hlt
    rw [he] at h
    cases h
  · obtain ⟨k'', -, he⟩ := h2 hge
    rw [he] at h
    obtain ⟨rfl, -⟩ := Prod.mk.inj (Except.ok.inj h)
    have hmem : ∀ p ∈ farCandidates (candidate r size (usableHeights size zRange margin) margin k)
        center minDistance maxAttempts, minDistance ≤ Spec.dist p center ∧
        ∃ j, p = candidate r size (usableHeights size zRange margin) margin k j := by
      intro p hp
      unfold farCandidates at hp
      rw [List.mem_filter, List.mem_map] at hp
      obtain ⟨⟨j, -, rfl⟩, hp⟩ := hp
      exact ⟨by simpa using hp, j, rfl⟩
    refine ⟨fun j => (farCandidates (candidate r size (usableHeights size zRange margin) margin k)
      center minDistance maxAttempts)[j], ?_, ?_, ?_, ?_⟩
    · unfold rows
      apply List.ext_getElem
      · simp [hge]
      · intro j h1 h2
        simp
    · exact fun j => (hmem _ (List.getElem_mem _)).1
    · intro hm j
      obtain ⟨-, i, hi⟩ := hmem _ (List.getElem_mem (lt_of_lt_of_le j.isLt hge))
      simp only [Fin.getElem_fin, hi]
      exact candidate_within r hr size zRange margin hm k i
    · rintro hd zMin zMax rfl hz j
      obtain ⟨-, i, hi⟩ := hmem _ (List.getElem_mem (lt_of_lt_of_le j.isLt hge))
      simp only [Fin.getElem_fin, hi]
      exact candidate_height r hr hd size margin zMin zMax hz k i

/-- A centre of the wrong dimension is refused. -/
theorem C46_min_distance_dimension (r : ℕ → ℝ) (size center : Vec) (h : center.length ≠ size.length)
    (minDistance : ℝ) (zRange : Option (ℝ × ℝ)) (margin : ℝ) (maxAttempts num k : ℕ) :
    ∃ e, samplePositionsMinDistance r num size center minDistance zRange margin maxAttempts k =
      .error e := by
  unfold samplePositionsMinDistance
  rw [if_pos h]
  exact ⟨_, rfl⟩

/-- A constant stream keeps drawing the same point: one attempt suffices if it is far enough, and no
number of attempts if it is not. -/
example (maxAttempts : ℕ) : ∃ e, samplePositionsMinDistance (fun _ => 1 / 2) 1 (List.ofFn ![4, 4])
    (List.ofFn ![2, 2]) 1 none 0.5 maxAttempts 0 = .error e := by
  refine (C46_min_distance_outcome (fun _ => 1 / 2) ![4, 4] ![2, 2] 1 none 0.5 maxAttempts 1 0).1 ?_
  have : farCandidates (candidate (fun _ => 1 / 2) ![4, 4] (usableHeights ![4, 4] none 0.5) 0.5 0)
      ![2, 2] 1 maxAttempts = [] := by
    unfold farCandidates
    rw [List.filter_eq_nil_iff]
    intro p hp
    rw [List.mem_map] at hp
    obtain ⟨j, -, rfl⟩ := hp
    simp only [decide_eq_true_eq, not_le]
    unfold Spec.dist
    rw [Fin.sum_univ_two]
    norm_num [candidate, usableHeights]
  rw [this]
  decide

example : ∃ ps k', samplePositionsMinDistance (fun _ => 0) 1 (List.ofFn ![4, 4]) (List.ofFn ![2, 2]) 1
    none 0.5 1000 0 = .ok (ps, k') ∧ ∃ p : Fin 1 → Fin 2 → ℝ, ps = rows p ∧
      ∀ j, 1 ≤ Spec.dist (p j) ![2, 2] := by
  have hfar : 1 ≤ (farCandidates (candidate (fun _ => 0) ![4, 4] (usableHeights ![4, 4] none 0.5) 0.5 0)
      ![2, 2] 1 1000).length := by
    unfold farCandidates
    rw [List.filter_eq_self.mpr]
    · simp
    · intro p hp
      rw [List.mem_map] at hp
      obtain ⟨j, -, rfl⟩ := hp
      simp only [decide_eq_true_eq]
      unfold Spec.dist
      rw [Fin.sum_univ_two, Real.one_le_sqrt]
      norm_num [candidate, usableHeights]
  obtain ⟨k', -, h⟩ := (C46_min_distance_outcome (fun _ => 0) ![4, 4] ![2, 2] 1 none 0.5 1000 1 0).2 hfar
  obtain ⟨p, hp, hd, -⟩ := C46_min_distance_partial (fun _ => 0) (fun _ => by norm_num) _ _ _ _ _ _ _ _ _
    _ h
  exact ⟨_, k', h, p, hp, hd⟩

/-! ## C47: linear trajectories -/

/-- The point reached after `t` of `steps - 1` equal increments. -/
theorem linearTrajectory_rows {d : ℕ} (a b : Fin d → ℝ) (steps : ℕ) (h : 2 ≤ steps) :
    linearTrajectory (List.ofFn a) (List.ofFn b) steps = .ok (rows fun (t : Fin steps) i =>
      a i + (b i - a i) * t / ((steps : ℝ) - 1)) := by
  unfold linearTrajectory
  rw [if_neg (by omega), if_neg (by omega)]
  refine congrArg Except.ok (map_range_rows _ _ ?_)
  intro k
  apply List.ext_getElem <;> simp

/-- **C47.** For at least two steps, a linear trajectory has `steps` points, starts at `start`, ends at
`end`, advances by equal increments and stays in every convex set that contains both ends. -/
theorem C47_trajectory_partial {d : ℕ} (a b : Fin d → ℝ) (steps : ℕ) (h : 2 ≤ steps) :
    ∃ p : Fin steps → Fin d → ℝ,
      linearTrajectory (List.ofFn a) (List.ofFn b) steps = .ok (rows p) ∧
      p ⟨0, by omega⟩ = a ∧ p ⟨steps - 1, by omega⟩ = b ∧
      (∃ v : Fin d → ℝ, ∀ (t : ℕ) (ht : t + 1 < steps), p ⟨t + 1, ht⟩ = p ⟨t, by omega⟩ + v) ∧
      ∀ s : Set (Fin d → ℝ), Convex ℝ s → a ∈ s → b ∈ s → ∀ t, p t ∈ s := by
  have hs : (0 : ℝ) < (steps : ℝ) - 1 := by
    have : (2 : ℝ) ≤ steps := by exact_mod_cast h
    linarith
  refine ⟨_, linearTrajectory_rows a b steps h, ?_, ?_, ?_, ?_⟩
  · funext i
    simp
  · funext i
    have : ((steps - 1 : ℕ) : ℝ) = (steps : ℝ) - 1 := by
      rw [Nat.cast_sub (by omega), Nat.cast_one]
    dsimp only
    rw [this, mul_div_assoc, div_self hs.ne']
    ring
  · refine ⟨fun i => (b i - a i) / ((steps : ℝ) - 1), fun t ht => ?_⟩
    funext i
    simp only [Pi.add_apply]
    push_cast
    field_simp
    ring
  · intro s hc ha hb t
    have hle : (t : ℝ) / ((steps : ℝ) - 1) ≤ 1 := by
      rw [div_le_one hs]
      have : (t : ℕ) + 1 ≤ steps := t.isLt
      have : ((t : ℕ) : ℝ) + 1 ≤ steps := by exact_mod_cast this
      linarith
    have := hc ha hb (sub_nonneg.mpr hle) (div_nonneg (Nat.cast_nonneg _) hs.le) (by ring)
    convert this using 1
    funext i
    simp only [Pi.add_apply, Pi.smul_apply, smul_eq_mul]
    field_simp
    ring

example : ∃ p : Fin 5 → Fin 2 → ℝ,
    linearTrajectory (List.ofFn ![1, 1]) (List.ofFn ![3, 2]) (5 : ℕ) = .ok (rows p) ∧
      ∀ t, Within ![4, 3] 0.5 (p t) := by
  obtain ⟨p, h, -, -, -, hc⟩ := C47_trajectory_partial ![1, 1] ![3, 2] 5 (by decide)
  refine ⟨p, h, hc {q | Within ![4, 3] 0.5 q} ?_ ?_ ?_⟩
  · intro x hx y hy u v hu hv huv i
    have h1 := hx i
    have h2 := hy i
    simp only [Pi.add_apply, Pi.smul_apply, smul_eq_mul]
    obtain rfl : v = 1 - u := by linarith
    constructor <;> nlinarith
  · intro i
    fin_cases i <;> norm_num
  · intro i
    fin_cases i <;> norm_num

/-- **C47 fails below two steps.** One step gives a NaN point, fewer raise. -/
theorem C47_few_steps_fails (a b : Vec) (steps : ℤ) (h : steps < 2) :
    ∃ e, linearTrajectory a b steps = .error e := by
  unfold linearTrajectory
  by_cases h0 : steps ≤ 0
  · rw [if_pos h0]
    exact ⟨_, rfl⟩
  · rw [if_neg h0, if_pos (by omega)]
    exact ⟨_, rfl⟩

example : ∃ e, linearTrajectory [1, 1] [3, 2] 1 = .error e := C47_few_steps_fails _ _ _ (by decide)

end Torchrir.Props
