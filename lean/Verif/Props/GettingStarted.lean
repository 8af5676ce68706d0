import Verif.Model.GettingStarted
import Verif.Spec.GettingStarted
import Verif.Props.DynDataset
import Mathlib.Analysis.SpecialFunctions.Trigonometric.Basic

/-! # C97: the getting-started example -/

namespace Torchrir.Props

open Torchrir.Model Torchrir.Lemmas
open Torchrir.Spec

/-! ## The standing scene -/

/-- The sides of the room. -/
def startRoom : Fin 3 → ℝ := ![8, 6, 3]

/-- The sources around a centre. -/
noncomputable def startSpots (c : Fin 3 → ℝ) : Fin 2 → Fin 3 → ℝ :=
  ![![c 0 + 1.1 * Real.sqrt 3, c 1 + 1.1, 1.5], ![c 0 - 1.1 * Real.sqrt 3, c 1 + 1.1, 1.5]]

/-- The microphones around a centre. -/
noncomputable def startEars (c : Fin 3 → ℝ) : Fin 2 → Fin 3 → ℝ := ![![c 0 - 0.1, c 1, c 2], ![c 0 + 0.1, c 1, c 2]]

theorem angle_30 : Real.cos (30 * (Real.pi / 180)) = Real.sqrt 3 / 2 ∧ Real.sin (30 * (Real.pi / 180)) = 1 / 2 := by
  have : 30 * (Real.pi / 180) = Real.pi / 6 := by ring
  rw [this]
  exact ⟨Real.cos_pi_div_six, Real.sin_pi_div_six⟩

theorem angle_150 :
    Real.cos (150 * (Real.pi / 180)) = -(Real.sqrt 3 / 2) ∧ Real.sin (150 * (Real.pi / 180)) = 1 / 2 := by
  have : 150 * (Real.pi / 180) = Real.pi - Real.pi / 6 := by ring
  rw [this, Real.cos_pi_sub, Real.sin_pi_sub, Real.cos_pi_div_six, Real.sin_pi_div_six]
  exact ⟨rfl, rfl⟩

theorem sqrt3_bounds : 1.732 < Real.sqrt 3 ∧ Real.sqrt 3 < 1.7321 ∧ Real.sqrt 3 * Real.sqrt 3 = 3 := by
  refine ⟨?_, ?_, Real.mul_self_sqrt (by norm_num)⟩
  · apply Real.lt_sqrt_of_sq_lt
    norm_num
  · rw [Real.sqrt_lt' (by norm_num)]
    norm_num

theorem ofFn3 (v : Fin 3 → ℝ) : List.ofFn v = [v 0, v 1, v 2] := by simp [List.ofFn_succ]

theorem rows2 (p : Fin 2 → Fin 3 → ℝ) : rows p = [[p 0 0, p 0 1, p 0 2], [p 1 0, p 1 1, p 1 2]] := by
  simp [rows, List.ofFn_succ]

theorem startSources_eq (c : Fin 3 → ℝ) :
    ([30, 150] : List ℝ).map (startSource (List.ofFn c)) = rows (startSpots c) := by
  obtain ⟨h1, h2⟩ := angle_30
  obtain ⟨h3, h4⟩ := angle_150
  rw [ofFn3, rows2]
  simp only [startSource, List.map_cons, List.map_nil, h1, h2, h3, h4, List.getD_cons_zero, List.getD_cons_succ]
  show [_, _] = [[c 0 + 1.1 * Real.sqrt 3, c 1 + 1.1, 1.5], [c 0 - 1.1 * Real.sqrt 3, c 1 + 1.1, 1.5]]
  congr 2
  · ring
  · congr 1
    ring
  · congr 1
    · ring
    · congr 1
      ring

theorem startStatic_eq (c : Fin 3 → ℝ) :
    startStatic (List.ofFn c) = .ok ⟨rows (startSpots c), rows (startEars c), none⟩ := by
  have hb : binauralArray ⟨.floating, List.ofFn c⟩ 0.10 = .ok (rows (startEars c)) := by
    rw [rows2, ofFn3]
    show Except.ok [_, _] = Except.ok [[c 0 - 0.1, c 1, c 2], [c 0 + 0.1, c 1, c 2]]
    norm_num [castVec, vsub, vadd, List.replicate]
  obtain ⟨-, -, h3⟩ := sqrt3_bounds
  unfold startStatic
  rw [hb, ok_bind, startSources_eq]
  dsimp only
  rw [raiseIf_neg, ok_bind, raiseIf_neg, ok_bind]
  · rfl
  · norm_num
  · rw [not_not]
    have key : ∀ s : Fin 2, 2 ≤ norm2 (vsub ((List.ofFn (startSpots c s)).take 2) ((List.ofFn c).take 2)) := by
      intro s
      unfold norm2
      apply Real.le_sqrt_of_sq_le
      rw [ofFn3, ofFn3]
      fin_cases s <;> simp [startSpots, vsub, dot] <;> nlinarith
    intro p hp
    obtain ⟨s, rfl⟩ := (List.mem_ofFn' _ _).mp hp
    exact key s

/-- A centre as close to the middle of the room as the jitter allows. -/
structure NearMiddle (c : Fin 3 → ℝ) : Prop where
  x : |c 0 - 4| ≤ 0.03
  y : |c 1 - 3| ≤ 0.03
  z : |c 2 - 1.5| ≤ 0.01

theorem startCenter_eq {r : ℕ → ℝ} (hr : UnitStream r) (k : ℕ) :
    ∃ c : Fin 3 → ℝ, startCenter r k = List.ofFn c ∧ NearMiddle c := by
  refine ⟨![4 + uniform (-0.03) 0.03 (r k), 3 + uniform (-0.03) 0.03 (r (k + 1)), 1.5 + uniform (-0.01) 0.01 (r (k + 2))],
    ?_, ?_, ?_, ?_⟩
  · rw [ofFn3]
    show [_, _, _] = [4 + uniform (-0.03) 0.03 (r k), 3 + uniform (-0.03) 0.03 (r (k + 1)),
      1.5 + uniform (-0.01) 0.01 (r (k + 2))]
    norm_num
  · show |4 + uniform (-0.03) 0.03 (r k) - 4| ≤ 0.03
    obtain ⟨h1, h2⟩ := hr k
    rw [abs_le]
    unfold uniform
    constructor <;> linarith
  · show |3 + uniform (-0.03) 0.03 (r (k + 1)) - 3| ≤ 0.03
    obtain ⟨h1, h2⟩ := hr (k + 1)
    rw [abs_le]
    unfold uniform
    constructor <;> linarith
  · show |1.5 + uniform (-0.01) 0.01 (r (k + 2)) - 1.5| ≤ 0.01
    obtain ⟨h1, h2⟩ := hr (k + 2)
    rw [abs_le]
    unfold uniform
    constructor <;> linarith

theorem startScene_ok {c : Fin 3 → ℝ} (hc : NearMiddle c) : StartScene c (startSpots c) (startEars c) := by
  obtain ⟨h1, h2, h3⟩ := sqrt3_bounds
  refine ⟨⟨hc.x, hc.y, hc.z⟩, rfl, rfl, ?_, ?_, ?_, ?_, ?_⟩
  · intro s
    fin_cases s <;> rfl
  · have key : ∀ x, x * x = 3 * 1.1 * 1.1 → Real.sqrt ((c 0 + x - c 0) ^ 2 + (c 1 + 1.1 - c 1) ^ 2) = 2.2 := by
      intro x hx
      rw [show (c 0 + x - c 0) ^ 2 + (c 1 + 1.1 - c 1) ^ 2 = x * x + 1.1 * 1.1 by ring, hx,
        show (3 * 1.1 * 1.1 + 1.1 * 1.1 : ℝ) = 2.2 ^ 2 by norm_num]
      exact Real.sqrt_sq (by norm_num)
    intro s
    fin_cases s
    · exact key (1.1 * Real.sqrt 3) (by linear_combination 1.1 * 1.1 * h3)
    · have := key (-(1.1 * Real.sqrt 3)) (by linear_combination 1.1 * 1.1 * h3)
      rw [← sub_eq_add_neg] at this
      exact this
  · intro s
    fin_cases s <;> exact add_sub_cancel_left _ _
  · constructor
    · show c 0 - 1.1 * Real.sqrt 3 < c 0
      linarith
    · show c 0 < c 0 + 1.1 * Real.sqrt 3
      linarith
  · have : 2 * Real.pi / 3 = Real.pi - Real.pi / 3 := by ring
    rw [this, Real.cos_pi_sub, Real.cos_pi_div_three]
    show (c 0 + 1.1 * Real.sqrt 3 - c 0) * (c 0 - 1.1 * Real.sqrt 3 - c 0) + (c 1 + 1.1 - c 1) * (c 1 + 1.1 - c 1) = _
    linear_combination -1.1 * 1.1 * h3

theorem within3 {L p : Fin 3 → ℝ} {m : ℝ} (h0 : m ≤ p 0 ∧ p 0 ≤ L 0 - m) (h1 : m ≤ p 1 ∧ p 1 ≤ L 1 - m)
    (h2 : m ≤ p 2 ∧ p 2 ≤ L 2 - m) : Within L m p := by
  intro i
  fin_cases i
  · exact h0
  · exact h1
  · exact h2

theorem startSpots_within {c : Fin 3 → ℝ} (hc : NearMiddle c) (s : Fin 2) : Within ![8, 6, 3] 1.5 (startSpots c s) := by
  obtain ⟨h1, h2, -⟩ := sqrt3_bounds
  obtain ⟨x1, x2⟩ := abs_le.mp hc.x
  obtain ⟨y1, y2⟩ := abs_le.mp hc.y
  fin_cases s
  · refine within3 (p := ![c 0 + 1.1 * Real.sqrt 3, c 1 + 1.1, 1.5]) ?_ ?_ ?_ <;>
      simp <;> (try constructor) <;> linarith
  · refine within3 (p := ![c 0 - 1.1 * Real.sqrt 3, c 1 + 1.1, 1.5]) ?_ ?_ ?_ <;>
      simp <;> (try constructor) <;> linarith

theorem startEars_within {c : Fin 3 → ℝ} (hc : NearMiddle c) (m : Fin 2) : Within ![8, 6, 3] 1.49 (startEars c m) := by
  obtain ⟨x1, x2⟩ := abs_le.mp hc.x
  obtain ⟨y1, y2⟩ := abs_le.mp hc.y
  obtain ⟨z1, z2⟩ := abs_le.mp hc.z
  fin_cases m
  · refine within3 (p := ![c 0 - 0.1, c 1, c 2]) ?_ ?_ ?_ <;> simp <;> (try constructor) <;> linarith
  · refine within3 (p := ![c 0 + 0.1, c 1, c 2]) ?_ ?_ ?_ <;> simp <;> (try constructor) <;> linarith

/-- **C97, standing scene.** Whatever the generator draws, no assertion fails and the scene is as described: two
microphones 20 cm apart close to the centre of the room and two sources at 2.2 m with 120 degrees between them. All are
far from the walls. -/
theorem C97_static_scene {r : ℕ → ℝ} (hr : UnitStream r) (k : ℕ) :
    ∃ (c : Fin 3 → ℝ) (src mic : Fin 2 → Fin 3 → ℝ),
      startStatic (startCenter r k) = .ok ⟨rows src, rows mic, none⟩ ∧ StartScene c src mic ∧
      (∀ s, Within ![8, 6, 3] 1.5 (src s)) ∧ ∀ m, Within ![8, 6, 3] 1.49 (mic m) := by
  obtain ⟨c, h, hc⟩ := startCenter_eq hr k
  rw [h]
  exact ⟨c, _, _, startStatic_eq c, startScene_ok hc, startSpots_within hc, startEars_within hc⟩

/-! ## The moving scene -/

/-- Where the second source walks to. -/
noncomputable def startGoal (src : Fin 2 → Fin 3 → ℝ) : Fin 3 → ℝ := ![src 0 0 + 0.35, src 0 1 + 0.1, src 0 2]

/-- The walk of the sources. -/
noncomputable def startWalk {T : ℕ} (src : Fin 2 → Fin 3 → ℝ) (t : Fin T) : Fin 2 → Fin 3 → ℝ :=
  ![src 0, fun i => src 1 i + (t : ℝ) / ((T : ℝ) - 1) * (startGoal src i - src 1 i)]

theorem startTraj_eq {T : ℕ} (hT : T ≠ 1) (src : Fin 2 → Fin 3 → ℝ) :
    startTraj T (rows src) = Spec.steps (startWalk (T := T) src) := by
  have hl : linspace 0 1 T = List.ofFn fun t : Fin T => (t : ℝ) / ((T : ℝ) - 1) := by
    unfold linspace
    rw [if_neg hT]
    apply List.ext_getElem
    · simp
    · intro t h1 h2
      simp [div_eq_mul_inv]
  unfold startTraj Spec.steps
  dsimp only
  rw [hl, List.map_ofFn, ← List.ofFn_const]
  apply List.ext_getElem
  · simp
  · intro t h1 h2
    simp only [List.getElem_zipWith, List.getElem_ofFn]
    rw [rows2 (startWalk src _)]
    simp only [rows2, List.getD_cons_zero, List.getD_cons_succ, startWalk, startGoal, vadd, vscale, vsub, Function.comp]
    norm_num
    exact Or.inl rfl

theorem startDynamic_eq (src mic : Fin 2 → Fin 3 → ℝ)
    (h : Spec.dist (startGoal src) (src 0) < Spec.dist (src 1) (src 0)) :
    startDynamic ⟨rows src, rows mic, none⟩ = .ok ⟨rows src, rows mic,
      some (Spec.steps (startWalk (T := 128) src), Spec.steps fun _ : Fin 128 => mic)⟩ := by
  have h0 : (Spec.steps (startWalk (T := 128) src)).headD [] = rows src := by
    unfold Spec.steps
    rw [List.ofFn_succ]
    rw [List.headD_cons, rows2, rows2]
    simp [startWalk]
  have h1 : (Spec.steps (startWalk (T := 128) src)).getLastD [] = rows ![src 0, startGoal src] := by
    unfold Spec.steps
    rw [List.ofFn_succ_last, List.getLastD_concat, rows2, rows2]
    norm_num [startWalk, Fin.val_last]
  have gap : ∀ p : Fin 2 → Fin 3 → ℝ, sourceGap (rows p) = Spec.dist (p 1) (p 0) := by
    intro p
    rw [rows2]
    unfold sourceGap norm2 Spec.dist
    rw [Fin.sum_univ_three]
    simp [vsub, dot, pow_two, add_assoc]
  unfold startDynamic
  dsimp only
  rw [startTraj_eq (by norm_num), h0, h1, gap, gap]
  show (raiseIf (¬ Spec.dist (startGoal src) (src 0) < Spec.dist (src 1) (src 0)) "AssertionError" >>= _) = _
  rw [raiseIf_neg (not_not.mpr h), ok_bind, steps_const]
  rfl

theorem startScene_src {c : Fin 3 → ℝ} {src mic : Fin 2 → Fin 3 → ℝ} (h : StartScene c src mic) : src = startSpots c := by
  have h3 := sqrt3_bounds.2.2
  have hx : ∀ s, (src s 0 - c 0) * (src s 0 - c 0) = (1.1 * Real.sqrt 3) * (1.1 * Real.sqrt 3) := by
    intro s
    have h1 := h.radius s
    unfold floorDist at h1
    have h2 : (src s 0 - c 0) ^ 2 + (src s 1 - c 1) ^ 2 = 2.2 ^ 2 := by
      rw [← h1, Real.sq_sqrt (by positivity)]
    rw [h.ahead s] at h2
    linear_combination h2 - 1.1 * 1.1 * h3
  have hp : (0 : ℝ) < 1.1 * Real.sqrt 3 := by positivity
  have h0 : src 0 0 = c 0 + 1.1 * Real.sqrt 3 := by
    rcases mul_self_eq_mul_self_iff.mp (hx 0) with h' | h' <;> linarith [h.sides.2]
  have h1 : src 1 0 = c 0 - 1.1 * Real.sqrt 3 := by
    rcases mul_self_eq_mul_self_iff.mp (hx 1) with h' | h' <;> linarith [h.sides.1]
  funext s i
  fin_cases s
  · fin_cases i
    · exact h0
    · show src 0 1 = c 1 + 1.1
      linarith [h.ahead 0]
    · exact h.height 0
  · fin_cases i
    · exact h1
    · show src 1 1 = c 1 + 1.1
      linarith [h.ahead 1]
    · exact h.height 1

/-- The square of the distance of the sources when the second has covered the part `a` of its way. -/
theorem gap_sq {c : Fin 3 → ℝ} {src mic : Fin 2 → Fin 3 → ℝ} (h : StartScene c src mic) (a : ℝ) (q : Fin 3 → ℝ)
    (hq : ∀ i, q i = src 1 i + a * (startGoal src i - src 1 i)) :
    Spec.dist q (src 0) = Real.sqrt (14.52 - 2 * a * (14.52 + 0.77 * Real.sqrt 3) + a ^ 2 * (14.6525 + 1.54 * Real.sqrt 3)) := by
  have h3 := sqrt3_bounds.2.2
  unfold Spec.dist
  rw [Fin.sum_univ_three, hq, hq, hq]
  obtain rfl := startScene_src h
  congr 1
  simp [startGoal, startSpots]
  linear_combination (4.84 - 9.68 * a + 4.84 * a ^ 2) * h3

theorem goal_closer {c : Fin 3 → ℝ} {src mic : Fin 2 → Fin 3 → ℝ} (h : StartScene c src mic) :
    Spec.dist (startGoal src) (src 0) < Spec.dist (src 1) (src 0) := by
  obtain ⟨h1, h2, h3⟩ := sqrt3_bounds
  rw [gap_sq h 1 (startGoal src) (fun i => by ring), gap_sq h 0 (src 1) (fun i => by ring)]
  apply Real.sqrt_lt_sqrt <;> nlinarith

/-- **C97, moving scene.** The assertion never fails either. The microphones and the first source stay; the second source
walks in 128 equal steps from its place in the standing scene to a place 35 cm right of and 10 cm beyond the first
source. It stays far from the walls and 1.1 m or more from the centre of the microphones. -/
theorem C97_dynamic_scene {r : ℕ → ℝ} (hr : UnitStream r) (k : ℕ) :
    ∃ (c : Fin 3 → ℝ) (src mic : Fin 2 → Fin 3 → ℝ) (walk : Fin 128 → Fin 2 → Fin 3 → ℝ) (sc : CliScene),
      startStatic (startCenter r k) = .ok sc ∧ sc = ⟨rows src, rows mic, none⟩ ∧ StartScene c src mic ∧
      startDynamic sc = .ok ⟨rows src, rows mic, some (Spec.steps walk, Spec.steps fun _ : Fin 128 => mic)⟩ ∧
      (∀ t, walk t 0 = src 0) ∧
      StraightPath (src 1) ![src 0 0 + 0.35, src 0 1 + 0.1, src 0 2] (fun t => walk t 1) ∧
      (∀ t s, Within ![8, 6, 3] 1.5 (walk t s)) ∧ ∀ t, 1.1 ≤ floorDist (walk t 1) c := by
  obtain ⟨c, h, hc⟩ := startCenter_eq hr k
  rw [h]
  have hs := startScene_ok hc
  have hp : StraightPath (startSpots c 1) (startGoal (startSpots c)) fun t : Fin 128 => startWalk (startSpots c) t 1 :=
    fun t i => rfl
  have hg : Within ![8, 6, 3] 1.5 (startGoal (startSpots c)) := by
    obtain ⟨h1, h2, -⟩ := sqrt3_bounds
    obtain ⟨x1, x2⟩ := abs_le.mp hc.x
    obtain ⟨y1, y2⟩ := abs_le.mp hc.y
    refine within3 ?_ ?_ ?_ <;> simp [startGoal, startSpots] <;> (try constructor) <;> linarith
  refine ⟨c, _, _, startWalk (startSpots c), _, startStatic_eq c, rfl, hs, startDynamic_eq _ _ (goal_closer hs),
    fun t => rfl, hp, ?_, ?_⟩
  · intro t s
    have key : ∀ s : Fin 2, Within ![8, 6, 3] 1.5 (startWalk (startSpots c) t s) := by
      intro s
      fin_cases s
      · exact startSpots_within hc 0
      · exact path_within (by norm_num) (startSpots_within hc 1) hg hp t
    exact key s
  · intro t
    have := path_between (lo := c 1 + 1.1) (hi := c 1 + 1.2) (by norm_num) hp t 1
      (by constructor <;> simp [startSpots]; norm_num) (by constructor <;> simp [startGoal, startSpots] <;> linarith)
    have h1 := this.1
    apply Real.le_sqrt_of_sq_le
    nlinarith [sq_nonneg (startWalk (startSpots c) t 1 0 - c 0)]

/-- **C97, approach.** The distance of the sources becomes smaller from step to step exactly during the first 116 steps;
they never come closer than 9 cm. -/
theorem C97_approach {c : Fin 3 → ℝ} {src mic : Fin 2 → Fin 3 → ℝ} (h : StartScene c src mic) (p : Fin 128 → Fin 3 → ℝ)
    (hp : StraightPath (src 1) ![src 0 0 + 0.35, src 0 1 + 0.1, src 0 2] p) :
    (∀ (t : ℕ) (ht : t + 1 < 128), Spec.dist (p ⟨t + 1, ht⟩) (src 0) < Spec.dist (p ⟨t, by omega⟩) (src 0) ↔ t < 116) ∧
    ∀ t, 0.09 < Spec.dist (p t) (src 0) := by
  obtain ⟨h1, h2, h3⟩ := sqrt3_bounds
  have hq : ∀ t : Fin 128, Spec.dist (p t) (src 0) = Real.sqrt (14.52 - 2 * ((t : ℝ) / 127) * (14.52 + 0.77 * Real.sqrt 3)
      + ((t : ℝ) / 127) ^ 2 * (14.6525 + 1.54 * Real.sqrt 3)) := by
    intro t
    refine gap_sq h _ _ fun i => ?_
    rw [hp t i]
    norm_num [startGoal]
  have hpos : ∀ a : ℝ, 0.0081 < 14.52 - 2 * a * (14.52 + 0.77 * Real.sqrt 3) + a ^ 2 * (14.6525 + 1.54 * Real.sqrt 3) := by
    intro a
    nlinarith [sq_nonneg (a * (14.6525 + 1.54 * Real.sqrt 3) - (14.52 + 0.77 * Real.sqrt 3))]
  constructor
  · intro t ht
    rw [hq, hq, Real.sqrt_lt_sqrt_iff (by linarith [hpos ((((⟨t + 1, ht⟩ : Fin 128) : ℕ) : ℝ) / 127)])]
    dsimp only
    push_cast
    have key : ∀ a b : ℝ, (14.52 - 2 * (b / 127) * (14.52 + 0.77 * Real.sqrt 3) + (b / 127) ^ 2 * (14.6525 + 1.54 * Real.sqrt 3))
        - (14.52 - 2 * (a / 127) * (14.52 + 0.77 * Real.sqrt 3) + (a / 127) ^ 2 * (14.6525 + 1.54 * Real.sqrt 3))
        = (b - a) / 127 * ((a + b) / 127 * (14.6525 + 1.54 * Real.sqrt 3) - (29.04 + 1.54 * Real.sqrt 3)) := by
      intro a b
      ring
    rw [← sub_neg, key]
    constructor
    · intro hlt
      by_contra hge
      have ht' : (116 : ℝ) ≤ t := by exact_mod_cast not_lt.mp hge
      nlinarith
    · intro hlt
      have ht' : (t : ℝ) ≤ 115 := by exact_mod_cast Nat.lt_succ_iff.mp hlt
      nlinarith
  · intro t
    rw [hq]
    apply Real.lt_sqrt_of_sq_lt
    linarith [hpos ((t : ℝ) / 127)]

/-- **C97: the second source does not move toward the first all the time**, as the comment in the script says. At step
116 of 127 it is closer than 10 cm, in the end it is further away than 36 cm again. -/
theorem C97_moves_toward_fails {c : Fin 3 → ℝ} {src mic : Fin 2 → Fin 3 → ℝ} (h : StartScene c src mic)
    (p : Fin 128 → Fin 3 → ℝ) (hp : StraightPath (src 1) ![src 0 0 + 0.35, src 0 1 + 0.1, src 0 2] p) :
    Spec.dist (p 116) (src 0) < 0.1 ∧ 0.36 < Spec.dist (p 127) (src 0) := by
  obtain ⟨h1, h2, h3⟩ := sqrt3_bounds
  constructor
  · rw [gap_sq h (116 / 127) (p 116) fun i => by rw [hp]; norm_num [startGoal], Real.sqrt_lt' (by norm_num)]
    nlinarith
  · rw [gap_sq h 1 (p 127) fun i => by rw [hp]; norm_num [startGoal]]
    apply Real.lt_sqrt_of_sq_lt
    nlinarith

/-! ## Audio and files -/

theorem signal_mic {n : ℕ} (x : Fin 2 → Fin n → ℝ) (s : Fin 2) :
    signalOf (tensor2 x) s = micTensor n fun (_ : Fin 1) k => if h : k < n then x s ⟨k, h⟩ else 0 := by
  have : signalOf (tensor2 x) s = ⟨[n], (tensor2 fun _ : Fin 1 => x s).data⟩ := by
    rcases signalOf_eq x s with h | ⟨-, h⟩
    · have := congrArg Tensor.shape h
      simp [signalOf, tensor2] at this
    · exact h
  rw [this]
  unfold micTensor
  rw [if_pos rfl]
  simp

/-- The files of one half are written, each with its signal brought to a peak of 1. -/
theorem startFiles_eq {n : ℕ} (pre : String) (x : Fin 2 → Fin n → ℝ) (len : ℕ) (y : Fin 2 → ℕ → ℝ) : ∃ files,
    startFiles pre (tensor2 x) (micTensor len y) = .ok files ∧ StartFiles pre x len y files := by
  obtain ⟨f1, g1, h1, s1⟩ := save_mics le_rfl (by norm_num) n fun (_ : Fin 1) k => if h : k < n then x 0 ⟨k, h⟩ else 0
  obtain ⟨f2, g2, h2, s2⟩ := save_mics le_rfl (by norm_num) n fun (_ : Fin 1) k => if h : k < n then x 1 ⟨k, h⟩ else 0
  obtain ⟨f3, g3, h3, s3⟩ := save_mics (by norm_num) (by norm_num) len y
  refine ⟨_, ?_, f1, f2, f3, g1, g2, g3, rfl, s1, s2, s3⟩
  unfold startFiles
  have e0 := signal_mic x 0
  have e1 := signal_mic x 1
  rw [Fin.val_zero] at e0
  rw [Fin.val_one] at e1
  rw [e0, e1, h1, ok_bind, h2, ok_bind, h3]
  rfl

/-- **C97, output.** The script runs to its end for every pair of signals and every rate above 20 Hz. The responses are
those of the image method of order 6 with `ceil(0.4 * fs)` samples; the audio of the first half is the sum of the signals
convolved with the responses, in the second half every sample passes through the responses of the step that is current.
Each half writes the signals and its audio, each brought to a peak of 1. -/
theorem C97_output {n : ℕ} (conv : Flt → ℤ) (w : World) {r : ℕ → ℝ} (hr : UnitStream r) (k : ℕ)
    (fs : ℝ) (hfs : 20 < fs) (K : ℕ) (hK : 0 < K) (ht : (K : ℤ) = ⌈0.4 * fs⌉)
    (sos : w.Sos) (hsos : w.iirfilter 2 (10 / (fs / 2)) [("rp", "5.0"), ("rs", "60.0"), ("ftype", "butter")] = .ok sos)
    (G : (Fin K → ℝ) →ₗ[ℝ] (Fin K → ℝ)) (hG : ActsAs w sos G) (x : Fin 2 → Fin n → ℝ)
    (step : Fin n → Fin 128) (hstep : CurrentStep (fun t : Fin 128 => (t : ℕ) * n / 128) step) :
    ∃ (c : Fin 3 → ℝ) (src mic : Fin 2 → Fin 3 → ℝ) (walk : Fin 128 → Fin 2 → Fin 3 → ℝ)
      (out : StartHalf × StartHalf),
      gettingStarted conv w r k (tensor2 x) fs = .ok out ∧ StartScene c src mic ∧ (∀ t, walk t 0 = src 0) ∧
      StraightPath (src 1) ![src 0 0 + 0.35, src 0 1 + 0.1, src 0 2] (fun t => walk t 1) ∧
      out.1.scene = ⟨rows src, rows mic, none⟩ ∧
      out.2.scene = ⟨rows src, rows mic, some (Spec.steps walk, Spec.steps fun _ : Fin 128 => mic)⟩ ∧
      out.1.rirs = tensor3 (fun s m => cliResponse (w.device ≠ .mps) ![8, 6, 3] fs 6 G (src s) (mic m)) ∧
      out.2.rirs = tensor4 (fun t s m => cliResponse (w.device ≠ .mps) ![8, 6, 3] fs 6 G (walk t s) (mic m)) ∧
      out.1.audio = micTensor (n + K - 1)
        (mix x fun s m => cliResponse (w.device ≠ .mps) ![8, 6, 3] fs 6 G (src s) (mic m)) ∧
      out.2.audio = micTensor (n + K - 1)
        (mixVarying x (fun t s m => cliResponse (w.device ≠ .mps) ![8, 6, 3] fs 6 G (walk t s) (mic m)) step) ∧
      StartFiles "static" x (n + K - 1)
        (mix x fun s m => cliResponse (w.device ≠ .mps) ![8, 6, 3] fs 6 G (src s) (mic m)) out.1.files ∧
      StartFiles "dynamic" x (n + K - 1)
        (mixVarying x (fun t s m => cliResponse (w.device ≠ .mps) ![8, 6, 3] fs 6 G (walk t s) (mic m)) step)
        out.2.files := by
  have hfs0 : 0 < fs := by linarith
  obtain ⟨c, src, mic, walk, sc, h1, rfl, h2, h3, h4, h5, -⟩ := C97_dynamic_scene hr k
  have hL : ∀ i, (0 : ℝ) < ![8, 6, 3] i := by
    intro i
    fin_cases i <;> norm_num
  have hroom : startArgs.room = List.ofFn ![8, 6, 3] := by
    rw [ofFn3]
    rfl
  have hsim := C85_filtered_formula (Or.inr rfl) two_pos two_pos w ![8, 6, 3] (fun _ => 0.9) (fun _ => 0.9) fs 343 hfs0
    (by norm_num) (.order 6) K hK
    defaultConfig defaultConfig_valid rfl rfl (show (10 : ℝ) < fs / 2 by linarith) sos hsos G hG src mic
  rw [← args_eq w ![8, 6, 3] _ _ fs 343 src mic 6 K hK 0.4 ht] at hsim
  have hsim : simulateRir w (boxRoom ![8, 6, 3] (fun _ => 0.9) (fun _ => 0.9) fs 343) ⟨tensor2 src, none⟩
      ⟨tensor2 mic, none⟩ { maxOrder := some 6, tmax := some 0.4 }
      = .ok (tensor3 fun s m => cliResponse (w.device ≠ .mps) ![8, 6, 3] fs 6 G (src s) (mic m)) := hsim
  have hdyn : simulateDynamicRir w (boxRoom ![8, 6, 3] (fun _ => 0.9) (fun _ => 0.9) fs 343) (tensor3 walk)
      (tensor3 fun _ : Fin 128 => mic) { maxOrder := some 6, tmax := some 0.4 }
      = .ok (tensor4 fun t s m => cliResponse (w.device ≠ .mps) ![8, 6, 3] fs 6 G (walk t s) (mic m)) :=
    dynamic_responses (Or.inr rfl) two_pos two_pos (by norm_num) w ![8, 6, 3] 6 fs hfs K hK 0.4 ht sos hsos G hG walk _
  obtain ⟨fl1, hf1, hs1⟩ := startFiles_eq "static" x (n + K - 1)
    (mix x fun s m => cliResponse (w.device ≠ .mps) ![8, 6, 3] fs 6 G (src s) (mic m))
  obtain ⟨fl2, hf2, hs2⟩ := startFiles_eq "dynamic" x (n + K - 1)
    (mixVarying x (fun t s m => cliResponse (w.device ≠ .mps) ![8, 6, 3] fs 6 G (walk t s) (mic m)) step)
  have half1 : startHalf w (boxRoom ![8, 6, 3] (fun _ => 0.9) (fun _ => 0.9) fs 343) (tensor2 x) "static"
      ⟨rows src, rows mic, none⟩ = .ok ⟨⟨rows src, rows mic, none⟩,
        tensor3 fun s m => cliResponse (w.device ≠ .mps) ![8, 6, 3] fs 6 G (src s) (mic m),
        micTensor (n + K - 1) (mix x fun s m => cliResponse (w.device ≠ .mps) ![8, 6, 3] fs 6 G (src s) (mic m)), fl1⟩ := by
    unfold startHalf renderScene startArgs
    dsimp only
    rw [pointsTensor_rows two_pos, pointsTensor_rows two_pos, hsim, ok_bind,
      C23_convolve_rir_formula x _ (Or.inl rfl) (Or.inl rfl) (by omega), ok_bind, pure_bind]
    dsimp only
    rw [hf1]
    rfl
  have half2 : startHalf w (boxRoom ![8, 6, 3] (fun _ => 0.9) (fun _ => 0.9) fs 343) (tensor2 x) "dynamic"
      ⟨rows src, rows mic, some (Spec.steps walk, Spec.steps fun _ : Fin 128 => mic)⟩
      = .ok ⟨⟨rows src, rows mic, some (Spec.steps walk, Spec.steps fun _ : Fin 128 => mic)⟩,
        tensor4 fun t s m => cliResponse (w.device ≠ .mps) ![8, 6, 3] fs 6 G (walk t s) (mic m),
        micTensor (n + K - 1) (mixVarying x
          (fun t s m => cliResponse (w.device ≠ .mps) ![8, 6, 3] fs 6 G (walk t s) (mic m)) step), fl2⟩ := by
    unfold startHalf renderScene startArgs
    dsimp only
    rw [trajTensor_steps (by norm_num) two_pos, trajTensor_steps (by norm_num) two_pos, hdyn, ok_bind,
      C24_trajectory_formula w.device x _ (Or.inl rfl) (Or.inl rfl) (by norm_num) (by omega) (.uniform none) step hstep,
      ok_bind, pure_bind]
    dsimp only
    rw [hf2]
    rfl
  refine ⟨c, src, mic, walk, (⟨_, _, _, fl1⟩, ⟨_, _, _, fl2⟩), ?_, h2, h4, h5, rfl, rfl, rfl, rfl, rfl, rfl, hs1, hs2⟩
  unfold gettingStarted
  rw [cliRoom_eq conv (Or.inr rfl) _ hL _ hroom fs hfs0, ok_bind, h1, ok_bind, half1, ok_bind, h3, ok_bind, half2]
  rfl

/-- **C97, names.** All six files have different names. -/
theorem C97_file_names {n : ℕ} {x : Fin 2 → Fin n → ℝ} {len : ℕ} {y y' : Fin 2 → ℕ → ℝ}
    {files files' : List (String × AudioFile)} (h : StartFiles "static" x len y files)
    (h' : StartFiles "dynamic" x len y' files') : ((files ++ files').map Prod.fst).Nodup := by
  obtain ⟨f1, f2, f3, g1, g2, g3, rfl, -⟩ := h
  obtain ⟨f1', f2', f3', g1', g2', g3', rfl, -⟩ := h'
  simp only [List.map_append, List.map_cons, List.map_nil]
  decide

/-! ## Cases meeting the hypotheses -/

/-- Ten seconds at 16 kHz, a generator that always gives 0, filtered by halving. -/
example (conv : Flt → ℤ) (randn : ℤ → List ℕ → List ℝ) (x : Fin 2 → Fin 160000 → ℝ) :
    ∃ (c : Fin 3 → ℝ) (src mic : Fin 2 → Fin 3 → ℝ) (out : StartHalf × StartHalf),
      gettingStarted conv (halvingWorld randn) (fun _ => 0) 7 (tensor2 x) 16000 = .ok out ∧ StartScene c src mic ∧
      out.1.scene = ⟨rows src, rows mic, none⟩ ∧ ((out.1.files ++ out.2.files).map Prod.fst).Nodup := by
  obtain ⟨step, hstep, -⟩ := C24_every_sample_has_one_step (T := 128) (N := 160000) (by norm_num) (.uniform none)
  obtain ⟨c, src, mic, walk, out, h, hs, -, -, hsc, -, -, -, -, -, hf, hf'⟩ := C97_output conv (halvingWorld randn)
    (r := fun _ => 0) (fun k => ⟨le_rfl, zero_le_one⟩) 7 16000 (by norm_num) 6400 (by norm_num)
    (by rw [eq_comm, Int.ceil_eq_iff]; norm_num) () rfl _ (halving_acts randn 6400) x step hstep
  exact ⟨c, src, mic, out, h, hs, hsc, C97_file_names hf hf'⟩

/-- The centre with a generator that always gives 0. -/
example : startCenter (fun _ => 0) 0 = [3.97, 2.97, 1.49] := by
  norm_num [startCenter, vadd, uniform]

/-- The sources come closer from step 0 to step 1 and move apart in the last step. -/
example : ∃ (src : Fin 2 → Fin 3 → ℝ) (p : Fin 128 → Fin 3 → ℝ), Spec.dist (p 1) (src 0) < Spec.dist (p 0) (src 0) ∧
    ¬ Spec.dist (p 127) (src 0) < Spec.dist (p 126) (src 0) := by
  obtain ⟨c, src, mic, walk, sc, -, -, h2, -, -, h5, -⟩ :=
    C97_dynamic_scene (r := fun _ => 0) (fun k => ⟨le_rfl, zero_le_one⟩) 0
  have h := (C97_approach h2 _ h5).1
  exact ⟨src, fun t => walk t 1, (h 0 (by norm_num)).mpr (by norm_num), fun h' => absurd ((h 126 (by norm_num)).mp h') (by norm_num)⟩

end Torchrir.Props
