import Verif.Model.Sampling
import Verif.Spec.Geometry
import Verif.Lemmas.Directivity
import Mathlib.RingTheory.RootsOfUnity.Complex
import Mathlib.Analysis.SpecialFunctions.Trigonometric.Basic

/-! # Vectors, circles and regular polyhedra -/

namespace Torchrir.Lemmas

open Torchrir.Model
open Torchrir.Spec

theorem vadd_ofFn {d : ℕ} (a b : Fin d → ℝ) :
    vadd (List.ofFn a) (List.ofFn b) = List.ofFn fun i => a i + b i := by
  unfold vadd
  apply List.ext_getElem <;> simp

theorem vsub_ofFn' {d : ℕ} (a b : Fin d → ℝ) :
    vsub (List.ofFn a) (List.ofFn b) = List.ofFn fun i => a i - b i := by
  unfold vsub
  apply List.ext_getElem <;> simp

theorem vscale_ofFn {d : ℕ} (s : ℝ) (a : Fin d → ℝ) :
    vscale s (List.ofFn a) = List.ofFn fun i => s * a i := by
  unfold vscale
  apply List.ext_getElem <;> simp

theorem set_replicate_ofFn {d : ℕ} (a : Fin d) (x : ℝ) :
    (List.replicate d (0 : ℝ)).set a x = List.ofFn fun i => if i = a then x else 0 := by
  apply List.ext_getElem
  · simp
  · intro n h1 h2
    rw [List.getElem_set]
    simp only [List.getElem_replicate, List.getElem_ofFn, Fin.ext_iff]
    split_ifs <;> first | rfl | omega

theorem map_range_rows {n d : ℕ} (f : ℕ → List ℝ) (p : Fin n → Fin d → ℝ)
    (h : ∀ k : Fin n, f k = List.ofFn (p k)) : (List.range n).map f = rows p := by
  unfold rows
  apply List.ext_getElem
  · simp
  · intro k h1 h2
    simp only [List.getElem_map, List.getElem_range, List.getElem_ofFn]
    exact h ⟨k, by simpa using h1⟩

theorem unitOf_floating {d : ℕ} (v : Fin d → ℝ) (h : v ≠ 0) :
    unitOf .floating (List.ofFn v) = .ok (List.ofFn fun i => v i / fnorm v) := by
  unfold unitOf
  rw [if_neg (by decide), norm2_ofFn', if_neg (fnorm_pos h).ne', List.map_ofFn]
  rfl

theorem norm2_eq_zero_iff {d : ℕ} (v : Fin d → ℝ) : norm2 (List.ofFn v) = 0 ↔ v = 0 := by
  rw [norm2_ofFn']
  constructor
  · intro h
    by_contra hv
    exact (fnorm_pos hv).ne' h
  · rintro rfl
    simp [fnorm]

theorem unitOf_zero {d : ℕ} : unitOf .floating (List.ofFn (0 : Fin d → ℝ)) = .error "NaN" := by
  unfold unitOf
  rw [if_neg (by decide), norm2_ofFn', if_pos]
  simp [fnorm]

/-- Distance along a line. -/
theorem dist_line {d : ℕ} (c v : Fin d → ℝ) (hv : ∑ i, v i ^ 2 = 1) (s t : ℝ) :
    Spec.dist (fun i => c i + s * v i) (fun i => c i + t * v i) = |s - t| := by
  unfold Spec.dist
  have : ∀ i, (c i + s * v i - (c i + t * v i)) ^ 2 = (s - t) ^ 2 * v i ^ 2 := fun i => by ring
  simp only [this, ← Finset.mul_sum, hv, mul_one]
  exact Real.sqrt_sq_eq_abs _

theorem sum_offsets (n : ℕ) : ∑ k : Fin n, ((k : ℝ) - ((n : ℝ) - 1) / 2) = 0 := by
  rw [Finset.sum_sub_distrib, Fin.sum_univ_eq_sum_range (fun k => (k : ℝ)) n]
  have : ∑ k ∈ Finset.range n, (k : ℝ) = (n : ℝ) * (n - 1) / 2 := by
    induction n with
    | zero => simp
    | succ m ih => rw [Finset.sum_range_succ, ih]; push_cast; ring
  rw [this]
  simp
  ring

theorem evenLine {n d : ℕ} (c v : Fin d → ℝ) (a : ℝ) (ha : 0 < a) (hv : ∑ i, (a * v i) ^ 2 = 1)
    (spacing : ℝ) (hs : 0 < spacing) :
    EvenLine (fun (k : Fin n) i => c i + (((k : ℝ) - ((n : ℝ) - 1) / 2) * spacing) * (a * v i)) c v
      spacing where
  onLine := by
    refine ⟨fun k => ((k : ℝ) - ((n : ℝ) - 1) / 2) * spacing * a, ?_, fun k i => by ring⟩
    intro j k hjk
    have : (j : ℝ) < k := by exact_mod_cast hjk
    dsimp only
    have h1 : ((j : ℝ) - ((n : ℝ) - 1) / 2) * spacing < ((k : ℝ) - ((n : ℝ) - 1) / 2) * spacing :=
      mul_lt_mul_of_pos_right (by linarith) hs
    exact mul_lt_mul_of_pos_right h1 ha
  apart := by
    intro j k
    rw [dist_line c (fun i => a * v i) hv, ← sub_mul, abs_mul, abs_of_pos hs, mul_comm]
    congr 2
    ring
  centred := by
    intro i
    rw [Finset.sum_add_distrib, ← Finset.sum_mul, ← Finset.sum_mul, sum_offsets]
    simp

/-! ## Circles -/

theorem sum_circle (n : ℕ) (hn : 2 ≤ n) :
    ∑ k : Fin n, Real.cos (2 * Real.pi * k / n) = 0 ∧
    ∑ k : Fin n, Real.sin (2 * Real.pi * k / n) = 0 := by
  have h0 : n ≠ 0 := by omega
  have h := (Complex.isPrimitiveRoot_exp n h0).geom_sum_eq_zero (by omega)
  have e : ∀ k : ℕ, Complex.exp (2 * Real.pi * Complex.I / n) ^ k =
      (Real.cos (2 * Real.pi * k / n) : ℂ) + (Real.sin (2 * Real.pi * k / n) : ℂ) * Complex.I := by
    intro k
    rw [← Complex.exp_nat_mul, Complex.ofReal_cos, Complex.ofReal_sin, ← Complex.exp_mul_I]
    congr 1
    push_cast
    ring
  simp only [e] at h
  rw [Finset.sum_add_distrib, ← Finset.sum_mul, ← Complex.ofReal_sum, ← Complex.ofReal_sum] at h
  have hre := congrArg Complex.re h
  have him := congrArg Complex.im h
  simp only [Complex.add_re, Complex.add_im, Complex.mul_re, Complex.mul_im, Complex.ofReal_re,
    Complex.ofReal_im, Complex.I_re, Complex.I_im, Complex.zero_re, Complex.zero_im, mul_zero,
    mul_one, zero_mul, sub_zero, add_zero, zero_add] at hre him
  rw [Fin.sum_univ_eq_sum_range (fun k => Real.cos (2 * Real.pi * k / n)) n,
    Fin.sum_univ_eq_sum_range (fun k => Real.sin (2 * Real.pi * k / n)) n]
  exact ⟨hre, him⟩

theorem evenCircle {n d : ℕ} (c e f : Fin d → ℝ) (h : Orthonormal2 e f) (radius : ℝ)
    (hr : 0 < radius) :
    EvenCircle (fun (k : Fin n) i => c i + radius *
      (Real.cos (2 * Real.pi * k / n) * e i + Real.sin (2 * Real.pi * k / n) * f i)) c e f radius where
  orthonormal := h
  position := fun _ _ => rfl
  onSphere := by
    intro k
    unfold Spec.dist
    generalize 2 * Real.pi * k / n = a
    have e1 : ∀ i, (c i + radius * (Real.cos a * e i + Real.sin a * f i) - c i) ^ 2 =
        radius ^ 2 * (Real.cos a ^ 2 * e i ^ 2 + 2 * Real.cos a * Real.sin a * (e i * f i) +
          Real.sin a ^ 2 * f i ^ 2) := fun i => by ring
    simp only [e1, ← Finset.mul_sum, Finset.sum_add_distrib, h.unit_left, h.unit_right, h.perp]
    rw [show radius ^ 2 * (Real.cos a ^ 2 * 1 + 2 * Real.cos a * Real.sin a * 0 +
      Real.sin a ^ 2 * 1) = radius ^ 2 * (Real.cos a ^ 2 + Real.sin a ^ 2) by ring,
      Real.cos_sq_add_sin_sq, mul_one, Real.sqrt_sq hr.le]
  centred := by
    intro hn i
    rw [Finset.sum_add_distrib, ← Finset.mul_sum, Finset.sum_add_distrib, ← Finset.sum_mul,
      ← Finset.sum_mul, (sum_circle n hn).1, (sum_circle n hn).2]
    simp

theorem circleAngles_floating (il : ℕ → List ℤ) (n : ℕ) (hn : 0 < n) :
    circleAngles il .floating n = (List.range n).map fun (k : ℕ) => 2 * Real.pi * k / n := by
  unfold circleAngles linspace
  dsimp only
  rw [if_neg (by omega), ← List.map_dropLast, List.range_succ, List.dropLast_concat]
  apply List.map_congr_left
  intro k _
  push_cast
  rw [show ((n : ℝ) + 1 - 1) = n by ring]
  ring

theorem cross_ofFn (a b : Fin 3 → ℝ) : cross (List.ofFn a) (List.ofFn b) =
    List.ofFn ![a 1 * b 2 - a 2 * b 1, a 2 * b 0 - a 0 * b 2, a 0 * b 1 - a 1 * b 0] := by
  simp [List.ofFn_succ, cross]

theorem unit_of_ne_zero {d : ℕ} (v : Fin d → ℝ) (h : v ≠ 0) : ∑ i, (v i / fnorm v) ^ 2 = 1 := by
  have h1 := fnorm_unit v (fnorm_pos h)
  unfold fnorm at h1
  rwa [Real.sqrt_eq_one] at h1

/-- Two unit vectors completing a unit vector to an orthogonal frame. -/
theorem frame_ok (n ref : Fin 3 → ℝ) (hn : ∑ i, n i ^ 2 = 1)
    (h : ![n 1 * ref 2 - n 2 * ref 1, n 2 * ref 0 - n 0 * ref 2, n 0 * ref 1 - n 1 * ref 0] ≠
      (0 : Fin 3 → ℝ)) :
    ∃ e f : Fin 3 → ℝ, (do
      let x ← unitOf .floating (cross (List.ofFn n) (List.ofFn ref))
      let y ← unitOf .floating (cross (List.ofFn n) x)
      return (x, y) : Except String (Vec × Vec)) = .ok (List.ofFn e, List.ofFn f) ∧
      Orthonormal2 e f ∧ ∑ i, n i * e i = 0 ∧ ∑ i, n i * f i = 0 := by
  have hm := fnorm_pos h
  have he := unit_of_ne_zero _ h
  rw [cross_ofFn, unitOf_floating _ h, ok_bind]
  have hne : ∑ i, n i * ((![n 1 * ref 2 - n 2 * ref 1, n 2 * ref 0 - n 0 * ref 2,
      n 0 * ref 1 - n 1 * ref 0] : Fin 3 → ℝ) i / fnorm ![n 1 * ref 2 - n 2 * ref 1,
      n 2 * ref 0 - n 0 * ref 2, n 0 * ref 1 - n 1 * ref 0]) = 0 := by
    rw [Fin.sum_univ_three]
    simp only [Matrix.cons_val_zero, Matrix.cons_val_one, Matrix.cons_val]
    field_simp
    ring
  obtain ⟨e, hee⟩ : ∃ e : Fin 3 → ℝ, (fun i => (![n 1 * ref 2 - n 2 * ref 1,
      n 2 * ref 0 - n 0 * ref 2, n 0 * ref 1 - n 1 * ref 0] : Fin 3 → ℝ) i /
      fnorm ![n 1 * ref 2 - n 2 * ref 1, n 2 * ref 0 - n 0 * ref 2,
        n 0 * ref 1 - n 1 * ref 0]) = e := ⟨_, rfl⟩
  have he' : ∑ i, e i ^ 2 = 1 := by rw [← hee]; exact he
  have hne' : ∑ i, n i * e i = 0 := by rw [← hee]; exact hne
  rw [hee]
  clear he hne hee
  rw [Fin.sum_univ_three] at hn he' hne'
  have hf : ∑ i, (![n 1 * e 2 - n 2 * e 1, n 2 * e 0 - n 0 * e 2, n 0 * e 1 - n 1 * e 0] :
      Fin 3 → ℝ) i ^ 2 = 1 := by
    rw [Fin.sum_univ_three]
    simp only [Matrix.cons_val_zero, Matrix.cons_val_one, Matrix.cons_val]
    linear_combination (e 0 ^ 2 + e 1 ^ 2 + e 2 ^ 2) * hn + he' -
      (n 0 * e 0 + n 1 * e 1 + n 2 * e 2) * hne'
  have hf1 : fnorm ![n 1 * e 2 - n 2 * e 1, n 2 * e 0 - n 0 * e 2, n 0 * e 1 - n 1 * e 0] = 1 := by
    unfold fnorm
    rw [hf, Real.sqrt_one]
  rw [cross_ofFn, unitOf_floating _ (by
    intro h0
    rw [h0] at hf
    simp at hf), ok_bind]
  refine ⟨e, _, rfl, ⟨?_, ?_, ?_⟩, ?_, ?_⟩
  · rw [Fin.sum_univ_three]; exact he'
  · simp only [hf1, div_one]; exact hf
  · rw [Fin.sum_univ_three]
    simp only [hf1, div_one, Matrix.cons_val_zero, Matrix.cons_val_one, Matrix.cons_val]
    ring
  · rw [Fin.sum_univ_three]; exact hne'
  · rw [Fin.sum_univ_three]
    simp only [hf1, div_one, Matrix.cons_val_zero, Matrix.cons_val_one, Matrix.cons_val]
    ring

theorem basisFromNormal_ok (v : Fin 3 → ℝ) (h0 : v ≠ 0) (hx : ¬ OppositeX v) :
    ∃ e f : Fin 3 → ℝ, basisFromNormal .floating (List.ofFn v) = .ok (List.ofFn e, List.ofFn f) ∧
      Orthonormal2 e f ∧ ∑ i, v i * e i = 0 ∧ ∑ i, v i * f i = 0 := by
  have hpos := fnorm_pos h0
  have hn := unit_of_ne_zero v h0
  unfold basisFromNormal
  rw [raiseIf_neg (by simp), ok_bind, unitOf_floating v h0, ok_bind]
  have main : ∀ ref : Fin 3 → ℝ, (![v 1 / fnorm v * ref 2 - v 2 / fnorm v * ref 1,
      v 2 / fnorm v * ref 0 - v 0 / fnorm v * ref 2,
      v 0 / fnorm v * ref 1 - v 1 / fnorm v * ref 0] ≠ (0 : Fin 3 → ℝ)) →
      ∃ e f : Fin 3 → ℝ, (do
      let x ← unitOf .floating (cross (List.ofFn fun i => v i / fnorm v) (List.ofFn ref))
      let y ← unitOf .floating (cross (List.ofFn fun i => v i / fnorm v) x)
      return (x, y) : Except String (Vec × Vec)) = .ok (List.ofFn e, List.ofFn f) ∧
      Orthonormal2 e f ∧ ∑ i, v i * e i = 0 ∧ ∑ i, v i * f i = 0 := by
    intro ref href
    obtain ⟨e, f, h1, h2, h3, h4⟩ := frame_ok (fun i => v i / fnorm v) ref hn href
    refine ⟨e, f, h1, h2, ?_, ?_⟩
    · have : ∑ i, v i / fnorm v * e i = (∑ i, v i * e i) / fnorm v := by
        rw [Finset.sum_div]
        exact Finset.sum_congr rfl fun i _ => by ring
      rw [this, div_eq_zero_iff] at h3
      exact h3.resolve_right hpos.ne'
    · have : ∑ i, v i / fnorm v * f i = (∑ i, v i * f i) / fnorm v := by
        rw [Finset.sum_div]
        exact Finset.sum_congr rfl fun i _ => by ring
      rw [this, div_eq_zero_iff] at h4
      exact h4.resolve_right hpos.ne'
  by_cases hc : allclose (List.ofFn fun i => v i / fnorm v) [1, 0, 0]
  · rw [if_pos hc]
    refine main ![0, 1, 0] ?_
    intro hz
    have h2 := congrFun hz 2
    simp only [Matrix.cons_val_zero, Matrix.cons_val_one, Matrix.cons_val, mul_one, mul_zero,
      sub_zero, Pi.zero_apply] at h2
    have := hc (v 0 / fnorm v, 1) (by simp [List.ofFn_succ])
    rw [h2] at this
    norm_num at this
  · rw [if_neg hc]
    refine main ![1, 0, 0] ?_
    intro hz
    have h1 := congrFun hz 1
    have h2 := congrFun hz 2
    simp only [Matrix.cons_val_zero, Matrix.cons_val_one, Matrix.cons_val, mul_one, mul_zero,
      sub_zero, Pi.zero_apply, zero_sub, neg_eq_zero] at h1 h2
    rw [Fin.sum_univ_three, h1, h2] at hn
    have hsq : (v 0 / fnorm v - 1) * (v 0 / fnorm v + 1) = 0 := by linarith [hn]
    rcases mul_eq_zero.mp hsq with hh | hh
    · apply hc
      have h3 : v 0 / fnorm v = 1 := by linarith
      intro q hq
      simp only [List.ofFn_succ, List.ofFn_zero, List.zip_cons_cons, List.zip_nil_right,
        List.mem_cons, List.not_mem_nil, or_false, Fin.succ_zero_eq_one, Fin.succ_one_eq_two, h1, h2,
        h3] at hq
      rcases hq with rfl | rfl | rfl <;> norm_num
    · refine hx ⟨?_, ?_, ?_⟩
      · have h3 : v 0 / fnorm v = -1 := by linarith
        rw [div_eq_iff hpos.ne'] at h3
        linarith
      · exact (div_eq_zero_iff.mp h2).resolve_right hpos.ne'
      · exact (div_eq_zero_iff.mp h1).resolve_right hpos.ne'

theorem basisFromNormal_opposite (v : Fin 3 → ℝ) (hx : OppositeX v) :
    basisFromNormal .floating (List.ofFn v) = .error "NaN" := by
  obtain ⟨a, b, c⟩ := hx
  have h0 : v ≠ 0 := fun h => by simp [h] at a
  have hv : fnorm v = -v 0 := by
    unfold fnorm
    rw [Fin.sum_univ_three, b, c]
    norm_num
    rw [Real.sqrt_sq_eq_abs, abs_of_neg a]
  unfold basisFromNormal
  rw [raiseIf_neg (by simp), ok_bind, unitOf_floating v h0, ok_bind]
  dsimp only
  rw [if_neg]
  · have : cross (List.ofFn fun i => v i / fnorm v) [1, 0, 0] = List.ofFn (0 : Fin 3 → ℝ) := by
      rw [show ([1, 0, 0] : Vec) = List.ofFn ![(1 : ℝ), 0, 0] by simp [List.ofFn_succ], cross_ofFn]
      simp [b, c]
    rw [this, unitOf_zero]
    rfl
  · intro hc
    have := hc (v 0 / fnorm v, 1) (by simp [List.ofFn_succ])
    rw [hv, div_neg, div_self a.ne] at this
    norm_num at this

theorem basisFromNormal_zero : basisFromNormal .floating (List.ofFn (0 : Fin 3 → ℝ)) = .error "NaN" := by
  unfold basisFromNormal
  rw [raiseIf_neg (by simp), ok_bind, unitOf_zero]
  rfl

end Torchrir.Lemmas
