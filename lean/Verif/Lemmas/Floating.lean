import Verif.Spec.Floating
import Verif.Lemmas.Rounded
import Verif.Lemmas.Movement
import Mathlib.Data.Int.Log
import Mathlib.Analysis.Real.Pi.Bounds

/-! # Errors of floating-point calculations -/

namespace Torchrir.Lemmas

open Torchrir.Model
open Torchrir.Spec

/-! ## Rounding to nearest -/

/-- The multiple of the last place of `x` that is next to `x`. -/
noncomputable def toNearest (p : ℕ) (x : ℝ) : ℝ :=
  round (x / (2 : ℝ) ^ (Int.log 2 |x| - p + 1)) * (2 : ℝ) ^ (Int.log 2 |x| - p + 1)

theorem log_bounds {x : ℝ} (hx : x ≠ 0) :
    (2 : ℝ) ^ Int.log 2 |x| ≤ |x| ∧ |x| < (2 : ℝ) ^ (Int.log 2 |x| + 1) := by
  have h := abs_pos.mpr hx
  constructor
  · have := Int.zpow_log_le_self (R := ℝ) (b := 2) (by norm_num) h
    exact_mod_cast this
  · have := Int.lt_zpow_succ_log_self (R := ℝ) (b := 2) (by norm_num) |x|
    exact_mod_cast this

theorem round_mono {x y : ℝ} (h : x ≤ y) : round x ≤ round y := by
  rw [round_eq, round_eq]
  exact Int.floor_le_floor (by linarith)

theorem toNearest_isFloat (p : ℕ) (x : ℝ) : IsFloat p (toNearest p x) := by
  refine ⟨_, _, ?_, rfl⟩
  set e := Int.log 2 |x| - p + 1 with he
  have h2 : (0 : ℝ) < (2 : ℝ) ^ e := by positivity
  have hb : |x / (2 : ℝ) ^ e| ≤ (2 : ℝ) ^ p := by
    rw [abs_div, abs_of_pos h2, div_le_iff₀ h2]
    by_cases hx : x = 0
    · rw [hx, abs_zero]; positivity
    · refine le_of_lt (lt_of_lt_of_eq (log_bounds hx).2 ?_)
      rw [← zpow_natCast, ← zpow_add₀ (by norm_num)]
      congr 1
      rw [he]; ring
  rw [abs_le] at hb ⊢
  constructor
  · have := round_mono hb.1
    rw [show (-(2 : ℝ) ^ p) = ((-(2 ^ p) : ℤ) : ℝ) by push_cast; rfl, round_intCast] at this
    exact this
  · have := round_mono hb.2
    rw [show ((2 : ℝ) ^ p) = (((2 ^ p) : ℤ) : ℝ) by push_cast; rfl, round_intCast] at this
    exact this

theorem toNearest_near (p : ℕ) (x : ℝ) : |toNearest p x - x| ≤ roundoff p * |x| := by
  by_cases hx : x = 0
  · subst hx; simp [toNearest]
  unfold toNearest
  set e := Int.log 2 |x| - p + 1 with he
  have h2 : (0 : ℝ) < (2 : ℝ) ^ e := by positivity
  have e1 : (round (x / (2 : ℝ) ^ e) : ℝ) * (2 : ℝ) ^ e - x
      = (round (x / (2 : ℝ) ^ e) - x / (2 : ℝ) ^ e) * (2 : ℝ) ^ e := by
    field_simp
  rw [e1, abs_mul, abs_of_pos h2, abs_sub_comm]
  have e2 := abs_sub_round (x / (2 : ℝ) ^ e)
  have e3 : (1 / 2 : ℝ) * (2 : ℝ) ^ e = roundoff p * (2 : ℝ) ^ Int.log 2 |x| := by
    unfold roundoff
    rw [he, zpow_add₀ (by norm_num), zpow_sub₀ (by norm_num), zpow_natCast, inv_pow]
    field_simp
  calc _ ≤ (1 / 2 : ℝ) * (2 : ℝ) ^ e := by gcongr
    _ = roundoff p * (2 : ℝ) ^ Int.log 2 |x| := e3
    _ ≤ roundoff p * |x| := by
      have := (log_bounds hx).1
      unfold roundoff
      gcongr

/-- Rounding to nearest exists. -/
theorem toNearest_rounds {p : ℕ} (hp : 1 ≤ p) : RoundsToNearest p (toNearest p) := by
  intro x
  refine ⟨toNearest_isFloat p x, ?_⟩
  rintro y ⟨m, e', hm, rfl⟩
  by_cases hx : x = 0
  · subst hx
    simp only [toNearest, zero_div, round_zero, Int.cast_zero, zero_mul, sub_zero, abs_zero]
    exact abs_nonneg _
  have hlog := log_bounds hx
  unfold toNearest
  set l := Int.log 2 |x| with hl
  set e := l - p + 1 with he
  have h2 : (0 : ℝ) < (2 : ℝ) ^ e := by positivity
  -- multiples of the last place
  have key : ∀ z : ℤ, |(round (x / (2 : ℝ) ^ e) : ℝ) * (2 : ℝ) ^ e - x| ≤ |(z : ℝ) * (2 : ℝ) ^ e - x| := by
    intro z
    have e1 : ∀ t : ℝ, |t * (2 : ℝ) ^ e - x| = |x / (2 : ℝ) ^ e - t| * (2 : ℝ) ^ e := by
      intro t
      rw [abs_sub_comm, ← abs_of_pos h2, ← abs_mul, abs_of_pos h2]
      congr 1
      field_simp
    rw [e1, e1]
    exact mul_le_mul_of_nonneg_right (round_le _ _) h2.le
  by_cases hee : e ≤ e'
  · have e1 : (m : ℝ) * (2 : ℝ) ^ e' = ((m * 2 ^ (e' - e).toNat : ℤ) : ℝ) * (2 : ℝ) ^ e := by
      push_cast
      rw [mul_assoc, ← zpow_natCast, ← zpow_add₀ (by norm_num), Int.toNat_of_nonneg (by omega)]
      congr 2
      ring
    rw [e1]
    exact key _
  · -- `y` is not further from zero than the power of two below `x`
    have hy : |(m : ℝ) * (2 : ℝ) ^ e'| ≤ (2 : ℝ) ^ l := by
      rw [abs_mul, abs_of_pos (by positivity : (0 : ℝ) < (2 : ℝ) ^ e')]
      have hm' : |(m : ℝ)| ≤ (2 : ℝ) ^ (p : ℤ) := by
        rw [zpow_natCast]; exact_mod_cast hm
      calc |(m : ℝ)| * (2 : ℝ) ^ e' ≤ (2 : ℝ) ^ (p : ℤ) * (2 : ℝ) ^ (e - 1) := by
            gcongr
            · norm_num
            · omega
        _ = (2 : ℝ) ^ l := by
            rw [← zpow_add₀ (by norm_num)]
            congr 1
            rw [he]; ring
    have hpow : (2 : ℝ) ^ l = ((2 ^ (p - 1) : ℤ) : ℝ) * (2 : ℝ) ^ e := by
      push_cast
      rw [← zpow_natCast, ← zpow_add₀ (by norm_num)]
      congr 1
      rw [he]; push_cast [Nat.cast_sub hp]; ring
    rw [abs_le] at hy
    rcases lt_or_gt_of_ne hx with h | h
    · rw [abs_of_neg h] at hlog
      refine (key (-(2 ^ (p - 1)))).trans ?_
      have : (((-(2 ^ (p - 1)) : ℤ)) : ℝ) * (2 : ℝ) ^ e = -(2 : ℝ) ^ l := by
        rw [hpow]; push_cast; ring
      rw [this, abs_of_nonneg (by linarith), abs_of_nonneg (by linarith)]
      linarith
    · rw [abs_of_pos h] at hlog
      refine (key (2 ^ (p - 1))).trans ?_
      rw [← hpow, abs_of_nonpos (by linarith), abs_of_nonpos (by linarith)]
      linarith

section
variable {p : ℕ} {fl : ℝ → ℝ} (h : RoundsToNearest p fl)
include h

theorem fl_near (x : ℝ) : |fl x - x| ≤ roundoff p * |x| :=
  ((h x).2 _ (toNearest_isFloat p x)).trans (toNearest_near p x)

theorem fl_float {y : ℝ} (hy : IsFloat p y) : fl y = y := by
  have := (h y).2 y hy
  rw [sub_self, abs_zero] at this
  exact sub_eq_zero.mp (abs_nonpos_iff.mp this)

theorem fl_nat {n : ℕ} (hn : n ≤ 2 ^ p) : fl n = n :=
  fl_float h ⟨n, 0, by rw [abs_of_nonneg (by positivity)]; exact_mod_cast hn, by simp⟩

theorem fl_mono : Monotone fl := by
  intro x y hxy
  rcases hxy.eq_or_lt with rfl | hlt
  · exact le_rfl
  by_contra hc
  push Not at hc
  have h1 := (h x).2 _ (h y).1
  have h2 := (h y).2 _ (h x).1
  rw [← sq_le_sq] at h1 h2
  nlinarith

end

/-! ## How errors grow -/

/-- Rounding with relative error `u`, `u` small. -/
structure Rounds (u : ℝ) (fl : ℝ → ℝ) : Prop where
  pos : 0 < u
  small : u ≤ 1 / 10000
  near : ∀ x, |fl x - x| ≤ u * |x|

theorem rounds_of_nearest {p : ℕ} (hp : 14 ≤ p) {fl : ℝ → ℝ} (h : RoundsToNearest p fl) :
    Rounds (roundoff p) fl := by
  refine ⟨by unfold roundoff; positivity, ?_, fl_near h⟩
  unfold roundoff
  calc (2⁻¹ : ℝ) ^ p ≤ 2⁻¹ ^ 14 := pow_le_pow_of_le_one (by norm_num) (by norm_num) hp
    _ ≤ 1 / 10000 := by norm_num

variable {u : ℝ} {fl : ℝ → ℝ}

theorem Rounds.err (h : Rounds u fl) {x a E : ℝ} (hx : |x - a| ≤ E) :
    |fl x - a| ≤ E + u * (|a| + E) := by
  have h1 := h.near x
  have h2 : |x| ≤ |a| + E := by
    have : x = a + (x - a) := by ring
    rw [this]
    exact (abs_add_le _ _).trans (by linarith)
  have h3 : fl x - a = (fl x - x) + (x - a) := by ring
  rw [h3]
  refine (abs_add_le _ _).trans ?_
  have := mul_le_mul_of_nonneg_left h2 h.pos.le
  linarith

theorem mul_err {x a y b α β : ℝ} (hx : |x - a| ≤ α * |a|) (hy : |y - b| ≤ β * |b|) (hα : 0 ≤ α) :
    |x * y - a * b| ≤ (α + β + α * β) * |a * b| := by
  have e : x * y - a * b = (x - a) * (y - b) + (x - a) * b + a * (y - b) := by ring
  rw [e, abs_mul a b]
  have h1 : |(x - a) * (y - b)| ≤ α * |a| * (β * |b|) := by
    rw [abs_mul]
    exact mul_le_mul hx hy (abs_nonneg _) (mul_nonneg hα (abs_nonneg _))
  have h2 : |(x - a) * b| ≤ α * |a| * |b| := by
    rw [abs_mul]
    exact mul_le_mul_of_nonneg_right hx (abs_nonneg _)
  have h3 : |a * (y - b)| ≤ |a| * (β * |b|) := by
    rw [abs_mul]
    exact mul_le_mul_of_nonneg_left hy (abs_nonneg _)
  have := abs_add_le ((x - a) * (y - b) + (x - a) * b) (a * (y - b))
  have := abs_add_le ((x - a) * (y - b)) ((x - a) * b)
  linarith

/-- The relative error of a rounded result. -/
theorem Rounds.rel (h : Rounds u fl) {x a α : ℝ} (hx : |x - a| ≤ α * |a|) :
    |fl x - a| ≤ (α + u + u * α) * |a| := by
  refine (h.err hx).trans (le_of_eq ?_)
  ring

/-! ## Path lengths -/

theorem dist_le_sum {d : ℕ} (x y : Fin d → ℝ) : Spec.dist x y ≤ ∑ i, |x i - y i| := by
  unfold Spec.dist
  rw [Real.sqrt_le_left (Finset.sum_nonneg fun i _ => abs_nonneg _)]
  refine le_trans (le_of_eq ?_) (Finset.sum_sq_le_sq_sum_of_nonneg fun i _ => abs_nonneg _)
  exact Finset.sum_congr rfl fun i _ => (sq_abs _).symm

/-- One coordinate of the vector from an image to the microphone. -/
theorem Rounds.coordinate (h : Rounds u fl) (L k σ s m : ℝ) (hσ : |σ| = 1) :
    |fl (m - fl (fl (fl (2 * L) * fl k) + fl (σ * s))) - (m - (2 * L * k + σ * s))|
      ≤ 5.1 * u * (|m| + |2 * L * k| + |s|) := by
  have hu := h.pos
  have hs := h.small
  have h1 := h.near (2 * L)
  have h2 := h.near k
  have h3 := h.rel (mul_err h1 h2 hu.le)
  set b := 2 * L * k
  set b' := fl (fl (2 * L) * fl k)
  have h4 := h.near (σ * s)
  have hσs : |σ * s| = |s| := by rw [abs_mul, hσ, one_mul]
  rw [hσs] at h4
  set s' := fl (σ * s)
  have u2 : u * u ≤ u / 10000 := by nlinarith
  have u3 : u * (u * u) ≤ u / 10000 := by nlinarith
  have h5 : |b' - b| ≤ 3.01 * u * |b| := by
    refine h3.trans (mul_le_mul_of_nonneg_right ?_ (abs_nonneg _))
    nlinarith
  have h6 : |b' + s' - (b + σ * s)| ≤ 3.01 * u * |b| + u * |s| := by
    have e : b' + s' - (b + σ * s) = (b' - b) + (s' - σ * s) := by ring
    rw [e]
    exact (abs_add_le _ _).trans (add_le_add h5 h4)
  have h7 := h.err h6
  have h8 : |b + σ * s| ≤ |b| + |s| := (abs_add_le _ _).trans (by rw [hσs])
  have hb := abs_nonneg b
  have hs0 := abs_nonneg s
  have hm0 := abs_nonneg m
  have ub : u * (u * |b|) ≤ u * |b| / 10000 := by nlinarith [mul_nonneg hu.le hb]
  have us : u * (u * |s|) ≤ u * |s| / 10000 := by nlinarith [mul_nonneg hu.le hs0]
  have um : u * (u * |m|) ≤ u * |m| / 10000 := by nlinarith [mul_nonneg hu.le hm0]
  have ub0 := mul_nonneg hu.le hb
  have us0 := mul_nonneg hu.le hs0
  have um0 := mul_nonneg hu.le hm0
  have h9 : |fl (b' + s') - (b + σ * s)| ≤ 4.02 * u * |b| + 2.01 * u * |s| := by
    refine h7.trans ?_
    have := mul_le_mul_of_nonneg_left h8 hu.le
    nlinarith
  have h10 : |m - fl (b' + s') - (m - (b + σ * s))| ≤ 4.02 * u * |b| + 2.01 * u * |s| := by
    have e : m - fl (b' + s') - (m - (b + σ * s)) = -(fl (b' + s') - (b + σ * s)) := by ring
    rw [e, abs_neg]
    exact h9
  refine (h.err h10).trans ?_
  have h11 : |m - (b + σ * s)| ≤ |m| + (|b| + |s|) := (abs_sub _ _).trans (by linarith)
  have := mul_le_mul_of_nonneg_left h11 hu.le
  nlinarith

theorem imageSign_abs (n : ℤ) : |imageSign n| = 1 := by
  unfold imageSign
  split <;> simp

/-- The computed vector from an image to the microphone. -/
noncomputable def vecFloat (F : Floats) {d : ℕ} (L src mic : Fin d → ℝ) (n : Fin d → ℤ) (i : Fin d) : ℝ :=
  F.fl (mic i - F.fl (F.imageBase (L i) (n i) + F.fl (imageSign (n i) * src i)))

theorem vecFloat_eq (F : Floats) {d : ℕ} (L src mic : Fin d → ℝ) (n : Fin d → ℤ) :
    List.zipWith (fun a b => F.fl (a - b)) (List.ofFn mic)
        (F.imagePosition (List.ofFn src) (List.ofFn L) (List.ofFn n))
      = List.ofFn (vecFloat F L src mic n) := by
  unfold Floats.imagePosition
  rw [zipWith_ofFn, zipWith_ofFn, zipWith_ofFn, zipWith_ofFn]
  rfl

theorem image_eq {d : ℕ} (L src : Fin d → ℝ) (n : Fin d → ℤ) (i : Fin d) :
    image L src n i = 2 * L i * (((n i + 1) / 2 : ℤ) : ℝ) + imageSign (n i) * src i :=
  (axis_image _ _ _).symm

theorem sum_sq_ofFn {d : ℕ} (v : Fin d → ℝ) :
    Real.sqrt (((List.ofFn v).map fun x => x ^ 2).sum) = Spec.dist v 0 := by
  unfold Spec.dist
  rw [List.map_ofFn, List.sum_ofFn]
  simp

theorem dist_zero_sub {d : ℕ} (x y : Fin d → ℝ) : Spec.dist (x - y) 0 = Spec.dist x y := by
  unfold Spec.dist
  simp

/-- The scale bounds the path length. -/
theorem pathLength_le_scale {d : ℕ} (L src mic : Fin d → ℝ) (n : Fin d → ℤ) :
    pathLength mic (image L src n) ≤ pathScale L src mic n := by
  unfold pathLength pathScale
  have h0 : 0 ≤ ∑ i, (|mic i| + 2 * |src i| + |image L src n i|) :=
    Finset.sum_nonneg fun i _ => by positivity
  refine max_le ?_ (by linarith)
  refine (dist_le_sum _ _).trans ?_
  have : ∑ i, |mic i - image L src n i| ≤ ∑ i, (|mic i| + 2 * |src i| + |image L src n i|) :=
    Finset.sum_le_sum fun i _ => (abs_sub _ _).trans (by linarith [abs_nonneg (src i)])
  have h6 : (0 : ℝ) ≤ 1e-6 := by norm_num
  linarith

/-- The coordinates of the computed vector from an image to the microphone. -/
theorem vecFloat_err {F : Floats} (h : Rounds u F.fl) {d : ℕ} (L src mic : Fin d → ℝ) (n : Fin d → ℤ)
    (i : Fin d) : |vecFloat F L src mic n i - (mic i - image L src n i)|
      ≤ 5.1 * u * (|mic i| + 2 * |src i| + |image L src n i|) := by
  have hu := h.pos
  have h1 := h.coordinate (L i) (((n i + 1) / 2 : ℤ) : ℝ) (imageSign (n i)) (src i) (mic i)
    (imageSign_abs _)
  rw [image_eq]
  refine h1.trans (mul_le_mul_of_nonneg_left ?_ (by positivity))
  have e : 2 * L i * (((n i + 1) / 2 : ℤ) : ℝ)
      = (2 * L i * (((n i + 1) / 2 : ℤ) : ℝ) + imageSign (n i) * src i) - imageSign (n i) * src i := by
    ring
  have h2 : |2 * L i * (((n i + 1) / 2 : ℤ) : ℝ)|
      ≤ |2 * L i * (((n i + 1) / 2 : ℤ) : ℝ) + imageSign (n i) * src i| + |src i| := by
    conv_lhs => rw [e]
    refine (abs_sub _ _).trans ?_
    rw [abs_mul, imageSign_abs, one_mul]
  linarith

/-- The computed norm of a vector known up to rounding. -/
theorem norm_err {F : Floats} (h : Rounds u F.fl)
    (hnorm : ∀ v : Vec, v.length ≤ 3 → |F.norm v - Real.sqrt ((v.map fun x => x ^ 2).sum)|
      ≤ 4 * u * Real.sqrt ((v.map fun x => x ^ 2).sum))
    {d : ℕ} (hd : d ≤ 3) {v w s : Fin d → ℝ} (hcoord : ∀ i, |v i - w i| ≤ 5.1 * u * s i)
    (hle : Spec.dist w 0 ≤ ∑ i, s i) :
    |F.norm (List.ofFn v) - Spec.dist w 0| ≤ 9.2 * u * ∑ i, s i := by
  have hu := h.pos
  have hs := h.small
  set R' := ∑ i, s i with hR'
  have hR0 : 0 ≤ R' := le_trans (by unfold Spec.dist; positivity) hle
  have hdist : |Spec.dist v 0 - Spec.dist w 0| ≤ 5.1 * u * R' := by
    have h1 := dist_triangle' v w 0
    have h2 := dist_triangle' w v 0
    rw [Torchrir.Lemmas.dist_comm w v] at h2
    have h3 : Spec.dist v w ≤ 5.1 * u * R' := by
      refine (dist_le_sum _ _).trans ?_
      rw [hR', Finset.mul_sum]
      exact Finset.sum_le_sum fun i _ => hcoord i
    rw [abs_le]
    constructor <;> linarith
  have hn := hnorm (List.ofFn v) (by simpa using hd)
  rw [sum_sq_ofFn] at hn
  have uR : u * (u * R') ≤ u * R' / 10000 := by nlinarith [mul_nonneg hu.le hR0]
  have uR0 := mul_nonneg hu.le hR0
  have e : F.norm (List.ofFn v) - Spec.dist w 0
      = (F.norm (List.ofFn v) - Spec.dist v 0) + (Spec.dist v 0 - Spec.dist w 0) := by ring
  rw [e]
  refine (abs_add_le _ _).trans ?_
  have := (abs_le.mp hdist).2
  have h3 : Spec.dist v 0 ≤ R' + 5.1 * u * R' := by linarith
  have := mul_le_mul_of_nonneg_left h3 hu.le
  nlinarith

/-- The path length as computed. -/
noncomputable def floatDist (F : Floats) {d : ℕ} (L src mic : Fin d → ℝ) (n : Fin d → ℤ) : ℝ :=
  max (F.norm (List.ofFn (vecFloat F L src mic n))) (F.fl 1e-6)

theorem dist_le_coords {d : ℕ} (L src mic : Fin d → ℝ) (n : Fin d → ℤ) :
    Spec.dist mic (image L src n) ≤ ∑ i, (|mic i| + 2 * |src i| + |image L src n i|) :=
  (dist_le_sum _ _).trans (Finset.sum_le_sum fun i _ =>
    (abs_sub _ _).trans (by linarith [abs_nonneg (src i)]))

/-- The computed path length. -/
theorem pathLength_err {F : Floats} (h : Rounds u F.fl)
    (hnorm : ∀ v : Vec, v.length ≤ 3 → |F.norm v - Real.sqrt ((v.map fun x => x ^ 2).sum)|
      ≤ 4 * u * Real.sqrt ((v.map fun x => x ^ 2).sum))
    {d : ℕ} (hd : d ≤ 3) (L src mic : Fin d → ℝ) (n : Fin d → ℤ) :
    |floatDist F L src mic n - pathLength mic (image L src n)| ≤ 10 * u * pathScale L src mic n := by
  have hu := h.pos
  have hs := h.small
  have hR0 : 0 ≤ ∑ i, (|mic i| + 2 * |src i| + |image L src n i|) :=
    Finset.sum_nonneg fun i _ => by positivity
  have h1 := norm_err h hnorm hd (w := mic - image L src n) (vecFloat_err h L src mic n)
    (by rw [dist_zero_sub]; exact dist_le_coords L src mic n)
  rw [dist_zero_sub] at h1
  have uR0 := mul_nonneg hu.le hR0
  have h2 := h.near 1e-6
  rw [abs_of_nonneg (by norm_num : (0 : ℝ) ≤ 1e-6)] at h2
  unfold floatDist pathLength
  refine (abs_max_sub_max_le_max _ _ _ _).trans (max_le ?_ ?_)
  · refine h1.trans ?_
    unfold pathScale
    nlinarith
  · refine h2.trans ?_
    unfold pathScale
    nlinarith

/-! ## Delays and amplitudes -/

/-- The computed sample position. -/
theorem Rounds.sample (h : Rounds u fl) {D r R c fs f2 : ℝ} (hc : 0 < c) (hfs : 0 < fs) (hf2 : 0 ≤ f2)
    (hr : 0 < r) (hrR : r ≤ R) (hD : |D - r| ≤ 10 * u * R) :
    |fl (fl (fl (D / fl c) + fl (f2 / fs)) * fl fs) - (r * fs / c + f2)|
      ≤ u * (17 * R * fs / c + 5 * f2) := by
  have hu := h.pos
  have hs := h.small
  have hR : 0 < R := hr.trans_le hrR
  have hc' := h.near c
  rw [abs_of_pos hc] at hc'
  have hfs' := h.near fs
  rw [abs_of_pos hfs] at hfs'
  set c' := fl c
  set fs' := fl fs
  have hc1 : 0.9999 * c ≤ c' := by
    have := (abs_le.mp hc').1
    nlinarith
  have hc0 : 0 < c' := by linarith
  set A := R / c with hA
  set B := f2 / fs with hB
  have hA0 : 0 < A := div_pos hR hc
  have hB0 : 0 ≤ B := div_nonneg hf2 hfs.le
  have uA0 := mul_pos hu hA0
  have uB0 := mul_nonneg hu.le hB0
  have uA : u * (u * A) ≤ u * A / 10000 := by nlinarith
  have uB : u * (u * B) ≤ u * B / 10000 := by nlinarith
  have hrA : r / c ≤ A := by rw [hA]; gcongr
  have hr0 : 0 < r / c := div_pos hr hc
  have urA : u * (r / c) ≤ u * A := mul_le_mul_of_nonneg_left hrA hu.le
  -- the time of flight
  have h1 : |D / c' - r / c| ≤ 11.01 * u * A := by
    have e : D / c' - r / c = ((D - r) * c + r * (c - c')) / (c * c') := by field_simp; ring
    rw [e, abs_div, abs_of_pos (mul_pos hc hc0), div_le_iff₀ (mul_pos hc hc0)]
    have h2 : |(D - r) * c + r * (c - c')| ≤ 11 * u * R * c := by
      refine (abs_add_le _ _).trans ?_
      rw [abs_mul, abs_mul, abs_of_pos hc, abs_of_pos hr, abs_sub_comm c]
      have a1 := mul_le_mul_of_nonneg_right hD hc.le
      have a2 := mul_le_mul_of_nonneg_left hc' hr.le
      have a3 : r * (u * c) ≤ R * (u * c) := mul_le_mul_of_nonneg_right hrR (by positivity)
      linarith
    refine h2.trans ?_
    have e2 : 11.01 * u * A * (c * c') = 11.01 * u * R * c' := by rw [hA]; field_simp
    rw [e2]
    have : 11.01 * u * R * (0.9999 * c) ≤ 11.01 * u * R * c' := by gcongr
    have hp : 0 ≤ u * R * c := by positivity
    nlinarith
  have h2 : |fl (D / c') - r / c| ≤ 12.1 * u * A := by
    refine (h.err h1).trans ?_
    rw [abs_of_pos hr0]
    linarith
  have h3 := h.near B
  rw [abs_of_nonneg hB0] at h3
  have h4 : |fl (D / c') + fl B - (r / c + B)| ≤ 12.1 * u * A + u * B := by
    have e : fl (D / c') + fl B - (r / c + B) = (fl (D / c') - r / c) + (fl B - B) := by ring
    rw [e]
    exact (abs_add_le _ _).trans (add_le_add h2 h3)
  have h5 : |fl (fl (D / c') + fl B) - (r / c + B)| ≤ 13.2 * u * A + 2.1 * u * B := by
    refine (h.err h4).trans ?_
    rw [abs_of_nonneg (by positivity)]
    linarith
  set t := fl (fl (D / c') + fl B)
  have h6 : |t * fs' - (r / c + B) * fs| ≤ (14.4 * u * A + 3.2 * u * B) * fs := by
    have e : t * fs' - (r / c + B) * fs
        = (t - (r / c + B)) * fs + (t - (r / c + B)) * (fs' - fs) + (r / c + B) * (fs' - fs) := by ring
    rw [e]
    have a1 : |(t - (r / c + B)) * fs| ≤ (13.2 * u * A + 2.1 * u * B) * fs := by
      rw [abs_mul, abs_of_pos hfs]
      exact mul_le_mul_of_nonneg_right h5 hfs.le
    have a2 : |(t - (r / c + B)) * (fs' - fs)| ≤ (13.2 * u * A + 2.1 * u * B) * (u * fs) := by
      rw [abs_mul]
      exact mul_le_mul h5 hfs' (abs_nonneg _) (by positivity)
    have a3 : |(r / c + B) * (fs' - fs)| ≤ (A + B) * (u * fs) := by
      rw [abs_mul, abs_of_nonneg (by positivity)]
      exact mul_le_mul (by linarith) hfs' (abs_nonneg _) (by positivity)
    refine (abs_add_le _ _).trans ?_
    have := abs_add_le ((t - (r / c + B)) * fs) ((t - (r / c + B)) * (fs' - fs))
    have a4 : (13.2 * u * A + 2.1 * u * B) * (u * fs) + (A + B) * (u * fs)
        ≤ (1.2 * u * A + 1.1 * u * B) * fs := by
      have : (13.2 * u * A + 2.1 * u * B) * u + (A + B) * u ≤ 1.2 * u * A + 1.1 * u * B := by linarith
      have := mul_le_mul_of_nonneg_right this hfs.le
      linarith
    linarith
  have h7 := h.err h6
  have e1 : (r / c + B) * fs = r * fs / c + f2 := by rw [hB]; field_simp
  rw [e1] at h7
  refine h7.trans ?_
  have hpos : 0 ≤ r * fs / c + f2 := by positivity
  rw [abs_of_nonneg hpos, ← e1]
  have e2 : u * (17 * R * fs / c + 5 * f2) = (17 * u * A + 5 * u * B) * fs := by
    rw [hA, hB]; field_simp
  rw [e2]
  have a5 : (14.4 * u * A + 3.2 * u * B) + u * ((r / c + B) + (14.4 * u * A + 3.2 * u * B))
      ≤ 17 * u * A + 5 * u * B := by linarith
  have := mul_le_mul_of_nonneg_right a5 hfs.le
  linarith

/-- The computed amplitude. -/
theorem Rounds.amplitude (h : Rounds u fl) {D r R g g' : ℝ} (hr : 0 < r) (hrR : r ≤ R)
    (hcond : 100 * u * R ≤ r) (hD : |D - r| ≤ 10 * u * R) (hg : |g' - g| ≤ 35 * u * |g|) :
    |fl (g' / D) - g / r| ≤ 53 * u * (R / r) * (|g| / r) := by
  have hu := h.pos
  have hs := h.small
  have hR : 0 < R := hr.trans_le hrR
  have hD1 : 0.9 * r ≤ D := by
    have := (abs_le.mp hD).1
    linarith
  have hD0 : 0 < D := by linarith
  set κ := R / r with hκ
  have hκ1 : 1 ≤ κ := by rw [hκ, le_div_iff₀ hr]; linarith
  have huκ : 100 * (u * κ) ≤ 1 := by
    rw [hκ, ← mul_div_assoc, ← mul_div_assoc, div_le_one hr]; linarith
  set a := |g| / r with ha
  have ha0 : 0 ≤ a := by positivity
  have h1 : |g' / D - g / r| ≤ 50 * u * κ * a := by
    have e : g' / D - g / r = ((g' - g) * r + g * (r - D)) / (D * r) := by field_simp; ring
    rw [e, abs_div, abs_of_pos (mul_pos hD0 hr), div_le_iff₀ (mul_pos hD0 hr)]
    have h2 : |(g' - g) * r + g * (r - D)| ≤ 45 * u * R * |g| := by
      refine (abs_add_le _ _).trans ?_
      rw [abs_mul, abs_mul, abs_of_pos hr, abs_sub_comm r]
      have a1 := mul_le_mul_of_nonneg_right hg hr.le
      have a2 := mul_le_mul_of_nonneg_left hD (abs_nonneg g)
      have a3 : 35 * u * |g| * r ≤ 35 * u * |g| * R := by gcongr
      linarith
    refine h2.trans ?_
    have e2 : 50 * u * κ * a * (D * r) = 50 * u * R * |g| * (D / r) := by
      rw [hκ, ha]; field_simp
    rw [e2]
    have : 0.9 ≤ D / r := by rw [le_div_iff₀ hr]; linarith
    have hp : 0 ≤ u * R * |g| := by positivity
    nlinarith
  refine (h.err h1).trans ?_
  have e3 : |g / r| = a := by rw [abs_div, abs_of_pos hr]
  rw [e3]
  have b1 : u * a ≤ u * κ * a := by
    have : u * a * 1 ≤ u * a * κ := mul_le_mul_of_nonneg_left hκ1 (by positivity)
    linarith
  have b2 : u * (50 * u * κ * a) ≤ u * κ * a := by
    have : u * (50 * (u * κ)) ≤ u * 1 := mul_le_mul_of_nonneg_left (by linarith) hu.le
    have := mul_le_mul_of_nonneg_right this ha0
    nlinarith
  have b3 : 0 ≤ u * κ * a := by positivity
  nlinarith

/-- The reflection coefficient as computed. -/
noncomputable def floatRefl (F : Floats) {d : ℕ} (lo hi : Fin d → ℝ) (n : Fin d → ℤ) : ℝ :=
  F.prod (List.zipWith F.axisCoeff (groups (List.ofFn n).length 2 (wallList lo hi)) (List.ofFn n))

/-- The computed reflection coefficient. -/
theorem reflection_err {F : Floats} (h : Rounds u F.fl)
    (hpow : ∀ b n, |F.pow b n - b ^ n| ≤ 4 * u * |b ^ n|)
    (hprod : ∀ l : List ℝ, l.length ≤ 3 → |F.prod l - l.prod| ≤ 4 * u * |l.prod|)
    {d : ℕ} (hd : d = 2 ∨ d = 3) (lo hi : Fin d → ℝ) (n : Fin d → ℤ) :
    |floatRefl F lo hi n - wallGain lo hi n| ≤ 32 * u * |wallGain lo hi n| := by
  have hu := h.pos
  have hs := h.small
  unfold floatRefl
  have u2 : u * u ≤ u / 10000 := by nlinarith
  rw [List.length_ofFn, groups_wallList, zipWith_ofFn]
  set q : Fin d → ℝ := fun i => F.axisCoeff [lo i, hi i] (n i) with hq
  set g : Fin d → ℝ := fun i => absorbed (lo i) (hi i) (n i).natAbs (lastWall (n i)) with hg
  have hax : ∀ i, |q i - g i| ≤ 9.1 * u * |g i| := by
    intro i
    have h1 := hpow (hi i) (reflHi (n i)).toNat
    have h2 := hpow (lo i) (reflLo (n i)).toNat
    have h3 := h.rel (mul_err h1 h2 (by positivity))
    have e : (hi i) ^ (reflHi (n i)).toNat * (lo i) ^ (reflLo (n i)).toNat = g i := by
      rw [hg]
      simp only []
      rw [← axis_coeff]
      rfl
    rw [e] at h3
    refine le_trans h3 (mul_le_mul_of_nonneg_right ?_ (abs_nonneg _))
    nlinarith
  have hprod2 : |∏ i, q i - ∏ i, g i| ≤ 27.5 * u * |∏ i, g i| := by
    have hα : 0 ≤ 9.1 * u := by positivity
    rcases hd with rfl | rfl
    · rw [Fin.prod_univ_two, Fin.prod_univ_two]
      refine (mul_err (hax 0) (hax 1) hα).trans (mul_le_mul_of_nonneg_right ?_ (abs_nonneg _))
      nlinarith
    · rw [Fin.prod_univ_three, Fin.prod_univ_three]
      have := mul_err (mul_err (hax 0) (hax 1) hα) (hax 2) (by positivity)
      refine this.trans (mul_le_mul_of_nonneg_right ?_ (abs_nonneg _))
      have u3 : u * (u * u) ≤ u / 10000 := by nlinarith
      nlinarith
  have h4 := hprod (List.ofFn q) (by rw [List.length_ofFn]; omega)
  rw [List.prod_ofFn] at h4
  have e2 : wallGain lo hi n = ∏ i, g i := rfl
  rw [e2]
  set G := ∏ i, g i
  set Q := ∏ i, q i
  have hQ : |Q| ≤ (1 + 27.5 * u) * |G| := by
    have : Q = G + (Q - G) := by ring
    rw [this]
    refine (abs_add_le _ _).trans ?_
    linarith
  have e3 : F.prod (List.ofFn q) - G = (F.prod (List.ofFn q) - Q) + (Q - G) := by ring
  rw [e3]
  refine (abs_add_le _ _).trans ?_
  have h5 := mul_le_mul_of_nonneg_left hQ (show 0 ≤ 4 * u by positivity)
  have h6 : 4 * u * ((1 + 27.5 * u) * |G|) + 27.5 * u * |G| ≤ 32 * u * |G| := by
    have : 4 * u * (1 + 27.5 * u) + 27.5 * u ≤ 32 * u := by nlinarith
    have := mul_le_mul_of_nonneg_right this (abs_nonneg G)
    linarith
  linarith

/-! ## The kernel -/

/-- Interpolated entry times window. -/
theorem Rounds.windowed (h : Rounds u fl) {E ε I I' w w' : ℝ} (hE : E ≤ 1 / 10) (hε : ε ≤ 1 / 50)
    (hI : |I' - I| ≤ E) (hI1 : |I| ≤ 1) (hw : |w' - w| ≤ ε) (hw0 : 0 ≤ w) (hw1 : w ≤ 1) :
    |fl (I' * w') - I * w| ≤ E + 1.1 * ε + 1.2 * u := by
  have hE0 : 0 ≤ E := (abs_nonneg _).trans hI
  have hε0 : 0 ≤ ε := (abs_nonneg _).trans hw
  have hI' : |I'| ≤ 1.1 := by
    have : I' = I + (I' - I) := by ring
    rw [this]
    exact (abs_add_le _ _).trans (by linarith)
  have h1 : |I' * w' - I * w| ≤ E + 1.1 * ε := by
    have e : I' * w' - I * w = (I' - I) * w + I' * (w' - w) := by ring
    rw [e]
    refine (abs_add_le _ _).trans (add_le_add ?_ ?_)
    · rw [abs_mul, abs_of_nonneg hw0]
      calc |I' - I| * w ≤ E * 1 := mul_le_mul hI hw1 hw0 hE0
        _ = E := mul_one E
    · rw [abs_mul]
      exact mul_le_mul hI' hw (abs_nonneg _) (by norm_num)
  refine (h.err h1).trans ?_
  have h2 : |I * w| ≤ 1 := by
    rw [abs_mul, abs_of_nonneg hw0]
    exact mul_le_one₀ hI1 hw0 hw1
  have := mul_le_mul_of_nonneg_left (show |I * w| + (E + 1.1 * ε) ≤ 1.2 by linarith) h.pos.le
  linarith

/-- Linear interpolation between two table entries. -/
theorem Rounds.lerp (h : Rounds u fl) {ε s0 s1 S0 S1 t θ : ℝ} (hε : ε ≤ 1 / 50)
    (h0 : |s0 - S0| ≤ ε) (h1 : |s1 - S1| ≤ ε) (hS0 : |S0| ≤ 1) (hS1 : |S1| ≤ 1)
    (hθ0 : 0 ≤ θ) (hθ1 : θ ≤ 1) (ht : |t - θ| ≤ u) :
    |fl (s0 + fl (t * fl (s1 - s0))) - (S0 + θ * (S1 - S0))| ≤ 7.2 * u + 3 * ε := by
  have hu := h.pos
  have hs := h.small
  have hε0 : 0 ≤ ε := (abs_nonneg _).trans h0
  have a1 : |s1 - s0 - (S1 - S0)| ≤ 2 * ε := by
    have e : s1 - s0 - (S1 - S0) = (s1 - S1) - (s0 - S0) := by ring
    rw [e]
    exact (abs_sub _ _).trans (by linarith)
  have hd : |S1 - S0| ≤ 2 := (abs_sub _ _).trans (by linarith)
  have a2 : |fl (s1 - s0) - (S1 - S0)| ≤ 2 * ε + 2.04 * u := by
    refine (h.err a1).trans ?_
    have := mul_le_mul_of_nonneg_left (show |S1 - S0| + 2 * ε ≤ 2.04 by linarith) hu.le
    linarith
  set d' := fl (s1 - s0)
  have hd' : |d'| ≤ 2.041 := by
    have : d' = (S1 - S0) + (d' - (S1 - S0)) := by ring
    rw [this]
    exact (abs_add_le _ _).trans (by linarith)
  have a3 : |t * d' - θ * (S1 - S0)| ≤ 4.081 * u + 2 * ε := by
    have e : t * d' - θ * (S1 - S0) = (t - θ) * d' + θ * (d' - (S1 - S0)) := by ring
    rw [e]
    have b1 : |(t - θ) * d'| ≤ u * 2.041 := by
      rw [abs_mul]
      exact mul_le_mul ht hd' (abs_nonneg _) hu.le
    have b2 : |θ * (d' - (S1 - S0))| ≤ 1 * (2 * ε + 2.04 * u) := by
      rw [abs_mul, abs_of_nonneg hθ0]
      exact mul_le_mul hθ1 a2 (abs_nonneg _) zero_le_one
    refine (abs_add_le _ _).trans ?_
    linarith
  have hθd : |θ * (S1 - S0)| ≤ 2 := by
    rw [abs_mul, abs_of_nonneg hθ0]
    calc θ * |S1 - S0| ≤ 1 * 2 := mul_le_mul hθ1 hd (abs_nonneg _) zero_le_one
      _ = 2 := by norm_num
  have a4 : |fl (t * d') - θ * (S1 - S0)| ≤ 6.122 * u + 2 * ε := by
    refine (h.err a3).trans ?_
    have := mul_le_mul_of_nonneg_left
      (show |θ * (S1 - S0)| + (4.081 * u + 2 * ε) ≤ 2.041 by linarith) hu.le
    linarith
  have a5 : |s0 + fl (t * d') - (S0 + θ * (S1 - S0))| ≤ 6.122 * u + 3 * ε := by
    have e : s0 + fl (t * d') - (S0 + θ * (S1 - S0)) = (s0 - S0) + (fl (t * d') - θ * (S1 - S0)) := by
      ring
    rw [e]
    exact (abs_add_le _ _).trans (by linarith)
  have hconv : |S0 + θ * (S1 - S0)| ≤ 1 := by
    have e : S0 + θ * (S1 - S0) = (1 - θ) * S0 + θ * S1 := by ring
    rw [e]
    refine (abs_add_le _ _).trans ?_
    rw [abs_mul, abs_mul, abs_of_nonneg hθ0, abs_of_nonneg (by linarith : 0 ≤ 1 - θ)]
    nlinarith
  refine (h.err a5).trans ?_
  have := mul_le_mul_of_nonneg_left
    (show |S0 + θ * (S1 - S0)| + (6.122 * u + 3 * ε) ≤ 1.062 by linarith) hu.le
  linarith

theorem eq_map_range {l : List ℝ} {n : ℕ} (h : l.length = n) :
    l = (List.range n).map fun j => l.getD j 0 := by
  apply List.ext_getElem
  · simp [h]
  · intro j h1 h2
    simp [h1]

theorem zipWith_range {α : Type} (g : α → ℝ → ℝ) {n : ℕ} (f : ℕ → α) {l : List ℝ} (h : l.length = n) :
    List.zipWith g ((List.range n).map f) l = (List.range n).map fun j => g (f j) (l.getD j 0) := by
  conv_lhs => rw [eq_map_range h]
  simp [List.zipWith_map, List.zipWith_self]

theorem half_eq {fdl : ℕ} (hodd : fdl % 2 = 1) : (2 : ℝ) * halfLen fdl + 1 = fdl := by
  exact_mod_cast halfLen_odd hodd

/-- The fractional part as computed. -/
theorem frac_facts {p : ℕ} {F : Floats} (hfl : RoundsToNearest p F.fl) (h : Rounds u F.fl) (x : ℝ) :
    0 ≤ F.fl (x - ⌊x⌋) ∧ F.fl (x - ⌊x⌋) ≤ 1 ∧ |F.fl (x - ⌊x⌋) - (x - ⌊x⌋)| ≤ u := by
  have h0 : 0 ≤ x - ⌊x⌋ := Int.fract_nonneg x
  have h1 : x - ⌊x⌋ < 1 := Int.fract_lt_one x
  have z : F.fl 0 = 0 := by simpa using fl_nat hfl (n := 0) (by positivity)
  have o : F.fl 1 = 1 := by simpa using fl_nat hfl (n := 1) Nat.one_le_two_pow
  refine ⟨?_, ?_, ?_⟩
  · have := fl_mono hfl h0
    rwa [z] at this
  · have := fl_mono hfl h1.le
    rwa [o] at this
  · refine (h.near _).trans ?_
    rw [abs_of_nonneg h0]
    have := h.pos
    nlinarith

/-- The taps computed directly. -/
theorem filtDirect_err {p : ℕ} {ε : ℝ} {F : Floats} (hfl : RoundsToNearest p F.fl) (h : Rounds u F.fl)
    (hsinc : ∀ x, |F.sinc x - Spec.sinc x| ≤ ε) {fdl : ℕ} (hodd : fdl % 2 = 1) (x : ℝ) (j : ℕ)
    (hj : j < fdl) :
    |F.sinc (F.fl (F.fl ((j : ℝ) - halfLen fdl) - F.fl (x - ⌊x⌋)))
      - Spec.sinc ((j : ℝ) - halfLen fdl - (x - ⌊x⌋))| ≤ 12 * (u * fdl) + 3 * ε := by
  have hu := h.pos
  have hs := h.small
  have hε0 : 0 ≤ ε := (abs_nonneg _).trans (hsinc 0)
  have hh := half_eq hodd
  have hjR : (j : ℝ) + 1 ≤ fdl := by exact_mod_cast hj
  have hj0 : (0 : ℝ) ≤ j := by positivity
  have hb : |(j : ℝ) - halfLen fdl| ≤ halfLen fdl := by
    rw [abs_le]; constructor <;> linarith
  have hφ0 : 0 ≤ x - ⌊x⌋ := Int.fract_nonneg x
  have hφ1 : x - ⌊x⌋ < 1 := Int.fract_lt_one x
  obtain ⟨-, -, h3⟩ := frac_facts hfl h x
  have h1 := h.near ((j : ℝ) - halfLen fdl)
  set q : ℝ := (halfLen fdl : ℝ) with hq
  have hq0 : 0 ≤ q := by positivity
  have h2 : |F.fl ((j : ℝ) - q) - F.fl (x - ⌊x⌋) - ((j : ℝ) - q - (x - ⌊x⌋))| ≤ u * (q + 1) := by
    have e : F.fl ((j : ℝ) - q) - F.fl (x - ⌊x⌋) - ((j : ℝ) - q - (x - ⌊x⌋))
        = (F.fl ((j : ℝ) - q) - ((j : ℝ) - q)) - (F.fl (x - ⌊x⌋) - (x - ⌊x⌋)) := by ring
    rw [e]
    refine (abs_sub _ _).trans ?_
    have := mul_le_mul_of_nonneg_left hb hu.le
    linarith
  have h4 := h.err h2
  have h5 : |(j : ℝ) - q - (x - ⌊x⌋)| ≤ q + 1 := by
    refine (abs_sub _ _).trans ?_
    rw [abs_of_nonneg hφ0]
    linarith
  have h6 : |F.fl (F.fl ((j : ℝ) - q) - F.fl (x - ⌊x⌋)) - ((j : ℝ) - q - (x - ⌊x⌋))|
      ≤ 2.1 * (u * (q + 1)) := by
    refine h4.trans ?_
    have a := mul_le_mul_of_nonneg_left h5 hu.le
    have b : u * (u * (q + 1)) ≤ 0.1 * (u * (q + 1)) := by
      have : 0 ≤ u * (q + 1) := by positivity
      nlinarith
    linarith
  have h7 := sinc_lipschitz (F.fl (F.fl ((j : ℝ) - q) - F.fl (x - ⌊x⌋))) ((j : ℝ) - q - (x - ⌊x⌋))
  have hpi := Real.pi_lt_d2
  have hpi0 := Real.pi_pos
  have h8 := hsinc (F.fl (F.fl ((j : ℝ) - q) - F.fl (x - ⌊x⌋)))
  refine (abs_sub_le _ (Spec.sinc (F.fl (F.fl ((j : ℝ) - q) - F.fl (x - ⌊x⌋)))) _).trans ?_
  have h9 : Real.pi / 2 * |F.fl (F.fl ((j : ℝ) - q) - F.fl (x - ⌊x⌋)) - ((j : ℝ) - q - (x - ⌊x⌋))|
      ≤ 1.6 * (2.1 * (u * (q + 1))) :=
    mul_le_mul (by linarith) h6 (abs_nonneg _) (by norm_num)
  have h10 : u * (q + 1) ≤ u * fdl := mul_le_mul_of_nonneg_left (by linarith) hu.le
  have h11 : 0 ≤ u * (fdl : ℝ) := by positivity
  linarith

/-- The place in the table that is looked up: never outside the table, and close to where it should
be. -/
theorem place_facts {p : ℕ} {F : Floats} (hfl : RoundsToNearest p F.fl) (h : Rounds u F.fl) {gran : ℕ}
    (hg : 0 < gran) (hgran : gran ≤ 2 ^ p) (x : ℝ) :
    0 ≤ F.fl (F.fl (1 - F.fl (x - ⌊x⌋)) * F.fl gran) ∧
      F.fl (F.fl (1 - F.fl (x - ⌊x⌋)) * F.fl gran) ≤ gran ∧
      |F.fl (F.fl (1 - F.fl (x - ⌊x⌋)) * F.fl gran) / gran - (1 - (x - ⌊x⌋))| ≤ 3 * u := by
  have hu := h.pos
  have hs := h.small
  have hgr : (0 : ℝ) < gran := by exact_mod_cast hg
  obtain ⟨f0, f1, f2⟩ := frac_facts hfl h x
  have eg : F.fl (gran : ℝ) = gran := fl_nat hfl hgran
  have z : F.fl 0 = 0 := by simpa using fl_nat hfl (n := 0) (by positivity)
  have o : F.fl 1 = 1 := by simpa using fl_nat hfl (n := 1) Nat.one_le_two_pow
  set f := F.fl (x - ⌊x⌋)
  have g0 : 0 ≤ F.fl (1 - f) := by
    have := fl_mono hfl (show (0 : ℝ) ≤ 1 - f by linarith)
    rwa [z] at this
  have g1 : F.fl (1 - f) ≤ 1 := by
    have := fl_mono hfl (show 1 - f ≤ (1 : ℝ) by linarith)
    rwa [o] at this
  have g2 := h.near (1 - f)
  rw [eg]
  set y := F.fl (1 - f)
  have k0 : 0 ≤ F.fl (y * gran) := by
    have := fl_mono hfl (show (0 : ℝ) ≤ y * gran by positivity)
    rwa [z] at this
  have k1 : F.fl (y * gran) ≤ gran := by
    have := fl_mono hfl (show y * gran ≤ (gran : ℝ) by nlinarith)
    rwa [eg] at this
  refine ⟨k0, k1, ?_⟩
  have k2 := h.near (y * gran)
  have k3 : |F.fl (y * gran) / gran - y| ≤ u := by
    have e : F.fl (y * gran) / gran - y = (F.fl (y * gran) - y * gran) / gran := by field_simp
    rw [e, abs_div, abs_of_pos hgr, div_le_iff₀ hgr]
    refine k2.trans ?_
    rw [abs_of_nonneg (by positivity)]
    have : y * gran ≤ 1 * gran := mul_le_mul_of_nonneg_right g1 hgr.le
    have := mul_le_mul_of_nonneg_left this hu.le
    linarith
  rw [abs_of_nonneg (by linarith : 0 ≤ 1 - f)] at g2
  have g3 : u * (1 - f) ≤ u * 1 := mul_le_mul_of_nonneg_left (by linarith) hu.le
  rw [abs_le] at f2 g2 k3 ⊢
  constructor <;> linarith [f2.1, f2.2, g2.1, g2.2, k3.1, k3.2]

/-- One entry looked up in the table. -/
theorem lut_err {p : ℕ} {ε : ℝ} {F : Floats} (hfl : RoundsToNearest p F.fl) (h : Rounds u F.fl)
    (hε : ε ≤ 1 / 50) {fdl gran : ℕ}
    (hlen : (F.lut fdl gran).length = (fdl + 1) * gran + 1)
    (hlut : ∀ j, j ≤ (fdl + 1) * gran →
      |(F.lut fdl gran).getD j 0 - Spec.sinc ((j : ℝ) / gran - ((fdl : ℝ) + 1) / 2)| ≤ ε)
    (hodd : fdl % 2 = 1) (hg : 0 < gran) (hgran : gran ≤ 2 ^ p) (x : ℝ) (j : ℕ) (hj : j < fdl) :
    ∃ s0 s1, torchTake (F.lut fdl gran)
        (⌊F.fl (F.fl (1 - F.fl (x - ⌊x⌋)) * F.fl gran)⌋ + (j : ℤ) * (gran : ℤ)) = .ok s0 ∧
      torchTake (F.lut fdl gran)
        (⌊F.fl (F.fl (1 - F.fl (x - ⌊x⌋)) * F.fl gran)⌋ + (j : ℤ) * (gran : ℤ) + 1) = .ok s1 ∧
      |F.fl (s0 + F.fl (F.fl (F.fl (F.fl (1 - F.fl (x - ⌊x⌋)) * F.fl gran)
          - ⌊F.fl (F.fl (1 - F.fl (x - ⌊x⌋)) * F.fl gran)⌋) * F.fl (s1 - s0)))
        - gridLerp gran Spec.sinc ((j : ℝ) - halfLen fdl - (x - ⌊x⌋))| ≤ 12 * (u * fdl) + 3 * ε := by
  have hu := h.pos
  have hs := h.small
  have hgr : (0 : ℝ) < gran := by exact_mod_cast hg
  have hh := half_eq hodd
  obtain ⟨a0, a1, a2⟩ := place_facts hfl h hg hgran x
  set y := F.fl (F.fl (1 - F.fl (x - ⌊x⌋)) * F.fl gran)
  set off : ℤ := ⌊y⌋ with hoff
  have off0 : 0 ≤ off := Int.floor_nonneg.mpr a0
  have off1 : off ≤ gran := by
    have : off ≤ ⌊(gran : ℝ)⌋ := Int.floor_le_floor a1
    simpa using this
  set pos : ℤ := off + (j : ℤ) * (gran : ℤ) with hpos'
  have hjg : (0 : ℤ) ≤ (j : ℤ) * gran := by positivity
  have hjg2 : (j : ℤ) * gran + gran ≤ fdl * gran := by
    have : ((j : ℤ) + 1) * gran ≤ fdl * gran :=
      mul_le_mul_of_nonneg_right (by omega) (by positivity)
    linarith
  have p0 : 0 ≤ pos := by omega
  have hlenZ : ((F.lut fdl gran).length : ℤ) = ((fdl : ℤ) + 1) * gran + 1 := by
    rw [hlen]; push_cast; ring
  have hb : pos + 1 < (F.lut fdl gran).length := by
    rw [hlenZ, add_mul]; omega
  have hb' : pos.toNat + 1 < (fdl + 1) * gran + 1 := by
    rw [hlen] at hb; push_cast at hb; zify; rw [Int.toNat_of_nonneg p0]; exact hb
  have e1 : (pos + 1).toNat = pos.toNat + 1 := by omega
  refine ⟨_, _, torchTake_nonneg _ _ p0 (by omega), torchTake_nonneg _ _ (by omega) hb, ?_⟩
  rw [e1]
  have hposR : ((pos.toNat : ℕ) : ℝ) = (off : ℝ) + j * gran := by
    have : ((pos.toNat : ℕ) : ℤ) = pos := Int.toNat_of_nonneg p0
    have h' : (((pos.toNat : ℕ) : ℤ) : ℝ) = (pos : ℝ) := by rw [this]
    rw [Int.cast_natCast] at h'
    rw [h', hpos']; push_cast; ring
  have l0 := hlut pos.toNat (by omega)
  have l1 := hlut (pos.toNat + 1) (by omega)
  have t0 : (off : ℝ) ≤ y := Int.floor_le y
  have t1 : y < off + 1 := Int.lt_floor_add_one y
  have ht : |F.fl (y - off) - (y - off)| ≤ u := by
    refine (h.near _).trans ?_
    rw [abs_of_nonneg (by linarith)]
    have := mul_le_mul_of_nonneg_left (show y - off ≤ 1 by linarith) hu.le
    linarith
  have key := h.lerp hε l0 l1 (abs_sinc_le_one _) (abs_sinc_le_one _) (sub_nonneg.mpr t0)
    (by linarith) ht
  -- the exact interpolation at the place that was looked up
  have hgrid : gridLerp gran Spec.sinc (y / gran + j - halfLen fdl - 1)
      = Spec.sinc ((pos.toNat : ℝ) / gran - ((fdl : ℝ) + 1) / 2)
        + (y - off) * (Spec.sinc (((pos.toNat + 1 : ℕ) : ℝ) / gran - ((fdl : ℝ) + 1) / 2)
          - Spec.sinc ((pos.toNat : ℝ) / gran - ((fdl : ℝ) + 1) / 2)) := by
    have hm : (y / gran + j - halfLen fdl - 1) * gran
        = y + (((j : ℤ) - halfLen fdl - 1) * gran : ℤ) := by
      push_cast; field_simp; ring
    have hf : ⌊(y / gran + j - halfLen fdl - 1) * gran⌋
        = off + ((j : ℤ) - halfLen fdl - 1) * gran := by
      rw [hm, Int.floor_add_intCast]
    unfold gridLerp
    simp only [hf]
    have hhalf : ((fdl : ℝ) + 1) / 2 = halfLen fdl + 1 := by linarith
    have b1 : (((off + ((j : ℤ) - halfLen fdl - 1) * gran : ℤ)) : ℝ) / gran
        = (pos.toNat : ℝ) / gran - ((fdl : ℝ) + 1) / 2 := by
      rw [hposR, hhalf]; push_cast; field_simp; ring
    have b2 : ((((off + ((j : ℤ) - halfLen fdl - 1) * gran : ℤ)) : ℝ) + 1) / gran
        = ((pos.toNat + 1 : ℕ) : ℝ) / gran - ((fdl : ℝ) + 1) / 2 := by
      push_cast; rw [hposR, hhalf]; field_simp; ring
    have b3 : (y / gran + j - halfLen fdl - 1) * gran
        - ((off + ((j : ℤ) - halfLen fdl - 1) * gran : ℤ) : ℝ) = y - off := by
      rw [hm]; push_cast; ring
    rw [b1, b2, b3]
  rw [← hgrid] at key
  have hl := gridLerp_lipschitz hg sinc_lipschitz (y / gran + j - halfLen fdl - 1)
    ((j : ℝ) - halfLen fdl - (x - ⌊x⌋))
  have e2 : y / gran + j - halfLen fdl - 1 - ((j : ℝ) - halfLen fdl - (x - ⌊x⌋))
      = y / gran - (1 - (x - ⌊x⌋)) := by ring
  rw [e2] at hl
  have hpi := Real.pi_lt_d2
  have hpi0 := Real.pi_pos
  have h9 : Real.pi / 2 * |y / gran - (1 - (x - ⌊x⌋))| ≤ 1.575 * (3 * u) :=
    mul_le_mul (by linarith) a2 (abs_nonneg _) (by norm_num)
  have hf1 : (1 : ℝ) ≤ fdl := by
    have : (0 : ℝ) ≤ halfLen fdl := by positivity
    linarith
  have h10 : u * 1 ≤ u * fdl := mul_le_mul_of_nonneg_left hf1 hu.le
  refine (abs_sub_le _ _ _).trans ((add_le_add key (hl.trans h9)).trans ?_)
  linarith

/-- The taps of one image. -/
theorem tapFilter_err {p : ℕ} {ε : ℝ} {F : Floats} (hA : Accurate p ε F) (h : Rounds u F.fl)
    {fdl gran : ℕ} (hodd : fdl % 2 = 1) (hg : 0 < gran) (hgran : gran ≤ 2 ^ p) (useLut : Bool)
    (hsmall : 16 * fdl * u + 5 * ε ≤ 1 / 10) :
    ∃ f : ℝ → ℕ → ℝ,
      (∀ x, F.tapFilter fdl gran useLut (F.fl (x - ⌊x⌋)) = .ok ((List.range fdl).map (f x))) ∧
      ∀ x, ∀ j < fdl, |f x j - kernelShape useLut gran ((j : ℝ) - halfLen fdl - (x - ⌊x⌋))
        * hann fdl j| ≤ 14 * (u * fdl) + 5 * ε := by
  have hu := h.pos
  have hs := h.small
  have hε0 : 0 ≤ ε := (abs_nonneg _).trans (hA.sinc 0)
  have hf1 : (1 : ℝ) ≤ fdl := by
    have := half_eq hodd
    have : (0 : ℝ) ≤ halfLen fdl := by positivity
    linarith
  have hu1 : u * 1 ≤ u * fdl := mul_le_mul_of_nonneg_left hf1 hu.le
  have hε : ε ≤ 1 / 50 := by
    have : 0 ≤ u * (fdl : ℝ) := by positivity
    linarith
  have hE : 12 * (u * fdl) + 3 * ε ≤ 1 / 10 := by
    have : 0 ≤ u * (fdl : ℝ) := by positivity
    linarith
  -- interpolated entries suffice
  suffices H : ∃ I : ℝ → ℕ → ℝ,
      (∀ x, F.tapFilter fdl gran useLut (F.fl (x - ⌊x⌋))
        = .ok ((List.range fdl).map fun j => F.fl (I x j * (F.window fdl).getD j 0))) ∧
      ∀ x, ∀ j < fdl, |I x j - kernelShape useLut gran ((j : ℝ) - halfLen fdl - (x - ⌊x⌋))|
        ≤ 12 * (u * fdl) + 3 * ε by
    obtain ⟨I, h1, h2⟩ := H
    refine ⟨fun x j => F.fl (I x j * (F.window fdl).getD j 0), h1, fun x j hj => ?_⟩
    have := h.windowed hE hε (h2 x j hj) (kernelShape_bounded _ _ _) (hA.window fdl j hj)
      (hann_nonneg _ _) (hann_le_one _ _)
    refine this.trans ?_
    linarith
  cases useLut with
  | false =>
    refine ⟨fun x j => F.sinc (F.fl (F.fl ((j : ℝ) - halfLen fdl) - F.fl (x - ⌊x⌋))), fun x => ?_,
      fun x j hj => ?_⟩
    · simp only [Floats.tapFilter, Floats.filtDirect, Bool.false_eq_true, if_false]
      congr 1
      have := zipWith_range (fun (n : ℕ) w => F.fl (F.sinc (F.fl (F.fl ((n : ℝ) - halfLen fdl)
        - F.fl (x - ⌊x⌋))) * w)) (fun j => j) (hA.window_length fdl)
      simpa using this
    · simpa [kernelShape] using filtDirect_err hA.fl h hA.sinc hodd x j hj
  | true =>
    have hl := fun x j hj => lut_err hA.fl h hε (hA.lut_length fdl gran)
      (fun j hj => hA.lut fdl gran j hodd hg hj) hodd hg hgran x j hj
    choose s0 s1 e0 e1 e2 using hl
    refine ⟨fun x j => if hj : j < fdl then
      F.fl (s0 x j hj + F.fl (F.fl (F.fl (F.fl (1 - F.fl (x - ⌊x⌋)) * F.fl gran)
          - ⌊F.fl (F.fl (1 - F.fl (x - ⌊x⌋)) * F.fl gran)⌋) * F.fl (s1 x j hj - s0 x j hj))) else 0,
      fun x => ?_, fun x j hj => ?_⟩
    · simp only [Floats.tapFilter, Floats.filtLut, if_true]
      rw [mapM_ok (g := fun j => if hj : j < fdl then
        F.fl (s0 x j hj + F.fl (F.fl (F.fl (F.fl (1 - F.fl (x - ⌊x⌋)) * F.fl gran)
          - ⌊F.fl (F.fl (1 - F.fl (x - ⌊x⌋)) * F.fl gran)⌋) * F.fl (s1 x j hj - s0 x j hj))) else 0)]
      · rw [ok_bind]
        show Except.ok _ = Except.ok _
        rw [zipWith_range _ _ (hA.window_length fdl)]
      · intro j hj
        rw [List.mem_range] at hj
        rw [e0 x j hj, ok_bind, e1 x j hj, ok_bind, dif_pos hj]
        rfl
    · simp only [dif_pos hj]
      simpa [kernelShape] using e2 x j hj

/-! ## What one image adds -/

/-- What an image with sample position `q.1` and amplitude `q.2` adds to sample `k`, given its taps
`f`. -/
noncomputable def floatTap (F : Floats) (f : ℝ → ℕ → ℝ) (fdl : ℕ) (q : ℝ × ℝ) (k : ℕ) : List ℝ :=
  if 0 ≤ (k : ℤ) - ⌊q.1⌋ + halfLen fdl ∧ (k : ℤ) - ⌊q.1⌋ + halfLen fdl < fdl then
    [F.fl (q.2 * f q.1 ((k : ℤ) - ⌊q.1⌋ + halfLen fdl).toNat)]
  else []

theorem floatTap_length (F : Floats) (f : ℝ → ℕ → ℝ) (fdl : ℕ) (q : ℝ × ℝ) (k : ℕ) :
    (floatTap F f fdl q k).length ≤ 1 := by
  unfold floatTap
  split <;> simp

theorem floatTap_spec (F : Floats) {f : ℝ → ℕ → ℝ} {fdl gran : ℕ} {useLut : Bool}
    (hf : ∀ x, F.tapFilter fdl gran useLut (F.fl (x - ⌊x⌋)) = .ok ((List.range fdl).map (f x)))
    (N : ℕ) :
    TapSpec (fun row i fr a => F.tapEntries fdl gran useLut N row i fr a) (floatTap F f fdl)
      (fun x => F.fl (x - (⌊x⌋ : ℝ))) N := by
  rintro row ⟨x, a⟩
  unfold Floats.tapEntries
  simp only []
  rw [hf, ok_bind]
  refine ⟨_, rfl, ?_, ?_⟩
  · intro e he
    simp only [List.mem_map, List.mem_filter, decide_eq_true_eq] at he
    obtain ⟨p, ⟨_, hp1, hp2⟩, rfl⟩ := he
    constructor <;> simp only [] <;> linarith
  · intro k hk
    have e1 : (fdlOffsets fdl).map (⌊x⌋ + ·)
        = (List.range fdl).map fun (j : ℕ) => ⌊x⌋ + ((j : ℤ) - halfLen fdl) := by
      simp [fdlOffsets, List.map_map, Function.comp_def]
    rw [e1, List.map_map, List.zip_map']
    unfold vals floatTap
    rw [List.filter_map, List.filter_map, List.filter_map, List.map_map, List.map_map,
      List.filter_filter]
    simp only [Function.comp_def]
    by_cases hJ : 0 ≤ (k : ℤ) - ⌊x⌋ + halfLen fdl ∧ (k : ℤ) - ⌊x⌋ + halfLen fdl < fdl
    · rw [if_pos hJ]
      obtain ⟨J, hJ'⟩ := Int.eq_ofNat_of_zero_le hJ.1
      rw [filter_range_eq fdl _ J (by omega)]
      · simp only [List.map_cons, List.map_nil]
        rw [hJ']
        rfl
      · intro j
        simp only [Bool.and_eq_true, decide_eq_true_eq]
        omega
    · rw [if_neg hJ, List.map_eq_nil_iff, List.filter_eq_nil_iff]
      intro j hj
      rw [List.mem_range] at hj
      simp only [Bool.and_eq_true, decide_eq_true_eq]
      omega

/-- The value added, for the sample position and amplitude at hand. -/
theorem floatTap_err {F : Floats} (h : Rounds u F.fl) {f : ℝ → ℕ → ℝ} {fdl gran : ℕ} {useLut : Bool}
    {ε : ℝ} (hfdl : 1 ≤ fdl) (hsmall : 16 * fdl * u + 5 * ε ≤ 1 / 10)
    (hf : ∀ x, ∀ j < fdl, |f x j - kernelShape useLut gran ((j : ℝ) - halfLen fdl - (x - ⌊x⌋))
        * hann fdl j| ≤ 14 * (u * fdl) + 5 * ε) (q : ℝ × ℝ) (k : ℕ) :
    |(floatTap F f fdl q k).sum - q.2 * kernAt (kernelShape useLut gran) fdl q.1 k|
      ≤ |q.2| * (16 * (u * fdl) + 5 * ε) := by
  have hu := h.pos
  have hf1 : (1 : ℝ) ≤ fdl := by exact_mod_cast hfdl
  have hu1 : u * 1 ≤ u * fdl := mul_le_mul_of_nonneg_left hf1 hu.le
  have hE0 : 0 ≤ 14 * (u * fdl) + 5 * ε := (abs_nonneg _).trans (hf 0 0 hfdl)
  obtain ⟨x, a⟩ := q
  unfold floatTap kernAt
  simp only []
  split
  · rename_i hJ
    obtain ⟨J, hJ'⟩ := Int.eq_ofNat_of_zero_le hJ.1
    rw [hJ', Int.toNat_natCast, List.sum_singleton]
    have e : (k : ℝ) - x = (J : ℝ) - halfLen fdl - (x - ⌊x⌋) := by
      have h' : ((k : ℤ) : ℝ) - ⌊x⌋ + halfLen fdl = J := by exact_mod_cast hJ'
      push_cast at h'
      linarith
    rw [e, mul_comm (hann _ _)]
    have hJf : J < fdl := by omega
    have h1 := hf x J hJf
    push_cast
    set K := kernelShape useLut gran ((J : ℝ) - halfLen fdl - (x - ⌊x⌋)) * hann fdl J with hK
    have hK1 : |K| ≤ 1 := by
      rw [hK, abs_mul, abs_of_nonneg (hann_nonneg _ _)]
      exact mul_le_one₀ (kernelShape_bounded _ _ _) (hann_nonneg _ _) (hann_le_one _ _)
    set E := 14 * (u * fdl) + 5 * ε with hE
    have h2 : |a * f x J - a * K| ≤ |a| * E := by
      rw [← mul_sub, abs_mul]
      exact mul_le_mul_of_nonneg_left h1 (abs_nonneg a)
    refine (h.err h2).trans ?_
    rw [abs_mul]
    have h3 : |K| + E ≤ 1.1 := by
      have : 0 ≤ u * (fdl : ℝ) := by positivity
      rw [hE]; linarith
    have h4 : u * (|a| * |K| + |a| * E) ≤ |a| * (1.1 * u) := by
      have := mul_le_mul_of_nonneg_left h3 (show 0 ≤ u * |a| by positivity)
      linarith
    have h5 : |a| * (E + 1.1 * u) ≤ |a| * (16 * (u * fdl) + 5 * ε) :=
      mul_le_mul_of_nonneg_left (by rw [hE]; linarith) (abs_nonneg a)
    linarith
  · have : 0 ≤ u * (fdl : ℝ) := by positivity
    simp only [List.sum_nil, mul_zero, sub_zero, abs_zero]
    exact mul_nonneg (abs_nonneg _) (by linarith)

/-- The whole parts of two delays. -/
theorem floor_change {s t δ : ℝ} (h : |t - s| ≤ δ) :
    (|⌊t⌋ - ⌊s⌋| : ℤ) ≤ (open Classical in if ∃ z : ℤ, |s - z| ≤ δ then 1 + δ else 0 : ℝ) := by
  by_cases hz : ∃ z : ℤ, |s - z| ≤ δ
  · rw [if_pos hz]
    push_cast
    have h1 := Int.floor_le t
    have h2 := Int.lt_floor_add_one t
    have h3 := Int.floor_le s
    have h4 := Int.lt_floor_add_one s
    rw [abs_le] at h ⊢
    constructor <;> linarith [h.1, h.2]
  · rw [if_neg hz]
    push Not at hz
    have h0 := hz ⌊s⌋
    have h1 := hz (⌊s⌋ + 1)
    have h3 := Int.floor_le s
    have h4 := Int.lt_floor_add_one s
    push_cast at h1
    rw [abs_of_nonneg (by linarith)] at h0
    rw [abs_of_neg (by linarith)] at h1
    have : ⌊t⌋ = ⌊s⌋ := by
      rw [abs_le] at h
      rw [Int.floor_eq_iff]
      constructor <;> linarith [h.1, h.2]
    rw [this]
    simp

/-- What image `n` adds, compared with the exact contribution. -/
theorem image_err {F : Floats} (h : Rounds u F.fl) {f : ℝ → ℕ → ℝ} {d : ℕ} {S : Setup d} {gran : ℕ}
    {useLut : Bool} {ε : ℝ} (hodd : S.fdl % 2 = 1) (hg : 0 < gran)
    (hshape : S.shape = kernelShape useLut gran)
    (hc : 0 < S.c) (hfs : 0 < S.fs) (hε0 : 0 ≤ ε) (hsmall : 16 * S.fdl * u + 5 * ε ≤ 1 / 10)
    (hf : ∀ x, ∀ j < S.fdl, |f x j - kernelShape useLut gran ((j : ℝ) - halfLen S.fdl - (x - ⌊x⌋))
        * hann S.fdl j| ≤ 14 * (u * S.fdl) + 5 * ε)
    (src mic : Fin d → ℝ) (n : Fin d → ℤ) {D G g' : ℝ}
    (hD : |D - pathLength mic (image S.L src n)| ≤ 10 * u * pathScale S.L src mic n)
    (hg' : |g' - G| ≤ 35 * u * |G|)
    (hcond : 100 * u * pathScale S.L src mic n ≤ pathLength mic (image S.L src n)) (k : ℕ) :
    |(floatTap F f S.fdl (F.fl (F.fl (F.fl (D / F.fl S.c) + F.fl (halfLen S.fdl / S.fs)) * F.fl S.fs),
        F.fl (g' / D)) k).sum
      - G / pathLength mic (image S.L src n)
        * kernel S.shape S.fdl (pathLength mic (image S.L src n) * S.fs / S.c) k|
      ≤ |G| / pathLength mic (image S.L src n) * imageError S u ε src mic n := by
  have hu := h.pos
  set r := pathLength mic (image S.L src n) with hr
  set R := pathScale S.L src mic n with hR
  have hr0 : 0 < r := lt_of_lt_of_le (by norm_num) (le_max_right _ _)
  have hrR : r ≤ R := pathLength_le_scale _ _ _ _
  have hx := h.sample (f2 := halfLen S.fdl) hc hfs (by positivity) hr0 hrR hD
  have ha := h.amplitude hr0 hrR hcond hD hg'
  set x := F.fl (F.fl (F.fl (D / F.fl S.c) + F.fl (halfLen S.fdl / S.fs)) * F.fl S.fs)
  set a := F.fl (g' / D)
  set τ := r * S.fs / S.c
  have hh := half_eq hodd
  set δ := delayError S u R with hδ
  have hxδ : |x - halfLen S.fdl - τ| ≤ δ := by
    have e : x - halfLen S.fdl - τ = x - (τ + halfLen S.fdl) := by ring
    rw [e]
    refine hx.trans ?_
    rw [hδ]
    unfold delayError
    refine mul_le_mul_of_nonneg_left ?_ hu.le
    have : (0 : ℝ) ≤ halfLen S.fdl := by positivity
    linarith
  have hfdl : 1 ≤ S.fdl := by omega
  have h1 := floatTap_err h hfdl hsmall hf (x, a) k
  simp only [] at h1
  rw [← hshape] at h1
  have e1 : kernAt S.shape S.fdl x k = kernel S.shape S.fdl (x - halfLen S.fdl) k := by
    rw [← kernAt_shift _ hodd]; congr 1; ring
  rw [e1] at h1
  have hb : |kernel S.shape S.fdl (x - halfLen S.fdl) k| ≤ 1 := by
    rw [hshape]; exact kernel_bounded (kernelShape_bounded _ _) _ _ _
  have hK : |kernel S.shape S.fdl (x - halfLen S.fdl) k - kernel S.shape S.fdl τ k|
      ≤ 2 * δ + stepError S τ δ := by
    have hodd' : S.fdl = 2 * halfLen S.fdl + 1 := by
      have := halfLen_odd hodd
      omega
    have hk := kernel_change (h := S.shape) (by rw [hshape]; exact kernelShape_int useLut hg)
      (K := Real.pi / 2) (by positivity) (by rw [hshape]; exact kernelShape_lipschitz useLut hg)
      (halfLen S.fdl) τ (x - halfLen S.fdl) k
    rw [← hodd'] at hk
    refine hk.trans (add_le_add ?_ ?_)
    · exact mul_le_mul (by linarith [Real.pi_lt_four]) hxδ (abs_nonneg _) (by norm_num)
    · have h2 := mul_le_mul_of_nonneg_left (floor_change hxδ)
        (show 0 ≤ windowStep S.fdl by unfold windowStep; split <;> positivity)
      refine h2.trans (le_of_eq ?_)
      unfold stepError
      split <;> simp
  have hκ : 53 * u * (R / r) ≤ 0.53 := by
    have : 100 * u * R / r ≤ 1 := (div_le_one hr0).mpr hcond
    have e : 53 * u * (R / r) = 0.53 * (100 * u * R / r) := by ring
    rw [e]; linarith
  set A := |G| / r with hA
  have hA0 : 0 ≤ A := by positivity
  have hGr : |G / r| = A := by rw [abs_div, abs_of_pos hr0]
  have ha1 : |a| ≤ 1.53 * A := by
    have e : a = G / r + (a - G / r) := by ring
    rw [e]
    refine (abs_add_le _ _).trans ?_
    rw [hGr]
    have := mul_le_mul_of_nonneg_right hκ hA0
    linarith
  have hQ0 : 0 ≤ 16 * (u * S.fdl) + 5 * ε := by
    have : 0 ≤ u * (S.fdl : ℝ) := by positivity
    linarith
  have t1 : |a| * (16 * (u * S.fdl) + 5 * ε) ≤ A * (32 * S.fdl * u + 10 * ε) := by
    refine (mul_le_mul_of_nonneg_right ha1 hQ0).trans ?_
    have : 1.53 * (16 * (u * S.fdl) + 5 * ε) ≤ 32 * S.fdl * u + 10 * ε := by linarith
    have := mul_le_mul_of_nonneg_left this hA0
    linarith
  have t2 : |(a - G / r) * kernel S.shape S.fdl (x - halfLen S.fdl) k| ≤ A * (53 * u * (R / r)) := by
    rw [abs_mul]
    calc _ ≤ 53 * u * (R / r) * A * 1 := mul_le_mul ha hb (abs_nonneg _) ((abs_nonneg _).trans ha)
      _ = _ := by ring
  have t3 : |G / r * (kernel S.shape S.fdl (x - halfLen S.fdl) k - kernel S.shape S.fdl τ k)|
      ≤ A * (2 * δ + stepError S τ δ) := by
    rw [abs_mul, hGr]
    exact mul_le_mul_of_nonneg_left hK hA0
  set T := (floatTap F f S.fdl (x, a) k).sum
  set K' := kernel S.shape S.fdl (x - halfLen S.fdl) k
  set K := kernel S.shape S.fdl τ k
  have e2 : T - G / r * K = (T - a * K') + (a - G / r) * K' + G / r * (K' - K) := by ring
  rw [e2]
  refine (abs_add_le _ _).trans ?_
  have t4 := abs_add_le (T - a * K') ((a - G / r) * K')
  have e3 : A * imageError S u ε src mic n = A * (32 * S.fdl * u + 10 * ε) + A * (53 * u * (R / r))
      + A * (2 * δ + stepError S τ δ) := by
    unfold imageError
    simp only []
    ring
  rw [e3]
  linarith

/-! ## Whole responses -/

/-- Sample position and amplitude of image `n`, as computed; `g` is the computed gain. -/
noncomputable def floatPair (F : Floats) {d : ℕ} (c fs : ℝ) (fdl : ℕ) (L src mic : Fin d → ℝ)
    (g : (Fin d → ℤ) → ℝ) (n : Fin d → ℤ) : ℝ × ℝ :=
  (F.fl (F.fl (F.fl (floatDist F L src mic n / F.fl c) + F.fl (halfLen fdl / fs)) * F.fl fs),
    F.fl (g n / floatDist F L src mic n))

theorem pathContribution_float {F : Floats} {d : ℕ} {c fs : ℝ} {fdl : ℕ} {L src mic : Fin d → ℝ}
    {n : Fin d → ℤ} {refl g1 : ℝ} {g : (Fin d → ℤ) → ℝ} {sp mp : String} {sd md : Vec}
    (h1 : F.deviceGain sp (List.ofFn (vecFloat F L src mic n)) sd refl = .ok g1)
    (h2 : F.deviceGain mp (List.ofFn (-vecFloat F L src mic n)) md g1 = .ok (g n)) :
    F.pathContribution (F.imagePosition (List.ofFn src) (List.ofFn L) (List.ofFn n)) (List.ofFn mic)
      refl c fs (halfLen fdl) sp mp sd md = .ok (floatPair F c fs fdl L src mic g n) := by
  unfold Floats.pathContribution
  simp only [vecFloat_eq, vneg_ofFn]
  rw [h1, ok_bind, h2]
  rfl

/-- The gains of all images exist as computed numbers; `vec` is the computed vector from an image to
the microphone. -/
structure FloatGains (F : Floats) {d nS nM : ℕ} {τ : Type} (sp mp : String) (sd : Option (List Vec))
    (md : Option MicDir) (refl : (Fin d → ℤ) → ℝ) (vec : τ → Fin nS → Fin nM → (Fin d → ℤ) → Fin d → ℝ)
    (ns : List (Fin d → ℤ)) (g : τ → Fin nS → Fin nM → (Fin d → ℤ) → ℝ) : Prop where
  src_some : ¬ (sp ≠ "omni" ∧ sd.isNone)
  mic_some : ¬ (mp ≠ "omni" ∧ md.isNone)
  gain : ∀ m : Fin nM, ∃ mv, micVec md nM m = .ok mv ∧ ∀ t s, ∀ n ∈ ns, ∃ g1,
    F.deviceGain sp (List.ofFn (vec t s m n)) ((sd.getD []).getD s []) (refl n) = .ok g1 ∧
    F.deviceGain mp (List.ofFn (-vec t s m n)) mv g1 = .ok (g t s m n)

theorem floatGains_omni (F : Floats) {d nS nM : ℕ} {τ : Type} (refl : (Fin d → ℤ) → ℝ)
    (vec : τ → Fin nS → Fin nM → (Fin d → ℤ) → Fin d → ℝ) (ns : List (Fin d → ℤ)) :
    FloatGains F "omni" "omni" none none refl vec ns fun _ _ _ n => refl n :=
  ⟨by simp, by simp, fun _ => ⟨[], rfl, fun _ _ _ _ => ⟨_, rfl, rfl⟩⟩⟩

theorem mem_of_slice {α : Type} {a b : ℕ} {l : List α} {x : α} (h : x ∈ slice a b l) : x ∈ l :=
  List.mem_of_mem_take (List.mem_of_mem_drop h)

theorem contributions_ofFn {F : Floats} {d : ℕ} {c fs : ℝ} {fdl : ℕ} {L lo hi src mic : Fin d → ℝ}
    {sp mp : String} {sd md : Vec} {g : (Fin d → ℤ) → ℝ} (start stop : ℕ) {ns : List (Fin d → ℤ)}
    (hg : ∀ n ∈ ns, ∃ g1,
      F.deviceGain sp (List.ofFn (vecFloat F L src mic n)) sd (floatRefl F lo hi n) = .ok g1 ∧
      F.deviceGain mp (List.ofFn (-vecFloat F L src mic n)) md g1 = .ok (g n)) :
    F.contributions (List.ofFn src) (List.ofFn mic) (List.ofFn L)
      (slice start stop (ns.map List.ofFn))
      (slice start stop (F.reflectionCoefficients (ns.map List.ofFn) (wallList lo hi))) c fs (halfLen fdl)
      sp mp sd md = .ok ((slice start stop ns).map (floatPair F c fs fdl L src mic g)) := by
  unfold Floats.contributions Floats.reflectionCoefficients
  rw [List.map_map, slice_map, slice_map, List.zip_map', List.mapM_map]
  apply mapM_ok
  intro n hn
  obtain ⟨g1, h1, h2⟩ := hg n (mem_of_slice hn)
  exact pathContribution_float h1 h2

theorem contributionsBatch_float {F : Floats} {d nS nM : ℕ} {c fs : ℝ} {fdl : ℕ} {L lo hi : Fin d → ℝ}
    {src : Fin nS → Fin d → ℝ} {mic : Fin nM → Fin d → ℝ} {sp mp : String} {sd : Option (List Vec)}
    {md : Option MicDir} {ns : List (Fin d → ℤ)} {g : Unit → Fin nS → Fin nM → (Fin d → ℤ) → ℝ}
    (hg : FloatGains F sp mp sd md (floatRefl F lo hi) (fun _ s m => vecFloat F L (src s) (mic m)) ns g)
    (start stop : ℕ) :
    F.contributionsBatch (List.ofFn fun s => List.ofFn (src s)) (List.ofFn fun m => List.ofFn (mic m))
      (List.ofFn L) (slice start stop (ns.map List.ofFn))
      (slice start stop (F.reflectionCoefficients (ns.map List.ofFn) (wallList lo hi))) c fs (halfLen fdl)
      sp mp sd md
    = .ok (List.ofFn fun s => List.ofFn fun m =>
        (slice start stop ns).map (floatPair F c fs fdl L (src s) (mic m) (g () s m))) := by
  unfold Floats.contributionsBatch
  rw [raiseIf_neg hg.src_some, raiseIf_neg hg.mic_some]
  simp only [ok_bind, zipIdx_ofFn]
  apply mapM_ofFn
  intro s
  simp only
  apply mapM_ofFn
  intro m
  obtain ⟨mv, hmv, hm⟩ := hg.gain m
  simp only [List.length_ofFn]
  rw [hmv, ok_bind]
  exact contributions_ofFn start stop (hm () s)

theorem contributionsTimeBatch_float {F : Floats} {d nT nS nM : ℕ} {c fs : ℝ} {fdl : ℕ}
    {L lo hi : Fin d → ℝ} {src : Fin nT → Fin nS → Fin d → ℝ} {mic : Fin nT → Fin nM → Fin d → ℝ}
    {sp mp : String} {sd : Option (List Vec)} {md : Option MicDir} {ns : List (Fin d → ℤ)}
    {g : Fin nT → Fin nS → Fin nM → (Fin d → ℤ) → ℝ}
    (hg : FloatGains F sp mp sd md (floatRefl F lo hi) (fun t s m => vecFloat F L (src t s) (mic t m)) ns g)
    (start stop : ℕ) :
    F.contributionsTimeBatch (List.ofFn fun t => List.ofFn fun s => List.ofFn (src t s))
      (List.ofFn fun t => List.ofFn fun m => List.ofFn (mic t m))
      (List.ofFn L) (slice start stop (ns.map List.ofFn))
      (slice start stop (F.reflectionCoefficients (ns.map List.ofFn) (wallList lo hi))) c fs (halfLen fdl)
      sp mp sd md
    = .ok (List.ofFn fun t => List.ofFn fun s => List.ofFn fun m =>
        (slice start stop ns).map (floatPair F c fs fdl L (src t s) (mic t m) (g t s m))) := by
  unfold Floats.contributionsTimeBatch
  rw [raiseIf_neg hg.src_some, raiseIf_neg hg.mic_some]
  have hz : ∀ {α β : Type} (f : Fin nT → α) (g : Fin nT → β),
      (List.ofFn f).zip (List.ofFn g) = List.ofFn fun t => (f t, g t) := by
    intro α β f g
    exact zipWith_ofFn Prod.mk f g
  simp only [ok_bind, hz]
  apply mapM_ofFn
  intro t
  simp only [zipIdx_ofFn]
  apply mapM_ofFn
  intro s
  simp only
  apply mapM_ofFn
  intro m
  obtain ⟨mv, hmv, hm⟩ := hg.gain m
  simp only [List.length_ofFn]
  rw [hmv, ok_bind]
  exact contributions_ofFn start stop (hm t s)

theorem covers_of_perm {order : List (ℤ × ℝ) → List (ℤ × ℝ)} (h : ∀ es, (order es).Perm es) :
    Covers List.Perm order := ⟨h, fun es q => vals_perm (h es) q⟩

/-- `simulateRirFloat` for resolved arguments: every sample is the sum of its taps in some order. -/
theorem StaticPlan.evalFloat {d nS nM : ℕ} {room : Room} {sources mics : Entity} {a : SimArgs}
    {L : Fin d → ℝ} {src : Fin nS → Fin d → ℝ} {mic : Fin nM → Fin d → ℝ} {P : Plan d nS nM}
    (h : StaticPlan room sources mics a L src mic P) (w : World)
    {Rel : List ℝ → List ℝ → Prop} (F : Floats) (hRel : OrderRel Rel)
    (hord : ∀ i j, Covers Rel (F.order i j)) {T : ℝ × ℝ → ℕ → List ℝ}
    (hT : TapSpec (fun row i f a => F.tapEntries P.cfg.fracDelayLength.toNat
        P.cfg.sincLutGranularity.toNat (P.cfg.useLut && w.device ≠ .mps) P.K.toNat row i f a) T
      (fun x => F.fl (x - (⌊x⌋ : ℝ))) P.K.toNat)
    {ns : List (Fin d → ℤ)} (hns : P.nVec = ns.map List.ofFn) {sd : Option (List Vec)}
    {md : Option MicDir} (hmd : F.resolveMicDir P.mp P.mo d = .ok md)
    (hsd : F.resolveSrcDirs P.sp P.so d nS = .ok sd) {g : Unit → Fin nS → Fin nM → (Fin d → ℤ) → ℝ}
    (hg : FloatGains F P.sp P.mp sd md (floatRefl F P.lo P.hi)
      (fun _ s m => vecFloat F L (src s) (mic m)) ns g) :
    ∃ H : Fin nS → Fin nM → ℕ → ℝ,
      simulateRirFloat F w room sources mics a = (do
        let rir ← diffuseStep w (tensor3 fun s m (k : Fin P.K.toNat) => H s m k) room
          (wallList P.lo P.hi) a.tdiff P.tmax P.cfg.seed
        applyRirHpf w room.fs P.cfg rir) ∧
      ∀ s m, ∀ k < P.K.toNat, ∃ l, Rel l (tapsOf T (ns.map (floatPair F room.c room.fs
          P.cfg.fracDelayLength.toNat L (src s) (mic m) (g () s m))) k) ∧
        H s m k = l.foldl (fun x y => F.fl (x + y)) 0 := by
  obtain ⟨p, hp, hp'⟩ := h.hsrc
  obtain ⟨q, hq, hq'⟩ := h.hmic
  have hS := h.hS
  have hM := h.hM
  have hcfg : P.cfg.validate = .ok () := resolveConfig_valid h.res
  have hcs := (Config.valid_iff P.cfg).mp hcfg
  have hdim : ensureDim room.size = .ok () := by
    unfold ensureDim; rw [h.size, List.length_ofFn, if_pos h.hd]
  have hshape : validatePosShapes (tensor2 src) (tensor2 mic) d = .ok () := by
    unfold validatePosShapes
    simp only [raiseIf_bind_ok, raiseIf_ok]
    simp [tensor2, Tensor.ndim]
  have himg := h.img
  rw [hns] at himg
  obtain ⟨H, hloop, hH⟩ := chunkLoopTaps_rel (fun x y => F.fl (x + y)) F.order hRel hord
    (fun x y => F.fl (x - y)) _ T P.K.toNat hT P.cfg.accumulateChunkSize.toNat (by omega)
    (List.ofFn fun s : Fin nS => List.ofFn fun m : Fin nM => (s, m)).flatten (pairs_nodup nS nM)
    (by
      intro h0
      have := pairs_length nS nM
      rw [h0] at this
      simp at this
      omega) ns
    (fun r n => floatPair F room.c room.fs P.cfg.fracDelayLength.toNat L (src r.1) (mic r.2)
      (g () r.1 r.2) n)
    (imageChunk P.cfg ns.length) (imageChunk_pos hcfg _)
    (fun buf start => do
      let chunk ← F.contributionsBatch (List.ofFn fun s => List.ofFn (src s))
        (List.ofFn fun m => List.ofFn (mic m)) (List.ofFn L)
        (slice start (min (start + imageChunk P.cfg ns.length) ns.length) (ns.map List.ofFn))
        (slice start (min (start + imageChunk P.cfg ns.length) ns.length)
          (F.reflectionCoefficients (ns.map List.ofFn) (wallList P.lo P.hi)))
        room.c room.fs (halfLen P.cfg.fracDelayLength.toNat) P.sp P.mp sd md
      F.accumulate start P.cfg w.device (nS * nM) P.K.toNat buf chunk.flatten)
    (by
      intro buf start
      rw [contributionsBatch_float hg, ok_bind, pairs_length]
      unfold Floats.accumulate
      simp only [List.map_ofFn, Function.comp_def, List.map_flatten])
  refine ⟨fun s m => H (s, m), ?_, ?_⟩
  · unfold simulateRirFloat
    rw [h.res, ok_bind]
    simp only []
    rw [h.val, ok_bind, hp, ok_bind]
    simp only []
    rw [hq, ok_bind]
    simp only []
    rw [hdim, ok_bind]
    have hlen : room.size.length = d := by rw [h.size]; simp
    rw [hp', hq', hlen, hshape, ok_bind, h.beta, ok_bind, himg, ok_bind, h.split, ok_bind]
    simp only []
    rw [hmd, ok_bind]
    have e1 : (tensor2 src).shape.getD 0 0 = nS := rfl
    have e2 : (tensor2 mic).shape.getD 0 0 = nM := rfl
    rw [e1, e2, hsd, ok_bind, tensor2_rows, tensor2_rows, h.size]
    rw [pairs_length] at hloop
    simp only [List.length_map] at hloop ⊢
    rw [hloop, ok_bind]
    have hdata := pairs_map_flatten (N := P.K.toNat) (fun (s : Fin nS) (m : Fin nM) k => H (s, m) k)
    rw [hdata]
    rfl
  · intro s m k hk
    exact hH (s, m) (flatten_mem (fun s m => (s, m)) s m) k hk

/-- `simulateDynamicRirFloat` for resolved arguments. -/
theorem DynamicPlan.evalFloat {d nT nS nM : ℕ} {room : Room} {a : SimArgs}
    {L : Fin d → ℝ} {src : Fin nT → Fin nS → Fin d → ℝ} {mic : Fin nT → Fin nM → Fin d → ℝ}
    {P : Plan d nS nM} (h : DynamicPlan room a L src mic P) (w : World)
    {sTraj mTraj : Tensor ℝ} (hsT : asTraj sTraj = tensor3 src) (hmT : asTraj mTraj = tensor3 mic)
    {Rel : List ℝ → List ℝ → Prop} (F : Floats) (hRel : OrderRel Rel)
    (hord : ∀ i j, Covers Rel (F.order i j)) {T : ℝ × ℝ → ℕ → List ℝ}
    (hT : TapSpec (fun row i f a => F.tapEntries P.cfg.fracDelayLength.toNat
        P.cfg.sincLutGranularity.toNat (P.cfg.useLut && w.device ≠ .mps) P.K.toNat row i f a) T
      (fun x => F.fl (x - (⌊x⌋ : ℝ))) P.K.toNat)
    {ns : List (Fin d → ℤ)} (hns : P.nVec = ns.map List.ofFn) {sd : Option (List Vec)}
    {md : Option MicDir} (hmd : F.resolveMicDir P.mp P.mo d = .ok md)
    (hsd : F.resolveSrcDirs P.sp P.so d nS = .ok sd) {g : Fin nT → Fin nS → Fin nM → (Fin d → ℤ) → ℝ}
    (hg : FloatGains F P.sp P.mp sd md (floatRefl F P.lo P.hi)
      (fun t s m => vecFloat F L (src t s) (mic t m)) ns g) :
    ∃ H : Fin nT → Fin nS → Fin nM → ℕ → ℝ,
      simulateDynamicRirFloat F w room sTraj mTraj a
        = applyRirHpf w room.fs P.cfg (tensor4 fun t s m (k : Fin P.K.toNat) => H t s m k) ∧
      ∀ t s m, ∀ k < P.K.toNat, ∃ l, Rel l (tapsOf T (ns.map (floatPair F room.c room.fs
          P.cfg.fracDelayLength.toNat L (src t s) (mic t m) (g t s m))) k) ∧
        H t s m k = l.foldl (fun x y => F.fl (x + y)) 0 := by
  have hT' := h.hT
  have hS := h.hS
  have hM := h.hM
  have hcfg : P.cfg.validate = .ok () := resolveConfig_valid h.res
  have hcs := (Config.valid_iff P.cfg).mp hcfg
  have hdim : ensureDim room.size = .ok () := by
    unfold ensureDim; rw [h.size, List.length_ofFn, if_pos h.hd]
  have hshape : validateTrajShapes (tensor3 src) (tensor3 mic) d = .ok () := by
    unfold validateTrajShapes
    simp only [raiseIf_bind_ok, raiseIf_ok]
    simp [tensor3, Tensor.ndim]
  have himg := h.img
  rw [hns] at himg
  obtain ⟨H, hloop, hH⟩ := chunkLoopTaps_rel (fun x y => F.fl (x + y)) F.order hRel hord
    (fun x y => F.fl (x - y)) _ T P.K.toNat hT P.cfg.accumulateChunkSize.toNat (by omega)
    (List.ofFn fun t : Fin nT => List.ofFn fun s : Fin nS => List.ofFn fun m : Fin nM =>
      (t, s, m)).flatten.flatten (triples_nodup nT nS nM)
    (by
      intro h0
      have := triples_length nT nS nM
      rw [h0] at this
      simp at this
      omega) ns
    (fun r n => floatPair F room.c room.fs P.cfg.fracDelayLength.toNat L
      (src r.1 r.2.1) (mic r.1 r.2.2) (g r.1 r.2.1 r.2.2) n)
    (imageChunk P.cfg ns.length) (imageChunk_pos hcfg _)
    (fun buf start => do
      let chunk ← F.contributionsTimeBatch (List.ofFn fun t => List.ofFn fun s => List.ofFn (src t s))
        (List.ofFn fun t => List.ofFn fun m => List.ofFn (mic t m)) (List.ofFn L)
        (slice start (min (start + imageChunk P.cfg ns.length) ns.length) (ns.map List.ofFn))
        (slice start (min (start + imageChunk P.cfg ns.length) ns.length)
          (F.reflectionCoefficients (ns.map List.ofFn) (wallList P.lo P.hi)))
        room.c room.fs (halfLen P.cfg.fracDelayLength.toNat) P.sp P.mp sd md
      F.accumulate start P.cfg w.device (nT * nS * nM) P.K.toNat buf chunk.flatten.flatten)
    (by
      intro buf start
      rw [contributionsTimeBatch_float hg, ok_bind, triples_length]
      unfold Floats.accumulate
      simp only [List.map_ofFn, Function.comp_def, List.map_flatten, List.flatten_flatten])
  refine ⟨fun t s m => H (t, s, m), ?_, ?_⟩
  · unfold simulateDynamicRirFloat
    rw [h.res, ok_bind]
    simp only []
    rw [h.val, ok_bind, h.hori, ok_bind, hdim, ok_bind]
    have hlen : room.size.length = d := by rw [h.size]; simp
    rw [hsT, hmT, hlen, hshape, ok_bind, h.beta, ok_bind, himg, ok_bind, h.split, ok_bind]
    simp only []
    rw [hmd, ok_bind]
    have e0 : (tensor3 src).shape.getD 0 0 = nT := rfl
    have e1 : (tensor3 src).shape.getD 1 0 = nS := rfl
    have e2 : (tensor3 mic).shape.getD 1 0 = nM := rfl
    rw [e0, e1, e2, hsd, ok_bind, tensor3_planes, tensor3_planes, h.size]
    rw [triples_length] at hloop
    simp only [List.length_map] at hloop ⊢
    rw [hloop, ok_bind]
    have hdata := triples_map_flatten (N := P.K.toNat)
      (fun (t : Fin nT) (s : Fin nS) (m : Fin nM) k => H (t, s, m) k)
    rw [hdata]
    rfl
  · intro t s m k hk
    refine hH (t, s, m) ?_ k hk
    rw [List.mem_flatten]
    refine ⟨List.ofFn fun m : Fin nM => (t, s, m), ?_, (List.mem_ofFn' _ _).mpr ⟨m, rfl⟩⟩
    exact flatten_mem (fun t s => List.ofFn fun m : Fin nM => (t, s, m)) t s

theorem abs_sum_le_list (l : List ℝ) : |l.sum| ≤ (l.map fun v => |v|).sum := by
  induction l with
  | nil => simp
  | cons a l ih =>
    simp only [List.sum_cons, List.map_cons]
    exact (abs_add_le _ _).trans (by linarith)

theorem sum_le_one_abs {l : List ℝ} (h : l.length ≤ 1) : (l.map fun v => |v|).sum = |l.sum| := by
  match l, h with
  | [], _ => simp
  | [x], _ => simp

/-- Sums of lists of at most one entry each. -/
theorem tapsOf_facts {T : ℝ × ℝ → ℕ → List ℝ} (hT : ∀ q k, (T q k).length ≤ 1) (k : ℕ)
    (l : List (ℝ × ℝ)) :
    (tapsOf T l k).sum = (l.map fun q => (T q k).sum).sum ∧
    ((tapsOf T l k).map fun v => |v|).sum = (l.map fun q => |(T q k).sum|).sum ∧
    (tapsOf T l k).length ≤ l.length := by
  unfold tapsOf
  induction l with
  | nil => simp
  | cons q l ih =>
    obtain ⟨h1, h2, h3⟩ := ih
    have := hT q k
    refine ⟨?_, ?_, ?_⟩
    · simp only [List.map_cons, List.flatten_cons, List.sum_append, List.sum_cons]
      rw [h1]
    · simp only [List.map_cons, List.flatten_cons, List.map_append, List.sum_append, List.sum_cons]
      rw [h2, sum_le_one_abs this]
    · simp only [List.map_cons, List.flatten_cons, List.length_append, List.length_cons]
      omega

theorem imageError_nonneg {d : ℕ} {S : Setup d} (hc : 0 < S.c) (hfs : 0 < S.fs) {u ε : ℝ} (hu : 0 ≤ u)
    (hε : 0 ≤ ε) (src mic : Fin d → ℝ) (n : Fin d → ℤ) : 0 ≤ imageError S u ε src mic n := by
  have hr := pathLength_pos mic (image S.L src n)
  have hR : 0 ≤ pathScale S.L src mic n := by unfold pathScale; positivity
  have hδ : 0 ≤ delayError S u (pathScale S.L src mic n) := by unfold delayError; positivity
  have hs : 0 ≤ stepError S (pathLength mic (image S.L src n) * S.fs / S.c)
      (delayError S u (pathScale S.L src mic n)) := by
    unfold stepError
    split
    · exact mul_nonneg (windowStep_nonneg _) (by linarith)
    · exact le_rfl
  unfold imageError
  positivity

/-- A whole sample. -/
theorem response_err {p : ℕ} {ε : ℝ} {F : Floats} (hp : 14 ≤ p) (hA : Accurate p ε F) {f : ℝ → ℕ → ℝ}
    {d : ℕ} (hd : d = 2 ∨ d = 3) {S : Setup d} {gran : ℕ} {useLut : Bool} (hodd : S.fdl % 2 = 1) (hg : 0 < gran)
    (hshape : S.shape = kernelShape useLut gran) (hc : 0 < S.c) (hfs : 0 < S.fs)
    (hsmall : 16 * S.fdl * roundoff p + 5 * ε ≤ 1 / 10)
    (hf : ∀ x, ∀ j < S.fdl, |f x j - kernelShape useLut gran ((j : ℝ) - halfLen S.fdl - (x - ⌊x⌋))
        * hann S.fdl j| ≤ 14 * (roundoff p * S.fdl) + 5 * ε)
    (src mic : Fin d → ℝ) (A : Finset (Fin d → ℤ))
    (hcond : ∀ n ∈ A, 100 * roundoff p * pathScale S.L src mic n ≤ pathLength mic (image S.L src n))
    {ns : List (Fin d → ℤ)} (hnd : ns.Nodup) (hmem : ∀ n, n ∈ ns ↔ n ∈ A) (k : ℕ)
    {gs gm : (Fin d → ℝ) → ℝ} {g γ Γ : (Fin d → ℤ) → ℝ}
    (hgain : ∀ n ∈ A, |g n - wallGain S.lo S.hi n * γ n| ≤ 35 * roundoff p * |wallGain S.lo S.hi n * γ n|)
    (hone : ∀ n ∈ A, |gs (mic - image S.L src n) * gm (image S.L src n - mic)| ≤ 1)
    (hΓ : ∀ n ∈ A, |γ n - gs (mic - image S.L src n) * gm (image S.L src n - mic)| ≤ Γ n - 1) {l : List ℝ}
    (hl : l.Perm (tapsOf (floatTap F f S.fdl) (ns.map (floatPair F S.c S.fs S.fdl S.L src mic g)) k)) :
    |l.foldl (fun x y => F.fl (x + y)) 0 - rir S A gs gm src mic k|
      ≤ ∑ n ∈ A, |wallGain S.lo S.hi n| / pathLength mic (image S.L src n)
        * ((1 + roundoff p) ^ A.card * (Γ n * (1 + imageError S (roundoff p) ε src mic n)) - 1) := by
  have h := rounds_of_nearest hp hA.fl
  set u := roundoff p
  have hε0 : 0 ≤ ε := (abs_nonneg _).trans (hA.sinc 0)
  have hd3 : d ≤ 3 := by rcases hd with rfl | rfl <;> norm_num
  set t : (Fin d → ℤ) → ℝ := fun n =>
    (floatTap F f S.fdl (floatPair F S.c S.fs S.fdl S.L src mic g n) k).sum with ht
  set K : (Fin d → ℤ) → ℝ := fun n => kernel S.shape S.fdl (pathLength mic (image S.L src n) * S.fs / S.c) k
    with hK
  set b : (Fin d → ℤ) → ℝ := fun n => wallGain S.lo S.hi n * gs (mic - image S.L src n)
    * gm (image S.L src n - mic) / pathLength mic (image S.L src n) * K n with hb
  set w : (Fin d → ℤ) → ℝ := fun n => |wallGain S.lo S.hi n| / pathLength mic (image S.L src n) with hw
  set e : (Fin d → ℤ) → ℝ := fun n => Γ n * (1 + imageError S u ε src mic n) - 1 with he
  have hK1 : ∀ n, |K n| ≤ 1 := by
    intro n
    simp only [hK]
    rw [hshape]
    exact kernel_bounded (kernelShape_bounded _ _) _ _ _
  have himg : ∀ n ∈ A, |t n - b n| ≤ w n * e n := by
    intro n hn
    have hr := pathLength_pos mic (image S.L src n)
    have h1 := pathLength_err h hA.norm hd3 S.L src mic n
    have h3 := image_err h hodd hg hshape hc hfs hε0 hsmall hf src mic n h1 (hgain n hn) (hcond n hn) k
    have h4 : t n - b n = (t n - wallGain S.lo S.hi n * γ n / pathLength mic (image S.L src n) * K n)
        + wallGain S.lo S.hi n / pathLength mic (image S.L src n)
          * (γ n - gs (mic - image S.L src n) * gm (image S.L src n - mic)) * K n := by
      simp only [hb]; ring
    have hI : 0 ≤ imageError S u ε src mic n := imageError_nonneg hc hfs h.pos.le hε0 src mic n
    have hγ : |γ n| ≤ Γ n := by
      have := abs_sub_abs_le_abs_sub (γ n) (gs (mic - image S.L src n) * gm (image S.L src n - mic))
      linarith [hΓ n hn, hone n hn]
    have h5 : |wallGain S.lo S.hi n * γ n| / pathLength mic (image S.L src n) * imageError S u ε src mic n
        ≤ w n * (Γ n * imageError S u ε src mic n) := by
      rw [abs_mul, mul_div_right_comm, mul_assoc]
      exact mul_le_mul_of_nonneg_left (mul_le_mul_of_nonneg_right hγ hI) (by positivity)
    have h6 : |wallGain S.lo S.hi n / pathLength mic (image S.L src n)
          * (γ n - gs (mic - image S.L src n) * gm (image S.L src n - mic)) * K n| ≤ w n * (Γ n - 1) := by
      rw [abs_mul, abs_mul, abs_div, abs_of_pos hr]
      have hw0 : 0 ≤ w n := by simp only [hw]; positivity
      refine (mul_le_of_le_one_right (by positivity) (hK1 n)).trans ?_
      exact mul_le_mul_of_nonneg_left (hΓ n hn) hw0
    rw [h4]
    refine (abs_add_le _ _).trans ((add_le_add (h3.trans h5) h6).trans (le_of_eq ?_))
    simp only [he]
    ring
  have hbw : ∀ n ∈ A, |b n| ≤ w n := by
    intro n hn
    have hr := pathLength_pos mic (image S.L src n)
    have e1 : b n = wallGain S.lo S.hi n / pathLength mic (image S.L src n)
        * ((gs (mic - image S.L src n) * gm (image S.L src n - mic)) * K n) := by
      simp only [hb]; ring
    rw [e1, abs_mul, abs_div, abs_of_pos hr]
    refine mul_le_of_le_one_right (by positivity) ?_
    rw [abs_mul]
    exact mul_le_one₀ (hone n hn) (abs_nonneg _) (hK1 n)
  obtain ⟨f1, f2, f3⟩ := tapsOf_facts (floatTap_length F f S.fdl) k
    (ns.map (floatPair F S.c S.fs S.fdl S.L src mic g))
  rw [List.map_map] at f1 f2
  rw [List.length_map] at f3
  have hcard : ns.length = A.card := by
    rw [← List.toFinset_card_of_nodup hnd]
    congr 1
    ext n
    rw [List.mem_toFinset, hmem]
  have f1' : (tapsOf (floatTap F f S.fdl) (ns.map (floatPair F S.c S.fs S.fdl S.L src mic g))
      k).sum = ∑ n ∈ A, t n := by
    rw [f1, sum_list_eq_finset hnd hmem]
    rfl
  have f2' : ((tapsOf (floatTap F f S.fdl) (ns.map (floatPair F S.c S.fs S.fdl S.L src mic g))
      k).map fun v => |v|).sum = ∑ n ∈ A, |t n| := by
    rw [f2, sum_list_eq_finset hnd hmem]
    rfl
  have hnear := sum_near h.pos.le (add := fun x y => F.fl (x + y)) (fun x y => h.near (x + y)) hl A.card
    (by omega)
  rw [f1', f2'] at hnear
  have hrir : rir S A gs gm src mic k = ∑ n ∈ A, b n := rfl
  rw [hrir]
  have hsum : |∑ n ∈ A, t n - ∑ n ∈ A, b n| ≤ ∑ n ∈ A, w n * e n := by
    rw [← Finset.sum_sub_distrib]
    exact (Finset.abs_sum_le_sum_abs _ _).trans (Finset.sum_le_sum himg)
  have habs : ∑ n ∈ A, |t n| ≤ ∑ n ∈ A, w n * (1 + e n) := by
    refine Finset.sum_le_sum fun n hn => ?_
    have h1 := himg n hn
    have h2 := hbw n hn
    have h3 : t n = b n + (t n - b n) := by ring
    rw [h3]
    refine (abs_add_le _ _).trans ?_
    linarith
  have hpow : 0 ≤ (1 + u) ^ A.card - 1 := by
    have := one_le_pow₀ (show 1 ≤ 1 + u by linarith [h.pos]) (n := A.card)
    linarith
  refine (abs_sub_le _ (∑ n ∈ A, t n) _).trans ?_
  refine (add_le_add (hnear.trans (mul_le_mul_of_nonneg_left habs hpow)) hsum).trans (le_of_eq ?_)
  rw [Finset.mul_sum, ← Finset.sum_add_distrib]
  refine Finset.sum_congr rfl fun n _ => ?_
  simp only [hw, he]
  ring

/-- A whole sample between omnidirectional devices. -/
theorem response_err_omni {p : ℕ} {ε : ℝ} {F : Floats} (hp : 14 ≤ p) (hA : Accurate p ε F) {f : ℝ → ℕ → ℝ}
    {d : ℕ} (hd : d = 2 ∨ d = 3) {S : Setup d} {gran : ℕ} {useLut : Bool} (hodd : S.fdl % 2 = 1) (hg : 0 < gran)
    (hshape : S.shape = kernelShape useLut gran) (hc : 0 < S.c) (hfs : 0 < S.fs)
    (hsmall : 16 * S.fdl * roundoff p + 5 * ε ≤ 1 / 10)
    (hf : ∀ x, ∀ j < S.fdl, |f x j - kernelShape useLut gran ((j : ℝ) - halfLen S.fdl - (x - ⌊x⌋))
        * hann S.fdl j| ≤ 14 * (roundoff p * S.fdl) + 5 * ε)
    (src mic : Fin d → ℝ) (A : Finset (Fin d → ℤ))
    (hcond : ∀ n ∈ A, 100 * roundoff p * pathScale S.L src mic n ≤ pathLength mic (image S.L src n))
    {ns : List (Fin d → ℤ)} (hnd : ns.Nodup) (hmem : ∀ n, n ∈ ns ↔ n ∈ A) (k : ℕ) {l : List ℝ}
    (hl : l.Perm (tapsOf (floatTap F f S.fdl)
      (ns.map (floatPair F S.c S.fs S.fdl S.L src mic (floatRefl F S.lo S.hi))) k)) :
    |l.foldl (fun x y => F.fl (x + y)) 0 - rir S A omni omni src mic k|
      ≤ sampleError S A (roundoff p) ε src mic := by
  have h := rounds_of_nearest hp hA.fl
  refine (response_err hp hA hd hodd hg hshape hc hfs hsmall hf src mic A hcond hnd hmem k
    (g := floatRefl F S.lo S.hi) (γ := fun _ => 1) (Γ := fun _ => 1) (fun n _ => ?_) (fun n _ => ?_)
    (fun n _ => ?_) hl).trans (le_of_eq ?_)
  · rw [mul_one]
    refine (reflection_err h hA.pow hA.prod hd S.lo S.hi n).trans ?_
    exact mul_le_mul_of_nonneg_right (by linarith [h.pos]) (abs_nonneg _)
  · simp [omni]
  · simp [omni]
  · simp only [one_mul]
    rfl

end Torchrir.Lemmas
