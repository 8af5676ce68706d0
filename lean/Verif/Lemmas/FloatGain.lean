import Verif.Lemmas.Directivity
import Verif.Lemmas.Floating

/-!
# Rounding in the gains of directional devices
-/

namespace Torchrir.Lemmas

open Torchrir.Model Torchrir.Spec

variable {u : ℝ}

/-- A quotient of two numbers known up to relative errors. -/
theorem div_rel {x D a r α β : ℝ} (hr : 0 < r) (hβ : β < 1) (hx : |x - a| ≤ α * |a|) (hD : |D - r| ≤ β * r) :
    |x / D - a / r| ≤ (α + β) / (1 - β) * |a / r| := by
  have hD' : (1 - β) * r ≤ D := by linarith [(abs_le.mp hD).1]
  have hb : 0 < (1 - β) * r := mul_pos (by linarith) hr
  have hD0 : 0 < D := hb.trans_le hD'
  have e : x / D - a / r = ((x - a) * r - a * (D - r)) / (D * r) := by field_simp; ring
  rw [e, abs_div, abs_of_pos (mul_pos hD0 hr), abs_div, abs_of_pos hr, div_le_iff₀ (mul_pos hD0 hr)]
  have h1 : |(x - a) * r - a * (D - r)| ≤ (α + β) * (|a| * r) := by
    refine (abs_sub _ _).trans ?_
    rw [abs_mul, abs_mul, abs_of_pos hr]
    have := mul_le_mul_of_nonneg_right hx hr.le
    have := mul_le_mul_of_nonneg_left hD (abs_nonneg a)
    linarith
  have hα : 0 ≤ (α + β) * (|a| * r) := (abs_nonneg _).trans h1
  refine h1.trans ?_
  have h2 : (α + β) / (1 - β) * (|a| / r) * (D * r) = (α + β) * (|a| * r) * (D / ((1 - β) * r)) := by
    have : 1 - β ≠ 0 := by linarith
    field_simp
  rw [h2]
  exact le_mul_of_one_le_right hα ((one_le_div hb).mpr hD')

theorem fnorm_eq_dist {d : ℕ} (v : Fin d → ℝ) : fnorm v = Spec.dist v 0 := by
  unfold fnorm Spec.dist
  simp

/-- Norms of vectors that are close, coordinate by coordinate. -/
theorem fnorm_rel {d : ℕ} {a y : Fin d → ℝ} {θ : ℝ} (hθ : 0 ≤ θ) (h : ∀ i, |a i - y i| ≤ θ * |y i|) :
    |fnorm a - fnorm y| ≤ θ * fnorm y := by
  have h1 : Spec.dist a y ≤ θ * fnorm y := by
    unfold Spec.dist fnorm
    rw [← Real.sqrt_sq hθ, ← Real.sqrt_mul (sq_nonneg θ), Finset.mul_sum]
    refine Real.sqrt_le_sqrt (Finset.sum_le_sum fun i _ => ?_)
    rw [← mul_pow, ← sq_abs (a i - y i), ← sq_abs (θ * y i), abs_mul, abs_of_nonneg hθ]
    exact pow_le_pow_left₀ (abs_nonneg _) (h i) 2
  rw [fnorm_eq_dist, fnorm_eq_dist] at *
  have h2 := dist_triangle' a y 0
  have h3 := dist_triangle' y a 0
  rw [Torchrir.Lemmas.dist_comm y a] at h3
  rw [abs_le]
  constructor <;> linarith

/-- An axis, normalised once. -/
theorem normalize_once {F : Floats} (h : Rounds u F.fl)
    (hnorm : ∀ v : Vec, v.length ≤ 3 → |F.norm v - Real.sqrt ((v.map fun x => x ^ 2).sum)|
      ≤ 4 * u * Real.sqrt ((v.map fun x => x ^ 2).sum))
    {d : ℕ} (hd : d ≤ 3) {a y : Fin d → ℝ} {θ : ℝ} (hθ : 0 ≤ θ) (hθ' : θ ≤ 6 * u) (hy : 2e-8 ≤ fnorm y)
    (ha : ∀ i, |a i - y i| ≤ θ * |y i|) :
    ∃ b : Fin d → ℝ, F.normalizeVec (List.ofFn a) = List.ofFn b ∧
      ∀ i, |b i - y i / fnorm y| ≤ (2 * θ + 5.1 * u) * |y i / fnorm y| := by
  have hu := h.pos
  have hs := h.small
  have hy0 : 0 < fnorm y := lt_of_lt_of_le (by norm_num) hy
  have h1 := fnorm_rel hθ ha
  have h2 : |F.norm (List.ofFn a) - fnorm a| ≤ 4 * u * fnorm a := by
    have h3 := hnorm (List.ofFn a) (by simpa using hd)
    rw [sum_sq_ofFn, ← fnorm_eq_dist] at h3
    exact h3
  have h3 : |F.norm (List.ofFn a) - fnorm y| ≤ (θ + 4.01 * u) * fnorm y := by
    have e : F.norm (List.ofFn a) - fnorm y = (F.norm (List.ofFn a) - fnorm a) + (fnorm a - fnorm y) := by ring
    rw [e]
    refine (abs_add_le _ _).trans ?_
    have h4 : fnorm a ≤ 1.001 * fnorm y := by
      have := (abs_le.mp h1).2
      nlinarith
    have := mul_le_mul_of_nonneg_left h4 (show 0 ≤ 4 * u by positivity)
    nlinarith
  have h4 : max (F.norm (List.ofFn a)) (F.fl 1e-8) = F.norm (List.ofFn a) := by
    apply max_eq_left
    have h5 := (abs_le.mp (h.near 1e-8)).2
    rw [abs_of_pos (by norm_num)] at h5
    have h6 := (abs_le.mp h3).1
    norm_num at h5 hy ⊢
    nlinarith
  refine ⟨fun i => F.fl (a i / F.norm (List.ofFn a)), ?_, fun i => ?_⟩
  · unfold Floats.normalizeVec
    simp only [h4]
    rw [List.map_ofFn]
    rfl
  · have hβ : θ + 4.01 * u ≤ 0.002 := by linarith
    have h5 := div_rel hy0 (by linarith) (ha i) h3
    have h6 : (θ + (θ + 4.01 * u)) / (1 - (θ + 4.01 * u)) ≤ 2 * θ + 4.05 * u := by
      rw [div_le_iff₀ (by linarith)]
      nlinarith
    have h7 := h.near (a i / F.norm (List.ofFn a))
    set q := a i / F.norm (List.ofFn a)
    set t := y i / fnorm y
    have h8 : |q - t| ≤ (2 * θ + 4.05 * u) * |t| :=
      h5.trans (mul_le_mul_of_nonneg_right h6 (abs_nonneg _))
    have h9 : |q| ≤ 1.01 * |t| := by
      have := abs_sub_abs_le_abs_sub q t
      have := mul_le_mul_of_nonneg_right (show 2 * θ + 4.05 * u ≤ 0.01 by linarith) (abs_nonneg t)
      linarith
    have e : F.fl q - t = (F.fl q - q) + (q - t) := by ring
    rw [e]
    refine (abs_add_le _ _).trans ?_
    have := mul_le_mul_of_nonneg_left h9 hu.le
    nlinarith [mul_nonneg hu.le (abs_nonneg t)]

/-- An axis, normalised when it is resolved and again in `_cos_between`. -/
theorem normalize_twice {F : Floats} (h : Rounds u F.fl)
    (hnorm : ∀ v : Vec, v.length ≤ 3 → |F.norm v - Real.sqrt ((v.map fun x => x ^ 2).sum)|
      ≤ 4 * u * Real.sqrt ((v.map fun x => x ^ 2).sum))
    {d : ℕ} (hd : d ≤ 3) {y : Fin d → ℝ} (hy : 2e-8 ≤ fnorm y) :
    ∃ b : Fin d → ℝ, F.normalizeVec (F.normalizeVec (List.ofFn y)) = List.ofFn b ∧
      ∀ i, |b i - y i / fnorm y| ≤ 15.3 * u * |y i / fnorm y| := by
  have hu := h.pos
  have hy0 : 0 < fnorm y := lt_of_lt_of_le (by norm_num) hy
  obtain ⟨a, ha, ha'⟩ := normalize_once h hnorm hd (a := y) le_rfl (by linarith) hy (by simp)
  obtain ⟨b, hb, hb'⟩ := normalize_once h hnorm hd (θ := 2 * 0 + 5.1 * u) (by positivity) (by linarith)
    (y := fun i => y i / fnorm y) (by rw [fnorm_unit y hy0]; norm_num) ha'
  refine ⟨b, by rw [ha, hb], fun i => ?_⟩
  have := hb' i
  rw [fnorm_unit y hy0, div_one] at this
  refine this.trans (mul_le_mul_of_nonneg_right (by linarith) (abs_nonneg _))

theorem cauchy_abs {d : ℕ} (x y : Fin d → ℝ) : ∑ i, |x i * y i| ≤ fnorm x * fnorm y := by
  have h := Finset.sum_mul_sq_le_sq_mul_sq Finset.univ (fun i => |x i|) (fun i => |y i|)
  simp only [sq_abs] at h
  unfold fnorm
  rw [← Real.sqrt_mul (Finset.sum_nonneg fun i _ => sq_nonneg _)]
  apply Real.le_sqrt_of_sq_le
  refine le_trans (le_of_eq ?_) h
  simp only [abs_mul]

theorem abs_le_fnorm {d : ℕ} (x : Fin d → ℝ) (i : Fin d) : |x i| ≤ fnorm x := by
  unfold fnorm
  rw [← Real.sqrt_sq_eq_abs]
  exact Real.sqrt_le_sqrt (Finset.single_le_sum (f := fun i => x i ^ 2) (fun i _ => sq_nonneg _)
    (Finset.mem_univ i))

/-- The computed cosine between a path and an axis. -/
theorem cos_err {F : Floats} (h : Rounds u F.fl)
    (hnorm : ∀ v : Vec, v.length ≤ 3 → |F.norm v - Real.sqrt ((v.map fun x => x ^ 2).sum)|
      ≤ 4 * u * Real.sqrt ((v.map fun x => x ^ 2).sum))
    (hsum : ∀ l : List ℝ, l.length ≤ 3 → |F.sum l - l.sum| ≤ 4 * u * (l.map fun x => |x|).sum)
    {d : ℕ} (hd : d ≤ 3) {v w s axis : Fin d → ℝ} {R : ℝ} (hcoord : ∀ i, |v i - w i| ≤ 5.1 * u * s i)
    (hs : ∑ i, s i ≤ R) (hle : fnorm w ≤ ∑ i, s i) (hfar : 100 * u * R ≤ fnorm w) (hR : 0 < R)
    (haxis : 2e-8 ≤ fnorm axis) :
    ∃ c, F.cosBetween (List.ofFn v) (F.normalizeVec (List.ofFn axis)) = some c ∧
      |c - cosAngle w axis| ≤ 50 * u * (R / fnorm w) := by
  have hu := h.pos
  have hsm := h.small
  have hρ : 0 < fnorm w := lt_of_lt_of_le (by positivity) hfar
  have hS0 : 0 ≤ ∑ i, s i := hρ.le.trans hle
  have hκ : 1 ≤ R / fnorm w := (one_le_div hρ).mpr (hle.trans hs)
  have hκu : u * (R / fnorm w) ≤ 1 / 100 := by
    rw [← mul_div_assoc, div_le_iff₀ hρ]; linarith
  have h1 : |F.norm (List.ofFn v) - fnorm w| ≤ 9.2 * u * R := by
    have := norm_err h hnorm hd hcoord (by rw [← fnorm_eq_dist]; exact hle)
    rw [← fnorm_eq_dist] at this
    exact this.trans (mul_le_mul_of_nonneg_left hs (by positivity))
  set N := F.norm (List.ofFn v) with hN
  have hN' : 0.9 * fnorm w ≤ N := by
    have := (abs_le.mp h1).1
    linarith
  have hN0 : 0 < N := lt_of_lt_of_le (by positivity) hN'
  obtain ⟨b, hb, hb'⟩ := normalize_twice h hnorm hd haxis
  set y : Fin d → ℝ := fun i => axis i / fnorm axis with hy
  set x : Fin d → ℝ := fun i => w i / fnorm w with hx
  have hy1 : fnorm y = 1 := fnorm_unit _ (lt_of_lt_of_le (by norm_num) haxis)
  have hx1 : fnorm x = 1 := fnorm_unit _ hρ
  have hyi : ∀ i, |y i| ≤ 1 := fun i => hy1 ▸ abs_le_fnorm y i
  set q : Fin d → ℝ := fun i => v i / N with hq
  set P : Fin d → ℝ := fun i => F.fl (F.fl (q i) * b i) with hP
  refine ⟨F.sum (List.ofFn P), ?_, ?_⟩
  · unfold Floats.cosBetween
    rw [← hN, if_neg hN0.ne', hb, List.map_ofFn, zipWith_ofFn]
    rfl
  · have hcos : cosAngle w axis = ∑ i, x i * y i := by
      unfold cosAngle
      rw [Finset.sum_div]
      refine Finset.sum_congr rfl fun i _ => ?_
      simp only [hx, hy]
      rw [div_mul_div_comm]
      rfl
    -- the directions
    have hZ : ∑ i, |q i * y i - x i * y i| ≤ 15.9 * u * (R / fnorm w) := by
      have h2 : ∀ i, |q i * y i - x i * y i| ≤ 5.1 * u * s i / N + 9.2 * u * R / N * |x i * y i| := by
        intro i
        have e : q i * y i - x i * y i = (v i - w i) / N * y i + (fnorm w - N) / N * (x i * y i) := by
          simp only [hq, hx]
          field_simp
          ring
        rw [e]
        refine (abs_add_le _ _).trans (add_le_add ?_ ?_)
        · rw [abs_mul, abs_div, abs_of_pos hN0]
          refine (mul_le_of_le_one_right (by positivity) (hyi i)).trans ?_
          exact div_le_div_of_nonneg_right (hcoord i) hN0.le
        · rw [abs_mul, abs_div, abs_of_pos hN0, abs_sub_comm]
          exact mul_le_mul_of_nonneg_right (div_le_div_of_nonneg_right h1 hN0.le) (abs_nonneg _)
      refine (Finset.sum_le_sum fun i _ => h2 i).trans ?_
      rw [Finset.sum_add_distrib, ← Finset.sum_div, ← Finset.mul_sum, ← Finset.mul_sum]
      have h3 : ∑ i, |x i * y i| ≤ 1 := by
        have := cauchy_abs x y
        rw [hx1, hy1, mul_one] at this
        exact this
      have h4 : 9.2 * u * R / N * ∑ i, |x i * y i| ≤ 9.2 * u * R / N :=
        mul_le_of_le_one_right (by positivity) h3
      have h5 : 5.1 * u * ∑ i, s i ≤ 5.1 * u * R := mul_le_mul_of_nonneg_left hs (by positivity)
      have h6 := div_le_div_of_nonneg_right h5 hN0.le
      have h7 : 5.1 * u * R / N + 9.2 * u * R / N ≤ 15.9 * u * (R / fnorm w) := by
        rw [← add_div, ← mul_div_assoc, div_le_div_iff₀ hN0 hρ]
        have : 0 ≤ u * R := by positivity
        nlinarith [mul_le_mul_of_nonneg_left hN' this]
      linarith
    have hZ1 : ∑ i, |q i * y i| ≤ 1.16 := by
      have h3 : ∑ i, |x i * y i| ≤ 1 := by
        have := cauchy_abs x y
        rw [hx1, hy1, mul_one] at this
        exact this
      have h4 : ∑ i, |q i * y i| ≤ ∑ i, (|q i * y i - x i * y i| + |x i * y i|) := by
        refine Finset.sum_le_sum fun i _ => ?_
        have := abs_sub_abs_le_abs_sub (q i * y i) (x i * y i)
        linarith
      rw [Finset.sum_add_distrib] at h4
      linarith
    -- the products
    have hprod : ∀ i, |P i - q i * y i| ≤ 17.5 * u * |q i * y i| := by
      intro i
      have h2 := h.near (q i)
      have h3 := mul_err h2 (hb' i) hu.le
      have h4 : (u + 15.3 * u + u * (15.3 * u)) ≤ 16.4 * u := by nlinarith
      have h5 : |F.fl (q i) * b i - q i * y i| ≤ 16.4 * u * |q i * y i| := by
        refine h3.trans ?_
        exact mul_le_mul_of_nonneg_right h4 (abs_nonneg _)
      have h6 := h.near (F.fl (q i) * b i)
      have h7 : |F.fl (q i) * b i| ≤ 1.01 * |q i * y i| := by
        have := abs_sub_abs_le_abs_sub (F.fl (q i) * b i) (q i * y i)
        have := mul_le_mul_of_nonneg_right (show 16.4 * u ≤ 0.01 by linarith) (abs_nonneg (q i * y i))
        linarith
      have e : P i - q i * y i = (P i - F.fl (q i) * b i) + (F.fl (q i) * b i - q i * y i) := by ring
      rw [e]
      refine (abs_add_le _ _).trans ?_
      have h8 := mul_le_mul_of_nonneg_left h7 hu.le
      have h9 : |P i - F.fl (q i) * b i| ≤ u * |F.fl (q i) * b i| := h6
      nlinarith [mul_nonneg hu.le (abs_nonneg (q i * y i))]
    have hPsum : ∑ i, |P i - q i * y i| ≤ 20.3 * u := by
      refine (Finset.sum_le_sum fun i _ => hprod i).trans ?_
      rw [← Finset.mul_sum]
      have := mul_le_mul_of_nonneg_left hZ1 (show 0 ≤ 17.5 * u by positivity)
      linarith
    have hPabs : ∑ i, |P i| ≤ 1.2 := by
      have h4 : ∑ i, |P i| ≤ ∑ i, (|P i - q i * y i| + |q i * y i|) := by
        refine Finset.sum_le_sum fun i _ => ?_
        have := abs_sub_abs_le_abs_sub (P i) (q i * y i)
        linarith
      rw [Finset.sum_add_distrib] at h4
      linarith
    have h9 := hsum (List.ofFn P) (by simpa using hd)
    rw [List.map_ofFn, List.sum_ofFn, List.sum_ofFn] at h9
    simp only [Function.comp] at h9
    have h10 : |∑ i, P i - ∑ i, x i * y i| ≤ 20.3 * u + 15.9 * u * (R / fnorm w) := by
      rw [← Finset.sum_sub_distrib]
      refine (Finset.abs_sum_le_sum_abs _ _).trans ?_
      have : ∑ i, |P i - x i * y i| ≤ ∑ i, (|P i - q i * y i| + |q i * y i - x i * y i|) :=
        Finset.sum_le_sum fun i _ => abs_sub_le _ _ _
      rw [Finset.sum_add_distrib] at this
      linarith
    rw [hcos]
    refine (abs_sub_le _ (∑ i, P i) _).trans ?_
    have h11 : u ≤ u * (R / fnorm w) := le_mul_of_one_le_right hu.le hκ
    have h12 := mul_le_mul_of_nonneg_left hPabs (show 0 ≤ 4 * u by positivity)
    linarith

/-- Two axes that are close, coordinate by coordinate. -/
theorem cosAngle_rel {d : ℕ} {w a y : Fin d → ℝ} {θ : ℝ} (hθ : 0 ≤ θ) (hθ' : θ ≤ 1 / 1000)
    (hy : 0 < fnorm y) (hw : 0 < fnorm w) (h : ∀ i, |a i - y i| ≤ θ * |y i|) :
    |cosAngle w a - cosAngle w y| ≤ 2.1 * θ := by
  have hcos : ∀ b : Fin d → ℝ, cosAngle w b = ∑ i, w i / fnorm w * (b i / fnorm b) := by
    intro b
    unfold cosAngle
    rw [Finset.sum_div]
    refine Finset.sum_congr rfl fun i _ => ?_
    rw [div_mul_div_comm]
    rfl
  rw [hcos, hcos, ← Finset.sum_sub_distrib]
  refine (Finset.abs_sum_le_sum_abs _ _).trans ?_
  have h1 : ∀ i, |w i / fnorm w * (a i / fnorm a) - w i / fnorm w * (y i / fnorm y)|
      ≤ 2.1 * θ * |w i / fnorm w * (y i / fnorm y)| := by
    intro i
    rw [← mul_sub, abs_mul, abs_mul]
    have h2 := div_rel hy (by linarith) (h i) (fnorm_rel hθ h)
    have h3 : (θ + θ) / (1 - θ) ≤ 2.1 * θ := by
      rw [div_le_iff₀ (by linarith)]
      nlinarith
    have h4 := h2.trans (mul_le_mul_of_nonneg_right h3 (abs_nonneg _))
    have h5 := mul_le_mul_of_nonneg_left h4 (abs_nonneg (w i / fnorm w))
    linarith
  refine (Finset.sum_le_sum fun i _ => h1 i).trans ?_
  rw [← Finset.mul_sum]
  refine mul_le_of_le_one_right (by positivity) ?_
  have h2 := cauchy_abs (fun i => w i / fnorm w) (fun i => y i / fnorm y)
  rw [fnorm_unit w hw, fnorm_unit y hy, mul_one] at h2
  exact h2

/-! ## Gains -/

theorem Pattern.abs_gain_le_one (p : Pattern) {c : ℝ} (hc : |c| ≤ 1) : |p.gain c| ≤ 1 := by
  rw [abs_le] at hc
  cases p <;> simp only [Pattern.gain]
  · norm_num
  · split <;> norm_num
  all_goals rw [abs_le]; constructor <;> linarith

theorem abs_cosAngle_le_one {d : ℕ} (v w : Fin d → ℝ) : |cosAngle v w| ≤ 1 := by
  unfold cosAngle
  rw [abs_div]
  refine div_le_one_of_le₀ ?_ (abs_nonneg _)
  refine (Finset.abs_sum_le_sum_abs _ _).trans ((cauchy_abs v w).trans (le_abs_self _))

theorem gainError_nonneg (p : Pattern) (c : ℝ) {δ : ℝ} (hδ : 0 ≤ δ) : 0 ≤ p.gainError c δ := by
  cases p <;> simp only [Pattern.gainError]
  · exact le_rfl
  · split <;> norm_num
  all_goals exact hδ

/-- A number with two significant bits is not rounded. -/
theorem fl_quarter {p : ℕ} (hp : 14 ≤ p) {fl : ℝ → ℝ} (h : RoundsToNearest p fl) (m : ℤ) (hm : |m| ≤ 4) :
    fl (m / 4) = m / 4 := by
  refine fl_float h ⟨m, -2, ?_, ?_⟩
  · refine hm.trans ?_
    calc (4 : ℤ) ≤ 2 ^ 14 := by norm_num
      _ ≤ 2 ^ p := pow_le_pow_right₀ (by norm_num) hp
  · norm_num
    ring

/-- The first-order patterns. -/
theorem affine_err {fl : ℝ → ℝ} (h : Rounds u fl) {α β c c' δ : ℝ} (hα : 0 ≤ α) (hβ : 0 ≤ β)
    (hβ' : β ≤ 3 / 4) (hαβ : α + β = 1) (hc : |c| ≤ 1) (hδ : δ ≤ 3 / 4) (he : |c' - c| ≤ δ) :
    |fl (α + fl (β * c')) - (α + β * c)| ≤ δ + 5 * u := by
  have hu := h.pos
  have hs := h.small
  have hδ0 : 0 ≤ δ := (abs_nonneg _).trans he
  have h1 : |β * c' - β * c| ≤ 3 / 4 * δ := by
    rw [← mul_sub, abs_mul, abs_of_nonneg hβ]
    exact mul_le_mul hβ' he (abs_nonneg _) (by norm_num)
  have h2 := h.near (β * c')
  have h3 : |β * c| ≤ 3 / 4 := by
    rw [abs_mul, abs_of_nonneg hβ]
    calc β * |c| ≤ β * 1 := mul_le_mul_of_nonneg_left hc hβ
      _ ≤ 3 / 4 := by linarith
  have h4 : |β * c'| ≤ 21 / 16 := by
    have := abs_sub_abs_le_abs_sub (β * c') (β * c)
    linarith
  have h5 : |fl (β * c') - β * c'| ≤ 21 / 16 * u := by
    have := mul_le_mul_of_nonneg_left h4 hu.le
    linarith
  have h6 := h.near (α + fl (β * c'))
  have h7 : |α + fl (β * c')| ≤ 5 / 2 := by
    have e : α + fl (β * c') = α + (fl (β * c') - β * c') + β * c' := by ring
    rw [e]
    refine (abs_add_le _ _).trans ((add_le_add (abs_add_le _ _) le_rfl).trans ?_)
    rw [abs_of_nonneg hα]
    linarith
  have h8 := mul_le_mul_of_nonneg_left h7 hu.le
  have e : fl (α + fl (β * c')) - (α + β * c) = (fl (α + fl (β * c')) - (α + fl (β * c')))
      + ((fl (β * c') - β * c') + (β * c' - β * c)) := by ring
  rw [e]
  refine (abs_add_le _ _).trans ((add_le_add le_rfl (abs_add_le _ _)).trans ?_)
  linarith

/-- The computed gain of a pattern. -/
theorem gain_err {p : ℕ} (hp : 14 ≤ p) {F : Floats} (hfl : RoundsToNearest p F.fl) (pat : Pattern)
    (name : String) (hname : name.toLower ∈ pat.names) {c c' κ : ℝ} (hκ : 1 ≤ κ)
    (hκu : roundoff p * κ ≤ 1 / 100) (hc : |c| ≤ 1) (he : |c' - c| ≤ 75 * roundoff p * κ) :
    ∃ g, F.directivityGain name c' = .ok g ∧
      |g - pat.gain c| ≤ pat.gainError c (80 * roundoff p * κ) := by
  have h := rounds_of_nearest hp hfl
  have hu := h.pos
  have huκ : roundoff p ≤ roundoff p * κ := le_mul_of_one_le_right hu.le hκ
  have q34 : F.fl 0.75 = 3 / 4 := by
    have := fl_quarter hp hfl 3 (by norm_num)
    norm_num at this ⊢
    exact this
  have q12 : F.fl 0.5 = 1 / 2 := by
    have := fl_quarter hp hfl 2 (by norm_num)
    norm_num at this ⊢
    exact this
  have q14 : F.fl 0.25 = 1 / 4 := by
    have := fl_quarter hp hfl 1 (by norm_num)
    norm_num at this ⊢
    exact this
  have hδ : 75 * roundoff p * κ ≤ 3 / 4 := by linarith
  unfold Floats.directivityGain
  generalize name.toLower = q at hname ⊢
  cases pat <;> simp only [Pattern.names, List.mem_cons, List.not_mem_nil, or_false] at hname
  · refine ⟨1, ?_, by simp [Pattern.gain, Pattern.gainError]⟩
    rcases hname with rfl | rfl <;> simp
  · refine ⟨if 0 < c' then 1 else 0, ?_, ?_⟩
    · rcases hname with rfl | rfl | rfl <;> simp
    · simp only [Pattern.gain, Pattern.gainError]
      by_cases hcd : |c| ≤ 80 * roundoff p * κ
      · rw [if_pos hcd]
        split <;> split <;> norm_num
      · rw [if_neg hcd]
        have hsign : 0 < c' ↔ 0 < c := by
          rw [abs_le] at he
          rw [not_le, lt_abs] at hcd
          constructor
          · intro h0
            rcases hcd with h1 | h1 <;> linarith
          · intro h0
            rcases hcd with h1 | h1 <;> linarith
        simp [hsign]
  · refine ⟨F.fl (F.fl 0.75 + F.fl (F.fl 0.25 * c')), ?_, ?_⟩
    · rcases hname with rfl | rfl <;> simp
    · rw [q34, q14]
      refine (affine_err h (by norm_num) (by norm_num) (by norm_num) (by norm_num) hc hδ he).trans ?_
      simp only [Pattern.gainError]
      linarith
  · refine ⟨F.fl (F.fl 0.5 + F.fl (F.fl 0.5 * c')), ?_, ?_⟩
    · rcases hname with rfl | rfl <;> simp
    · rw [q12]
      refine (affine_err h (by norm_num) (by norm_num) (by norm_num) (by norm_num) hc hδ he).trans ?_
      simp only [Pattern.gainError]
      linarith
  · refine ⟨F.fl (F.fl 0.25 + F.fl (F.fl 0.75 * c')), ?_, ?_⟩
    · rcases hname with rfl | rfl <;> simp
    · rw [q34, q14]
      refine (affine_err h (by norm_num) (by norm_num) (by norm_num) (by norm_num) hc hδ he).trans ?_
      simp only [Pattern.gainError]
      linarith
  · refine ⟨c', ?_, ?_⟩
    · rcases hname with rfl | rfl | rfl | rfl <;> simp
    · simp only [Pattern.gain, Pattern.gainError]
      linarith

/-- The gain of one device, applied to a number. -/
theorem deviceGain_err {p : ℕ} {ε : ℝ} (hp : 14 ≤ p) {F : Floats} (hA : Accurate p ε F) (pat : Pattern)
    (name : String) (hname : name.toLower ∈ pat.names) {d : ℕ} (hd : d ≤ 3) {v w s axis given : Fin d → ℝ} {R : ℝ}
    (hcoord : ∀ i, |v i - w i| ≤ 5.1 * roundoff p * s i) (hs : ∑ i, s i ≤ R) (hle : fnorm w ≤ ∑ i, s i)
    (hfar : 100 * roundoff p * R ≤ fnorm w) (hR : 0 < R) (haxis : 0 < fnorm axis)
    (hgiven : 2e-8 ≤ fnorm given) (hrel : ∀ i, |given i - axis i| ≤ 10 * roundoff p * |axis i|) {dir : Vec}
    (hdir : name ≠ "omni" → dir = F.normalizeVec (List.ofFn given)) :
    ∃ γ, |γ - pat.towards axis w| ≤ pat.gainError (cosAngle w axis) (80 * roundoff p * (R / fnorm w)) ∧
      ∀ g, ∃ g', F.deviceGain name (List.ofFn v) dir g = .ok g' ∧ |g' - g * γ| ≤ roundoff p * |g * γ| := by
  have h := rounds_of_nearest hp hA.fl
  have hu := h.pos
  have hρ : 0 < fnorm w := lt_of_lt_of_le (by positivity) hfar
  by_cases ho : name = "omni"
  · subst ho
    have hpat : pat = .omni := by
      cases pat with
      | omni => rfl
      | _ =>
        exfalso
        rw [show "omni".toLower = "omni" by
          apply String.toList_inj.mp; simp [String.toLower, String.toList_map]] at hname
        revert hname
        decide
    subst hpat
    refine ⟨1, by simp [Pattern.towards, Pattern.gain, Pattern.gainError], fun g => ⟨g, ?_, ?_⟩⟩
    · unfold Floats.deviceGain
      rw [if_pos rfl]
    · rw [mul_one, sub_self, abs_zero]
      positivity
  · rw [hdir ho]
    obtain ⟨c, hc, hc'⟩ := cos_err h hA.norm hA.sum hd hcoord hs hle hfar hR hgiven
    have hκ1 : 1 ≤ R / fnorm w := (one_le_div hρ).mpr (hle.trans hs)
    have hc'' : |c - cosAngle w axis| ≤ 75 * roundoff p * (R / fnorm w) := by
      have h1 := cosAngle_rel (w := w) (show 0 ≤ 10 * roundoff p by positivity) (by linarith [h.small])
        haxis hρ hrel
      have h2 := abs_sub_le c (cosAngle w given) (cosAngle w axis)
      have h3 := le_mul_of_one_le_right hu.le hκ1
      linarith
    obtain ⟨γ, h1, h2⟩ := gain_err hp hA.fl pat name hname (κ := R / fnorm w)
      hκ1 (by rw [← mul_div_assoc, div_le_iff₀ hρ]; linarith)
      (abs_cosAngle_le_one w axis) hc''
    refine ⟨γ, h2, fun g => ⟨F.fl (g * γ), ?_, h.near _⟩⟩
    unfold Floats.deviceGain
    rw [if_neg ho, if_neg (by simp [Floats.normalizeVec]), hc]
    show (do let g' ← F.directivityGain name c; _) = _
    rw [h1]
    rfl

/-! ## The gains of a path -/

theorem fnorm_sub_eq {d : ℕ} (a b : Fin d → ℝ) : fnorm (a - b) = Spec.dist a b := by
  unfold fnorm Spec.dist
  rfl

/-- Both devices, for one image. -/
theorem pathGain_err {p : ℕ} {ε : ℝ} (hp : 14 ≤ p) {F : Floats} (hA : Accurate p ε F) {d : ℕ}
    (hd : d = 2 ∨ d = 3) (S : Setup d) (ps pm : Pattern) (sp mp : String) (hps : sp.toLower ∈ ps.names)
    (hpm : mp.toLower ∈ pm.names) {us um us' um' : Fin d → ℝ} (hus : 0 < fnorm us) (hum : 0 < fnorm um)
    (hus' : 2e-8 ≤ fnorm us') (hum' : 2e-8 ≤ fnorm um')
    (hsr : ∀ i, |us' i - us i| ≤ 10 * roundoff p * |us i|)
    (hmr : ∀ i, |um' i - um i| ≤ 10 * roundoff p * |um i|)
    {sdir mdir : Vec} (hsd : sp ≠ "omni" → sdir = F.normalizeVec (List.ofFn us'))
    (hmd : mp ≠ "omni" → mdir = F.normalizeVec (List.ofFn um')) (src mic : Fin d → ℝ) (n : Fin d → ℤ)
    (hfar : 100 * roundoff p * pathScale S.L src mic n ≤ Spec.dist mic (image S.L src n)) :
    ∃ g γ, (∃ g1, F.deviceGain sp (List.ofFn (vecFloat F S.L src mic n)) sdir (floatRefl F S.lo S.hi n)
          = .ok g1 ∧
        F.deviceGain mp (List.ofFn (-vecFloat F S.L src mic n)) mdir g1 = .ok g) ∧
      |g - wallGain S.lo S.hi n * γ| ≤ 35 * roundoff p * |wallGain S.lo S.hi n * γ| ∧
      |γ - ps.towards us (mic - image S.L src n) * pm.towards um (image S.L src n - mic)|
        ≤ gainFactor S (roundoff p) ps pm us um src mic n - 1 := by
  have h := rounds_of_nearest hp hA.fl
  have hu := h.pos
  have hsm := h.small
  have hd3 : d ≤ 3 := by rcases hd with rfl | rfl <;> norm_num
  set u := roundoff p with hudef
  set R := pathScale S.L src mic n with hR
  set img := image S.L src n with himg
  have hR0 : 0 < R := by
    rw [hR]; unfold pathScale
    have : 0 ≤ ∑ i, (|mic i| + 2 * |src i| + |image S.L src n i|) :=
      Finset.sum_nonneg fun i _ => by positivity
    linarith
  have hsR : ∑ i, (|mic i| + 2 * |src i| + |image S.L src n i|) ≤ R := by
    rw [hR]; unfold pathScale; linarith
  have hle := dist_le_coords S.L src mic n
  obtain ⟨γs, hs1, hs2⟩ := deviceGain_err hp hA ps sp hps hd3 (v := vecFloat F S.L src mic n)
    (w := mic - img) (s := fun i => |mic i| + 2 * |src i| + |image S.L src n i|) (R := R)
    (vecFloat_err h S.L src mic n) hsR (by rw [fnorm_sub_eq]; exact hle)
    (by rw [fnorm_sub_eq]; exact hfar) hR0 hus hus' hsr hsd
  obtain ⟨γm, hm1, hm2⟩ := deviceGain_err hp hA pm mp hpm hd3 (v := -vecFloat F S.L src mic n)
    (w := img - mic) (s := fun i => |mic i| + 2 * |src i| + |image S.L src n i|) (R := R)
    (fun i => by
      have := vecFloat_err h S.L src mic n i
      rw [abs_sub_comm] at this
      refine le_trans (le_of_eq ?_) this
      congr 1
      simp only [Pi.neg_apply, Pi.sub_apply, himg]
      ring) hsR (by rw [fnorm_sub_eq, Torchrir.Lemmas.dist_comm]; exact hle)
    (by rw [fnorm_sub_eq, Torchrir.Lemmas.dist_comm]; exact hfar) hR0 hum hum' hmr hmd
  rw [fnorm_sub_eq] at hs1 hm1
  rw [Torchrir.Lemmas.dist_comm] at hm1
  obtain ⟨g1, hg1, hg1'⟩ := hs2 (floatRefl F S.lo S.hi n)
  obtain ⟨g, hg, hg'⟩ := hm2 g1
  refine ⟨g, γs * γm, ⟨g1, hg1, hg⟩, ?_, ?_⟩
  · have h0 := reflection_err h hA.pow hA.prod hd S.lo S.hi n
    set W := wallGain S.lo S.hi n
    set r := floatRefl F S.lo S.hi n
    have e1 : |r * γs - W * γs| ≤ 32 * u * |W * γs| := by
      rw [← sub_mul, abs_mul, abs_mul, ← mul_assoc]
      exact mul_le_mul_of_nonneg_right h0 (abs_nonneg _)
    have e2 : |g1 - W * γs| ≤ 33.1 * u * |W * γs| := by
      have h1 : |r * γs| ≤ 1.01 * |W * γs| := by
        have := abs_sub_abs_le_abs_sub (r * γs) (W * γs)
        have := mul_le_mul_of_nonneg_right (show 32 * u ≤ 0.01 by linarith) (abs_nonneg (W * γs))
        linarith
      have h2 := mul_le_mul_of_nonneg_left h1 hu.le
      have h3 := abs_sub_le g1 (r * γs) (W * γs)
      nlinarith [mul_nonneg hu.le (abs_nonneg (W * γs))]
    have e3 : |g1 * γm - W * (γs * γm)| ≤ 33.1 * u * |W * (γs * γm)| := by
      rw [← mul_assoc, ← sub_mul, abs_mul, abs_mul (W * γs), ← mul_assoc]
      exact mul_le_mul_of_nonneg_right e2 (abs_nonneg _)
    have h1 : |g1 * γm| ≤ 1.01 * |W * (γs * γm)| := by
      have := abs_sub_abs_le_abs_sub (g1 * γm) (W * (γs * γm))
      have := mul_le_mul_of_nonneg_right (show 33.1 * u ≤ 0.01 by linarith) (abs_nonneg (W * (γs * γm)))
      linarith
    have h2 := mul_le_mul_of_nonneg_left h1 hu.le
    have h3 := abs_sub_le g (g1 * γm) (W * (γs * γm))
    nlinarith [mul_nonneg hu.le (abs_nonneg (W * (γs * γm)))]
  · set Es := ps.gainError (cosAngle (mic - img) us) (80 * u * (R / Spec.dist mic img))
    set Em := pm.gainError (cosAngle (img - mic) um) (80 * u * (R / Spec.dist mic img))
    set a := ps.towards us (mic - img)
    set b := pm.towards um (img - mic)
    have ha : |a| ≤ 1 := Pattern.abs_gain_le_one _ (abs_cosAngle_le_one _ _)
    have hb : |b| ≤ 1 := Pattern.abs_gain_le_one _ (abs_cosAngle_le_one _ _)
    show _ ≤ (1 + Es) * (1 + Em) - 1
    have hEs : 0 ≤ Es := (abs_nonneg _).trans hs1
    have hγm : |γm| ≤ 1 + Em := by
      have := abs_sub_abs_le_abs_sub γm b
      linarith
    have e : γs * γm - a * b = (γs - a) * γm + a * (γm - b) := by ring
    rw [e]
    refine (abs_add_le _ _).trans ?_
    rw [abs_mul, abs_mul]
    have h1 : |γs - a| * |γm| ≤ Es * (1 + Em) := mul_le_mul hs1 hγm (abs_nonneg _) hEs
    have h2 : |a| * |γm - b| ≤ 1 * Em := mul_le_mul ha hm1 (abs_nonneg _) (by norm_num)
    linarith

/-! ## Resolved orientations -/

theorem orientationToUnit_float {F : Floats} {n d : ℕ} (hd : d = 2 ∨ d = 3) (v : Fin n → Fin d → ℝ) :
    F.orientationToUnit (tensor2 v) d
      = .ok ⟨[n, d], (List.ofFn fun s => F.normalizeVec (List.ofFn (v s))).flatten⟩ := by
  have e : F.normalizeOrientation (tensor2 v)
      = ⟨[n, d], (List.ofFn fun s => F.normalizeVec (List.ofFn (v s))).flatten⟩ := by
    unfold Floats.normalizeOrientation
    rw [tensor2_lastAxisRows, List.map_ofFn]
    rfl
  rw [← e]
  unfold Floats.orientationToUnit
  rcases hd with rfl | rfl
  · simp [tensor2, Tensor.ndim]
  · simp [tensor2, Tensor.ndim]

/-- One orientation vector per device. -/
theorem resolveDirs_float (F : Floats) {nS nM d : ℕ} (hd : d = 2 ∨ d = 3) (us : Fin nS → Fin d → ℝ)
    (um : Fin nM → Fin d → ℝ) (sp mp : String) :
    ∃ sd md, F.resolveSrcDirs sp (some (tensor2 us)) d nS = .ok sd ∧
      F.resolveMicDir mp (some (tensor2 um)) d = .ok md ∧
      ¬ (sp ≠ "omni" ∧ sd.isNone) ∧ ¬ (mp ≠ "omni" ∧ md.isNone) ∧
      (∀ s : Fin nS, sp ≠ "omni" → (sd.getD []).getD s [] = F.normalizeVec (List.ofFn (us s))) ∧
      ∀ m : Fin nM, ∃ mv, micVec md nM m = .ok mv ∧ (mp ≠ "omni" → mv = F.normalizeVec (List.ofFn (um m))) := by
  have h1 : ∃ sd, F.resolveSrcDirs sp (some (tensor2 us)) d nS = .ok sd ∧ ¬ (sp ≠ "omni" ∧ sd.isNone) ∧
      ∀ s : Fin nS, sp ≠ "omni" → (sd.getD []).getD s [] = F.normalizeVec (List.ofFn (us s)) := by
    unfold Floats.resolveSrcDirs
    by_cases hs : sp = "omni"
    · exact ⟨none, by rw [if_pos hs], by simp [hs], fun s h => absurd hs h⟩
    · refine ⟨some (List.ofFn fun s => F.normalizeVec (List.ofFn (us s))), ?_, by simp, fun s _ => ?_⟩
      · rw [if_neg hs]
        simp only
        rw [orientationToUnit_float hd, ok_bind]
        rw [if_neg (by simp [Tensor.ndim]), if_neg (by simp [Tensor.ndim]),
          rows_of_flatten _ (by simp [Floats.normalizeVec])]
        rfl
      · rw [Option.getD_some, getD_ofFn]
  have h2 : ∃ md, F.resolveMicDir mp (some (tensor2 um)) d = .ok md ∧ ¬ (mp ≠ "omni" ∧ md.isNone) ∧
      ∀ m : Fin nM, ∃ mv, micVec md nM m = .ok mv ∧ (mp ≠ "omni" → mv = F.normalizeVec (List.ofFn (um m))) := by
    unfold Floats.resolveMicDir
    by_cases hm : mp = "omni"
    · exact ⟨none, by rw [if_pos hm], by simp [hm], fun m => ⟨[], rfl, fun h => absurd hm h⟩⟩
    · refine ⟨some (.perMic (List.ofFn fun s => F.normalizeVec (List.ofFn (um s)))), ?_, by simp,
        fun m => ⟨F.normalizeVec (List.ofFn (um m)), ?_, fun _ => rfl⟩⟩
      · rw [if_neg hm]
        simp only
        rw [orientationToUnit_float hd, ok_bind]
        rw [if_pos (by simp [Tensor.ndim]), rows_of_flatten _ (by simp [Floats.normalizeVec])]
        rfl
      · simp only [micVec, micDirFor]
        rw [if_pos (by simp), getD_ofFn]
  obtain ⟨sd, a1, a2, a3⟩ := h1
  obtain ⟨md, b1, b2, b3⟩ := h2
  exact ⟨sd, md, a1, b1, a2, b2, a3, b3⟩

/-! ## Angles -/

/-- The axes as they are computed. -/
noncomputable def Aim.computed (F : Floats) {n d : ℕ} : Aim n d → Fin n → Fin d → ℝ
  | .vectors u => u
  | .angles a => fun i => ![F.cos (a i), F.sin (a i)]
  | .spherical az el => fun i => ![F.fl (F.cos (el i) * F.cos (az i)), F.fl (F.cos (el i) * F.sin (az i)),
      F.sin (el i)]

theorem Aim.orientationToUnit_eq (F : Floats) {n d : ℕ} (hd : d = 2 ∨ d = 3) (A : Aim n d) :
    F.orientationToUnit A.tensor d = F.orientationToUnit (tensor2 (Aim.computed F A)) d := by
  cases A with
  | vectors u => rfl
  | angles a =>
    unfold Floats.orientationToUnit Aim.tensor Floats.anglesToUnit
    simp only [if_true]
    rw [if_neg (by simp [tensor2, Tensor.ndim]), if_pos (by simp [tensor2]),
      if_neg (by simp [tensor2, Tensor.ndim]), if_neg (by simp [tensor2]),
      if_neg (by simp [tensor2, Tensor.ndim]), if_pos (by simp [tensor2])]
    refine congrArg (fun t => Except.ok (F.normalizeOrientation t)) (congrArg (Tensor.mk _) ?_)
    have e : (tensor2 fun i => ![a i]).data = List.ofFn a := by
      have e1 : (List.ofFn fun i => [a i]) = (List.ofFn a).map fun x => [x] := by rw [List.map_ofFn]; rfl
      simp only [tensor2, List.ofFn_succ, List.ofFn_zero, Matrix.cons_val_zero]
      rw [e1, ← List.flatMap_def]
      exact List.flatMap_singleton' _
    rw [e, List.map_ofFn]
    rfl
  | spherical az el =>
    unfold Floats.orientationToUnit Aim.tensor
    rw [if_neg (by norm_num), if_pos rfl, if_neg (by simp [tensor2, Tensor.ndim]), if_neg (by simp [tensor2]),
      if_pos (by simp [tensor2]), if_neg (by norm_num), if_pos rfl, if_neg (by simp [tensor2, Tensor.ndim]),
      if_pos (by simp [tensor2]), tensor2_lastAxisRows, List.map_ofFn]
    rfl

theorem Aim.resolve_eq (F : Floats) {n d : ℕ} (hd : d = 2 ∨ d = 3) (A : Aim n d) (p : String) :
    F.resolveSrcDirs p (some A.tensor) d n = F.resolveSrcDirs p (some (tensor2 (Aim.computed F A))) d n ∧
    F.resolveMicDir p (some A.tensor) d = F.resolveMicDir p (some (tensor2 (Aim.computed F A))) d := by
  unfold Floats.resolveSrcDirs Floats.resolveMicDir
  simp only [Aim.orientationToUnit_eq F hd A, and_self]

theorem Aim.computed_rel {p : ℕ} {ε : ℝ} (hp : 14 ≤ p) {F : Floats} (hA : Accurate p ε F) {n d : ℕ}
    (A : Aim n d) (s : Fin n) (i : Fin d) :
    |Aim.computed F A s i - A.axis s i| ≤ 10 * roundoff p * |A.axis s i| := by
  have h := rounds_of_nearest hp hA.fl
  have hu := h.pos
  have hs := h.small
  have four : ∀ {x y : ℝ}, |x - y| ≤ 4 * roundoff p * |y| → |x - y| ≤ 10 * roundoff p * |y| :=
    fun hxy => hxy.trans (mul_le_mul_of_nonneg_right (by linarith) (abs_nonneg _))
  have prod : ∀ {x x' y y' : ℝ}, |x - x'| ≤ 4 * roundoff p * |x'| → |y - y'| ≤ 4 * roundoff p * |y'| →
      |F.fl (x * y) - x' * y'| ≤ 10 * roundoff p * |x' * y'| := by
    intro x x' y y' hx hy
    have h1 := mul_err hx hy (by positivity)
    have h2 := h.near (x * y)
    have h3 : 4 * roundoff p + 4 * roundoff p + 4 * roundoff p * (4 * roundoff p) ≤ 8.1 * roundoff p := by nlinarith
    have h4 := h1.trans (mul_le_mul_of_nonneg_right h3 (abs_nonneg _))
    have h5 : |x * y| ≤ 1.01 * |x' * y'| := by
      have := abs_sub_abs_le_abs_sub (x * y) (x' * y')
      have := mul_le_mul_of_nonneg_right (show 8.1 * roundoff p ≤ 0.01 by linarith) (abs_nonneg (x' * y'))
      linarith
    have h6 := mul_le_mul_of_nonneg_left h5 hu.le
    have h7 := abs_sub_le (F.fl (x * y)) (x * y) (x' * y')
    nlinarith [mul_nonneg hu.le (abs_nonneg (x' * y'))]
  cases A with
  | vectors u => simp [Aim.computed, Aim.axis]; positivity
  | angles a =>
    fin_cases i
    · exact four (hA.cos (a s))
    · exact four (hA.sin (a s))
  | spherical az el =>
    fin_cases i
    · exact prod (hA.cos (el s)) (hA.cos (az s))
    · exact prod (hA.cos (el s)) (hA.sin (az s))
    · exact four (hA.sin (el s))

theorem Aim.computed_long {p : ℕ} {ε : ℝ} (hp : 14 ≤ p) {F : Floats} (hA : Accurate p ε F) {n d : ℕ}
    (A : Aim n d) (s : Fin n) (h2 : 2e-8 ≤ fnorm (A.axis s)) : 2e-8 ≤ fnorm (Aim.computed F A s) := by
  have key : ∀ (y z : Fin d → ℝ), fnorm y = 1 → (∀ i, |z i - y i| ≤ 10 * roundoff p * |y i|) →
      2e-8 ≤ fnorm z := by
    intro y z hy hz
    have h := rounds_of_nearest hp hA.fl
    have := (abs_le.mp (fnorm_rel (by have := h.pos; positivity) hz)).1
    have := h.small
    rw [hy] at *
    norm_num
    linarith
  cases A with
  | vectors u => exact h2
  | angles a =>
    refine key (onCircle (a s)) _ ?_ (Aim.computed_rel hp hA (.angles a) s)
    simp [fnorm, onCircle, Fin.sum_univ_two]
  | spherical az el =>
    refine key (onSphere (az s) (el s)) _ ?_ (Aim.computed_rel hp hA (.spherical az el) s)
    unfold fnorm
    rw [Real.sqrt_eq_one]
    simp only [onSphere, Fin.sum_univ_three, Matrix.cons_val_zero, Matrix.cons_val_one, Matrix.cons_val]
    nlinarith [Real.sin_sq_add_cos_sq (az s), Real.sin_sq_add_cos_sq (el s)]

end Torchrir.Lemmas
