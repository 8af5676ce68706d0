import Verif.Model.SabineFloat
import Verif.Spec.SabineFloat
import Verif.Props.LevelFloat
import Verif.Props.Acoustics
import Verif.Props.Kernel

/-!
# Sabine estimates in floating point (C145)
-/

namespace Torchrir.Props

open Torchrir.Model Torchrir.Spec Torchrir.Lemmas

namespace SabineFloat

open LevelFloat

variable {p : ℕ}

/-- Relative error of `n` roundings. -/
def Near (p n : ℕ) (x a : ℝ) : Prop := |x - a| ≤ roundings p n * |a|

theorem near_refl (a : ℝ) : Near p 0 a a := by
  unfold Near roundings
  simp

theorem near_le {m n : ℕ} (h : m ≤ n) {x a : ℝ} (hx : Near p m x a) : Near p n x a :=
  hx.trans (mul_le_mul_of_nonneg_right (roundings_le p h) (abs_nonneg a))

theorem near_mul {x a y b : ℝ} {m n : ℕ} (hx : Near p m x a) (hy : Near p n y b) : Near p (m + n) (x * y) (a * b) :=
  rel_mul hx hy

theorem near_fl {f : ℝ → ℝ} (h : RoundsToNearest p f) {x a : ℝ} {n : ℕ} (hx : Near p n x a) : Near p (n + 1) (f x) a :=
  rel_fl h hx

theorem near_one {f : ℝ → ℝ} (h : RoundsToNearest p f) (a : ℝ) : Near p 1 (f a) a := near_fl h (near_refl a)

theorem near_add {x a y b : ℝ} {n : ℕ} (ha : 0 ≤ a) (hb : 0 ≤ b) (hx : Near p n x a) (hy : Near p n y b) :
    Near p n (x + y) (a + b) := by
  unfold Near at *
  rw [abs_of_nonneg ha] at hx
  rw [abs_of_nonneg hb] at hy
  rw [abs_of_nonneg (add_nonneg ha hb)]
  have e : x + y - (a + b) = (x - a) + (y - b) := by ring
  rw [e]
  refine (abs_add_le _ _).trans ?_
  linarith

theorem near_pos {x a : ℝ} {n : ℕ} (ha : 0 < a) (hn : roundings p n ≤ 1 / 2) (hx : Near p n x a) : 0 < x := by
  unfold Near at hx
  rw [abs_of_pos ha] at hx
  have := (abs_le.mp hx).1
  nlinarith

theorem near_inv {x a : ℝ} {n : ℕ} (ha : 0 < a) (hn : roundings p n ≤ 1 / 2) (hx : Near p n x a) :
    Near p (n + n) x⁻¹ a⁻¹ := by
  have hx0 := near_pos ha hn hx
  have h0 := roundings_nonneg p n
  unfold Near at *
  rw [abs_of_pos ha] at hx
  rw [abs_of_pos (inv_pos.mpr ha), ← roundings_add]
  have hxl : (1 - roundings p n) * a ≤ x := by linarith [(abs_le.mp hx).1]
  have e : x⁻¹ - a⁻¹ = (a - x) * (x⁻¹ * a⁻¹) := by field_simp
  rw [e, abs_mul, abs_of_pos (mul_pos (inv_pos.mpr hx0) (inv_pos.mpr ha)), abs_sub_comm, ← mul_assoc]
  refine mul_le_mul_of_nonneg_right ?_ (inv_pos.mpr ha).le
  rw [← div_eq_mul_inv, div_le_iff₀ hx0]
  refine hx.trans ?_
  have h1 : roundings p n * a ≤ 2 * roundings p n * ((1 - roundings p n) * a) := by
    have : 0 ≤ roundings p n * a * (1 - 2 * roundings p n) := mul_nonneg (mul_nonneg h0 ha.le) (by linarith)
    nlinarith
  have h2 := mul_le_mul_of_nonneg_left hxl (by linarith : 0 ≤ 2 * roundings p n)
  have h3 := mul_nonneg (mul_nonneg h0 h0) hx0.le
  nlinarith

theorem near_min {x a y b : ℝ} {n : ℕ} (hn : roundings p n ≤ 1) (ha : 0 ≤ a) (hb : 0 ≤ b) (hx : Near p n x a) (hy : Near p n y b) :
    Near p n (min x y) (min a b) := by
  have h0 := roundings_nonneg p n
  unfold Near at *
  rw [abs_of_nonneg ha, abs_le] at hx
  rw [abs_of_nonneg hb, abs_le] at hy
  rw [abs_of_nonneg (le_min ha hb), abs_le]
  rcases le_total a b with hab | hab <;> rcases le_total x y with hxy | hxy
  · rw [min_eq_left hab, min_eq_left hxy]
    exact hx
  · rw [min_eq_left hab, min_eq_right hxy]
    have := mul_le_mul_of_nonneg_left hab h0
    refine ⟨?_, by linarith [hx.2]⟩
    nlinarith [hy.1]
  · rw [min_eq_right hab, min_eq_left hxy]
    refine ⟨?_, by linarith [hy.2]⟩
    nlinarith [hx.1]
  · rw [min_eq_right hab, min_eq_right hxy]
    exact hy

theorem roundings53 {n : ℕ} (hn : n ≤ 16) : roundings 53 n ≤ 1 / 1000000 := by
  refine (roundings_le 53 hn).trans ?_
  unfold roundings roundoff
  norm_num

/-- Volume and surface as they are calculated. -/
theorem shape_near {py : ℝ → ℝ} (hpy : RoundsToNearest 53 py) {fl : ℝ → ℝ} {d : ℕ} {size : Fin d → ℝ}
    (h : RealRoom size) :
    ∃ V S : ℝ, (∀ t, 0 < t → estimateBetaFloat py fl (List.ofFn size) t = .ok (betaFloat py fl t V S (2 * d))) ∧
      Near 53 2 V (volume size) ∧ Near 53 4 S (surface size) := by
  rcases h.dim with rfl | rfl
  · have h0 := h.pos 0
    have h1 := h.pos 1
    refine ⟨py (py (size 0 * size 1) * 1), py (py (2 * py (size 0 + size 1)) * 1), fun t ht => ?_, ?_, ?_⟩
    · unfold estimateBetaFloat
      rw [if_neg (not_le.mpr ht)]
      rfl
    · unfold volume
      rw [Fin.prod_univ_two, mul_one]
      exact near_fl hpy (near_one hpy _)
    · have e : surface size = 2 * (size 0 + size 1) := by
        obtain ⟨a, b, c, e⟩ := wallArea_two size
        unfold surface
        rw [sum_walls_two, a, b, c, e]
        ring
      rw [e, mul_one]
      have := near_fl hpy (near_fl hpy (near_mul (near_refl 2) (near_one hpy (size 0 + size 1))))
      exact near_le (by norm_num) this
  · have h0 := h.pos 0
    have h1 := h.pos 1
    have h2 := h.pos 2
    refine ⟨py (py (size 0 * size 1) * size 2),
      py (2 * py (py (py (size 0 * size 1) + py (size 1 * size 2)) + py (size 0 * size 2))), fun t ht => ?_, ?_, ?_⟩
    · unfold estimateBetaFloat
      rw [if_neg (not_le.mpr ht)]
      rfl
    · unfold volume
      rw [Fin.prod_univ_three]
      exact near_fl hpy (near_mul (near_one hpy _) (near_refl _))
    · have e : surface size = 2 * (size 0 * size 1 + size 1 * size 2 + size 0 * size 2) := by
        obtain ⟨a, b, c, e, f, g⟩ := wallArea_three size
        unfold surface
        rw [sum_walls_three, a, b, c, e, f, g]
        ring
      rw [e]
      have q1 := near_fl hpy (near_add (by positivity) (by positivity) (near_one hpy (size 0 * size 1))
        (near_one hpy (size 1 * size 2)))
      have q2 := near_fl hpy (near_add (by positivity) (by positivity) q1
        (near_le (n := 2) (by norm_num) (near_one hpy (size 0 * size 2))))
      have q3 := near_fl hpy (near_mul (near_refl 2) q2)
      exact near_le (by norm_num) q3

/-- The absorption as it is calculated. -/
noncomputable def alphaFloat (py : ℝ → ℝ) (t60 V S : ℝ) : ℝ :=
  max 0 (min (py (py (py 0.161 * V) / py (t60 * S))) (py 0.999))

theorem betaFloat_eq (py fl : ℝ → ℝ) (t60 V S : ℝ) (n : ℕ) :
    betaFloat py fl t60 V S n = List.replicate n (fl (py (Real.sqrt (py (1 - alphaFloat py t60 V S))))) := rfl

theorem alpha_near {py : ℝ → ℝ} (hpy : RoundsToNearest 53 py) {t60 V S v s : ℝ} (ht : 0 < t60) (hv : 0 < v) (hs : 0 < s)
    (hV : Near 53 2 V v) (hS : Near 53 4 S s) :
    Near 53 15 (alphaFloat py t60 V S) (min (0.161 * v / (t60 * s)) 0.999) ∧ 0 ≤ alphaFloat py t60 V S ∧
      alphaFloat py t60 V S ≤ 0.9991 := by
  have q1 := near_fl hpy (near_mul (near_one hpy 0.161) hV)
  have q2 := near_fl hpy (near_mul (near_refl t60) hS)
  have q3 := near_inv (by positivity) ((roundings53 (by norm_num)).trans (by norm_num)) q2
  have q4 := near_fl hpy (near_mul q1 q3)
  rw [← div_eq_mul_inv, ← div_eq_mul_inv] at q4
  have q5 := near_le (n := 15) (by norm_num) q4
  have q6 := near_min ((roundings53 (by norm_num)).trans (by norm_num)) (by positivity) (by norm_num) q5
    (near_le (n := 15) (by norm_num) (near_one hpy 0.999))
  have hpos := near_pos (lt_min (by positivity) (by norm_num)) ((roundings53 (by norm_num)).trans (by norm_num)) q6
  unfold alphaFloat
  rw [max_eq_right hpos.le]
  refine ⟨q6, hpos.le, (min_le_right _ _).trans ?_⟩
  have h1 := near_one hpy 0.999
  unfold Near at h1
  have h2 := roundings53 (n := 1) (by norm_num)
  rw [abs_of_pos (by norm_num : (0 : ℝ) < 0.999)] at h1
  have h3 := (abs_le.mp h1).2
  linarith

theorem py_unit {py : ℝ → ℝ} {q : ℕ} (hpy : RoundsToNearest q py) {x : ℝ} (h0 : 0 ≤ x) (h1 : x ≤ 1) : 0 ≤ py x ∧ py x ≤ 1 := by
  have a := fl_mono hpy h0
  have b := fl_mono hpy h1
  rw [fl_zero hpy] at a
  rw [fl_one hpy] at b
  exact ⟨a, b⟩

end SabineFloat

open SabineFloat LevelFloat

/-- **C145, coefficients.** With every operation rounded to nearest, the reflection coefficient that is estimated for a
reverberation time is the same for all walls, positive and at most 1, a number of the precision of the size, and as close
to the exact one as said. -/
theorem C145_beta {py fl : ℝ → ℝ} {p : ℕ} (hp : 1 ≤ p) (hpy : RoundsToNearest 53 py) (hfl : RoundsToNearest p fl) {d : ℕ}
    {size : Fin d → ℝ} (h : RealRoom size) {t60 : ℝ} (ht : 0 < t60) :
    ∃ b b', estimateBetaFromT60 (List.ofFn size) t60 = .ok (List.replicate (2 * d) b) ∧
      estimateBetaFloat py fl (List.ofFn size) t60 = .ok (List.replicate (2 * d) b') ∧
      0 < b' ∧ b' ≤ 1 ∧ IsFloat p b' ∧ |b' - b| ≤ roundoff p + 33 * roundings 53 16 := by
  obtain ⟨V, S, hok, hV, hS⟩ := shape_near hpy (fl := fl) h
  obtain ⟨ha, ha0, ha1⟩ := alpha_near hpy ht (volume_pos h) (surface_pos h) hV hS
  set a := alphaFloat py t60 V S with hadef
  set A := min (0.161 * volume size / (t60 * surface size)) 0.999 with hA
  have hA0 : 0 < A := lt_min (by have := volume_pos h; have := surface_pos h; positivity) (by norm_num)
  have hA1 : A ≤ 0.999 := min_le_right _ _
  have hρ : roundings 53 16 = roundings 53 15 + roundoff 53 * (1 + roundings 53 15) := by
    rw [← roundings_add 53 15 1, roundings_one]
    ring
  have hρ0 := roundings_nonneg 53 15
  have hu0 := roundoff_pos 53
  have hy := py_unit hpy (x := 1 - a) (by linarith) (by linarith)
  have hyp : 0 < py (1 - a) := fl_pos (by norm_num) hpy (by linarith)
  have hyerr : |py (1 - a) - (1 - A)| ≤ roundings 53 16 := by
    have e1 := fl_near hpy (1 - a)
    have e2 : |(1 - a) - (1 - A)| ≤ roundings 53 15 := by
      have : (1 - a) - (1 - A) = -(a - A) := by ring
      rw [this, abs_neg]
      refine ha.trans ?_
      rw [abs_of_pos hA0]
      exact mul_le_of_le_one_right hρ0 (by linarith)
    have e3 : py (1 - a) - (1 - A) = (py (1 - a) - (1 - a)) + ((1 - a) - (1 - A)) := by ring
    rw [e3, hρ]
    refine (abs_add_le _ _).trans ?_
    have e4 : |1 - a| ≤ 1 := by
      rw [abs_le]
      constructor <;> linarith
    have := mul_le_mul_of_nonneg_left e4 hu0.le
    have := mul_nonneg hu0.le hρ0
    linarith
  set s := Real.sqrt (py (1 - a)) with hs
  set B := Real.sqrt (1 - A) with hB
  have hs0 : 0 < s := Real.sqrt_pos.mpr hyp
  have hs1 : s ≤ 1 := Real.sqrt_le_one.mpr hy.2
  have hB0 : (1 : ℝ) / 32 ≤ B := by
    refine Real.le_sqrt_of_sq_le ?_
    norm_num
    linarith
  have hserr : |s - B| ≤ 32 * roundings 53 16 := by
    have e1 : (s - B) * (s + B) = py (1 - a) - (1 - A) := by
      have e2 : s ^ 2 = py (1 - a) := Real.sq_sqrt hyp.le
      have e3 : B ^ 2 = 1 - A := Real.sq_sqrt (by linarith)
      rw [← e2, ← e3]
      ring
    have e4 : |s - B| * (s + B) = |py (1 - a) - (1 - A)| := by
      rw [← e1, abs_mul, abs_of_pos (by linarith : 0 < s + B)]
    have e5 : |s - B| * (1 / 32) ≤ |s - B| * (s + B) := mul_le_mul_of_nonneg_left (by linarith) (abs_nonneg _)
    linarith
  have hq := py_unit hpy hs0.le hs1
  have hqp : 0 < py s := fl_pos (by norm_num) hpy hs0
  have hb := py_unit hfl hq.1 hq.2
  refine ⟨B, fl (py s), beta_formula h ht, ?_, fl_pos hp hfl hqp, hb.2, (hfl _).1, ?_⟩
  · rw [hok t60 ht, betaFloat_eq]
  · have e1 := fl_near hfl (py s)
    have e2 := fl_near hpy s
    rw [abs_of_pos hqp] at e1
    rw [abs_of_pos hs0] at e2
    have e3 : fl (py s) - B = (fl (py s) - py s) + ((py s - s) + (s - B)) := by ring
    rw [e3]
    refine (abs_add_le _ _).trans ?_
    have e4 := abs_add_le (py s - s) (s - B)
    have e5 : roundoff p * py s ≤ roundoff p := mul_le_of_le_one_right (roundoff_pos p).le hq.2
    have e6 : roundoff 53 * s ≤ roundings 53 16 := by
      have := mul_le_of_le_one_right hu0.le hs1
      have := mul_nonneg hu0.le hρ0
      linarith
    linarith

/-- **C145, order.** A longer reverberation time never gives a smaller coefficient, not even by rounding. -/
theorem C145_beta_monotone {py fl : ℝ → ℝ} {p : ℕ} (hpy : RoundsToNearest 53 py) (hfl : RoundsToNearest p fl)
    {d : ℕ} {size : Fin d → ℝ} (h : RealRoom size) {t t' : ℝ} (ht : 0 < t) (htt : t ≤ t') :
    ∃ b b', estimateBetaFloat py fl (List.ofFn size) t = .ok (List.replicate (2 * d) b) ∧
      estimateBetaFloat py fl (List.ofFn size) t' = .ok (List.replicate (2 * d) b') ∧ b ≤ b' := by
  obtain ⟨V, S, hok, hV, hS⟩ := shape_near hpy (fl := fl) h
  have hV0 := near_pos (volume_pos h) ((roundings53 (by norm_num)).trans (by norm_num)) hV
  have hS0 := near_pos (surface_pos h) ((roundings53 (by norm_num)).trans (by norm_num)) hS
  refine ⟨_, _, by rw [hok t ht, betaFloat_eq], by rw [hok t' (by linarith), betaFloat_eq], ?_⟩
  have h1 : py (t * S) ≤ py (t' * S) := fl_mono hpy (mul_le_mul_of_nonneg_right htt hS0.le)
  have h2 : 0 < py (t * S) := fl_pos (by norm_num) hpy (mul_pos ht hS0)
  have h3 : 0 < py (py 0.161 * V) :=
    fl_pos (by norm_num) hpy (mul_pos (fl_pos (by norm_num) hpy (by norm_num)) hV0)
  have h4 : alphaFloat py t' V S ≤ alphaFloat py t V S :=
    max_le_max le_rfl (min_le_min (fl_mono hpy (div_le_div_of_nonneg_left h3.le h2 h1)) le_rfl)
  exact fl_mono hfl (fl_mono hpy (Real.sqrt_le_sqrt (fl_mono hpy (by linarith))))

namespace SabineFloat

/-- Below 1 there is no number with `p` significant bits between `1 - 2⁻ᵖ` and 1. -/
theorem float_gap {p : ℕ} {y : ℝ} (hy : IsFloat p y) (h1 : y < 1) (h2 : 1 / 2 < y) : y ≤ 1 - roundoff p := by
  obtain ⟨m, e, hm, rfl⟩ := hy
  have hroff : roundoff p = (2 : ℝ) ^ (-(p : ℤ)) := by
    unfold roundoff
    rw [zpow_neg, zpow_natCast, inv_pow]
  by_cases he : -(p : ℤ) ≤ e
  · obtain ⟨j, hj⟩ := Int.eq_ofNat_of_zero_le (by omega : 0 ≤ e + p)
    have e1 : (m : ℝ) * 2 ^ e = ((m * 2 ^ j : ℤ) : ℝ) * roundoff p := by
      rw [hroff]
      push_cast
      rw [mul_assoc, ← zpow_natCast, ← zpow_add₀ (by norm_num)]
      congr 2
      omega
    rw [e1] at h1 ⊢
    have e2 : roundoff p * 2 ^ p = 1 := by
      rw [hroff, ← zpow_natCast, ← zpow_add₀ (by norm_num)]
      simp
    have hu := roundoff_pos p
    have e3 : m * 2 ^ j < 2 ^ p := by
      have : ((m * 2 ^ j : ℤ) : ℝ) < 2 ^ p := by
        by_contra hc
        push Not at hc
        have := mul_le_mul_of_nonneg_right hc hu.le
        rw [mul_comm, e2] at this
        linarith
      exact_mod_cast this
    have e4 : ((m * 2 ^ j : ℤ) : ℝ) ≤ 2 ^ p - 1 := by
      have : m * 2 ^ j ≤ 2 ^ p - 1 := by omega
      exact_mod_cast this
    have := mul_le_mul_of_nonneg_right e4 hu.le
    rw [sub_mul, one_mul, mul_comm _ (roundoff p), mul_comm (2 ^ p) (roundoff p), e2, mul_comm] at this
    exact this
  · exfalso
    push Not at he
    have e1 : (m : ℝ) ≤ 2 ^ p := by
      have := (le_abs_self m).trans hm
      exact_mod_cast this
    have e2 : (m : ℝ) * 2 ^ e ≤ 2 ^ p * 2 ^ e := mul_le_mul_of_nonneg_right e1 (by positivity)
    have e3 : (2 : ℝ) ^ p * 2 ^ e ≤ 1 / 2 := by
      rw [← zpow_natCast, ← zpow_add₀ (by norm_num)]
      calc (2 : ℝ) ^ ((p : ℤ) + e) ≤ 2 ^ (-1 : ℤ) := zpow_le_zpow_right₀ (by norm_num) (by omega)
        _ = 1 / 2 := by norm_num
    linarith

theorem fl_near_one {p : ℕ} (hp : 1 ≤ p) {fl : ℝ → ℝ} (hfl : RoundsToNearest p fl) {x : ℝ} (h1 : x ≤ 1)
    (h2 : 1 - roundoff p / 4 ≤ x) : fl x = 1 := by
  have hu := roundoff_pos p
  have hu2 := roundoff_half hp
  have hle := fl_mono hfl h1
  rw [fl_one hfl] at hle
  have hn := (hfl x).2 1 (by rw [← fl_one hfl]; exact (hfl 1).1)
  rw [abs_of_nonneg (by linarith : 0 ≤ 1 - x)] at hn
  have hn' := (abs_le.mp hn).1
  rcases hle.eq_or_lt with he | hlt
  · exact he
  · have := float_gap (hfl x).1 hlt (by linarith)
    linarith

theorem below_one_float {p q : ℕ} (h : p ≤ q) : IsFloat q (1 - roundoff p) := by
  refine ⟨2 ^ p - 1, -(p : ℤ), ?_, ?_⟩
  · have h1 : (1 : ℤ) ≤ 2 ^ p := one_le_pow₀ (by norm_num)
    have h2 : (2 : ℤ) ^ p ≤ 2 ^ q := pow_le_pow_right₀ (by norm_num) h
    rw [abs_of_nonneg (by omega)]
    omega
  · unfold roundoff
    push_cast
    rw [zpow_neg, zpow_natCast, sub_mul, mul_inv_cancel₀ (by positivity), one_mul, inv_pow]

end SabineFloat

/-- **C145, long times.** If Sabine's absorption is below an eighth of the last bit, all coefficients are 1, and the time
estimated from them is infinite. -/
theorem C145_long_time {py fl : ℝ → ℝ} {sum : List ℝ → ℝ} {p : ℕ} (hp : 1 ≤ p) (hp' : p ≤ 51) (hpy : RoundsToNearest 53 py)
    (hfl : RoundsToNearest p fl) (hsum : SumsUp p sum) {d : ℕ} {size : Fin d → ℝ} (h : RealRoom size) {t60 : ℝ}
    (ht : 0 < t60) (hα : 0.161 * volume size / (t60 * surface size) ≤ roundoff p / 8) :
    estimateBetaFloat py fl (List.ofFn size) t60 = .ok (List.replicate (2 * d) 1) ∧
    estimateT60Float py fl sum (List.ofFn size) (List.replicate (2 * d) 1) = .ok none := by
  constructor
  · obtain ⟨V, S, hok, hV, hS⟩ := shape_near hpy (fl := fl) h
    obtain ⟨ha, ha0, -⟩ := alpha_near hpy ht (volume_pos h) (surface_pos h) hV hS
    rw [hok t60 ht, betaFloat_eq]
    set a := alphaFloat py t60 V S
    have hu := roundoff_pos p
    have hu2 := roundoff_half hp
    have hA0 : 0 < 0.161 * volume size / (t60 * surface size) := by
      have := volume_pos h
      have := surface_pos h
      positivity
    rw [min_eq_left (by linarith)] at ha
    unfold Near at ha
    rw [abs_of_pos hA0] at ha
    have hρ := roundings53 (n := 15) (by norm_num)
    have ha2 : a ≤ roundoff p / 4 := by
      have := (abs_le.mp ha).2
      nlinarith
    have hq : roundoff p / 4 = roundoff (p + 2) := by
      unfold roundoff
      rw [pow_add]
      ring
    have hF : IsFloat 53 (1 - roundoff p / 4) := by
      rw [hq]
      exact below_one_float (by omega)
    have h1 : 1 - roundoff p / 4 ≤ py (1 - a) := by
      rw [← fl_float hpy hF]
      exact fl_mono hpy (by linarith)
    have h2 := py_unit hpy (x := 1 - a) (by linarith) (by linarith)
    have h3 : py (1 - a) ≤ Real.sqrt (py (1 - a)) := Real.le_sqrt_of_sq_le (by nlinarith)
    have h4 : Real.sqrt (py (1 - a)) ≤ 1 := Real.sqrt_le_one.mpr h2.2
    have h5 : 1 - roundoff p / 4 ≤ py (Real.sqrt (py (1 - a))) := by
      rw [← fl_float hpy hF]
      exact fl_mono hpy (by linarith)
    have h6 := py_unit hpy (Real.sqrt_nonneg _) h4
    rw [fl_near_one hp hfl h6.2 h5]
  · have hb : fl (1 - fl ((1 : ℝ) ^ 2)) = 0 := by
      rw [one_pow, fl_one hfl, sub_self, fl_zero hfl]
    have key : ∀ (V : ℝ) (areas : List ℝ) (n : ℕ), t60Float py fl sum V areas (List.replicate n 1) = none := by
      intro V areas n
      unfold t60Float
      dsimp only
      have hz : ∀ v ∈ List.zipWith (fun s a => fl (s * a)) (areas.map fl)
          ((List.replicate n (1 : ℝ)).map fun b => fl (1 - fl (b ^ 2))), v = 0 := by
        intro v hv
        rw [List.map_replicate, hb] at hv
        obtain ⟨i, hi, rfl⟩ := List.mem_iff_getElem.mp hv
        simp [fl_zero hfl]
      set l := List.zipWith (fun s a => fl (s * a)) (areas.map fl)
          ((List.replicate n (1 : ℝ)).map fun b => fl (1 - fl (b ^ 2)))
      have h1 := hsum l
      have h2 : l.sum = 0 := List.sum_eq_zero hz
      have h3 : (l.map fun v => |v|).sum = 0 := List.sum_eq_zero fun v hv => by
        obtain ⟨w, hw, rfl⟩ := List.mem_map.mp hv
        rw [hz w hw, abs_zero]
      rw [h2, h3, mul_zero, sub_zero] at h1
      rw [if_pos (le_of_abs_le h1)]
    rcases h.dim with rfl | rfl
    · unfold estimateT60Float
      show (if _ then _ else _) = _
      rw [if_neg (by simp)]
      exact congrArg Except.ok (key _ _ 4)
    · unfold estimateT60Float
      show (if _ then _ else _) = _
      rw [if_neg (by simp)]
      exact congrArg Except.ok (key _ _ 6)

namespace SabineFloat

theorem roundoff_le {p q : ℕ} (h : p ≤ q) : roundoff q ≤ roundoff p := by
  unfold roundoff
  exact pow_le_pow_of_le_one (by norm_num) (by norm_num) h

theorem near_step {p : ℕ} {f : ℝ → ℝ} (h : ∀ x, |f x - x| ≤ roundoff p * |x|) {x a : ℝ} {n : ℕ} (hx : Near p n x a) :
    Near p (n + 1) (f x) a := by
  have h1 := h x
  have h2 : |x| ≤ (1 + roundings p n) * |a| := by
    have : x = a + (x - a) := by ring
    unfold Near at hx
    rw [this]
    exact (abs_add_le _ _).trans (by linarith)
  have h3 : f x - a = (f x - x) + (x - a) := by ring
  unfold Near at *
  rw [h3]
  refine (abs_add_le _ _).trans ?_
  have h4 := mul_le_mul_of_nonneg_left h2 (roundoff_pos p).le
  have h5 : roundings p (n + 1) = roundings p n + roundoff p * (1 + roundings p n) := by
    rw [← roundings_add, roundings_one]
    ring
  rw [h5]
  linarith

/-- One wall. -/
theorem wall_err {p : ℕ} {fl : ℝ → ℝ} (hfl : RoundsToNearest p fl) {w' w b : ℝ} (hw : 0 ≤ w) (hn : Near p 1 w' w)
    (hb : 0 ≤ b ∧ b ≤ 1) : |fl (fl w' * fl (1 - fl (b ^ 2))) - w * (1 - b ^ 2)| ≤ roundings p 5 * w := by
  have q := near_fl hfl hn
  unfold Near at q
  rw [abs_of_nonneg hw] at q
  have hb2 : 0 ≤ b ^ 2 ∧ b ^ 2 ≤ 1 := ⟨sq_nonneg b, by nlinarith⟩
  have hf := py_unit hfl hb2.1 hb2.2
  have hg := py_unit hfl (x := 1 - fl (b ^ 2)) (by linarith) (by linarith)
  have hu := roundoff_pos p
  have hρ2 : roundings p 2 = 2 * roundoff p + roundoff p ^ 2 := by
    unfold roundings
    ring
  have e1 : |fl (1 - fl (b ^ 2)) - (1 - b ^ 2)| ≤ roundings p 2 := by
    have a1 := fl_near hfl (1 - fl (b ^ 2))
    have a2 := fl_near hfl (b ^ 2)
    rw [abs_of_nonneg (a := 1 - fl (b ^ 2)) (by linarith)] at a1
    rw [abs_of_nonneg hb2.1] at a2
    have a3 : fl (1 - fl (b ^ 2)) - (1 - b ^ 2) = (fl (1 - fl (b ^ 2)) - (1 - fl (b ^ 2))) - (fl (b ^ 2) - b ^ 2) := by ring
    rw [a3, hρ2]
    refine (abs_sub _ _).trans ?_
    have a4 : roundoff p * (1 - fl (b ^ 2)) ≤ roundoff p := mul_le_of_le_one_right hu.le (by linarith)
    have a5 : roundoff p * b ^ 2 ≤ roundoff p := mul_le_of_le_one_right hu.le hb2.2
    nlinarith
  have h0 := roundings_nonneg p 2
  have e2 : |fl w' * fl (1 - fl (b ^ 2)) - w * (1 - b ^ 2)| ≤ roundings p 4 * w := by
    have a1 : fl w' * fl (1 - fl (b ^ 2)) - w * (1 - b ^ 2) =
      (fl w' - w) * fl (1 - fl (b ^ 2)) + w * (fl (1 - fl (b ^ 2)) - (1 - b ^ 2)) := by ring
    rw [a1]
    refine (abs_add_le _ _).trans ?_
    rw [abs_mul, abs_mul, abs_of_nonneg hw, abs_of_nonneg hg.1, ← roundings_add p 2 2]
    have a2 : |fl w' - w| * fl (1 - fl (b ^ 2)) ≤ roundings p 2 * w :=
      (mul_le_of_le_one_right (abs_nonneg _) hg.2).trans q
    have a3 := mul_le_mul_of_nonneg_left e1 hw
    have a4 := mul_nonneg (mul_nonneg h0 h0) hw
    nlinarith
  have e3 := fl_near hfl (fl w' * fl (1 - fl (b ^ 2)))
  have e4 : |fl w' * fl (1 - fl (b ^ 2))| ≤ (1 + roundings p 4) * w := by
    have a1 : fl w' * fl (1 - fl (b ^ 2)) = w * (1 - b ^ 2) + (fl w' * fl (1 - fl (b ^ 2)) - w * (1 - b ^ 2)) := by ring
    rw [a1]
    refine (abs_add_le _ _).trans ?_
    have a2 : |w * (1 - b ^ 2)| ≤ w := by
      rw [abs_of_nonneg (mul_nonneg hw (by linarith))]
      exact mul_le_of_le_one_right hw (by linarith)
    linarith
  have e5 : roundings p 5 = roundings p 4 + roundoff p * (1 + roundings p 4) := by
    rw [← roundings_add p 4 1, roundings_one]
    ring
  have e6 : fl (fl w' * fl (1 - fl (b ^ 2))) - w * (1 - b ^ 2) =
    (fl (fl w' * fl (1 - fl (b ^ 2))) - fl w' * fl (1 - fl (b ^ 2))) +
      (fl w' * fl (1 - fl (b ^ 2)) - w * (1 - b ^ 2)) := by ring
  rw [e6, e5]
  refine (abs_add_le _ _).trans ?_
  have := mul_le_mul_of_nonneg_left e4 hu.le
  linarith

/-- All walls. -/
theorem walls_err {p : ℕ} {fl : ℝ → ℝ} (hfl : RoundsToNearest p fl) {ws' ws : List ℝ}
    (h : List.Forall₂ (fun w' w => 0 ≤ w ∧ Near p 1 w' w) ws' ws) : ∀ bs : List ℝ, bs.length = ws.length →
    (∀ b ∈ bs, 0 ≤ b ∧ b ≤ 1) →
    (List.zipWith (fun s a => fl (s * a)) (ws'.map fl) (bs.map fun b => fl (1 - fl (b ^ 2)))).length = ws.length ∧
    |(List.zipWith (fun s a => fl (s * a)) (ws'.map fl) (bs.map fun b => fl (1 - fl (b ^ 2)))).sum -
      (List.zipWith (fun w b => w * (1 - b ^ 2)) ws bs).sum| ≤ roundings p 5 * ws.sum ∧
    ((List.zipWith (fun s a => fl (s * a)) (ws'.map fl) (bs.map fun b => fl (1 - fl (b ^ 2)))).map fun v => |v|).sum ≤
      (1 + roundings p 5) * ws.sum := by
  induction h with
  | nil =>
    intro bs hbs _
    simp
  | @cons w' w ws' ws hw _ ih =>
    intro bs hbs hb
    cases bs with
    | nil => simp at hbs
    | cons b bs =>
      obtain ⟨i1, i2, i3⟩ := ih bs (by simpa using hbs) fun x hx => hb x (List.mem_cons_of_mem _ hx)
      have hwe := wall_err hfl hw.1 hw.2 (hb b List.mem_cons_self)
      obtain ⟨b0, b1⟩ := hb b List.mem_cons_self
      simp only [List.map_cons, List.zipWith_cons_cons, List.sum_cons, List.length_cons]
      refine ⟨by omega, ?_, ?_⟩
      · rw [add_sub_add_comm]
        refine (abs_add_le _ _).trans ?_
        linarith
      · have : |fl (fl w' * fl (1 - fl (b ^ 2)))| ≤ (1 + roundings p 5) * w := by
          have e : fl (fl w' * fl (1 - fl (b ^ 2))) =
            w * (1 - b ^ 2) + (fl (fl w' * fl (1 - fl (b ^ 2))) - w * (1 - b ^ 2)) := by ring
          rw [e]
          refine (abs_add_le _ _).trans ?_
          have a2 : |w * (1 - b ^ 2)| ≤ w := by
            rw [abs_of_nonneg (mul_nonneg hw.1 (by nlinarith))]
            exact mul_le_of_le_one_right hw.1 (by nlinarith)
          linarith
        linarith

/-- The time from the coefficients, for lists. -/
theorem t60Float_err {p : ℕ} (hp' : p ≤ 53) {py fl : ℝ → ℝ} {sum : List ℝ → ℝ} (hpy : RoundsToNearest 53 py)
    (hfl : RoundsToNearest p fl) (hsum : SumsUp p sum) {V v : ℝ} (hv : 0 < v) (hV : Near p 2 V v) {ws' ws bs : List ℝ}
    (h : List.Forall₂ (fun w' w => 0 ≤ w ∧ Near p 1 w' w) ws' ws) (hlen : ws.length ≤ 6) (hbs : bs.length = ws.length)
    (hb : ∀ b ∈ bs, 0 ≤ b ∧ b ≤ 1) {A : ℝ} (hA : A = (List.zipWith (fun w b => w * (1 - b ^ 2)) ws bs).sum) (hA0 : 0 < A)
    (hbig : 2 * roundings p 10 * ws.sum ≤ A) :
    ∃ t', t60Float py fl sum V ws' bs = some t' ∧
      |t' - 0.161 * v / A| ≤ ((1 + 2 * roundings p 10 * ws.sum / A) * (1 + roundings p 5) - 1) * (0.161 * v / A) := by
  obtain ⟨l1, l2, l3⟩ := walls_err hfl h bs hbs hb
  have hpy' : ∀ x, |py x - x| ≤ roundoff p * |x| := fun x =>
    (fl_near hpy x).trans (mul_le_mul_of_nonneg_right (roundoff_le hp') (abs_nonneg x))
  unfold t60Float
  dsimp only
  set l := List.zipWith (fun s a => fl (s * a)) (ws'.map fl) (bs.map fun b => fl (1 - fl (b ^ 2))) with hl
  have hW : 0 ≤ ws.sum := by
    refine List.sum_nonneg fun w hw => ?_
    obtain ⟨i, hi, rfl⟩ := List.mem_iff_getElem.mp hw
    have := (List.forall₂_iff_get.mp h).2 i (by rw [h.length_eq]; exact hi) hi
    exact this.1
  have hS := hsum l
  have h5 := roundings_nonneg p 5
  have hS' : |sum l - l.sum| ≤ roundings p 5 * ((1 + roundings p 5) * ws.sum) := by
    refine hS.trans (mul_le_mul (roundings_le p (by omega)) l3 ?_ h5)
    exact List.sum_nonneg fun v hv => by
      obtain ⟨w, -, rfl⟩ := List.mem_map.mp hv
      exact abs_nonneg w
  have hT : |sum l - A| ≤ roundings p 10 * ws.sum := by
    have e : sum l - A = (sum l - l.sum) + (l.sum - A) := by ring
    rw [e, ← roundings_add p 5 5]
    refine (abs_add_le _ _).trans ?_
    rw [hA]
    linarith
  set δ := roundings p 10 * ws.sum with hδ
  have hδ0 : 0 ≤ δ := mul_nonneg (roundings_nonneg p 10) hW
  have hT' := abs_le.mp hT
  have hpos : A / 2 ≤ sum l := by linarith
  have hpos' : 0 < sum l := by linarith
  rw [if_neg (not_le.mpr hpos')]
  refine ⟨_, rfl, ?_⟩
  have hinv : |(sum l)⁻¹ - A⁻¹| ≤ 2 * δ / A * |A⁻¹| := by
    have e : (sum l)⁻¹ - A⁻¹ = (A - sum l) * ((sum l)⁻¹ * A⁻¹) := by field_simp
    rw [e, abs_mul, abs_of_pos (mul_pos (inv_pos.mpr hpos') (inv_pos.mpr hA0)), abs_sub_comm, abs_of_pos (inv_pos.mpr hA0),
      ← mul_assoc]
    refine mul_le_mul_of_nonneg_right ?_ (inv_pos.mpr hA0).le
    rw [← div_eq_mul_inv, div_le_div_iff₀ hpos' hA0]
    have := mul_le_mul_of_nonneg_right hT hA0.le
    have := mul_le_mul_of_nonneg_left hpos (by linarith : 0 ≤ 2 * δ)
    linarith
  have q1 := near_step hpy' (near_mul (near_step hpy' (near_refl 0.161)) hV)
  have q1' := near_le (n := 4) (by norm_num) q1
  have q2 := mul_err q1' hinv (roundings_nonneg p 4)
  rw [← div_eq_mul_inv, ← div_eq_mul_inv] at q2
  have q3 := hpy' (py (py 0.161 * V) / sum l)
  have hx0 : 0 < 0.161 * v / A := by positivity
  rw [abs_of_pos hx0] at q2
  have hy : |py (py 0.161 * V) / sum l| ≤
      (1 + (roundings p 4 + 2 * δ / A + roundings p 4 * (2 * δ / A))) * (0.161 * v / A) := by
    have e : py (py 0.161 * V) / sum l = 0.161 * v / A + (py (py 0.161 * V) / sum l - 0.161 * v / A) := by ring
    rw [e]
    refine (abs_add_le _ _).trans ?_
    rw [abs_of_pos hx0]
    linarith
  have e : py (py (py 0.161 * V) / sum l) - 0.161 * v / A =
    (py (py (py 0.161 * V) / sum l) - py (py 0.161 * V) / sum l) + (py (py 0.161 * V) / sum l - 0.161 * v / A) := by ring
  rw [e]
  refine (abs_add_le _ _).trans ?_
  have h6 := mul_le_mul_of_nonneg_left hy (roundoff_pos p).le
  have e5 : roundings p 5 = roundings p 4 + roundoff p * (1 + roundings p 4) := by
    rw [← roundings_add p 4 1, roundings_one]
    ring
  have e7 : 2 * roundings p 10 * ws.sum / A = 2 * δ / A := by rw [hδ]; ring
  rw [e7, e5]
  nlinarith

end SabineFloat

/-- **C145, time.** For coefficients between 0 and 1 and an absorption that is not lost in rounding (at least twice ten
roundings of the surface), the estimated time is Sabine's up to a relative error of five roundings and twice ten roundings
of the surface over the absorption. -/
theorem C145_t60 {py fl : ℝ → ℝ} {sum : List ℝ → ℝ} {p : ℕ} (hp' : p ≤ 53) (hpy : RoundsToNearest 53 py)
    (hfl : RoundsToNearest p fl) (hsum : SumsUp p sum) {d : ℕ} {size : Fin d → ℝ} (h : RealRoom size)
    {β : Fin (2 * d) → ℝ} (hβ : ∀ k, 0 ≤ β k ∧ β k ≤ 1)
    (hbig : 2 * roundings p 10 * surface size ≤ absorption size β) (hA : 0 < absorption size β) :
    ∃ t, estimateT60Float py fl sum (List.ofFn size) (List.ofFn β) = .ok (some t) ∧
      |t - sabine size (absorption size β)| ≤
        ((1 + 2 * roundings p 10 * surface size / absorption size β) * (1 + roundings p 5) - 1) *
          sabine size (absorption size β) := by
  have hpy' : ∀ x, |py x - x| ≤ roundoff p * |x| := fun x =>
    (fl_near hpy x).trans (mul_le_mul_of_nonneg_right (roundoff_le hp') (abs_nonneg x))
  have hone : ∀ x, Near p 1 (py x) x := fun x => near_step hpy' (near_refl x)
  have hb : ∀ b ∈ List.ofFn β, 0 ≤ b ∧ b ≤ 1 := by
    intro b hb
    obtain ⟨k, rfl⟩ := List.mem_ofFn.mp hb
    exact hβ k
  rcases h.dim with rfl | rfl
  · have h0 := h.pos 0
    have h1 := h.pos 1
    obtain ⟨w0, w1, w2, w3⟩ := wallArea_two size
    have eA : absorption size β = (List.zipWith (fun w b => w * (1 - b ^ 2)) [size 1, size 1, size 0, size 0] (List.ofFn β)).sum := by
      unfold absorption
      rw [sum_walls_two, w0, w1, w2, w3]
      simp [List.ofFn_succ]
      ring
    have eS : surface size = [size 1, size 1, size 0, size 0].sum := by
      unfold surface
      rw [sum_walls_two, w0, w1, w2, w3]
      simp
      ring
    have hareas : List.Forall₂ (fun w' w => 0 ≤ w ∧ Near p 1 w' w)
        [py (size 1 * 1), py (size 1 * 1), py (size 0 * 1), py (size 0 * 1)] [size 1, size 1, size 0, size 0] := by
      simp only [mul_one]
      exact .cons ⟨h1.le, hone _⟩ (.cons ⟨h1.le, hone _⟩ (.cons ⟨h0.le, hone _⟩ (.cons ⟨h0.le, hone _⟩ .nil)))
    have hV : Near p 2 (py (py (size 0 * size 1) * 1)) (volume size) := by
      unfold volume
      rw [Fin.prod_univ_two, mul_one]
      exact near_step hpy' (hone _)
    rw [eS] at hbig ⊢
    obtain ⟨t, t1, t2⟩ := t60Float_err hp' hpy hfl hsum (volume_pos h) hV hareas (by simp) (by simp) hb eA hA hbig
    refine ⟨t, ?_, t2⟩
    unfold estimateT60Float
    show (if _ then _ else _) = _
    rw [if_neg (by simp), ← t1]
    rfl
  · have h0 := h.pos 0
    have h1 := h.pos 1
    have h2 := h.pos 2
    obtain ⟨w0, w1, w2, w3, w4, w5⟩ := wallArea_three size
    have eA : absorption size β = (List.zipWith (fun w b => w * (1 - b ^ 2))
        [size 1 * size 2, size 1 * size 2, size 0 * size 2, size 0 * size 2, size 0 * size 1, size 0 * size 1]
        (List.ofFn β)).sum := by
      unfold absorption
      rw [sum_walls_three, w0, w1, w2, w3, w4, w5]
      simp [List.ofFn_succ]
      ring
    have eS : surface size =
        [size 1 * size 2, size 1 * size 2, size 0 * size 2, size 0 * size 2, size 0 * size 1, size 0 * size 1].sum := by
      unfold surface
      rw [sum_walls_three, w0, w1, w2, w3, w4, w5]
      simp
      ring
    have hareas : List.Forall₂ (fun w' w => 0 ≤ w ∧ Near p 1 w' w)
        [py (size 1 * size 2), py (size 1 * size 2), py (size 0 * size 2), py (size 0 * size 2), py (size 0 * size 1),
          py (size 0 * size 1)]
        [size 1 * size 2, size 1 * size 2, size 0 * size 2, size 0 * size 2, size 0 * size 1, size 0 * size 1] :=
      .cons ⟨by positivity, hone _⟩ (.cons ⟨by positivity, hone _⟩ (.cons ⟨by positivity, hone _⟩
        (.cons ⟨by positivity, hone _⟩ (.cons ⟨by positivity, hone _⟩ (.cons ⟨by positivity, hone _⟩ .nil)))))
    have hV : Near p 2 (py (py (size 0 * size 1) * size 2)) (volume size) := by
      unfold volume
      rw [Fin.prod_univ_three]
      exact near_step hpy' (near_mul (hone _) (near_refl _))
    rw [eS] at hbig ⊢
    obtain ⟨t, t1, t2⟩ := t60Float_err hp' hpy hfl hsum (volume_pos h) hV hareas (by simp) (by simp) hb eA hA hbig
    refine ⟨t, ?_, t2⟩
    unfold estimateT60Float
    show (if _ then _ else _) = _
    rw [if_neg (by simp), ← t1]
    rfl

namespace SabineFloat

/-- A box that holds every image up to the time of the last sample gives the samples of every larger one. -/
theorem box_complete {d nS nM : ℕ} (w : World) (room : Room) (L : Fin d → ℝ)
    (hsize : room.size = List.ofFn L) (hfs : 0 < room.fs) (hc : 0 < room.c) {τ : ℝ} {nb nb' : Fin d → ℕ}
    (hnb : ∀ i, τ * room.c ≤ nb i * L i) (hle : ∀ i, nb i ≤ nb' i)
    (src : Fin nS → Fin d → ℝ) (us : Option (Fin nS → Fin d → ℝ)) (mic : Fin nM → Fin d → ℝ)
    (um : Option (Fin nM → Fin d → ℝ)) (hs : ∀ s i, 0 ≤ src s i ∧ src s i ≤ L i)
    (hm : ∀ m i, 0 ≤ mic m i ∧ mic m i ≤ L i) (a : SimArgs) (cfg : Config) (hcfg : a.config = some cfg)
    (hf : 3 ≤ cfg.fracDelayLength) {n : ℤ} (hn : (n : ℝ) - 1 ≤ τ * room.fs) (R : Tensor ℝ)
    (h : simulateRir w room (entityOf src us) (entityOf mic um)
      { a with nbImg := some (List.ofFn fun i => (nb' i : ℤ)), nsample := some n } = .ok R) :
    simulateRir w room (entityOf src us) (entityOf mic um)
      { a with nbImg := some (List.ofFn fun i => (nb i : ℤ)), nsample := some n } = .ok R := by
  obtain ⟨P, hP⟩ := StaticPlan.exists (src := src) (mic := mic) hsize rfl rfl h
  obtain ⟨l', hl'1, hl'2⟩ := imageSourceIndices_box P.N nb'
  have e1 : P.nVec = l' := by
    have := hP.img
    simp only at this
    rw [hl'1] at this
    exact (Except.ok.inj this).symm
  have e2 : P.A = boxSet nb' := by
    have := hP.imgA
    rw [e1] at this
    exact this.unique hl'2
  obtain ⟨l, hl1, hl2⟩ := imageSourceIndices_box P.N nb
  have hsub : boxSet nb ⊆ P.A := by
    rw [e2]
    intro n hn
    simp only [boxSet, Fintype.mem_piFinset, Finset.mem_Icc] at hn ⊢
    intro i
    have := hn i
    have h2 := hle i
    omega
  have hP' : StaticPlan room (entityOf src us) (entityOf mic um)
      { a with nbImg := some (List.ofFn fun i => (nb i : ℤ)), nsample := some n } L src mic
      { P with nVec := l, A := boxSet nb } := by
    refine ⟨⟨hP.hd, hP.hS, hP.hM, hP.size, hP.beta, hP.res, hP.val, hl1, hl2, hP.split, hP.hmd,
      hP.hsd, hP.gains.src_some, hP.gains.mic_some, ?_, ?_⟩, hP.hsrc, hP.hmic⟩
    · rintro s m v ⟨n, hn, rfl⟩
      exact hP.gains.src s m _ ⟨n, hsub hn, rfl⟩
    · intro m
      obtain ⟨mv, h1, h2⟩ := hP.gains.mic m
      refine ⟨mv, h1, ?_⟩
      rintro s v ⟨n, hn, rfl⟩
      exact h2 s _ ⟨n, hsub hn, rfl⟩
  rw [hP.eval w hfs.ne'] at h
  rw [hP'.eval w hfs.ne', ← h]
  have hcfg' : P.cfg = cfg := cfg_of_resolve hcfg hP.res
  have hK : P.K = n := by
    have := (validateArgs_inv hP.val).1
    simp only [resolveNsample] at this
    exact (Except.ok.inj this).symm
  have : ({ P with nVec := l, A := boxSet nb } : Plan d nS nM).static w room L src mic = P.static w room L src mic := by
    unfold Plan.static
    congr 1
    funext s m k
    rw [e2]
    refine (rir_box_complete (P.setup w room L) hfs hc ?_ τ _ nb' hnb hle _ _ _ _ (hs s) (hm m) k ?_).symm
    · show 3 ≤ P.cfg.fracDelayLength.toNat
      rw [hcfg']; omega
    · show (k : ℝ) ≤ τ * room.fs
      have hk : (k : ℕ) < P.K.toNat := k.2
      have hk' : ((k : ℕ) : ℤ) ≤ n - 1 := by rw [← hK]; omega
      have hk'' : ((k : ℕ) : ℝ) ≤ (n : ℝ) - 1 := by exact_mod_cast hk'
      linarith
  rw [this]

theorem step_lower {p : ℕ} {f : ℝ → ℝ} (h : ∀ x, |f x - x| ≤ roundoff p * |x|) {x : ℝ} (hx : 0 ≤ x) :
    (1 - roundoff p) * x ≤ f x := by
  have := abs_le.mp (h x)
  rw [abs_of_nonneg hx] at this
  linarith [this.1]

end SabineFloat

/-- **C145, image counts.** The estimated counts miss at most three roundings of the time: the box holds every image of up to
`(1 - 2⁻ᵖ)³ tmax`, and whenever a call for that many samples succeeds with a larger box, it returns the same tensor with the
estimated one. -/
theorem C145_counts {py fl : ℝ → ℝ} {p : ℕ} (hp : 1 ≤ p) (hp' : p ≤ 53) (hpy : RoundsToNearest 53 py) (hfl : RoundsToNearest p fl)
    {d nS nM : ℕ} (hd : d = 2 ∨ d = 3) (w : World) (room : Room) (L : Fin d → ℝ) (hL : ∀ i, 0 < L i)
    (hsize : room.size = List.ofFn L) (hfs : 0 < room.fs) (hc : 0 < room.c) (tmax : ℝ) (ht : 0 < tmax) :
    ∃ nb : Fin d → ℕ,
      imageCountsFloat py fl tmax room.size room.c = .ok (List.ofFn fun i => (nb i : ℤ)) ∧
      (∀ i, (1 - roundoff p) ^ 3 * tmax * room.c ≤ nb i * L i) ∧
      ∀ (nb' : Fin d → ℕ), (∀ i, nb i ≤ nb' i) →
      ∀ (src : Fin nS → Fin d → ℝ) (us : Option (Fin nS → Fin d → ℝ))
        (mic : Fin nM → Fin d → ℝ) (um : Option (Fin nM → Fin d → ℝ)),
      (∀ s i, 0 ≤ src s i ∧ src s i ≤ L i) → (∀ m i, 0 ≤ mic m i ∧ mic m i ≤ L i) →
      ∀ (a : SimArgs) (cfg : Config), a.config = some cfg → 3 ≤ cfg.fracDelayLength →
      ∀ (n : ℤ), (n : ℝ) - 1 ≤ (1 - roundoff p) ^ 3 * tmax * room.fs → ∀ R : Tensor ℝ,
      simulateRir w room (entityOf src us) (entityOf mic um)
        { a with nbImg := some (List.ofFn fun i => (nb' i : ℤ)), nsample := some n } = .ok R →
      simulateRir w room (entityOf src us) (entityOf mic um)
        { a with nbImg := some (List.ofFn fun i => (nb i : ℤ)), nsample := some n } = .ok R := by
  have hpy' : ∀ x, |py x - x| ≤ roundoff p * |x| := fun x =>
    (fl_near hpy x).trans (mul_le_mul_of_nonneg_right (roundoff_le hp') (abs_nonneg x))
  have hu := roundoff_pos p
  have hu2 := roundoff_half hp
  have hv : 0 ≤ 1 - roundoff p := by linarith
  have hq : ∀ i, (1 - roundoff p) ^ 3 * tmax * room.c / L i ≤ fl (fl (py (tmax * room.c)) / L i) := by
    intro i
    have h0 : 0 ≤ tmax * room.c := by positivity
    have h1 := step_lower hpy' h0
    have h1' : 0 ≤ py (tmax * room.c) := le_trans (mul_nonneg hv h0) h1
    have h2 := step_lower (fl_near hfl) h1'
    have h2' : 0 ≤ fl (py (tmax * room.c)) := le_trans (mul_nonneg hv h1') h2
    have h3 := step_lower (fl_near hfl) (div_nonneg h2' (hL i).le)
    refine le_trans ?_ h3
    rw [← mul_div_assoc]
    refine div_le_div_of_nonneg_right ?_ (hL i).le
    have h4 := mul_le_mul_of_nonneg_left ((mul_le_mul_of_nonneg_left h1 hv).trans h2) hv
    refine le_trans (le_of_eq ?_) h4
    ring
  have hpos : ∀ i, 0 ≤ ⌈fl (fl (py (tmax * room.c)) / L i)⌉ := fun i => by
    refine Int.ceil_nonneg (le_trans ?_ (hq i))
    have := hL i
    positivity
  have hbox : ∀ i, (1 - roundoff p) ^ 3 * tmax * room.c ≤ ((⌈fl (fl (py (tmax * room.c)) / L i)⌉.toNat : ℕ) : ℝ) * L i := by
    intro i
    rw [← div_le_iff₀ (hL i)]
    refine (hq i).trans ((Int.le_ceil _).trans (le_of_eq ?_))
    have h2 : ((⌈fl (fl (py (tmax * room.c)) / L i)⌉.toNat : ℤ) : ℝ) = (⌈fl (fl (py (tmax * room.c)) / L i)⌉ : ℝ) := by
      rw [Int.toNat_of_nonneg (hpos i)]
    rw [← h2]
    rfl
  refine ⟨fun i => ⌈fl (fl (py (tmax * room.c)) / L i)⌉.toNat, ?_, hbox, ?_⟩
  · unfold imageCountsFloat
    rw [if_neg (by linarith), hsize, if_pos (by simpa using hd)]
    congr 1
    rw [List.map_ofFn]
    congr 1
    funext i
    exact (Int.toNat_of_nonneg (hpos i)).symm
  · intro nb' hle src us mic um hs hm a cfg hcfg hf n hn R h
    exact box_complete w room L hsize hfs hc hbox hle src us mic um hs hm a cfg hcfg hf hn R h

/-- **C145, no rounding.** Without rounding these are the estimates of C30 and C14. -/
theorem C145_exact (size beta : List ℝ) (t60 c : ℝ) :
    estimateBetaFloat id id size t60 = estimateBetaFromT60 size t60 ∧
    estimateT60Float id id List.sum size beta = estimateT60FromBeta size beta ∧
    imageCountsFloat id id t60 size c = estimateImageCountsFromTmax t60 size c := by
  refine ⟨?_, ?_, ?_⟩
  · unfold estimateBetaFloat estimateBetaFromT60 betaFloat
    rfl
  · unfold estimateT60Float estimateT60FromBeta t60Float
    rcases size with _ | ⟨lx, _ | ⟨ly, _ | ⟨lz, _ | ⟨_, _⟩⟩⟩⟩
    · rfl
    · rfl
    · simp only [id, List.map_id_fun]
      split_ifs <;> rfl
    · simp only [id, List.map_id_fun]
      split_ifs <;> rfl
    · rfl
  · unfold imageCountsFloat estimateImageCountsFromTmax
    simp

namespace SabineFloat

/-- Numbers added one by one, each result rounded. -/
noncomputable def addUp (fl : ℝ → ℝ) : List ℝ → ℝ
  | [] => 0
  | [v] => v
  | v :: w :: l => fl (v + addUp fl (w :: l))

/-- Adding one by one is a sum in the sense of the specification. -/
theorem addUp_sums {p : ℕ} {fl : ℝ → ℝ} (hfl : RoundsToNearest p fl) : SumsUp p (addUp fl)
  | [] => by simp [addUp, roundings]
  | [v] => by simp [addUp, roundings]
  | v :: w :: l => by
    have ih := addUp_sums hfl (w :: l)
    have hlen : (v :: w :: l).length - 1 = ((w :: l).length - 1) + 1 := by simp
    rw [hlen]
    have eS : (v :: w :: l).sum = v + (w :: l).sum := List.sum_cons
    have eB : ((v :: w :: l).map fun v => |v|).sum = |v| + ((w :: l).map fun v => |v|).sum := by
      rw [List.map_cons, List.sum_cons]
    rw [eS, eB, addUp]
    set S := addUp fl (w :: l)
    set n := (w :: l).length - 1
    set T := (w :: l).sum
    set B := ((w :: l).map fun v => |v|).sum
    have h1 := fl_near hfl (v + S)
    have hT : |T| ≤ B := by
      have : ∀ m : List ℝ, |m.sum| ≤ (m.map fun v => |v|).sum := by
        intro m
        induction m with
        | nil => simp
        | cons a m ih =>
          simp only [List.sum_cons, List.map_cons]
          exact (abs_add_le _ _).trans (by linarith)
      exact this _
    have h2 : |v + S| ≤ (1 + roundings p n) * (|v| + B) := by
      have e : v + S = v + T + (S - T) := by ring
      have h3 := abs_add_le (v + T) (S - T)
      have h4 := abs_add_le v T
      have h5 := mul_nonneg (roundings_nonneg p n) (abs_nonneg v)
      rw [e]
      linarith
    have e : fl (v + S) - (v + T) = (fl (v + S) - (v + S)) + (S - T) := by ring
    have e5 : roundings p (n + 1) = roundings p n + roundoff p * (1 + roundings p n) := by
      rw [← roundings_add p n 1, roundings_one]
      ring
    rw [e, e5]
    refine (abs_add_le _ _).trans ?_
    have h6 := mul_le_mul_of_nonneg_left h2 (roundoff_pos p).le
    have h7 := mul_nonneg (roundings_nonneg p n) (abs_nonneg v)
    linarith

/-- A room of 6 m × 4 m × 3 m. -/
theorem room643 : RealRoom (![6, 4, 3] : Fin 3 → ℝ) :=
  ⟨.inr rfl, fun i => by fin_cases i <;> norm_num⟩

theorem third643 : (![6, 4, 3] : Fin 3 → ℝ) 2 = 3 := rfl

theorem volume643 : volume (![6, 4, 3] : Fin 3 → ℝ) = 72 := by
  unfold volume
  rw [Fin.prod_univ_three, third643]
  norm_num

theorem surface643 : surface (![6, 4, 3] : Fin 3 → ℝ) = 108 := by
  obtain ⟨w0, w1, w2, w3, w4, w5⟩ := wallArea_three (![6, 4, 3] : Fin 3 → ℝ)
  unfold surface
  rw [sum_walls_three, w0, w1, w2, w3, w4, w5, third643]
  norm_num

end SabineFloat

open SabineFloat

/-- A room of 6 m × 4 m × 3 m and 0.4 s: the six single precision coefficients are within `2⁻²²` of the real ones. -/
example : ∃ b b', estimateBetaFromT60 [6, 4, 3] 0.4 = .ok (List.replicate 6 b) ∧
    estimateBetaFloat (toNearest 53) (toNearest 24) [6, 4, 3] 0.4 = .ok (List.replicate 6 b') ∧
    |b' - b| ≤ 1 / 2 ^ 22 := by
  have h := C145_beta (py := toNearest 53) (fl := toNearest 24) (p := 24) (by norm_num) (toNearest_rounds (by norm_num))
    (toNearest_rounds (by norm_num)) room643 (t60 := 0.4) (by norm_num)
  obtain ⟨b, b', h1, h2, -, -, -, h3⟩ := h
  refine ⟨b, b', by simpa [List.ofFn_succ] using h1, by simpa [List.ofFn_succ] using h2, h3.trans ?_⟩
  unfold roundings roundoff
  norm_num

/-- In the same room a time of twenty million seconds gives fully reflecting walls, and the time of these is infinite. -/
example : estimateBetaFloat (toNearest 53) (toNearest 24) [6, 4, 3] 20000000 = .ok (List.replicate 6 1) ∧
    estimateT60Float (toNearest 53) (toNearest 24) (addUp (toNearest 24)) [6, 4, 3] (List.replicate 6 1) = .ok none := by
  have h24 : RoundsToNearest 24 (toNearest 24) := toNearest_rounds (by norm_num)
  have h := C145_long_time (py := toNearest 53) (fl := toNearest 24) (p := 24) (by norm_num) (by norm_num)
    (toNearest_rounds (by norm_num)) h24 (addUp_sums h24) room643 (t60 := 20000000) (by norm_num) (by
      rw [volume643, surface643]
      unfold roundoff
      norm_num)
  simpa [List.ofFn_succ] using h

/-- In the same room with coefficients 0.9, the single precision time is within `2⁻¹⁷` of Sabine's, relatively. -/
example : ∃ t, estimateT60Float (toNearest 53) (toNearest 24) (addUp (toNearest 24)) [6, 4, 3] (List.replicate 6 0.9)
      = .ok (some t) ∧
    |t - sabine ![6, 4, 3] 20.52| ≤ 1 / 2 ^ 17 * sabine ![6, 4, 3] 20.52 := by
  have h24 : RoundsToNearest 24 (toNearest 24) := toNearest_rounds (by norm_num)
  have hA : absorption (![6, 4, 3] : Fin 3 → ℝ) (fun _ => 0.9) = 20.52 := by
    obtain ⟨w0, w1, w2, w3, w4, w5⟩ := wallArea_three (![6, 4, 3] : Fin 3 → ℝ)
    unfold absorption
    rw [sum_walls_three, w0, w1, w2, w3, w4, w5, third643]
    norm_num
  obtain ⟨t, t1, t2⟩ := C145_t60 (py := toNearest 53) (fl := toNearest 24) (p := 24) (by norm_num)
    (toNearest_rounds (by norm_num)) h24 (addUp_sums h24) room643 (β := fun _ => 0.9) (fun _ => by norm_num)
    (by
      rw [hA, surface643]
      unfold roundings roundoff
      norm_num)
    (by rw [hA]; norm_num)
  rw [hA, surface643] at t2
  refine ⟨t, by simpa [List.ofFn_succ, List.replicate] using t1, t2.trans (mul_le_mul_of_nonneg_right ?_ ?_)⟩
  · unfold roundings roundoff
    norm_num
  · unfold sabine
    rw [volume643]
    norm_num

/-- 20 ms in a room of 4 m × 5 m: every box at least as large as the estimated one gives the same 320 samples. -/
example (w : World) : ∃ nb : Fin 2 → ℕ,
    imageCountsFloat (toNearest 53) (toNearest 24) 0.02 [4, 5] 343 = .ok (List.ofFn fun i => (nb i : ℤ)) ∧
    ∀ nb' : Fin 2 → ℕ, (∀ i, nb i ≤ nb' i) →
      simulateRir w (boxRoom ![4, 5] ![0.9, 0.8] ![0.7, 0.6] 16000 343) (points ![![1, 2]]) (points ![![3, 4]])
        { omniArgs (d := 2) (.box 0 nb') 320 { rirHpfEnable := false } with } =
      simulateRir w (boxRoom ![4, 5] ![0.9, 0.8] ![0.7, 0.6] 16000 343) (points ![![1, 2]]) (points ![![3, 4]])
        { omniArgs (d := 2) (.box 0 nb) 320 { rirHpfEnable := false } with } := by
  obtain ⟨nb, h1, -, h2⟩ := C145_counts (py := toNearest 53) (fl := toNearest 24) (p := 24) (nS := 1) (nM := 1) (by norm_num)
    (by norm_num) (toNearest_rounds (by norm_num)) (toNearest_rounds (by norm_num)) (d := 2) (.inl rfl) w
    (boxRoom ![4, 5] ![0.9, 0.8] ![0.7, 0.6] 16000 343) ![4, 5] (fun i => by fin_cases i <;> norm_num)
    rfl (by norm_num [boxRoom]) (by norm_num [boxRoom]) 0.02 (by norm_num)
  refine ⟨nb, by simpa [boxRoom, List.ofFn_succ] using h1, fun nb' hle => ?_⟩
  obtain ⟨R, hR⟩ : ∃ R, simulateRir w (boxRoom ![4, 5] ![0.9, 0.8] ![0.7, 0.6] 16000 343) (points ![![1, 2]])
      (points ![![3, 4]]) { omniArgs (d := 2) (.box 0 nb') 320 { rirHpfEnable := false } with } = .ok R :=
    ⟨_, C05_static_rir_formula (Or.inl rfl) (by norm_num) (by norm_num) w ![4, 5] ![0.9, 0.8] ![0.7, 0.6] 16000 343
      (by norm_num) (by norm_num) (.box 0 nb') 320 (by norm_num) _ plainConfig_valid rfl ![![1, 2]] ![![3, 4]]⟩
  rw [hR]
  refine (h2 nb' hle ![![1, 2]] none ![![3, 4]] none (fun s i => ?_) (fun m i => ?_)
    (omniArgs (d := 2) (.box 0 nb') 320 { rirHpfEnable := false }) { rirHpfEnable := false } rfl (by decide) 320 ?_ R hR).symm
  · fin_cases s; fin_cases i <;> norm_num
  · fin_cases m; fin_cases i <;> norm_num
  · unfold roundoff
    norm_num [boxRoom]

end Torchrir.Props
