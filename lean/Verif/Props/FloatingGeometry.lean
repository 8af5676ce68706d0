import Verif.Spec.GeometryFloat
import Verif.Lemmas.Floating
import Verif.Props.Sampling

/-! # Positions in floating point: C127 -/

namespace Torchrir.Props

open Torchrir.Model Torchrir.Spec Torchrir.Lemmas

namespace FloatingGeometry

variable {p : ℕ} {F : GeoFloats}

theorem roundoff_pos (p : ℕ) : 0 < roundoff p := by unfold roundoff; positivity

theorem fl_zero {p : ℕ} {fl : ℝ → ℝ} (h : RoundsToNearest p fl) : fl 0 = 0 := by
  have := fl_nat h (n := 0) (Nat.zero_le _)
  simpa using this

theorem fl_le {p : ℕ} {fl : ℝ → ℝ} (h : RoundsToNearest p fl) {x y : ℝ} (hy : IsFloat p y) (hxy : x ≤ y) : fl x ≤ y := by
  rw [← fl_float h hy]; exact fl_mono h hxy

theorem le_fl {p : ℕ} {fl : ℝ → ℝ} (h : RoundsToNearest p fl) {x y : ℝ} (hy : IsFloat p y) (hxy : y ≤ x) : y ≤ fl x := by
  rw [← fl_float h hy]; exact fl_mono h hxy

theorem fl_upper {p : ℕ} {fl : ℝ → ℝ} (h : RoundsToNearest p fl) {x : ℝ} (hx : 0 ≤ x) : fl x ≤ (1 + roundoff p) * x := by
  have := (abs_le.mp (fl_near h x)).2
  rw [abs_of_nonneg hx] at this
  linarith

theorem fl_lower {p : ℕ} {fl : ℝ → ℝ} (h : RoundsToNearest p fl) {x : ℝ} (hx : 0 ≤ x) : (1 - roundoff p) * x ≤ fl x := by
  have := (abs_le.mp (fl_near h x)).1
  rw [abs_of_nonneg hx] at this
  linarith

theorem isFloat_zero (p : ℕ) : IsFloat p 0 := ⟨0, 0, by simp, by simp⟩

/-- A floating-point number above a power of two is a multiple of its last place. -/
theorem isFloat_multiple {p : ℕ} {x : ℝ} (hx : IsFloat p x) {j : ℤ} (hj : (2 : ℝ) ^ j < |x|) :
    ∃ k : ℤ, x = k * (2 : ℝ) ^ (j + 1 - p) := by
  obtain ⟨m, e, hm, rfl⟩ := hx
  have he : j < e + p := by
    by_contra hc
    push Not at hc
    have h1 : |(m : ℝ) * (2 : ℝ) ^ e| ≤ (2 : ℝ) ^ (p : ℤ) * (2 : ℝ) ^ e := by
      rw [abs_mul, abs_of_pos (by positivity : (0 : ℝ) < (2 : ℝ) ^ e)]
      refine mul_le_mul_of_nonneg_right ?_ (by positivity)
      rw [zpow_natCast]; exact_mod_cast hm
    rw [← zpow_add₀ (by norm_num)] at h1
    have h2 : (2 : ℝ) ^ ((p : ℤ) + e) ≤ (2 : ℝ) ^ j := zpow_le_zpow_right₀ (by norm_num) (by omega)
    linarith
  refine ⟨m * 2 ^ (e - (j + 1 - p)).toNat, ?_⟩
  push_cast
  rw [mul_assoc, ← zpow_natCast, ← zpow_add₀ (by norm_num), Int.toNat_of_nonneg (by omega)]
  congr 2
  ring

/-- Between a number and the next one is at least one unit roundoff. -/
theorem next_float {p : ℕ} {s y : ℝ} (hs : IsFloat p s) (hy : IsFloat p y) (h0 : 0 < s) (h : s < y) :
    s * (1 + roundoff p) ≤ y := by
  obtain ⟨j, hj1, hj2⟩ := exists_mem_Ioc_zpow h0 (show (1 : ℝ) < 2 by norm_num)
  obtain ⟨a, ha⟩ := isFloat_multiple hs (j := j) (by rwa [abs_of_pos h0])
  obtain ⟨b, hb⟩ := isFloat_multiple hy (j := j) (by rw [abs_of_pos (h0.trans h)]; linarith)
  have hP : (0 : ℝ) < (2 : ℝ) ^ (j + 1 - p) := by positivity
  have hab : a + 1 ≤ b := by
    rw [ha, hb] at h
    have := lt_of_mul_lt_mul_right h hP.le
    exact_mod_cast this
  have h1 : s + (2 : ℝ) ^ (j + 1 - p) ≤ y := by
    rw [ha, hb]
    have : ((a : ℝ) + 1) ≤ b := by exact_mod_cast hab
    nlinarith
  have h2 : (2 : ℝ) ^ (j + 1 - p) = roundoff p * (2 : ℝ) ^ (j + 1) := by
    unfold roundoff
    rw [zpow_sub₀ (by norm_num), zpow_natCast, inv_pow]
    field_simp
  have hu := roundoff_pos p
  rw [h2] at h1
  nlinarith

/-- A number that exceeds `s` by a few roundings of another, higher precision is rounded to `s`. -/
theorem fl_le_of_close {p : ℕ} {fl : ℝ → ℝ} (h : RoundsToNearest p fl) (hp : p ≤ 50) {s x : ℝ} (hs : IsFloat p s)
    (h0 : 0 ≤ s) (hx : x ≤ (1 + roundoff 53) ^ 3 * s) : fl x ≤ s := by
  rcases h0.eq_or_lt with rfl | h0
  · rw [mul_zero] at hx
    exact fl_le h (isFloat_zero p) hx
  by_contra hc
  push Not at hc
  have hxs : s < x := by
    by_contra hle
    exact absurd (fl_le h hs (not_lt.mp hle)) (not_le.mpr hc)
  have h1 := next_float hs (h x).1 h0 hc
  have h2 := (h x).2 s hs
  rw [abs_of_neg (show s - x < 0 by linarith)] at h2
  have h3 := (abs_le.mp h2).2
  have h4 : 2 * ((1 + roundoff 53) ^ 3 - 1) < roundoff p := by
    have e1 : roundoff 50 ≤ roundoff p := by
      unfold roundoff; exact pow_le_pow_of_le_one (by norm_num) (by norm_num) hp
    have e2 : 2 * ((1 + roundoff 53) ^ 3 - 1) < roundoff 50 := by unfold roundoff; norm_num
    linarith
  nlinarith

/-- `rng.uniform` in double precision. -/
theorem uniform_bounds (hF : AccurateGeo p F) {a b r : ℝ} (ha : IsFloat 53 a) (h0 : 0 ≤ a) (hab : a ≤ b)
    (hr : 0 ≤ r ∧ r ≤ 1) : a ≤ F.uniform a b r ∧ F.uniform a b r ≤ (1 + roundoff 53) ^ 2 * b := by
  have hv := roundoff_pos 53
  have w0 : 0 ≤ F.py (b - a) := le_fl hF.py (isFloat_zero _) (by linarith)
  have w1 : F.py (b - a) ≤ (1 + roundoff 53) * (b - a) := fl_upper hF.py (by linarith)
  have z0 : 0 ≤ F.py (F.py (b - a) * r) := le_fl hF.py (isFloat_zero _) (mul_nonneg w0 hr.1)
  have z1 : F.py (F.py (b - a) * r) ≤ F.py (b - a) := fl_le hF.py (hF.py _).1 (mul_le_of_le_one_right w0 hr.2)
  unfold GeoFloats.uniform
  refine ⟨le_fl hF.py ha (by linarith), (fl_upper hF.py (by linarith)).trans ?_⟩
  rw [pow_two, mul_assoc]
  refine mul_le_mul_of_nonneg_left ?_ (by linarith)
  nlinarith

/-- What is needed of a sampled coordinate. -/
def Drawn (size margin x : ℝ) : Prop := margin ≤ x ∧ x ≤ (1 + roundoff 53) ^ 3 * (size - margin)

theorem drawn_uniform (hF : AccurateGeo p F) {size margin r : ℝ} (hm : IsFloat 53 margin)
    (h0 : 0 ≤ margin) (h2 : 2 * margin ≤ size) (hr : 0 ≤ r ∧ r ≤ 1) :
    Drawn size margin (F.uniform margin (F.py (size - margin)) r) := by
  have hb : margin ≤ F.py (size - margin) := le_fl hF.py hm (by linarith)
  obtain ⟨h3, h4⟩ := uniform_bounds hF hm h0 hb hr
  refine ⟨h3, h4.trans ?_⟩
  have := mul_le_mul_of_nonneg_left (fl_upper hF.py (show 0 ≤ size - margin by linarith))
    (show (0 : ℝ) ≤ (1 + roundoff 53) ^ 2 by positivity)
  refine this.trans (le_of_eq ?_)
  ring

theorem drawn_fl (hF : AccurateGeo p F) {size margin x : ℝ} (h0 : 0 ≤ margin) (hx : Drawn size margin x) :
    (1 - roundoff p) * margin ≤ F.fl x ∧ F.fl x ≤ (1 + roundoff p) * ((1 + roundoff 53) ^ 3 * (size - margin)) := by
  have hu := roundoff_pos p
  constructor
  · refine (fl_lower hF.fl h0).trans (fl_mono hF.fl hx.1)
  · exact (fl_upper hF.fl (h0.trans hx.1)).trans (mul_le_mul_of_nonneg_left hx.2 (by linarith))

theorem drawn_room (hF : AccurateGeo p F) (hp : p ≤ 50) {size margin x : ℝ} (h0 : 0 ≤ margin) (h2 : 2 * margin ≤ size)
    (hs : IsFloat p size) (hx : Drawn size margin x) : 0 ≤ F.fl x ∧ F.fl x ≤ size - 0 := by
  rw [sub_zero]
  refine ⟨le_fl hF.fl (isFloat_zero _) (h0.trans hx.1), fl_le_of_close hF.fl hp hs (by linarith) (hx.2.trans ?_)⟩
  have hv := roundoff_pos 53
  exact mul_le_mul_of_nonneg_left (by linarith) (by positivity)

/-- The height of a point. -/
theorem drawn_height (hF : AccurateGeo p F) {size margin zMin zMax r : ℝ} (hm : IsFloat 53 margin) (hz : IsFloat 53 zMin)
    (h0 : 0 ≤ margin) (h2 : 2 * margin ≤ size) (hu : max margin zMin < min (F.py (size - margin)) zMax)
    (hr : 0 ≤ r ∧ r ≤ 1) :
    let x := F.uniform (max margin zMin) (min (F.py (size - margin)) zMax) r
    Drawn size margin x ∧ (1 - roundoff p) * zMin ≤ F.fl x ∧ F.fl x ≤ (1 + roundoff p) * ((1 + roundoff 53) ^ 2 * zMax) := by
  intro x
  have ha : IsFloat 53 (max margin zMin) := by rcases max_choice margin zMin with h | h <;> rw [h] <;> assumption
  have h0' : 0 ≤ max margin zMin := h0.trans (le_max_left _ _)
  obtain ⟨h3, h4⟩ := uniform_bounds hF ha h0' hu.le hr
  have hv := roundoff_pos 53
  have hp := roundoff_pos p
  have h6 : x ≤ (1 + roundoff 53) ^ 2 * zMax :=
    h4.trans (mul_le_mul_of_nonneg_left (min_le_right _ _) (by positivity))
  refine ⟨⟨(le_max_left _ _).trans h3, h4.trans ?_⟩, ?_, ?_⟩
  · have h5 := (min_le_left (F.py (size - margin)) zMax).trans (fl_upper hF.py (show 0 ≤ size - margin by linarith))
    refine (mul_le_mul_of_nonneg_left h5 (by positivity)).trans (le_of_eq ?_)
    ring
  · rcases le_or_gt zMin 0 with hn | hn
    · refine le_trans ?_ (le_fl hF.fl (isFloat_zero _) (h0'.trans h3))
      have : roundoff p ≤ 1 := by unfold roundoff; exact pow_le_one₀ (by norm_num) (by norm_num)
      nlinarith
    · exact (fl_lower hF.fl hn.le).trans (fl_mono hF.fl ((le_max_right _ _).trans h3))
  · exact (fl_upper hF.fl (h0'.trans h3)).trans (mul_le_mul_of_nonneg_left h6 (by linarith))

theorem drawPoint_ofFn (F : GeoFloats) (r : ℕ → ℝ) : ∀ {d : ℕ} (b : Fin d → ℝ × ℝ) (k : ℕ),
    F.drawPoint r (List.ofFn b) k = (List.ofFn fun i => F.uniform (b i).1 (b i).2 (r (k + i)), k + d)
  | 0, b, k => by simp [GeoFloats.drawPoint]
  | d + 1, b, k => by
    rw [List.ofFn_succ]
    unfold GeoFloats.drawPoint
    dsimp only
    rw [drawPoint_ofFn F r (fun i => b i.succ) (k + 1), List.ofFn_succ]
    simp only [Fin.val_zero, Fin.val_succ, Nat.add_zero, Prod.mk.injEq, List.cons.injEq, true_and]
    constructor
    · congr 1
      funext i
      rw [show k + 1 + (i : ℕ) = k + (i + 1) by omega]
    · omega

theorem marginBox_ofFn (F : GeoFloats) {d : ℕ} (size : Fin d → ℝ) (margin : ℝ) :
    F.marginBox (List.ofFn size) margin = List.ofFn fun i => (margin, F.py (size i - margin)) := by
  unfold GeoFloats.marginBox
  rw [List.map_ofFn]
  rfl

theorem drawPoints_rows (F : GeoFloats) (r : ℕ → ℝ) {d : ℕ} (size : Fin d → ℝ) (margin : ℝ) : ∀ n k : ℕ,
    F.drawPoints r (F.marginBox (List.ofFn size) margin) n k =
      (rows fun (j : Fin n) i => F.uniform margin (F.py (size i - margin)) (r (k + j * d + i)), k + n * d)
  | 0, k => by simp [GeoFloats.drawPoints, rows]
  | n + 1, k => by
    unfold GeoFloats.drawPoints
    dsimp only
    rw [marginBox_ofFn, drawPoint_ofFn, ← marginBox_ofFn]
    dsimp only
    rw [drawPoints_rows F r size margin n (k + d)]
    unfold rows
    rw [List.ofFn_succ]
    simp only [Prod.mk.injEq, List.cons.injEq]
    refine ⟨⟨?_, ?_⟩, by ring⟩
    · simp
    · congr 1
      funext j
      congr 1
      funext i
      simp only [Fin.val_succ]
      rw [show k + d + (j : ℕ) * d + (i : ℕ) = k + (j + 1) * d + i by ring]

theorem map_rows (f : ℝ → ℝ) {n d : ℕ} (q : Fin n → Fin d → ℝ) : (rows q).map (List.map f) = rows fun j i => f (q j i) := by
  unfold rows
  rw [List.map_ofFn]
  congr 1
  funext j
  simp [List.map_ofFn]
  rfl

theorem drawHeights_ofFn (F : GeoFloats) (r : ℕ → ℝ) (lo hi : ℝ) : ∀ n k : ℕ,
    F.drawHeights r lo hi n k = (List.ofFn fun (j : Fin n) => F.uniform lo hi (r (k + j)), k + n)
  | 0, k => by simp [GeoFloats.drawHeights]
  | n + 1, k => by
    unfold GeoFloats.drawHeights
    dsimp only
    rw [drawHeights_ofFn F r lo hi n (k + 1), List.ofFn_succ]
    simp only [Prod.mk.injEq, List.cons.injEq]
    refine ⟨⟨by simp, ?_⟩, by ring⟩
    congr 1
    funext j
    rw [Fin.val_succ, show k + 1 + (j : ℕ) = k + (j + 1) by omega]

theorem heightRange_ofFn (F : GeoFloats) {d : ℕ} (size : Fin d → ℝ) (h : 2 < d) (margin zMin zMax : ℝ) :
    F.heightRange (List.ofFn size) margin zMin zMax = (max margin zMin, min (F.py (size ⟨2, h⟩ - margin)) zMax) := by
  unfold GeoFloats.heightRange
  rw [List.getD_eq_getElem _ _ (by simpa using h), List.getElem_ofFn]

/-- A candidate of the rejection loop. -/
structure Candidate (F : GeoFloats) (p : ℕ) {d : ℕ} (size : Fin d → ℝ) (zRange : Option (ℝ × ℝ)) (margin : ℝ)
    (x : Fin d → ℝ) : Prop where
  drawn : ∀ i, Drawn (size i) margin (x i)
  height : ∀ zMin zMax, zRange = some (zMin, zMax) → ∀ hd : 2 < d,
    max margin zMin < min (F.py (size ⟨2, hd⟩ - margin)) zMax →
    (1 - roundoff p) * zMin ≤ F.fl (x ⟨2, hd⟩) ∧ F.fl (x ⟨2, hd⟩) ≤ (1 + roundoff p) * ((1 + roundoff 53) ^ 2 * zMax)

theorem candidate_drawn (hF : AccurateGeo p F) (r : ℕ → ℝ) (hr : UnitStream r) {d : ℕ} (size : Fin d → ℝ)
    (zRange : Option (ℝ × ℝ)) (margin : ℝ) (hm : IsFloat 53 margin) (h0 : 0 ≤ margin) (h2 : ∀ i, 2 * margin ≤ size i)
    (hz : ∀ z ∈ zRange, IsFloat 53 z.1) (k : ℕ) :
    ∃ x k', F.adjustHeight r (List.ofFn size) zRange margin (F.drawPoint r (F.marginBox (List.ofFn size) margin) k).1
        (F.drawPoint r (F.marginBox (List.ofFn size) margin) k).2 = (List.ofFn x, k') ∧
      Candidate F p size zRange margin x := by
  rw [marginBox_ofFn, drawPoint_ofFn]
  have hd : ∀ i : Fin d, Drawn (size i) margin (F.uniform margin (F.py (size i - margin)) (r (k + i))) :=
    fun i => drawn_uniform hF hm h0 (h2 i) (hr _)
  unfold GeoFloats.adjustHeight
  cases zRange with
  | none => exact ⟨_, _, rfl, hd, by simp⟩
  | some z =>
    obtain ⟨zMin, zMax⟩ := z
    dsimp only
    by_cases hd3 : 2 < d
    · rw [if_neg (by rw [List.length_ofFn]; omega), heightRange_ofFn F size hd3]
      dsimp only
      by_cases hu : max margin zMin < min (F.py (size ⟨2, hd3⟩ - margin)) zMax
      · rw [if_pos hu]
        have hh := drawn_height hF hm (hz _ rfl) h0 (h2 ⟨2, hd3⟩) hu (hr (k + d))
        refine ⟨_, _, by rw [set_ofFn _ ⟨2, hd3⟩], ⟨fun i => ?_, ?_⟩⟩
        · dsimp only
          split_ifs with h
          · obtain rfl : i = ⟨2, hd3⟩ := Fin.ext h
            exact hh.1
          · exact hd i
        · rintro zMin' zMax' he hd' -
          obtain ⟨rfl, rfl⟩ : zMin = zMin' ∧ zMax = zMax' := by simpa using he
          simpa using hh.2
      · rw [if_neg hu]
        refine ⟨_, _, rfl, hd, ?_⟩
        rintro zMin' zMax' he hd' hu'
        obtain ⟨rfl, rfl⟩ : zMin = zMin' ∧ zMax = zMax' := by simpa using he
        exact absurd hu' hu
    · rw [if_pos (by rw [List.length_ofFn]; omega)]
      exact ⟨_, _, rfl, hd, fun _ _ _ h => absurd h hd3⟩

/-- The invariant of the rejection loop. -/
theorem loop_invariant (hF : AccurateGeo p F) (r : ℕ → ℝ) (hr : UnitStream r) {d : ℕ} (size : Fin d → ℝ) (center : Vec)
    (minDistance : ℝ) (zRange : Option (ℝ × ℝ)) (margin : ℝ) (hm : IsFloat 53 margin) (h0 : 0 ≤ margin)
    (h2 : ∀ i, 2 * margin ≤ size i) (hz : ∀ z ∈ zRange, IsFloat 53 z.1) :
    ∀ (attempts wanted : ℕ) (acc : List Vec) (k : ℕ),
    (∀ v ∈ acc, ∃ x : Fin d → ℝ, v = List.ofFn x ∧ Candidate F p size zRange margin x ∧ minDistance ≤ F.distance v center) →
    let out := (F.minDistanceLoop r (List.ofFn size) center minDistance zRange margin attempts wanted acc k).1
    (∀ v ∈ out, ∃ x : Fin d → ℝ, v = List.ofFn x ∧ Candidate F p size zRange margin x ∧ minDistance ≤ F.distance v center) ∧
      out.length ≤ acc.length + wanted
  | 0, wanted, acc, k, hacc => ⟨by simpa [GeoFloats.minDistanceLoop] using hacc, by simp [GeoFloats.minDistanceLoop]⟩
  | attempts + 1, 0, acc, k, hacc => ⟨by simpa [GeoFloats.minDistanceLoop] using hacc, by simp [GeoFloats.minDistanceLoop]⟩
  | attempts + 1, wanted + 1, acc, k, hacc => by
    unfold GeoFloats.minDistanceLoop
    dsimp only
    obtain ⟨x, k', hx, hc⟩ := candidate_drawn hF r hr size zRange margin hm h0 h2 hz k
    rw [hx]
    dsimp only
    by_cases hfar : minDistance ≤ F.distance (List.ofFn x) center
    · rw [if_pos hfar]
      have := loop_invariant hF r hr size center minDistance zRange margin hm h0 h2 hz attempts wanted
        (acc ++ [List.ofFn x]) k' (by
          intro v hv
          rw [List.mem_append, List.mem_singleton] at hv
          rcases hv with hv | rfl
          · exact hacc v hv
          · exact ⟨x, rfl, hc, hfar⟩)
      refine ⟨this.1, this.2.trans ?_⟩
      simp
      omega
    · rw [if_neg hfar]
      exact loop_invariant hF r hr size center minDistance zRange margin hm h0 h2 hz attempts (wanted + 1) acc k' hacc

theorem distance_le (hF : AccurateGeo p F) {d : ℕ} (hd : d ≤ 3) (x c : Fin d → ℝ) :
    F.distance (List.ofFn x) (List.ofFn c) ≤ (1 + 4 * roundoff p) * ((1 + roundoff p) * Spec.dist (fun i => F.fl (x i)) c) := by
  have hu := roundoff_pos p
  unfold GeoFloats.distance
  have e1 : List.zipWith (fun a c => F.fl (F.fl a - c)) (List.ofFn x) (List.ofFn c) = List.ofFn fun i => F.fl (F.fl (x i) - c i) := by
    apply List.ext_getElem <;> simp
  rw [e1]
  have h1 := (abs_le.mp (hF.norm (List.ofFn fun i => F.fl (F.fl (x i) - c i)) (by simpa using hd))).2
  have e2 : ((List.ofFn fun i => F.fl (F.fl (x i) - c i)).map fun x => x ^ 2).sum = ∑ i, (F.fl (F.fl (x i) - c i)) ^ 2 := by
    rw [List.map_ofFn, List.sum_ofFn]; rfl
  rw [e2] at h1
  have h3 : Real.sqrt (∑ i, (F.fl (F.fl (x i) - c i)) ^ 2) ≤ (1 + roundoff p) * Spec.dist (fun i => F.fl (x i)) c := by
    unfold Spec.dist
    rw [Real.sqrt_le_left (by positivity), mul_pow, Real.sq_sqrt (Finset.sum_nonneg fun i _ => sq_nonneg _), Finset.mul_sum]
    refine Finset.sum_le_sum fun i _ => ?_
    rw [← mul_pow, sq_le_sq, abs_mul, abs_of_pos (show 0 < 1 + roundoff p by linarith)]
    have := fl_near hF.fl (F.fl (x i) - c i)
    have h4 := abs_add_le (F.fl (F.fl (x i) - c i) - (F.fl (x i) - c i)) (F.fl (x i) - c i)
    rw [sub_add_cancel] at h4
    linarith
  have := mul_le_mul_of_nonneg_left h3 (show 0 ≤ 1 + 4 * roundoff p by linarith)
  linarith

/-- Rounding near a number on the grid of the last place. -/
theorem fl_eq_of_near {p : ℕ} {fl : ℝ → ℝ} (h : RoundsToNearest p fl) {x y : ℝ} {j : ℤ} (hy : IsFloat p y)
    (hgrid : ∃ k : ℤ, y = k * (2 : ℝ) ^ (j + 1 - p)) (hnear : 2 * |y - x| < (2 : ℝ) ^ (j + 1 - p))
    (habove : (2 : ℝ) ^ j + |y - x| < |x|) : fl x = y := by
  have h1 := (h x).2 y hy
  have h2 : (2 : ℝ) ^ j < |fl x| := by
    have := abs_sub_abs_le_abs_sub x (fl x)
    rw [abs_sub_comm] at this
    linarith
  obtain ⟨k, hk⟩ := hgrid
  obtain ⟨l, hl⟩ := isFloat_multiple (h x).1 h2
  have hP : (0 : ℝ) < (2 : ℝ) ^ (j + 1 - p) := by positivity
  have h3 : |fl x - y| < (2 : ℝ) ^ (j + 1 - p) := by
    have e : fl x - y = (fl x - x) - (y - x) := by ring
    rw [e]
    exact (abs_sub _ _).trans_lt (by linarith)
  rw [hl, hk, ← sub_mul, abs_mul, abs_of_pos hP] at h3
  have h4 : |((l : ℝ) - k)| < 1 := by
    by_contra hc
    push Not at hc
    nlinarith
  have h5 : |l - k| < 1 := by exact_mod_cast h4
  rw [Int.abs_lt_one_iff] at h5
  rw [hl, hk, show l = k by omega]

/-- One coordinate of a trajectory. -/
theorem step_err (hF : AccurateGeo p F) (a b : ℝ) {t n : ℕ} (ht : t < n) (h2 : 2 ≤ n) (hn : n ≤ 2 ^ p) :
    |F.fl (a + F.quot (F.fl (F.fl (b - a) * F.fl t)) ((n : ℝ) - 1)) - (a + (b - a) * t / ((n : ℝ) - 1))| ≤
      roundoff p * |a + (b - a) * t / ((n : ℝ) - 1)| + roundings p 5 * |(b - a) * t / ((n : ℝ) - 1)| := by
  have hu := roundoff_pos p
  rw [fl_nat hF.fl (show t ≤ 2 ^ p by omega)]
  have hn1 : (0 : ℝ) < (n : ℝ) - 1 := by
    have : (2 : ℝ) ≤ n := by exact_mod_cast h2
    linarith
  set u := roundoff p with hud
  have h1 := fl_near hF.fl (b - a)
  set A := F.fl (b - a) with hA
  have h2 := fl_near hF.fl (A * t)
  set B := F.fl (A * t) with hB
  have h3 := hF.quot B ((n : ℝ) - 1)
  set C := F.quot B ((n : ℝ) - 1) with hC
  have h4 := fl_near hF.fl (a + C)
  rw [← hud] at h1 h2 h3 h4
  set D := (b - a) * t / ((n : ℝ) - 1) with hD
  have ht0 : (0 : ℝ) ≤ t := Nat.cast_nonneg t
  have e1 : |A * t - (b - a) * t| ≤ u * |(b - a) * t| := by
    rw [← sub_mul, abs_mul, abs_mul, ← mul_assoc]
    exact mul_le_mul_of_nonneg_right h1 (abs_nonneg _)
  have e2 : |B - (b - a) * t| ≤ ((1 + u) ^ 2 - 1) * |(b - a) * t| := by
    have e3 := abs_add_le (B - A * t) (A * t - (b - a) * t)
    have e4 := abs_add_le (A * t - (b - a) * t) ((b - a) * t)
    rw [sub_add_sub_cancel] at e3
    rw [sub_add_cancel] at e4
    nlinarith [mul_le_mul_of_nonneg_left e4 hu.le, mul_le_mul_of_nonneg_left e1 hu.le]
  have e5 : |B / ((n : ℝ) - 1) - D| ≤ ((1 + u) ^ 2 - 1) * |D| := by
    rw [hD, ← sub_div, abs_div, abs_div, ← mul_div_assoc]
    exact div_le_div_of_nonneg_right e2 (abs_nonneg _)
  have e6 : |C - D| ≤ ((1 + u) ^ 4 - 1) * |D| := by
    have e3 := abs_add_le (C - B / ((n : ℝ) - 1)) (B / ((n : ℝ) - 1) - D)
    have e4 := abs_add_le (B / ((n : ℝ) - 1) - D) D
    rw [sub_add_sub_cancel] at e3
    rw [sub_add_cancel] at e4
    have hv : 0 ≤ (1 + u) ^ 2 - 1 := by nlinarith
    have e7 : |B / ((n : ℝ) - 1)| ≤ (1 + u) ^ 2 * |D| := by linarith
    have e8 := mul_le_mul_of_nonneg_left e7 hv
    have e9 : ((1 + u) ^ 4 - 1) * |D| = ((1 + u) ^ 2 - 1) * ((1 + u) ^ 2 * |D|) + ((1 + u) ^ 2 - 1) * |D| := by ring
    linarith
  have e7 := abs_add_le (F.fl (a + C) - (a + C)) ((a + C) - (a + D))
  rw [sub_add_sub_cancel] at e7
  have e8 : a + C - (a + D) = C - D := by ring
  rw [e8] at e7
  have e9 := abs_add_le (a + D) (C - D)
  rw [show a + D + (C - D) = a + C by ring] at e9
  have e10 := mul_le_mul_of_nonneg_left e9 hu.le
  have e11 := mul_le_mul_of_nonneg_left e6 (show 0 ≤ 1 + u by linarith)
  have e12 : roundings p 5 * |D| = (1 + u) * (((1 + u) ^ 4 - 1) * |D|) + u * |D| := by unfold roundings; ring
  have e13 := mul_nonneg hu.le (abs_nonneg D)
  linarith

theorem trajectory_rows (F : GeoFloats) {d : ℕ} (a b : Fin d → ℝ) (steps : ℕ) (h : 2 ≤ steps) :
    F.linearTrajectory (List.ofFn a) (List.ofFn b) steps = .ok (rows fun (t : Fin steps) i =>
      F.fl (a i + F.quot (F.fl (F.fl (b i - a i) * F.fl (t : ℕ))) ((steps : ℝ) - 1))) := by
  unfold GeoFloats.linearTrajectory
  rw [if_neg (by omega), if_neg (by omega)]
  congr 1
  unfold rows
  apply List.ext_getElem
  · simp
  · intro t h1 h2
    simp only [List.getElem_map, List.getElem_range, List.getElem_ofFn]
    apply List.ext_getElem <;> simp

/-- The sum of squares in a loop. -/
theorem fold_err {p : ℕ} {fl : ℝ → ℝ} (h : RoundsToNearest p fl) : ∀ (v : Vec) (A acc : ℝ) (k : ℕ), 1 ≤ k → 0 ≤ A →
    (1 - roundoff p) ^ k * A ≤ acc → acc ≤ (1 + roundoff p) ^ k * A →
    (1 - roundoff p) ^ (k + v.length) * (A + (v.map fun x => x ^ 2).sum) ≤ v.foldl (fun s x => fl (s + fl (x ^ 2))) acc ∧
      v.foldl (fun s x => fl (s + fl (x ^ 2))) acc ≤ (1 + roundoff p) ^ (k + v.length) * (A + (v.map fun x => x ^ 2).sum)
  | [], A, acc, k, hk, hA, h1, h2 => by simpa using ⟨h1, h2⟩
  | x :: v, A, acc, k, hk, hA, h1, h2 => by
    have hu := roundoff_pos p
    have hu1 : roundoff p ≤ 1 := by unfold roundoff; exact pow_le_one₀ (by norm_num) (by norm_num)
    have hx := sq_nonneg x
    have g1 := fl_upper h hx
    have g2 := fl_lower h hx
    have p1 : 1 + roundoff p ≤ (1 + roundoff p) ^ k := le_self_pow₀ (by linarith) (by omega)
    have p2 : (1 - roundoff p) ^ k ≤ 1 - roundoff p := pow_le_of_le_one (by linarith) (by linarith) (by omega)
    have s0 : 0 ≤ acc + fl (x ^ 2) := by
      have : 0 ≤ (1 - roundoff p) ^ k * A := mul_nonneg (pow_nonneg (by linarith) _) hA
      have : 0 ≤ (1 - roundoff p) * x ^ 2 := mul_nonneg (by linarith) hx
      linarith
    have s1 : acc + fl (x ^ 2) ≤ (1 + roundoff p) ^ k * (A + x ^ 2) := by
      have := mul_le_mul_of_nonneg_right p1 hx
      linarith
    have s2 : (1 - roundoff p) ^ k * (A + x ^ 2) ≤ acc + fl (x ^ 2) := by
      have := mul_le_mul_of_nonneg_right p2 hx
      linarith
    have := fold_err h v (A + x ^ 2) (fl (acc + fl (x ^ 2))) (k + 1) (by omega) (by linarith)
      (by
        rw [pow_succ' (1 - roundoff p) k, mul_assoc]
        exact (mul_le_mul_of_nonneg_left s2 (by linarith)).trans (fl_lower h s0))
      (by
        rw [pow_succ' (1 + roundoff p) k, mul_assoc]
        exact (fl_upper h s0).trans (mul_le_mul_of_nonneg_left s1 (by linarith)))
    rw [List.foldl_cons, List.map_cons, List.sum_cons, List.length_cons, ← add_assoc A,
      show k + (v.length + 1) = k + 1 + v.length by omega]
    exact this

theorem plainNorm_err {p : ℕ} {fl : ℝ → ℝ} (h : RoundsToNearest p fl) (hp : 2 ≤ p) (v : Vec) (hv : v.length ≤ 3) :
    |plainNorm fl v - Real.sqrt ((v.map fun x => x ^ 2).sum)| ≤
      4 * roundoff p * Real.sqrt ((v.map fun x => x ^ 2).sum) := by
  have hu := roundoff_pos p
  have hu1 : roundoff p ≤ 1 / 4 := by
    have : roundoff p ≤ roundoff 2 := by unfold roundoff; exact pow_le_pow_of_le_one (by norm_num) (by norm_num) hp
    refine this.trans ?_
    unfold roundoff; norm_num
  obtain ⟨h1, h2⟩ := fold_err h v 0 0 1 le_rfl le_rfl (by simp) (by simp)
  rw [zero_add] at h1 h2
  set S := (v.map fun x => x ^ 2).sum with hS
  have hS0 : 0 ≤ S := List.sum_nonneg (by simp only [List.mem_map]; rintro _ ⟨x, _, rfl⟩; positivity)
  set T := v.foldl (fun s x => fl (s + fl (x ^ 2))) 0 with hT
  have h3 : (1 - roundoff p) ^ 4 * S ≤ T := le_trans (mul_le_mul_of_nonneg_right
    (pow_le_pow_of_le_one (by linarith) (by linarith) (by omega)) hS0) h1
  have h4 : T ≤ (1 + roundoff p) ^ 4 * S := h2.trans (mul_le_mul_of_nonneg_right
    (pow_le_pow_right₀ (by linarith) (by omega)) hS0)
  have r0 := Real.sqrt_nonneg S
  have q1 : (1 - roundoff p) ^ 2 * Real.sqrt S ≤ Real.sqrt T := by
    apply Real.le_sqrt_of_sq_le
    rw [mul_pow, Real.sq_sqrt hS0, ← pow_mul]
    exact h3
  have q2 : Real.sqrt T ≤ (1 + roundoff p) ^ 2 * Real.sqrt S := by
    rw [Real.sqrt_le_left (by positivity), mul_pow, Real.sq_sqrt hS0, ← pow_mul]
    exact h4
  have q3 := fl_upper h (Real.sqrt_nonneg T)
  have q4 := fl_lower h (Real.sqrt_nonneg T)
  unfold plainNorm
  rw [← hT]
  have q5 := mul_le_mul_of_nonneg_left q2 (show 0 ≤ 1 + roundoff p by linarith)
  have q6 := mul_le_mul_of_nonneg_left q1 (show 0 ≤ 1 - roundoff p by linarith)
  have q7 : (1 + roundoff p) * (1 + roundoff p) ^ 2 ≤ 1 + 4 * roundoff p := by
    have c1 : roundoff p ^ 2 ≤ 1 / 4 * roundoff p := by nlinarith
    have c2 : roundoff p ^ 3 ≤ 1 / 4 * roundoff p ^ 2 := by nlinarith [sq_nonneg (roundoff p)]
    nlinarith
  have q8 : 1 - 4 * roundoff p ≤ (1 - roundoff p) * (1 - roundoff p) ^ 2 := by nlinarith [sq_nonneg (roundoff p)]
  have q9 := mul_le_mul_of_nonneg_right q7 r0
  have q10 := mul_le_mul_of_nonneg_right q8 r0
  rw [abs_le]
  constructor <;> nlinarith

theorem exact_drawPoint (r : ℕ → ℝ) : ∀ (box : List (ℝ × ℝ)) (k : ℕ), exactGeo.drawPoint r box k = drawPoint r box k
  | [], k => rfl
  | (lo, hi) :: rest, k => by
    unfold GeoFloats.drawPoint drawPoint
    rw [exact_drawPoint r rest (k + 1)]
    rfl

theorem exact_drawPoints (r : ℕ → ℝ) (box : List (ℝ × ℝ)) : ∀ n k : ℕ, exactGeo.drawPoints r box n k = drawPoints r box n k
  | 0, k => rfl
  | n + 1, k => by
    unfold GeoFloats.drawPoints drawPoints
    rw [exact_drawPoint]
    dsimp only
    rw [exact_drawPoints r box n]

theorem exact_drawHeights (r : ℕ → ℝ) (lo hi : ℝ) : ∀ n k : ℕ, exactGeo.drawHeights r lo hi n k = drawHeights r lo hi n k
  | 0, k => rfl
  | n + 1, k => by
    unfold GeoFloats.drawHeights drawHeights
    rw [exact_drawHeights r lo hi n (k + 1)]
    rfl

theorem exact_map (l : List Vec) : l.map (List.map exactGeo.fl) = l := by
  have : List.map exactGeo.fl = (id : Vec → Vec) := by funext v; exact List.map_id v
  rw [this, List.map_id]

theorem exact_samplePositions (r : ℕ → ℝ) (num : ℕ) (size : Vec) (margin : ℝ) (k : ℕ) :
    exactGeo.samplePositions r num size margin k = samplePositions r num size margin k := by
  unfold GeoFloats.samplePositions samplePositions
  dsimp only
  rw [exact_drawPoints, exact_map]
  rfl

theorem exact_adjustHeight (r : ℕ → ℝ) (size : Vec) (zRange : Option (ℝ × ℝ)) (margin : ℝ) (p : Vec) (k : ℕ) :
    exactGeo.adjustHeight r size zRange margin p k = adjustHeight r size zRange margin p k := rfl

theorem exact_loop (r : ℕ → ℝ) (size center : Vec) (minDistance : ℝ) (zRange : Option (ℝ × ℝ)) (margin : ℝ) :
    ∀ (attempts wanted : ℕ) (acc : List Vec) (k : ℕ),
    exactGeo.minDistanceLoop r size center minDistance zRange margin attempts wanted acc k =
      minDistanceLoop r size center minDistance zRange margin attempts wanted acc k
  | 0, _, _, _ => by unfold GeoFloats.minDistanceLoop minDistanceLoop; rfl
  | _ + 1, 0, _, _ => by unfold GeoFloats.minDistanceLoop minDistanceLoop; rfl
  | attempts + 1, wanted + 1, acc, k => by
    unfold GeoFloats.minDistanceLoop minDistanceLoop
    rw [exact_drawPoint]
    dsimp only
    rw [exact_adjustHeight, exact_loop r size center minDistance zRange margin attempts wanted,
      exact_loop r size center minDistance zRange margin attempts (wanted + 1)]
    rfl

end FloatingGeometry

open FloatingGeometry

/-- **C127, sampling.** The positions of `sample_positions` are inside the margins up to a rounding to single
precision and three of Python's numbers, and inside the room, whose size is given in single precision. -/
theorem C127_positions {p : ℕ} {F : GeoFloats} (hF : AccurateGeo p F) (r : ℕ → ℝ) (hr : UnitStream r) {d : ℕ}
    (size : Fin d → ℝ) (margin : ℝ) (hm : IsFloat 53 margin) (h0 : 0 ≤ margin) (h2 : ∀ i, 2 * margin ≤ size i) (num k : ℕ) :
    ∃ q : Fin num → Fin d → ℝ, F.samplePositions r num (List.ofFn size) margin k = (rows q, k + num * d) ∧
      (∀ j, NearlyWithin p size margin (q j)) ∧
      (p ≤ 50 → (∀ i, IsFloat p (size i)) → ∀ j, Within size 0 (q j)) := by
  have hd : ∀ (j : Fin num) i, Drawn (size i) margin (F.uniform margin (F.py (size i - margin)) (r (k + j * d + i))) :=
    fun j i => drawn_uniform hF hm h0 (h2 i) (hr _)
  refine ⟨fun j i => F.fl (F.uniform margin (F.py (size i - margin)) (r (k + j * d + i))), ?_,
    fun j i => drawn_fl hF h0 (hd j i), fun hp hs j i => drawn_room hF hp h0 (h2 i) (hs i) (hd j i)⟩
  unfold GeoFloats.samplePositions
  rw [FloatingGeometry.drawPoints_rows]
  dsimp only
  rw [map_rows]

/-- **C127, heights.** The same for `sample_positions_with_z_range`; if the calculated interval is usable, the heights
are in it up to a rounding to single precision and two of Python's numbers. -/
theorem C127_heights {p : ℕ} {F : GeoFloats} (hF : AccurateGeo p F) (r : ℕ → ℝ) (hr : UnitStream r) {d : ℕ} (hd : 2 < d)
    (size : Fin d → ℝ) (margin zMin zMax : ℝ) (hm : IsFloat 53 margin) (hz : IsFloat 53 zMin) (h0 : 0 ≤ margin)
    (h2 : ∀ i, 2 * margin ≤ size i) (hu : max margin zMin < min (F.py (size ⟨2, hd⟩ - margin)) zMax) (num : ℕ)
    (hn : 0 < num) (k : ℕ) :
    ∃ (q : Fin num → Fin d → ℝ) (k' : ℕ),
      F.samplePositionsZ r num (List.ofFn size) zMin zMax margin k = .ok (rows q, k') ∧
      (∀ j, NearlyWithin p size margin (q j) ∧ (1 - roundoff p) * zMin ≤ q j ⟨2, hd⟩ ∧
        q j ⟨2, hd⟩ ≤ (1 + roundoff p) * ((1 + roundoff 53) ^ 2 * zMax)) ∧
      (p ≤ 50 → (∀ i, IsFloat p (size i)) → ∀ j, Within size 0 (q j)) := by
  have hdr : ∀ (j : Fin num) i, Drawn (size i) margin (F.uniform margin (F.py (size i - margin)) (r (k + j * d + i))) :=
    fun j i => drawn_uniform hF hm h0 (h2 i) (hr _)
  have hh := fun j : Fin num => drawn_height hF hm hz h0 (h2 ⟨2, hd⟩) hu (hr (k + num * d + j))
  refine ⟨fun j i => if (i : ℕ) = 2 then F.fl (F.uniform (max margin zMin) (min (F.py (size ⟨2, hd⟩ - margin)) zMax)
      (r (k + num * d + j)))
    else F.fl (F.uniform margin (F.py (size i - margin)) (r (k + j * d + i))), k + num * d + num, ?_, fun j => ⟨fun i => ?_, ?_⟩,
    fun hp hs j i => ?_⟩
  · unfold GeoFloats.samplePositionsZ GeoFloats.samplePositions
    rw [FloatingGeometry.drawPoints_rows]
    dsimp only
    rw [if_neg (by rw [List.length_ofFn]; omega), FloatingGeometry.heightRange_ofFn F size hd]
    dsimp only
    rw [if_neg (not_le.mpr hu), if_neg hn.ne', FloatingGeometry.drawHeights_ofFn, map_rows]
    refine congrArg (fun x => Except.ok (x, _)) ?_
    unfold rows
    apply List.ext_getElem
    · simp
    · intro j h1 h2
      simp only [List.getElem_zipWith, List.getElem_ofFn]
      exact set_ofFn _ ⟨2, hd⟩ _
  · dsimp only
    split_ifs with h
    · obtain rfl : i = ⟨2, hd⟩ := Fin.ext h
      exact drawn_fl hF h0 (hh j).1
    · exact drawn_fl hF h0 (hdr j i)
  · simpa using (hh j).2
  · dsimp only
    split_ifs with h
    · obtain rfl : i = ⟨2, hd⟩ := Fin.ext h
      exact drawn_room hF hp h0 (h2 _) (hs _) (hh j).1
    · exact drawn_room hF hp h0 (h2 i) (hs i) (hdr j i)

/-- **C127, minimum distance.** What `sample_positions_min_distance` returns has the requested distance from the
stored centre up to six roundings. -/
theorem C127_min_distance {p : ℕ} {F : GeoFloats} (hF : AccurateGeo p F) (r : ℕ → ℝ) (hr : UnitStream r) {d : ℕ} (hd : d ≤ 3)
    (size center : Fin d → ℝ) (minDistance : ℝ) (zRange : Option (ℝ × ℝ)) (margin : ℝ) (hm : IsFloat 53 margin)
    (hz : ∀ z ∈ zRange, IsFloat 53 z.1) (h0 : 0 ≤ margin) (h2 : ∀ i, 2 * margin ≤ size i) (maxAttempts num k k' : ℕ)
    (ps : List Vec) (h : F.samplePositionsMinDistance r num (List.ofFn size) (List.ofFn center) minDistance zRange margin
      maxAttempts k = .ok (ps, k')) :
    ∃ q : Fin num → Fin d → ℝ, ps = rows q ∧
      (∀ j, NearlyWithin p size margin (q j) ∧
        minDistance ≤ (1 + 4 * roundoff p) * ((1 + roundoff p) * Spec.dist (q j) fun i => F.fl (center i))) ∧
      (∀ zMin zMax, zRange = some (zMin, zMax) → ∀ hd : 2 < d,
        max margin zMin < min (F.py (size ⟨2, hd⟩ - margin)) zMax → ∀ j,
        (1 - roundoff p) * zMin ≤ q j ⟨2, hd⟩ ∧ q j ⟨2, hd⟩ ≤ (1 + roundoff p) * ((1 + roundoff 53) ^ 2 * zMax)) ∧
      (p ≤ 50 → (∀ i, IsFloat p (size i)) → ∀ j, Within size 0 (q j)) := by
  unfold GeoFloats.samplePositionsMinDistance at h
  rw [if_neg (by simp)] at h
  obtain ⟨hinv, hlen⟩ := loop_invariant hF r hr size ((List.ofFn center).map F.fl) minDistance zRange margin hm h0 h2 hz
    maxAttempts num [] k (by simp)
  dsimp only at h
  split_ifs at h with hlt
  generalize (F.minDistanceLoop r (List.ofFn size) ((List.ofFn center).map F.fl) minDistance zRange margin maxAttempts num
    [] k) = out at h hinv hlen hlt
  obtain ⟨l, k''⟩ := out
  simp only [List.length_nil, zero_add] at h hinv hlen hlt
  obtain ⟨rfl, -⟩ : l.map (List.map F.fl) = ps ∧ _ := by simpa using h
  have hl : l.length = num := by omega
  subst hl
  choose! x hx hc hfar using fun j : Fin l.length => hinv l[j] (List.getElem_mem _)
  refine ⟨fun j i => F.fl (x j i), ?_, fun j => ⟨fun i => drawn_fl hF h0 ((hc j).drawn i), ?_⟩,
    fun zMin zMax he hd' hu j => (hc j).height zMin zMax he hd' hu,
    fun hp hs j i => drawn_room hF hp h0 (h2 i) (hs i) ((hc j).drawn i)⟩
  · rw [← map_rows]
    congr 1
    unfold rows
    apply List.ext_getElem
    · simp
    · intro i h1 h2
      have := hx ⟨i, h1⟩
      simpa using this
  · have := hfar j
    rw [hx j, List.map_ofFn] at this
    exact this.trans (distance_le hF hd (x j) _)

/-- **C127, clamping.** `clamp_positions` gives the nearest point of a box whose sides are the margins up to two
roundings and which is inside the room; points of the box stay. -/
theorem C127_clamp {p : ℕ} {F : GeoFloats} (hF : AccurateGeo p F) {n d : ℕ} (size : Fin d → ℝ) (margin : ℝ)
    (h0 : 0 ≤ margin) (hs : ∀ i, IsFloat p (size i)) (h2 : ∀ i, 2 * ((1 + roundoff p) * margin) ≤ size i)
    (x : Fin n → Fin d → ℝ) :
    ∃ (q : Fin n → Fin d → ℝ) (lo : ℝ) (hi : Fin d → ℝ),
      F.clampPositions (rows x) (List.ofFn size) margin = rows q ∧
      |lo - margin| ≤ roundoff p * margin ∧ (∀ i, |hi i - (size i - margin)| ≤ 2 * roundoff p * size i) ∧
      (∀ j i, lo ≤ q j i ∧ q j i ≤ hi i) ∧ (∀ j, Within size 0 (q j)) ∧
      (∀ j i y, lo ≤ y → y ≤ hi i → |q j i - x j i| ≤ |y - x j i|) ∧
      F.clampPositions (rows q) (List.ofFn size) margin = rows q := by
  have hu := roundoff_pos p
  set lo := F.fl margin with hlo
  have l0 : 0 ≤ lo := le_fl hF.fl (isFloat_zero _) h0
  have l1 : |lo - margin| ≤ roundoff p * margin := by
    have := fl_near hF.fl margin; rwa [abs_of_nonneg h0] at this
  have l2 : lo ≤ (1 + roundoff p) * margin := fl_upper hF.fl h0
  have b1 : ∀ i, lo ≤ F.fl (size i - lo) := fun i => le_fl hF.fl (hF.fl _).1 (by linarith [h2 i])
  have b2 : ∀ i, F.fl (size i - lo) ≤ size i := fun i => fl_le hF.fl (hs i) (by linarith)
  have hrow : ∀ y : Fin n → Fin d → ℝ, F.clampPositions (rows y) (List.ofFn size) margin =
      rows fun j i => max (min (y j i) (F.fl (size i - lo))) lo := by
    intro y
    unfold GeoFloats.clampPositions rows
    rw [List.map_ofFn]
    congr 1
    funext j
    unfold GeoFloats.clampPosition
    dsimp only [Function.comp]
    apply List.ext_getElem <;> simp [hlo]
  have hmem : ∀ j i, lo ≤ max (min (x j i) (F.fl (size i - lo))) lo ∧
      max (min (x j i) (F.fl (size i - lo))) lo ≤ F.fl (size i - lo) :=
    fun j i => ⟨le_max_right _ _, max_le (min_le_right _ _) (b1 i)⟩
  refine ⟨_, lo, fun i => F.fl (size i - lo), hrow x, l1, fun i => ?_, hmem, fun j i => ?_, fun j i y hy1 hy2 => ?_, ?_⟩
  · have e1 := fl_near hF.fl (size i - lo)
    rw [abs_of_nonneg (show 0 ≤ size i - lo by linarith [h2 i, l2, l0])] at e1
    have e2 := abs_sub (F.fl (size i - lo) - (size i - lo)) (lo - margin)
    rw [show F.fl (size i - lo) - (size i - lo) - (lo - margin) = F.fl (size i - lo) - (size i - margin) by ring] at e2
    have e3 : margin ≤ size i := by nlinarith [h2 i]
    nlinarith [mul_le_mul_of_nonneg_left e3 hu.le, mul_nonneg hu.le l0]
  · exact ⟨l0.trans (hmem j i).1, by rw [sub_zero]; exact (hmem j i).2.trans (b2 i)⟩
  · rcases le_total (x j i) (F.fl (size i - lo)) with h1 | h1
    · rw [min_eq_left h1]
      rcases le_total (x j i) lo with h3 | h3
      · rw [max_eq_right h3, abs_of_nonneg (by linarith), abs_of_nonneg (by linarith)]
        linarith
      · rw [max_eq_left h3, sub_self, abs_zero]
        exact abs_nonneg _
    · rw [min_eq_right h1, max_eq_left (b1 i), abs_of_nonpos (by linarith), abs_of_nonpos (by linarith)]
      linarith
  · rw [hrow]
    congr 1
    funext j i
    rw [min_eq_left (hmem j i).2, max_eq_left (hmem j i).1]

/-- **C127, trajectories.** `linear_trajectory` starts at the given position and is off the line by a rounding of the
position and five of the displacement. -/
theorem C127_trajectory {p : ℕ} {F : GeoFloats} (hF : AccurateGeo p F) {d : ℕ} (a b : Fin d → ℝ) (steps : ℕ)
    (h : 2 ≤ steps) (hp : steps ≤ 2 ^ p) :
    ∃ q : Fin steps → Fin d → ℝ, F.linearTrajectory (List.ofFn a) (List.ofFn b) steps = .ok (rows q) ∧
      (∀ (t : Fin steps) i, let Δ := (b i - a i) * ((t : ℕ) : ℝ) / ((steps : ℝ) - 1)
        |q t i - (a i + Δ)| ≤ roundoff p * |a i + Δ| + roundings p 5 * |Δ|) ∧
      ((∀ i, IsFloat p (a i)) → q ⟨0, by omega⟩ = a) := by
  refine ⟨_, trajectory_rows F a b steps h, fun t i => step_err hF (a i) (b i) t.2 h hp, fun ha => ?_⟩
  funext i
  have h1 := hF.quot 0 ((steps : ℝ) - 1)
  rw [zero_div, sub_zero, abs_zero, mul_zero, abs_nonpos_iff] at h1
  dsimp only
  rw [Nat.cast_zero, fl_zero hF.fl, mul_zero, fl_zero hF.fl, h1, add_zero, fl_float hF.fl (ha i)]

/-- **C127, trajectories in the room.** Between positions that keep a margin of ten roundings of the size of the room
(and a bit), no step leaves the room. -/
theorem C127_trajectory_room {p : ℕ} {F : GeoFloats} (hF : AccurateGeo p F) {d : ℕ} (size a b : Fin d → ℝ) (margin : ℝ)
    (h0 : 0 ≤ margin) (ha : Within size margin a) (hb : Within size margin b) (hm : ∀ i, 2 * roundings p 5 * size i ≤ margin) (steps : ℕ)
    (h : 2 ≤ steps) (hp : steps ≤ 2 ^ p) :
    ∃ q : Fin steps → Fin d → ℝ, F.linearTrajectory (List.ofFn a) (List.ofFn b) steps = .ok (rows q) ∧
      ∀ t, Within size 0 (q t) := by
  obtain ⟨q, hq, he, -⟩ := C127_trajectory hF a b steps h hp
  refine ⟨q, hq, fun t i => ?_⟩
  have hu := roundoff_pos p
  have hr : roundoff p ≤ roundings p 5 := by
    unfold roundings
    linarith [le_self_pow₀ (show 1 ≤ 1 + roundoff p by linarith) (show 5 ≠ 0 by norm_num)]
  have h1 := he t i
  dsimp only at h1
  have hn : (0 : ℝ) < (steps : ℝ) - 1 := by
    have : (2 : ℝ) ≤ steps := by exact_mod_cast h
    linarith
  obtain ⟨θ, hθ, hθ0, h1'⟩ : ∃ θ : ℝ, ((t : ℕ) : ℝ) / ((steps : ℝ) - 1) = θ ∧ 0 ≤ θ ∧ θ ≤ 1 := by
    refine ⟨_, rfl, by positivity, ?_⟩
    rw [div_le_one hn]
    have : ((t : ℕ) : ℝ) + 1 ≤ steps := by exact_mod_cast t.2
    linarith
  rw [mul_div_assoc, hθ] at h1
  obtain ⟨a1, a2⟩ := ha i
  obtain ⟨b1, b2⟩ := hb i
  have hm0 := hm i
  have x1 : margin ≤ a i + (b i - a i) * θ := by nlinarith
  have x2 : a i + (b i - a i) * θ ≤ size i - margin := by nlinarith
  have hR : 0 < roundings p 5 := lt_of_lt_of_le hu hr
  have hs : 0 ≤ size i := by linarith
  have d1 : |(b i - a i) * θ| ≤ size i := by
    rw [abs_mul, abs_of_nonneg hθ0]
    have : |b i - a i| ≤ size i := abs_le.mpr ⟨by linarith, by linarith⟩
    nlinarith [abs_nonneg (b i - a i)]
  have d2 : |a i + (b i - a i) * θ| ≤ size i := abs_le.mpr ⟨by linarith, by linarith⟩
  have d3 := mul_le_mul hr d2 (abs_nonneg _) hR.le
  have d4 := mul_le_mul_of_nonneg_left d1 hR.le
  have d5 := abs_le.mp h1
  constructor <;> linarith [d5.1, d5.2]

/-- **C127.** In real numbers these are the functions of the model. -/
theorem C127_exact : (∀ r num size margin k, exactGeo.samplePositions r num size margin k = samplePositions r num size margin k) ∧
    (∀ r num size zMin zMax margin k,
      exactGeo.samplePositionsZ r num size zMin zMax margin k = samplePositionsZ r num size zMin zMax margin k) ∧
    (∀ r num size center minDistance zRange margin maxAttempts k,
      exactGeo.samplePositionsMinDistance r num size center minDistance zRange margin maxAttempts k =
        samplePositionsMinDistance r num size center minDistance zRange margin maxAttempts k) ∧
    (∀ ps size margin, exactGeo.clampPositions ps size margin = clampPositions ps ⟨.floating, size⟩ margin) ∧
    (∀ a b steps, exactGeo.linearTrajectory a b steps = linearTrajectory a b steps) := by
  refine ⟨exact_samplePositions, ?_, ?_, ?_, fun _ _ _ => rfl⟩
  · intro r num size zMin zMax margin k
    unfold GeoFloats.samplePositionsZ samplePositionsZ
    rw [exact_samplePositions]
    dsimp only
    simp only [exact_drawHeights]
    rfl
  · intro r num size center minDistance zRange margin maxAttempts k
    unfold GeoFloats.samplePositionsMinDistance samplePositionsMinDistance
    have : center.map exactGeo.fl = center := List.map_id center
    rw [this, exact_loop]
    dsimp only
    rw [exact_map]
  · intro ps size margin
    rfl

/-- **C127, machines.** Rounding to nearest with a plain loop for the norm and either way of dividing is accurate
enough. -/
theorem C127_machine {p : ℕ} (hp : 2 ≤ p) {py fl : ℝ → ℝ} (h1 : RoundsToNearest 53 py) (h2 : RoundsToNearest p fl) :
    AccurateGeo p ⟨py, fl, fun a b => fl (a / b), plainNorm fl⟩ ∧
      AccurateGeo p ⟨py, fl, fun a b => fl (a * fl (1 / b)), plainNorm fl⟩ := by
  have hu := roundoff_pos p
  refine ⟨⟨h1, h2, fun a b => ?_, plainNorm_err h2 hp⟩, ⟨h1, h2, fun a b => ?_, plainNorm_err h2 hp⟩⟩
  · refine (fl_near h2 (a / b)).trans (mul_le_mul_of_nonneg_right ?_ (abs_nonneg _))
    nlinarith
  · dsimp only
    have e1 := fl_near h2 (1 / b)
    have e2 := fl_near h2 (a * fl (1 / b))
    have e3 : |a * fl (1 / b) - a / b| ≤ roundoff p * |a / b| := by
      rw [show a * fl (1 / b) - a / b = a * (fl (1 / b) - 1 / b) by ring, show a / b = a * (1 / b) by ring, abs_mul, abs_mul]
      nlinarith [abs_nonneg a]
    have e4 := abs_add_le (fl (a * fl (1 / b)) - a * fl (1 / b)) (a * fl (1 / b) - a / b)
    have e5 := abs_add_le (a * fl (1 / b) - a / b) (a / b)
    rw [sub_add_sub_cancel] at e4
    rw [sub_add_cancel] at e5
    nlinarith [mul_le_mul_of_nonneg_left e5 hu.le, mul_le_mul_of_nonneg_left e3 hu.le]

/-- **C127, negative: the margin.** A sampled position can be nearer to the wall than the margin. -/
theorem C127_margin_fails {p : ℕ} (hp : 2 ≤ p) (hp' : p ≤ 50) {F : GeoFloats} (hF : AccurateGeo p F) :
    ∃ margin : ℝ, IsFloat 53 margin ∧ 0 ≤ margin ∧ 2 * margin ≤ 2 ∧
      F.samplePositions (fun _ => 0) 1 [2] margin 0 = ([[3 / 4]], 1) ∧ 3 / 4 < margin := by
  have hpos : (0 : ℝ) < (2 : ℝ) ^ (-(p + 3) : ℤ) := by positivity
  have hle : (2 : ℝ) ^ (-(p + 3) : ℤ) ≤ 1 / 32 := by
    have : (2 : ℝ) ^ (-(p + 3) : ℤ) ≤ (2 : ℝ) ^ (-5 : ℤ) := zpow_le_zpow_right₀ (by norm_num) (by omega)
    refine this.trans ?_
    norm_num
  have hm : IsFloat 53 (3 / 4 + (2 : ℝ) ^ (-(p + 3) : ℤ)) := by
    refine ⟨3 * 2 ^ (p + 1) + 1, -(p + 3), ?_, ?_⟩
    · rw [abs_of_nonneg (by positivity)]
      have : (2 : ℤ) ^ (p + 1) ≤ 2 ^ 51 := pow_le_pow_right₀ (by norm_num) (by omega)
      norm_num at this ⊢
      omega
    · push_cast
      rw [add_mul, one_mul, mul_assoc, ← zpow_natCast (2 : ℝ) (p + 1), ← zpow_add₀ (by norm_num)]
      congr 1
      rw [show ((p + 1 : ℕ) : ℤ) + -(p + 3 : ℤ) = -2 by push_cast; ring]
      norm_num
  have h34 : IsFloat p (3 / 4) := by
    refine ⟨3, -2, ?_, by norm_num⟩
    have : (2 : ℤ) ^ 2 ≤ 2 ^ p := pow_le_pow_right₀ (by norm_num) hp
    norm_num at this ⊢
    omega
  refine ⟨3 / 4 + (2 : ℝ) ^ (-(p + 3) : ℤ), hm, by positivity, by linarith, ?_, by linarith⟩
  have hfl : F.fl (3 / 4 + (2 : ℝ) ^ (-(p + 3) : ℤ)) = 3 / 4 := by
    refine fl_eq_of_near hF.fl (j := -1) h34 ⟨3 * 2 ^ (p - 2), ?_⟩ ?_ ?_
    · push_cast
      rw [mul_assoc, ← zpow_natCast (2 : ℝ) (p - 2), ← zpow_add₀ (by norm_num),
        show ((p - 2 : ℕ) : ℤ) + (0 - p) = -2 by push_cast [hp]; ring]
      norm_num
    · rw [show (3 / 4 : ℝ) - (3 / 4 + (2 : ℝ) ^ (-(p + 3) : ℤ)) = -(2 : ℝ) ^ (-(p + 3) : ℤ) by ring, abs_neg, abs_of_pos hpos,
        show (-1 + 1 - p : ℤ) = -(p + 3) + 3 by ring, zpow_add₀ (by norm_num),
        show (2 : ℝ) ^ (3 : ℤ) = 8 by norm_num]
      linarith
    · rw [show (3 / 4 : ℝ) - (3 / 4 + (2 : ℝ) ^ (-(p + 3) : ℤ)) = -(2 : ℝ) ^ (-(p + 3) : ℤ) by ring, abs_neg, abs_of_pos hpos,
        abs_of_pos (by positivity), show (2 : ℝ) ^ (-1 : ℤ) = 1 / 2 by norm_num]
      linarith
  have hun : ∀ b, F.uniform (3 / 4 + (2 : ℝ) ^ (-(p + 3) : ℤ)) b 0 = 3 / 4 + (2 : ℝ) ^ (-(p + 3) : ℤ) := by
    intro b
    unfold GeoFloats.uniform
    rw [mul_zero, fl_zero hF.py, add_zero, fl_float hF.py hm]
  unfold GeoFloats.samplePositions GeoFloats.drawPoints GeoFloats.drawPoints GeoFloats.marginBox
  simp only [List.map_cons, List.map_nil, GeoFloats.drawPoint, hun, hfl]

/-- **C127, negative: the end.** The last position can miss the end by its whole size: from 1 to a small number. -/
theorem C127_end_fails {p : ℕ} (hp : 1 ≤ p) {F : GeoFloats} (hF : RoundsToNearest p F.fl)
    (hq : ∀ a b, F.quot a b = F.fl (a / b)) :
    ∃ b : ℝ, IsFloat p b ∧ b ≠ 0 ∧ F.linearTrajectory [1] [b] 2 = .ok [[1], [0]] := by
  have hpos : (0 : ℝ) < (2 : ℝ) ^ (-(p + 2) : ℤ) := by positivity
  have hle : (2 : ℝ) ^ (-(p + 2) : ℤ) ≤ 1 / 8 := by
    have : (2 : ℝ) ^ (-(p + 2) : ℤ) ≤ (2 : ℝ) ^ (-3 : ℤ) := zpow_le_zpow_right₀ (by norm_num) (by omega)
    refine this.trans ?_
    norm_num
  have h1 : IsFloat p (-1) := ⟨-1, 0, by simpa using one_le_pow₀ (show (1 : ℤ) ≤ 2 by norm_num), by norm_num⟩
  have h1' : IsFloat p 1 := ⟨1, 0, by simpa using one_le_pow₀ (show (1 : ℤ) ≤ 2 by norm_num), by norm_num⟩
  refine ⟨(2 : ℝ) ^ (-(p + 2) : ℤ), ⟨1, _, by simpa using one_le_pow₀ (show (1 : ℤ) ≤ 2 by norm_num), by rw [Int.cast_one, one_mul]⟩,
    hpos.ne', ?_⟩
  have hfl : F.fl ((2 : ℝ) ^ (-(p + 2) : ℤ) - 1) = -1 := by
    have e : (-1 : ℝ) - ((2 : ℝ) ^ (-(p + 2) : ℤ) - 1) = -(2 : ℝ) ^ (-(p + 2) : ℤ) := by ring
    refine fl_eq_of_near hF (j := -1) h1 ⟨-2 ^ p, ?_⟩ ?_ ?_
    · push_cast
      rw [neg_mul, ← zpow_natCast (2 : ℝ) p, ← zpow_add₀ (by norm_num)]
      norm_num
    · rw [e, abs_neg, abs_of_pos hpos, show (-1 + 1 - p : ℤ) = -(p + 2) + 2 by ring, zpow_add₀ (by norm_num),
        show (2 : ℝ) ^ (2 : ℤ) = 4 by norm_num]
      linarith
    · rw [e, abs_neg, abs_of_pos hpos, abs_of_neg (by linarith), show (2 : ℝ) ^ (-1 : ℤ) = 1 / 2 by norm_num]
      linarith
  have f0 := fl_zero hF
  have f1 : F.fl 1 = 1 := fl_float hF h1'
  have fm := fl_float hF h1
  unfold GeoFloats.linearTrajectory
  rw [if_neg (by norm_num), if_neg (by norm_num)]
  rw [show List.range (Int.toNat 2) = [0, 1] from rfl]
  simp only [List.map_cons, List.map_nil, List.zipWith_cons_cons, List.zipWith_nil_left, hfl, hq]
  norm_num [f0, f1, fm]

/-- **C127, negative: the room.** Between walls of a room, a trajectory can leave the room. -/
theorem C127_leaves_fails {p : ℕ} (hp : 6 ≤ p) {F : GeoFloats} (hF : RoundsToNearest p F.fl)
    (hq : ∀ a b, F.quot a b = F.fl (a / b)) (e : ℤ) :
    ∃ (s : ℝ) (ps : List Vec), IsFloat p s ∧ (2 : ℝ) ^ (p - 1 + e) < s ∧ s < (2 : ℝ) ^ (p + e) ∧
      F.linearTrajectory [0] [s] 6 = .ok ps ∧ ∃ x, ps[5]? = some [x] ∧ s < x := by
  have hP : (0 : ℝ) < (2 : ℝ) ^ e := by positivity
  set g : ℝ := (2 : ℝ) ^ e with hg
  have hN : (64 : ℝ) ≤ (2 : ℝ) ^ p := by
    have : (2 : ℝ) ^ 6 ≤ (2 : ℝ) ^ p := pow_le_pow_right₀ (by norm_num) hp
    norm_num at this ⊢
    exact this
  have hNz : (64 : ℤ) ≤ (2 : ℤ) ^ p := by exact_mod_cast hN
  set N : ℝ := (2 : ℝ) ^ p with hNd
  have pe : (2 : ℝ) ^ (p + e : ℤ) = N * g := by rw [zpow_add₀ (by norm_num), zpow_natCast]
  have pe1 : (2 : ℝ) ^ (p - 1 + e : ℤ) = N / 2 * g := by
    rw [show (p - 1 + e : ℤ) = p + e + -1 by ring, zpow_add₀ (by norm_num), pe]
    norm_num
    ring
  have pe2 : (2 : ℝ) ^ (p + 2 + e : ℤ) = 4 * N * g := by
    rw [show (p + 2 + e : ℤ) = p + e + 2 by ring, zpow_add₀ (by norm_num), pe]
    norm_num
    ring
  have fs : IsFloat p ((N - 7) * g) := ⟨2 ^ p - 7, e, by rw [abs_of_nonneg (by omega)]; omega, by push_cast; rfl⟩
  have fs6 : IsFloat p ((N - 6) * g) := ⟨2 ^ p - 6, e, by rw [abs_of_nonneg (by omega)]; omega, by push_cast; rfl⟩
  have f5 : IsFloat p ((5 * N - 32) * g) := by
    refine ⟨5 * 2 ^ (p - 3) - 4, e + 3, ?_, ?_⟩
    · have : (2 : ℤ) ^ p = 8 * 2 ^ (p - 3) := by
        rw [show (8 : ℤ) = 2 ^ 3 by norm_num, ← pow_add]
        congr 1
        omega
      rw [abs_of_nonneg (by omega)]
      omega
    · have : N = 8 * 2 ^ (p - 3) := by
        rw [hNd, show (8 : ℝ) = 2 ^ 3 by norm_num, ← pow_add]
        congr 1
        omega
      rw [zpow_add₀ (by norm_num), ← hg, this]
      push_cast
      norm_num
      ring
  have r1 : F.fl ((N - 7) * g * 5) = (5 * N - 32) * g := by
    have ed : (5 * N - 32) * g - (N - 7) * g * 5 = 3 * g := by ring
    obtain ⟨k, hk⟩ := isFloat_multiple f5 (j := p + 2 + e) (by rw [pe2, abs_of_pos (by nlinarith)]; nlinarith)
    refine fl_eq_of_near hF (j := p + 2 + e) f5 ⟨k, hk⟩ ?_ ?_
    · rw [ed, abs_of_pos (by linarith), show (p + 2 + e + 1 - p : ℤ) = e + 3 by ring, zpow_add₀ (by norm_num), ← hg]
      norm_num
      linarith
    · rw [ed, abs_of_pos (show 0 < 3 * g by linarith), pe2, abs_of_pos (by nlinarith)]
      nlinarith
  have r2 : F.fl ((5 * N - 32) * g / 5) = (N - 6) * g := by
    have ed : (N - 6) * g - (5 * N - 32) * g / 5 = 2 / 5 * g := by ring
    refine fl_eq_of_near hF (j := p - 1 + e) fs6 ⟨2 ^ p - 6, ?_⟩ ?_ ?_
    · rw [show (p - 1 + e + 1 - p : ℤ) = e by ring]
      push_cast
      rfl
    · rw [ed, abs_of_pos (by linarith), show (p - 1 + e + 1 - p : ℤ) = e by ring, ← hg]
      linarith
    · rw [ed, abs_of_pos (show 0 < 2 / 5 * g by linarith), pe1, abs_of_pos (by nlinarith)]
      nlinarith
  have n5 : F.fl 5 = 5 := by
    have := fl_nat hF (n := 5) (by
      have : (2 : ℕ) ^ 6 ≤ 2 ^ p := Nat.pow_le_pow_right (by norm_num) hp
      omega)
    simpa using this
  have hlast : ∃ ps, F.linearTrajectory [0] [(N - 7) * g] 6 = .ok ps ∧ ps[5]? = some [(N - 6) * g] := by
    unfold GeoFloats.linearTrajectory
    rw [if_neg (by norm_num), if_neg (by norm_num)]
    refine ⟨_, rfl, ?_⟩
    rw [List.getElem?_map, show List.range (Int.toNat 6) = [0, 1, 2, 3, 4, 5] from rfl]
    simp only [List.getElem?_cons_succ, List.getElem?_cons_zero, Option.map_some, List.zipWith_cons_cons,
      List.zipWith_nil_left, hq]
    norm_num [n5, fl_float hF fs, fl_float hF fs6, r1, r2]
  obtain ⟨ps, h1, h2⟩ := hlast
  exact ⟨(N - 7) * g, ps, fs, by rw [pe1]; nlinarith, by rw [pe]; nlinarith, h1, (N - 6) * g, h2, by nlinarith⟩

/-- Single precision on the CPU: three positions in a room of 6 by 4 by 3 with a margin of one half. -/
example : ∃ F, AccurateGeo 24 F ∧ ∃ q : Fin 3 → Fin 3 → ℝ,
    F.samplePositions (fun k => 1 / (k + 1)) 3 [6, 4, 3] (1 / 2) 0 = (rows q, 9) ∧ ∀ j, Within ![6, 4, 3] 0 (q j) := by
  have hF := (C127_machine (p := 24) (by norm_num) (toNearest_rounds (p := 53) (by norm_num))
    (toNearest_rounds (p := 24) (by norm_num))).1
  obtain ⟨q, h1, -, h3⟩ := C127_positions hF (fun k => 1 / ((k : ℝ) + 1)) (fun k => ⟨by positivity, by
      rw [div_le_one (by positivity)]; have : (0 : ℝ) ≤ k := Nat.cast_nonneg k; linarith⟩)
    ![6, 4, 3] (1 / 2) ⟨1, -1, by norm_num, by norm_num⟩ (by norm_num) (by intro i; fin_cases i <;> norm_num) 3 0
  refine ⟨_, hF, q, by simpa using h1, h3 (by norm_num) fun i => ?_⟩
  fin_cases i
  · exact ⟨6, 0, by norm_num, by norm_num⟩
  · exact ⟨4, 0, by norm_num, by norm_num⟩
  · exact ⟨3, 0, by norm_num, by norm_num⟩

/-- A walk of 100 steps through the same room stays in it. -/
example : ∃ F, AccurateGeo 24 F ∧ ∃ q : Fin 100 → Fin 3 → ℝ,
    F.linearTrajectory [1 / 2, 1, 1] [11 / 2, 3, 2] 100 = .ok (rows q) ∧ ∀ t, Within ![6, 4, 3] 0 (q t) := by
  have hF := (C127_machine (p := 24) (by norm_num) (toNearest_rounds (p := 53) (by norm_num))
    (toNearest_rounds (p := 24) (by norm_num))).2
  obtain ⟨q, h1, h2⟩ := C127_trajectory_room hF ![6, 4, 3] ![1 / 2, 1, 1] ![11 / 2, 3, 2] (1 / 2)
    (by norm_num) (by intro i; fin_cases i <;> norm_num) (by intro i; fin_cases i <;> norm_num)
    (by intro i; unfold roundings roundoff; fin_cases i <;> norm_num) 100 (by norm_num) (by norm_num)
  exact ⟨_, hF, q, by simpa using h1, h2⟩

/-- A point behind the wall is put back to the margin. -/
example : ∃ F, AccurateGeo 24 F ∧ ∃ q : Fin 1 → Fin 1 → ℝ, F.clampPositions [[7]] [6] (1 / 10) = rows q ∧
    Within ![6] 0 (q 0) := by
  have hF := (C127_machine (p := 24) (by norm_num) (toNearest_rounds (p := 53) (by norm_num))
    (toNearest_rounds (p := 24) (by norm_num))).1
  obtain ⟨q, lo, hi, h1, -, -, -, h2, -⟩ := C127_clamp hF ![6] (1 / 10) (by norm_num)
    (by intro i; fin_cases i; exact ⟨6, 0, by norm_num, by norm_num⟩)
    (by intro i; unfold roundoff; fin_cases i; norm_num) (fun (_ : Fin 1) => ![7])
  exact ⟨_, hF, q, by simpa [rows] using h1, h2 0⟩

/-- A position at distance 2 from the middle of a room, on every such machine. -/
example {py fl : ℝ → ℝ} (h1 : RoundsToNearest 53 py) (h2 : RoundsToNearest 24 fl) :
    ∃ q : Fin 1 → Fin 1 → ℝ,
      (⟨py, fl, fun a b => fl (a / b), plainNorm fl⟩ : GeoFloats).samplePositionsMinDistance (fun _ => 0) 1 [6] [3] 2 none
        (1 / 2) 100 0 = .ok (rows q, 1) ∧
      2 ≤ (1 + 4 * roundoff 24) * ((1 + roundoff 24) * Spec.dist (q 0) fun _ => fl 3) := by
  have hF := (C127_machine (p := 24) (by norm_num) h1 h2).1
  have p0 : py 0 = 0 := fl_zero h1
  have f0 : fl 0 = 0 := fl_zero h2
  have p1 : py (1 / 2) = 1 / 2 := fl_float h1 ⟨1, -1, by norm_num, by norm_num⟩
  have f1 : fl (1 / 2) = 1 / 2 := fl_float h2 ⟨1, -1, by norm_num, by norm_num⟩
  have f3 : fl 3 = 3 := fl_float h2 ⟨3, 0, by norm_num, by norm_num⟩
  have f5 : fl (-5 / 2) = -5 / 2 := fl_float h2 ⟨-5, -1, by norm_num, by norm_num⟩
  have f6 : fl (25 / 4) = 25 / 4 := fl_float h2 ⟨25, -2, by norm_num, by norm_num⟩
  have f7 : fl (5 / 2) = 5 / 2 := fl_float h2 ⟨5, -1, by norm_num, by norm_num⟩
  have hn : plainNorm fl [-5 / 2] = 5 / 2 := by
    unfold plainNorm
    simp only [List.foldl_cons, List.foldl_nil]
    rw [show ((-5 / 2 : ℝ)) ^ 2 = 25 / 4 by norm_num, f6, zero_add, f6,
      show (25 / 4 : ℝ) = (5 / 2) ^ 2 by norm_num, Real.sqrt_sq (by norm_num), f7]
  have hrun : (⟨py, fl, fun a b => fl (a / b), plainNorm fl⟩ : GeoFloats).samplePositionsMinDistance (fun _ => 0) 1 [6] [3] 2
      none (1 / 2) 100 0 = .ok ([[1 / 2]], 1) := by
    unfold GeoFloats.samplePositionsMinDistance
    rw [if_neg (by simp)]
    have hl : (⟨py, fl, fun a b => fl (a / b), plainNorm fl⟩ : GeoFloats).minDistanceLoop (fun _ => 0) [6] ([3].map fl) 2
        none (1 / 2) 100 1 [] 0 = ([[1 / 2]], 1) := by
      unfold GeoFloats.minDistanceLoop GeoFloats.minDistanceLoop
      simp only [GeoFloats.marginBox, List.map_cons, List.map_nil, GeoFloats.drawPoint, GeoFloats.uniform, mul_zero, p0,
        add_zero, p1, GeoFloats.adjustHeight, GeoFloats.distance, List.zipWith_cons_cons, List.zipWith_nil_left, f1, f3]
      rw [show (1 / 2 - 3 : ℝ) = -5 / 2 by norm_num, f5, hn, if_pos (by norm_num)]
      rfl
    dsimp only
    rw [hl]
    norm_num [f1]
  obtain ⟨q, e1, e2, -⟩ := C127_min_distance hF (fun _ => 0) (fun _ => by norm_num) (d := 1) (by norm_num) ![6] ![3] 2 none
    (1 / 2) ⟨1, -1, by norm_num, by norm_num⟩ (by simp) (by norm_num) (by intro i; fin_cases i; norm_num) 100 1 0 1 [[1 / 2]]
    (by simpa using hrun)
  refine ⟨q, by rw [← e1]; exact hrun, ?_⟩
  have := (e2 0).2
  simpa using this

end Torchrir.Props
