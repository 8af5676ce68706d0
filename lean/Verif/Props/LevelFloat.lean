import Verif.Model.LevelFloat
import Verif.Spec.GeometryFloat
import Verif.Lemmas.Floating
import Verif.Props.Audio

/-!
# Levels of saved audio in floating point (C144)
-/

namespace Torchrir.Props

open Torchrir.Model Torchrir.Spec Torchrir.Lemmas

namespace LevelFloat

variable {p : ℕ} {fl : ℝ → ℝ}

theorem roundoff_pos (p : ℕ) : 0 < roundoff p := by
  unfold roundoff
  positivity

theorem roundoff_half (hp : 1 ≤ p) : roundoff p ≤ 1 / 2 := by
  unfold roundoff
  calc (2⁻¹ : ℝ) ^ p ≤ 2⁻¹ ^ 1 := pow_le_pow_of_le_one (by norm_num) (by norm_num) hp
    _ ≤ 1 / 2 := by norm_num

theorem roundings_nonneg (p n : ℕ) : 0 ≤ roundings p n := by
  unfold roundings
  have : (1 : ℝ) ≤ (1 + roundoff p) ^ n := one_le_pow₀ (by linarith [roundoff_pos p])
  linarith

theorem roundings_one (p : ℕ) : roundings p 1 = roundoff p := by
  unfold roundings
  ring

theorem roundings_add (p m n : ℕ) :
    roundings p m + roundings p n + roundings p m * roundings p n = roundings p (m + n) := by
  unfold roundings
  rw [pow_add]
  ring

theorem roundings_le (p : ℕ) {m n : ℕ} (h : m ≤ n) : roundings p m ≤ roundings p n := by
  unfold roundings
  have := pow_le_pow_right₀ (a := 1 + roundoff p) (by linarith [roundoff_pos p]) h
  linarith

/-- Errors of a product. -/
theorem rel_mul {x a y b : ℝ} {m n : ℕ} (hx : |x - a| ≤ roundings p m * |a|) (hy : |y - b| ≤ roundings p n * |b|) :
    |x * y - a * b| ≤ roundings p (m + n) * |a * b| := by
  rw [← roundings_add]
  exact mul_err hx hy (roundings_nonneg p m)

theorem rel_fl (h : RoundsToNearest p fl) {x a : ℝ} {n : ℕ} (hx : |x - a| ≤ roundings p n * |a|) :
    |fl x - a| ≤ roundings p (n + 1) * |a| := by
  have h1 := fl_near h x
  have h2 : |x| ≤ (1 + roundings p n) * |a| := by
    have : x = a + (x - a) := by ring
    rw [this]
    exact (abs_add_le _ _).trans (by linarith)
  have h3 : fl x - a = (fl x - x) + (x - a) := by ring
  rw [h3]
  refine (abs_add_le _ _).trans ?_
  have h4 := mul_le_mul_of_nonneg_left h2 (roundoff_pos p).le
  have h5 : roundings p (n + 1) = roundings p n + roundoff p * (1 + roundings p n) := by
    rw [← roundings_add, roundings_one]
    ring
  rw [h5]
  linarith

theorem rel_inv (hp : 1 ≤ p) {m M : ℝ} (hM : 0 < M) (h : |m - M| ≤ roundoff p * M) :
    0 < m ∧ |m⁻¹ - M⁻¹| ≤ roundings p 2 * |M⁻¹| := by
  have hu := roundoff_half hp
  have hu0 := roundoff_pos p
  have h' := abs_le.mp h
  have hm : (1 - roundoff p) * M ≤ m := by linarith [h'.1]
  have hm0 : 0 < m := lt_of_lt_of_le (by apply mul_pos <;> linarith) hm
  refine ⟨hm0, ?_⟩
  have e : m⁻¹ - M⁻¹ = (M - m) * (m⁻¹ * M⁻¹) := by
    field_simp
  rw [e, abs_mul, abs_of_pos (mul_pos (inv_pos.mpr hm0) (inv_pos.mpr hM)), abs_of_pos (inv_pos.mpr hM), abs_sub_comm]
  have h1 : |m - M| * m⁻¹ ≤ roundings p 2 := by
    rw [← div_eq_mul_inv, div_le_iff₀ hm0]
    refine h.trans ?_
    unfold roundings
    have : roundoff p * M ≤ 2 * roundoff p * ((1 - roundoff p) * M) := by
      have : 0 ≤ roundoff p * M * (1 - 2 * roundoff p) := mul_nonneg (mul_nonneg hu0.le hM.le) (by linarith)
      nlinarith
    have h2 : 2 * roundoff p * ((1 - roundoff p) * M) ≤ 2 * roundoff p * m :=
      mul_le_mul_of_nonneg_left hm (by linarith)
    nlinarith [mul_pos (mul_pos hu0 hu0) hm0]
  rw [← mul_assoc]
  exact mul_le_mul_of_nonneg_right h1 (inv_pos.mpr hM).le

theorem fl_zero (h : RoundsToNearest p fl) : fl 0 = 0 := by
  simpa using fl_nat h (n := 0) (by positivity)

theorem fl_one (h : RoundsToNearest p fl) : fl 1 = 1 := by
  simpa using fl_nat h (n := 1) Nat.one_le_two_pow

theorem isFloat_neg {y : ℝ} (h : IsFloat p y) : IsFloat p (-y) := by
  obtain ⟨m, e, hm, rfl⟩ := h
  exact ⟨-m, e, by rwa [abs_neg], by push_cast; ring⟩

theorem fl_fl (h : RoundsToNearest p fl) (x : ℝ) : fl (fl x) = fl x := fl_float h (h x).1

/-- Rounding does not pass a floating-point number. -/
theorem abs_fl_le (h : RoundsToNearest p fl) {x y : ℝ} (hy : IsFloat p y) (hx : |x| ≤ y) : |fl x| ≤ y := by
  rw [abs_le] at hx ⊢
  have h1 := fl_mono h hx.1
  have h2 := fl_mono h hx.2
  rw [fl_float h hy] at h2
  rw [fl_float h (isFloat_neg hy)] at h1
  exact ⟨h1, h2⟩

theorem fl_pos (hp : 1 ≤ p) (h : RoundsToNearest p fl) {x : ℝ} (hx : 0 < x) : 0 < fl x := by
  have h1 := fl_near h x
  rw [abs_of_pos hx] at h1
  have h2 := (abs_le.mp h1).1
  have := roundoff_half hp
  nlinarith

theorem fl_eq_zero (hp : 1 ≤ p) (h : RoundsToNearest p fl) {x : ℝ} : fl x = 0 ↔ x = 0 := by
  refine ⟨fun hx => ?_, fun hx => by rw [hx, fl_zero h]⟩
  have h1 := fl_near h x
  rw [hx, zero_sub, abs_neg] at h1
  have := roundoff_half hp
  have h2 := abs_nonneg x
  exact abs_eq_zero.mp (by nlinarith)

end LevelFloat

open LevelFloat

/-- **C144, saving.** With every operation rounded to nearest, saving with a positive peak still writes no sample above
the peak (as it is rounded), the loudest sample exactly at the peak, silence as silence, and the samples in the order of
their values; and every sample is, up to six roundings, the given one times the peak over the largest magnitude. -/
theorem C144_saved {p : ℕ} (hp : 1 ≤ p) {fl : ℝ → ℝ} (hfl : RoundsToNearest p fl) (audio : Tensor ℝ) (C T : ℕ)
    (x : ℕ → ℕ → ℝ) (h : Layout audio C T x) (hC : 1 ≤ C) (peak : ℝ) (hpk : 0 < peak) :
    ∃ f, saveAudioFloat fl audio true peak = .ok f ∧ f.channels = C ∧ f.frames = T ∧
      (∀ t c, t < T → c < C → (f.at t c = 0 ↔ x c t = 0)) ∧
      (∀ t c t' c', t < T → c < C → t' < T → c' < C → x c t ≤ x c' t' → f.at t c ≤ f.at t' c') ∧
      ∀ t₀ c₀, t₀ < T → c₀ < C → x c₀ t₀ ≠ 0 → (∀ t c, t < T → c < C → |x c t| ≤ |x c₀ t₀|) →
        (∀ t c, t < T → c < C → |f.at t c| ≤ fl peak) ∧ (∃ t c, t < T ∧ c < C ∧ |f.at t c| = fl peak) ∧
        ∀ t c, t < T → c < C →
          |f.at t c - x c t / |x c₀ t₀| * peak| ≤ roundings p 6 * |x c t / |x c₀ t₀| * peak| := by
  have hr := layout_map h fl (fl_zero hfl)
  obtain ⟨p0, p1, p2, p3⟩ := peakOf_spec (audio.data.map fl)
  have hP := fl_pos hp hfl hpk
  by_cases hs : 0 < peakOf (audio.data.map fl)
  · set m := peakOf (audio.data.map fl) with hm
    have hl := layout_map hr (fun v => fl (fl (v / m) * fl peak)) (by
      show fl (fl (0 / m) * fl peak) = 0
      rw [zero_div, fl_zero hfl, zero_mul, fl_zero hfl])
    obtain ⟨f, hf, f1, f2, f3⟩ := write_layout hl hC
    refine ⟨f, ?_, f1, f2, fun t c ht hc => ?_, fun t c t' c' ht hc ht' hc' hle => ?_,
      fun t₀ c₀ ht₀ hc₀ hx₀ hmax => ⟨fun t c ht hc => ?_, ?_, fun t c ht hc => ?_⟩⟩
    · unfold saveAudioFloat normalizePeakFloat
      dsimp only
      rw [if_pos rfl, if_neg (not_le.mpr hpk), ← hm, if_pos hs, ok_bind]
      exact hf
    · rw [f3 t c ht hc, fl_eq_zero hp hfl, mul_eq_zero, or_iff_left hP.ne', fl_eq_zero hp hfl, div_eq_zero_iff,
        or_iff_left hs.ne', fl_eq_zero hp hfl]
    · rw [f3 t c ht hc, f3 t' c' ht' hc']
      exact fl_mono hfl (mul_le_mul_of_nonneg_right
        (fl_mono hfl (div_le_div_of_nonneg_right (fl_mono hfl hle) hs.le)) hP.le)
    · rw [f3 t c ht hc]
      refine abs_fl_le hfl (hfl peak).1 ?_
      rw [abs_mul, abs_of_pos hP]
      refine mul_le_of_le_one_left hP.le ?_
      refine abs_fl_le hfl (by rw [← fl_one hfl]; exact (hfl 1).1) ?_
      rw [abs_div, abs_of_pos hs]
      exact (div_le_one hs).mpr (p1 _ ((layout_values hr _).mpr ⟨c, t, hc, ht, rfl⟩))
    · obtain ⟨v, hv, he⟩ := p2 hs
      obtain ⟨c, t, hc, ht, rfl⟩ := (layout_values hr v).mp hv
      refine ⟨t, c, ht, hc, ?_⟩
      rw [f3 t c ht hc]
      rcases le_total 0 (fl (x c t)) with h0 | h0
      · rw [abs_of_nonneg h0] at he
        rw [he, div_self hs.ne', fl_one hfl, one_mul, fl_fl hfl, abs_of_pos hP]
      · rw [abs_of_nonpos h0] at he
        have e1 : fl (x c t) / m = -1 := by
          rw [← he, div_neg, div_self]
          intro hz
          rw [hz, neg_zero] at he
          exact hs.ne he
        have e2 : fl (-1) = -1 := fl_float hfl (isFloat_neg (by rw [← fl_one hfl]; exact (hfl 1).1))
        rw [e1, e2, neg_one_mul, fl_float hfl (isFloat_neg (hfl peak).1), abs_neg, abs_of_pos hP]
    · rw [f3 t c ht hc]
      have hM : 0 < |x c₀ t₀| := abs_pos.mpr hx₀
      have hmM : |m - abs (x c₀ t₀)| ≤ roundoff p * |x c₀ t₀| := by
        rw [abs_le]
        constructor
        · have h1 := p1 _ ((layout_values hr _).mpr ⟨c₀, t₀, hc₀, ht₀, rfl⟩)
          have h2 := fl_near hfl (x c₀ t₀)
          have h3 := abs_sub_abs_le_abs_sub (x c₀ t₀) (fl (x c₀ t₀))
          rw [abs_sub_comm] at h3
          linarith
        · obtain ⟨v, hv, he⟩ := p2 hs
          obtain ⟨c', t', hc', ht', rfl⟩ := (layout_values hr v).mp hv
          have h2 := fl_near hfl (x c' t')
          have h3 := abs_sub_abs_le_abs_sub (fl (x c' t')) (x c' t')
          have h4 := hmax t' c' ht' hc'
          have h5 := mul_le_mul_of_nonneg_left h4 (roundoff_pos p).le
          linarith
      obtain ⟨-, hinv⟩ := rel_inv hp hM hmM
      have q1 : |fl (x c t) - x c t| ≤ roundings p 1 * |x c t| := by
        rw [roundings_one]
        exact fl_near hfl _
      have q2 := rel_fl hfl (rel_mul q1 hinv)
      have q3 : |fl peak - peak| ≤ roundings p 1 * |peak| := by
        rw [roundings_one]
        exact fl_near hfl _
      have q4 := rel_fl hfl (rel_mul q2 q3)
      simpa only [div_eq_mul_inv] using q4
  · have hz : ∀ t c, t < T → c < C → x c t = 0 := fun t c ht hc => by
      have := p3.mp (le_antisymm (not_lt.mp hs) p0) _ ((layout_values hr _).mpr ⟨c, t, hc, ht, rfl⟩)
      exact (fl_eq_zero hp hfl).mp this
    obtain ⟨f, hf, f1, f2, f3⟩ := write_layout hr hC
    have hf0 : ∀ t c, t < T → c < C → f.at t c = 0 := fun t c ht hc => by
      rw [f3 t c ht hc, hz t c ht hc, fl_zero hfl]
    refine ⟨f, ?_, f1, f2, fun t c ht hc => ?_, fun t c t' c' ht hc ht' hc' _ => ?_,
      fun t₀ c₀ ht₀ hc₀ hx₀ _ => absurd (hz t₀ c₀ ht₀ hc₀) hx₀⟩
    · unfold saveAudioFloat normalizePeakFloat
      dsimp only
      rw [if_pos rfl, if_neg (not_le.mpr hpk), if_neg hs, ok_bind]
      exact hf
    · rw [hf0 t c ht hc, hz t c ht hc]
    · rw [hf0 t c ht hc, hf0 t' c' ht' hc']

/-- **C144, again.** Saving with the default peak what was saved with the default peak changes nothing, and without
normalisation every sample is only rounded. -/
theorem C144_again {p : ℕ} (hp : 1 ≤ p) {fl : ℝ → ℝ} (hfl : RoundsToNearest p fl) (audio again : Tensor ℝ) (C T : ℕ)
    (x y : ℕ → ℕ → ℝ) (h : Layout audio C T x) (h' : Layout again C T y) (hC : 1 ≤ C) (f : AudioFile)
    (hf : saveAudioFloat fl audio true 1 = .ok f) (hy : ∀ t c, t < T → c < C → y c t = f.at t c) (peak : ℝ) :
    (∃ g, saveAudioFloat fl again true 1 = .ok g ∧ g.channels = C ∧ g.frames = T ∧
      ∀ t c, t < T → c < C → g.at t c = f.at t c) ∧
    ∃ g, saveAudioFloat fl audio false peak = .ok g ∧ g.channels = C ∧ g.frames = T ∧
      ∀ t c, t < T → c < C → g.at t c = fl (x c t) := by
  have hr' := layout_map h' fl (fl_zero hfl)
  constructor
  · have hval : ∀ t c, t < T → c < C → IsFloat p (f.at t c) := by
      have hr := layout_map h fl (fl_zero hfl)
      unfold saveAudioFloat normalizePeakFloat at hf
      dsimp only at hf
      rw [if_pos rfl, if_neg (not_le.mpr one_pos)] at hf
      intro t c ht hc
      split_ifs at hf with hs
      · rw [ok_bind] at hf
        obtain ⟨f', hf', -, -, f3⟩ := write_layout (layout_map hr
          (fun v => fl (fl (v / peakOf (audio.data.map fl)) * fl 1)) (by
            show fl (fl (0 / _) * fl 1) = 0
            rw [zero_div, fl_zero hfl, zero_mul, fl_zero hfl])) hC
        dsimp only at hf'
        rw [hf] at hf'
        cases hf'
        rw [f3 t c ht hc]
        exact (hfl _).1
      · rw [ok_bind] at hf
        obtain ⟨f', hf', -, -, f3⟩ := write_layout hr hC
        rw [hf] at hf'
        cases hf'
        rw [f3 t c ht hc]
        exact (hfl _).1
    obtain ⟨f', hf', -, -, hz, -, hmax⟩ := C144_saved hp hfl audio C T x h hC 1 one_pos
    rw [hf] at hf'
    cases hf'
    have hfly : ∀ t c, t < T → c < C → fl (y c t) = f.at t c := fun t c ht hc => by
      rw [hy t c ht hc, fl_float hfl (hval t c ht hc)]
    obtain ⟨p0, p1, p2, p3⟩ := peakOf_spec (again.data.map fl)
    by_cases hs : 0 < peakOf (again.data.map fl)
    · have hone : peakOf (again.data.map fl) = 1 := by
        obtain ⟨q0, q1, q2, q3⟩ := peakOf_spec audio.data
        have hne : 0 < peakOf audio.data := by
          refine lt_of_le_of_ne q0 fun he => ?_
          obtain ⟨v, hv, hve⟩ := p2 hs
          obtain ⟨c, t, hc, ht, rfl⟩ := (layout_values hr' v).mp hv
          rw [hfly t c ht hc, (hz t c ht hc).mpr (q3.mp he.symm _ ((layout_values h _).mpr ⟨c, t, hc, ht, rfl⟩)),
            abs_zero] at hve
          exact hs.ne hve
        obtain ⟨v, hv, hve⟩ := q2 hne
        obtain ⟨c₀, t₀, hc₀, ht₀, rfl⟩ := (layout_values h v).mp hv
        obtain ⟨m1, ⟨t, c, ht, hc, m2⟩, -⟩ := hmax t₀ c₀ ht₀ hc₀ (fun e => by
          rw [e, abs_zero] at hve
          exact hne.ne hve) fun t c ht hc => by
            rw [hve]
            exact q1 _ ((layout_values h _).mpr ⟨c, t, hc, ht, rfl⟩)
        rw [fl_one hfl] at m1 m2
        refine le_antisymm ?_ ?_
        · obtain ⟨w, hw, hwe⟩ := p2 hs
          obtain ⟨c', t', hc', ht', rfl⟩ := (layout_values hr' w).mp hw
          rw [← hwe, hfly t' c' ht' hc']
          exact m1 t' c' ht' hc'
        · rw [← m2, ← hfly t c ht hc]
          exact p1 _ ((layout_values hr' _).mpr ⟨c, t, hc, ht, rfl⟩)
      obtain ⟨g, hg, g1, g2, g3⟩ := write_layout (layout_map hr'
        (fun v => fl (fl (v / peakOf (again.data.map fl)) * fl 1)) (by
          show fl (fl (0 / _) * fl 1) = 0
          rw [zero_div, fl_zero hfl, zero_mul, fl_zero hfl])) hC
      refine ⟨g, ?_, g1, g2, fun t c ht hc => ?_⟩
      · unfold saveAudioFloat normalizePeakFloat
        dsimp only
        rw [if_pos rfl, if_neg (not_le.mpr one_pos), if_pos hs, ok_bind]
        exact hg
      · rw [g3 t c ht hc, hone, div_one, fl_one hfl, mul_one, fl_fl hfl, fl_fl hfl, hfly t c ht hc]
    · obtain ⟨g, hg, g1, g2, g3⟩ := write_layout hr' hC
      refine ⟨g, ?_, g1, g2, fun t c ht hc => ?_⟩
      · unfold saveAudioFloat normalizePeakFloat
        dsimp only
        rw [if_pos rfl, if_neg (not_le.mpr one_pos), if_neg hs, ok_bind]
        exact hg
      · rw [g3 t c ht hc, hfly t c ht hc]
  · obtain ⟨g, hg, g1, g2, g3⟩ := write_layout (layout_map h fl (fl_zero hfl)) hC
    exact ⟨g, hg, g1, g2, g3⟩

namespace LevelFloat

theorem getD_map_zero {f : ℝ → ℝ} (h0 : f 0 = 0) (l : List ℝ) (k : ℕ) : (l.map f).getD k 0 = f (l.getD k 0) := by
  by_cases hk : k < l.length
  · rw [List.getD_eq_getElem _ _ (by simpa using hk), List.getD_eq_getElem _ _ hk, List.getElem_map]
  · rw [List.getD_eq_default _ _ (by simpa using hk), List.getD_eq_default _ _ (by omega), h0]

theorem limit_near (h : RoundsToNearest p fl) : (1 - roundoff p) * 0.99 ≤ fl 0.99 ∧ fl 0.99 ≤ (1 + roundoff p) * 0.99 := by
  have h1 := fl_near h 0.99
  rw [abs_of_pos (by norm_num : (0 : ℝ) < 0.99)] at h1
  obtain ⟨h2, h3⟩ := abs_le.mp h1
  constructor <;> linarith

theorem near_abs (h : RoundsToNearest p fl) (x : ℝ) :
    (1 - roundoff p) * |x| ≤ |fl x| ∧ |fl x| ≤ (1 + roundoff p) * |x| := by
  have h1 := fl_near h x
  have h2 := abs_sub_abs_le_abs_sub (fl x) x
  have h3 := abs_sub_abs_le_abs_sub x (fl x)
  rw [abs_sub_comm] at h3
  constructor <;> linarith

end LevelFloat

/-- **C144, stems.** With every operation rounded, the stems of a scene are still the convolved sources times one factor
`0 < g ≤ 1`, each sample up to one rounding, in the order of their values; they are unchanged if none of them is above the
limit; otherwise the loudest sample is at 0.99 up to three roundings. No sample of a stem reaches 1. -/
theorem C144_stems {p : ℕ} (hp : 14 ≤ p) {fl : ℝ → ℝ} (hfl : RoundsToNearest p fl) (stems out : List (Tensor ℝ))
    (h : normalizeSourcesFloat fl stems = .ok out) :
    (∃ g, 0 < g ∧ g ≤ 1 ∧ List.Forall₂ (fun s o => o.shape = s.shape ∧ o.data.length = s.data.length ∧
      ∀ k, |o.data.getD k 0 - g * s.data.getD k 0| ≤ roundoff p * |g * s.data.getD k 0|) stems out) ∧
    (∀ (i j : ℕ) (hi : i < stems.length) (hj : j < stems.length) (hi' : i < out.length) (hj' : j < out.length) (k l : ℕ),
      stems[i].data.getD k 0 ≤ stems[j].data.getD l 0 → out[i].data.getD k 0 ≤ out[j].data.getD l 0) ∧
    ((∀ s ∈ stems, ∀ v ∈ s.data, |v| ≤ fl 0.99) → out = stems) ∧
    ((∃ s ∈ stems, ∃ v ∈ s.data, fl 0.99 < |v|) →
      ∃ o ∈ out, ∃ v ∈ o.data, (1 - roundoff p) ^ 3 * 0.99 ≤ |v|) ∧
    ∀ o ∈ out, ∀ v ∈ o.data, |v| ≤ (1 + roundoff p) ^ 3 * 0.99 ∧ |v| < 1 := by
  have hp1 : 1 ≤ p := by omega
  have hu0 := roundoff_pos p
  have hu : roundoff p ≤ 1 / 10000 := (rounds_of_nearest hp hfl).small
  have hone : (1 + roundoff p) ^ 3 * 0.99 < 1 := by
    have h1 : (1 + roundoff p) ^ 3 ≤ (1 + 1 / 10000) ^ 3 := pow_le_pow_left₀ (by linarith) (by linarith) 3
    have h2 : ((1 : ℝ) + 1 / 10000) ^ 3 * 0.99 < 1 := by norm_num
    linarith
  have hlim := limit_near hfl
  have hlim0 : 0 < fl 0.99 := fl_pos hp1 hfl (by norm_num)
  unfold normalizeSourcesFloat at h
  split_ifs at h with h0
  dsimp only at h
  have hflat : (stems.flatMap fun s => s.data.map (|·|)).foldl max 0 = peakOf (stems.flatMap fun s => s.data) := by
    unfold peakOf
    rw [List.map_flatMap]
  rw [hflat] at h
  obtain ⟨p0, p1, p2, p3⟩ := peakOf_spec (stems.flatMap fun s => s.data)
  set m := peakOf (stems.flatMap fun s => s.data) with hm
  have hle : ∀ s ∈ stems, ∀ v ∈ s.data, |v| ≤ m := fun s hs v hv => p1 v (List.mem_flatMap.mpr ⟨s, hs, hv⟩)
  split_ifs at h with h1
  · cases h
    have hml : m ≤ fl 0.99 := by
      rcases h1 with h1 | h1
      · linarith
      · exact h1
    refine ⟨⟨1, one_pos, le_rfl, List.forall₂_same.mpr fun s _ => ⟨rfl, rfl, fun k => ?_⟩⟩,
      fun i j hi hj hi' hj' k l hkl => hkl, fun _ => rfl, ?_, fun o ho v hv => ?_⟩
    · rw [one_mul, sub_self, abs_zero]
      positivity
    · rintro ⟨s, hs, v, hv, hlt⟩
      linarith [hle s hs v hv]
    · have : |v| ≤ (1 + roundoff p) ^ 3 * 0.99 := by
        have e1 : (1 + roundoff p) ^ 1 ≤ (1 + roundoff p) ^ 3 := pow_le_pow_right₀ (by linarith) (by norm_num)
        rw [pow_one] at e1
        linarith [hle o ho v hv, hlim.2]
      exact ⟨this, lt_of_le_of_lt this hone⟩
  · cases h
    push Not at h1
    obtain ⟨hm0, hml⟩ := h1
    set g := fl (fl 0.99 / m) with hg
    have hg0 : 0 < g := fl_pos hp1 hfl (div_pos hlim0 hm0)
    have hg1 : g ≤ 1 := by
      rw [← fl_one hfl]
      exact fl_mono hfl ((div_le_one hm0).mpr hml.le)
    have hmap0 : (fun v => fl (v * g)) 0 = 0 := by
      show fl (0 * g) = 0
      rw [zero_mul, fl_zero hfl]
    have hgm : (1 - roundoff p) * fl 0.99 ≤ g * m ∧ g * m ≤ (1 + roundoff p) * fl 0.99 := by
      have := near_abs hfl (fl 0.99 / m)
      rw [← hg, abs_of_pos hg0, abs_of_pos (div_pos hlim0 hm0)] at this
      have e : fl 0.99 / m * m = fl 0.99 := div_mul_cancel₀ _ hm0.ne'
      constructor
      · have := mul_le_mul_of_nonneg_right this.1 hm0.le
        rw [mul_assoc, e] at this
        exact this
      · have := mul_le_mul_of_nonneg_right this.2 hm0.le
        rw [mul_assoc _ _ m, e] at this
        exact this
    refine ⟨⟨g, hg0, hg1, ?_⟩, ?_, fun hq => ?_, fun _ => ?_, ?_⟩
    · rw [List.forall₂_map_right_iff]
      refine List.forall₂_same.mpr fun s _ => ⟨rfl, by simp, fun k => ?_⟩
      dsimp only
      rw [getD_map_zero hmap0, mul_comm g]
      exact fl_near hfl _
    · intro i j hi hj hi' hj' k l hkl
      rw [List.getElem_map, List.getElem_map]
      dsimp only
      rw [getD_map_zero hmap0, getD_map_zero hmap0]
      exact fl_mono hfl (mul_le_mul_of_nonneg_right hkl hg0.le)
    · exfalso
      obtain ⟨v, hv, hve⟩ := p2 hm0
      obtain ⟨s, hs, hvs⟩ := List.mem_flatMap.mp hv
      linarith [hq s hs v hvs]
    · obtain ⟨v, hv, hve⟩ := p2 hm0
      obtain ⟨s, hs, hvs⟩ := List.mem_flatMap.mp hv
      refine ⟨_, List.mem_map_of_mem hs, _, List.mem_map_of_mem hvs, ?_⟩
      have := (near_abs hfl (v * g)).1
      rw [abs_mul, hve, abs_of_pos hg0, mul_comm m] at this
      refine le_trans ?_ this
      have e1 : (1 - roundoff p) * ((1 - roundoff p) * ((1 - roundoff p) * 0.99)) ≤ (1 - roundoff p) * (g * m) :=
        mul_le_mul_of_nonneg_left
          ((mul_le_mul_of_nonneg_left hlim.1 (by linarith)).trans hgm.1) (by linarith)
      refine le_trans (le_of_eq ?_) e1
      ring
    · intro o ho v hv
      obtain ⟨s, hs, rfl⟩ := List.mem_map.mp ho
      obtain ⟨w, hw, rfl⟩ := List.mem_map.mp hv
      have : |fl (w * g)| ≤ (1 + roundoff p) ^ 3 * 0.99 := by
        refine (near_abs hfl (w * g)).2.trans ?_
        rw [abs_mul, abs_of_pos hg0]
        have e1 : |w| * g ≤ g * m := by
          rw [mul_comm]
          exact mul_le_mul_of_nonneg_left (hle s hs w hw) hg0.le
        have e2 : (1 + roundoff p) * (|w| * g) ≤ (1 + roundoff p) * ((1 + roundoff p) * ((1 + roundoff p) * 0.99)) :=
          mul_le_mul_of_nonneg_left (e1.trans (hgm.2.trans (mul_le_mul_of_nonneg_left hlim.2 (by linarith)))) (by linarith)
        refine e2.trans (le_of_eq ?_)
        ring
      exact ⟨this, lt_of_le_of_lt this hone⟩

namespace LevelFloat

/-- Rounded sums, one after the other. -/
theorem fold_err (hfl : RoundsToNearest p fl) {n : ℕ} (k : ℕ) : ∀ (rest : List (Tensor ℝ)) (acc : List ℝ) (j : ℕ) (v A : ℝ),
    acc.length = n → (∀ t ∈ rest, t.data.length = n) → |acc.getD k 0 - v| ≤ roundings p j * A → |v| ≤ A →
    (rest.foldl (fun acc t => List.zipWith (fun a b => fl (a + b)) acc t.data) acc).length = n ∧
    |(rest.foldl (fun acc t => List.zipWith (fun a b => fl (a + b)) acc t.data) acc).getD k 0 -
        (v + (rest.map fun t => t.data.getD k 0).sum)| ≤
      roundings p (j + rest.length) * (A + (rest.map fun t => |t.data.getD k 0|).sum)
  | [], acc, j, v, A, hacc, _, h, _ => by simpa using ⟨hacc, h⟩
  | t :: rest, acc, j, v, A, hacc, hlen, h, hA => by
    have ht := hlen t List.mem_cons_self
    have hz : (List.zipWith (fun a b => fl (a + b)) acc t.data).getD k 0 = fl (acc.getD k 0 + t.data.getD k 0) := by
      by_cases hk : k < n
      · rw [List.getD_eq_getElem _ _ (by simp; omega), List.getD_eq_getElem _ _ (by omega),
          List.getD_eq_getElem _ _ (by omega), List.getElem_zipWith]
      · rw [List.getD_eq_default _ _ (by simp; omega), List.getD_eq_default _ _ (by omega),
          List.getD_eq_default _ _ (by omega), add_zero, fl_zero hfl]
    have hv : |v + t.data.getD k 0| ≤ A + |t.data.getD k 0| := (abs_add_le _ _).trans (by linarith)
    have herr : |fl (acc.getD k 0 + t.data.getD k 0) - (v + t.data.getD k 0)| ≤
        roundings p (j + 1) * (A + |t.data.getD k 0|) := by
      have h0 := abs_nonneg (t.data.getD k 0)
      have e1 : |acc.getD k 0 + t.data.getD k 0 - (v + t.data.getD k 0)| ≤ roundings p j * (A + |t.data.getD k 0|) := by
        rw [add_sub_add_right_eq_sub]
        have := mul_nonneg (roundings_nonneg p j) h0
        linarith
      have e2 := fl_near hfl (acc.getD k 0 + t.data.getD k 0)
      have e3 : |acc.getD k 0 + t.data.getD k 0| ≤ (1 + roundings p j) * (A + |t.data.getD k 0|) := by
        have e : acc.getD k 0 + t.data.getD k 0 =
          (v + t.data.getD k 0) + (acc.getD k 0 + t.data.getD k 0 - (v + t.data.getD k 0)) := by ring
        rw [e]
        exact (abs_add_le _ _).trans (by linarith)
      have e4 := mul_le_mul_of_nonneg_left e3 (roundoff_pos p).le
      have e5 : roundings p (j + 1) = roundings p j + roundoff p * (1 + roundings p j) := by
        rw [← roundings_add, roundings_one]
        ring
      have e6 : fl (acc.getD k 0 + t.data.getD k 0) - (v + t.data.getD k 0) =
        (fl (acc.getD k 0 + t.data.getD k 0) - (acc.getD k 0 + t.data.getD k 0)) +
          (acc.getD k 0 + t.data.getD k 0 - (v + t.data.getD k 0)) := by ring
      rw [e6, e5]
      refine (abs_add_le _ _).trans ?_
      linarith
    obtain ⟨r1, r2⟩ := fold_err hfl k rest (List.zipWith (fun a b => fl (a + b)) acc t.data) (j + 1)
      (v + t.data.getD k 0) (A + |t.data.getD k 0|) (by simp; omega) (fun s hs => hlen s (List.mem_cons_of_mem _ hs))
      (by rw [hz]; exact herr) hv
    refine ⟨r1, ?_⟩
    rw [List.foldl_cons, List.map_cons, List.map_cons, List.sum_cons, List.sum_cons, List.length_cons]
    have e1 : j + (rest.length + 1) = j + 1 + rest.length := by omega
    rw [e1, ← add_assoc v, ← add_assoc A]
    exact r2

theorem mix_of_stems (hfl : RoundsToNearest p fl) {stems : List (Tensor ℝ)} {sh : List ℕ} {n : ℕ} (hne : stems ≠ [])
    (hsh : ∀ s ∈ stems, s.shape = sh) (hlen : ∀ s ∈ stems, s.data.length = n) :
    ∃ mix, mixStemsFloat fl stems = .ok mix ∧ mix.shape = sh ∧ mix.data.length = n ∧
      ∀ k, |mix.data.getD k 0 - (stems.map fun s => s.data.getD k 0).sum| ≤
        roundings p (stems.length - 1) * (stems.map fun s => |s.data.getD k 0|).sum := by
  cases stems with
  | nil => exact absurd rfl hne
  | cons s rest =>
    have hs := hsh s List.mem_cons_self
    refine ⟨⟨s.shape, rest.foldl (fun acc t => List.zipWith (fun a b => fl (a + b)) acc t.data) s.data⟩, ?_, hs, ?_, ?_⟩
    · unfold mixStemsFloat
      dsimp only
      rw [if_neg]
      rintro ⟨t, ht, hne⟩
      exact hne ((hsh t ht).trans hs.symm)
    · exact (fold_err hfl 0 rest s.data 0 (s.data.getD 0 0) |s.data.getD 0 0| (hlen s List.mem_cons_self)
        (fun t ht => hlen t (List.mem_cons_of_mem _ ht)) (by simp [roundings]) le_rfl).1
    · intro k
      have := (fold_err hfl k rest s.data 0 (s.data.getD k 0) |s.data.getD k 0| (hlen s List.mem_cons_self)
        (fun t ht => hlen t (List.mem_cons_of_mem _ ht)) (by simp [roundings]) le_rfl).2
      simpa using this

theorem sums_err {u g : ℝ} (k : ℕ) {stems out : List (Tensor ℝ)}
    (h : List.Forall₂ (fun s o : Tensor ℝ => |o.data.getD k 0 - g * s.data.getD k 0| ≤ u * |g * s.data.getD k 0|) stems out) :
    |(out.map fun o => o.data.getD k 0).sum - g * (stems.map fun s => s.data.getD k 0).sum| ≤
        u * (|g| * (stems.map fun s => |s.data.getD k 0|).sum) ∧
      (out.map fun o => |o.data.getD k 0|).sum ≤ (1 + u) * (|g| * (stems.map fun s => |s.data.getD k 0|).sum) := by
  induction h with
  | nil => simp
  | @cons s o stems out h _ ih =>
    simp only [List.map_cons, List.sum_cons]
    rw [abs_mul] at h
    constructor
    · have e : o.data.getD k 0 + (out.map fun o => o.data.getD k 0).sum -
          g * (s.data.getD k 0 + (stems.map fun s => s.data.getD k 0).sum) =
        (o.data.getD k 0 - g * s.data.getD k 0) +
          ((out.map fun o => o.data.getD k 0).sum - g * (stems.map fun s => s.data.getD k 0).sum) := by ring
      rw [e]
      refine (abs_add_le _ _).trans ?_
      linarith [ih.1]
    · have e : o.data.getD k 0 = g * s.data.getD k 0 + (o.data.getD k 0 - g * s.data.getD k 0) := by ring
      have h1 : |o.data.getD k 0| ≤ (1 + u) * (|g| * |s.data.getD k 0|) := by
        rw [e]
        refine (abs_add_le _ _).trans ?_
        rw [abs_mul]
        linarith
      linarith [ih.2]

end LevelFloat

/-- **C144, mixture.** The mixture of the rounded stems of `S` sources exists and is their sum up to `S - 1` roundings,
and the sum of the convolved sources times the common factor up to `S` roundings. -/
theorem C144_mixture {p : ℕ} (hp : 14 ≤ p) {fl : ℝ → ℝ} (hfl : RoundsToNearest p fl) (stems out : List (Tensor ℝ))
    (h : normalizeSourcesFloat fl stems = .ok out) (sh : List ℕ) (n : ℕ) (hsh : ∀ s ∈ stems, s.shape = sh)
    (hlen : ∀ s ∈ stems, s.data.length = n) :
    ∃ mix g, mixStemsFloat fl out = .ok mix ∧ mix.shape = sh ∧ mix.data.length = n ∧ 0 < g ∧ g ≤ 1 ∧
      (∀ k, |mix.data.getD k 0 - (out.map fun s => s.data.getD k 0).sum| ≤
        roundings p (stems.length - 1) * (out.map fun s => |s.data.getD k 0|).sum) ∧
      ∀ k, |mix.data.getD k 0 - g * (stems.map fun s => s.data.getD k 0).sum| ≤
        roundings p stems.length * (g * (stems.map fun s => |s.data.getD k 0|).sum) := by
  obtain ⟨⟨g, hg0, hg1, hall⟩, -⟩ := C144_stems hp hfl stems out h
  have hne : stems ≠ [] := by
    rintro rfl
    unfold normalizeSourcesFloat at h
    rw [if_pos (Or.inl rfl)] at h
    cases h
  have hl : out.length = stems.length := hall.length_eq.symm
  have hout : ∀ o ∈ out, o.shape = sh ∧ o.data.length = n := by
    intro o ho
    obtain ⟨i, hi, rfl⟩ := List.mem_iff_getElem.mp ho
    have := (List.forall₂_iff_get.mp hall).2 i (by omega) hi
    simp only [List.get_eq_getElem] at this
    exact ⟨this.1.trans (hsh _ (List.getElem_mem _)), this.2.1.trans (hlen _ (List.getElem_mem _))⟩
  obtain ⟨mix, m1, m2, m3, m4⟩ := mix_of_stems hfl (stems := out) (by
    rintro rfl
    exact hne (List.length_eq_zero_iff.mp hl.symm)) (fun o ho => (hout o ho).1) fun o ho => (hout o ho).2
  rw [hl] at m4
  refine ⟨mix, g, m1, m2, m3, hg0, hg1, m4, fun k => ?_⟩
  obtain ⟨e1, e2⟩ := sums_err k (hall.imp fun s o hso => hso.2.2 k)
  rw [abs_of_pos hg0] at e1 e2
  have e3 := mul_le_mul_of_nonneg_left e2 (roundings_nonneg p (stems.length - 1))
  have e4 : roundings p stems.length =
      roundings p (stems.length - 1) * (1 + roundoff p) + roundoff p := by
    have hpos : stems.length = (stems.length - 1) + 1 := by
      have := List.length_pos_iff.mpr hne
      omega
    conv_lhs => rw [hpos]
    rw [← roundings_add, roundings_one]
    ring
  have e5 : mix.data.getD k 0 - g * (stems.map fun s => s.data.getD k 0).sum =
    (mix.data.getD k 0 - (out.map fun s => s.data.getD k 0).sum) +
      ((out.map fun s => s.data.getD k 0).sum - g * (stems.map fun s => s.data.getD k 0).sum) := by ring
  rw [e5, e4]
  refine (abs_add_le _ _).trans ?_
  have := m4 k
  linarith

/-- **C144, exact numbers.** Without rounding these are the functions of C61 and C63. -/
theorem C144_exact (audio : Tensor ℝ) (normalize : Bool) (peak : ℝ) (stems : List (Tensor ℝ)) :
    saveAudioFloat (fun v => v) audio normalize peak = saveAudio audio normalize peak ∧
    normalizeSourcesFloat (fun v => v) stems = normalizeSources stems ∧
    mixStemsFloat (fun v => v) stems = mixStems stems := by
  refine ⟨?_, rfl, ?_⟩
  · unfold saveAudioFloat saveAudio normalizePeakFloat normalizePeak
    simp only [List.map_id']
  · unfold mixStemsFloat mixStems
    cases stems with
    | nil => rfl
    | cons s rest =>
      dsimp only
      rw [List.foldl_cons]
      have : List.zipWith (fun a b => a + b) (List.replicate s.data.length 0) s.data = s.data := by
        refine List.ext_getElem (by simp) fun k h1 h2 => ?_
        simp
      rw [this]

/-- Non-vacuous: two sources, one of them above the limit, in double precision. -/
example : ∃ out mix, normalizeSourcesFloat (toNearest 53) [⟨[2, 1], [2, -1]⟩, ⟨[2, 1], [0.5, 0.25]⟩] = .ok out ∧
    mixStemsFloat (toNearest 53) out = .ok mix ∧ (∃ o ∈ out, ∃ v ∈ o.data, (1 - roundoff 53) ^ 3 * 0.99 ≤ |v|) ∧
    ∀ o ∈ out, ∀ v ∈ o.data, |v| < 1 := by
  have hfl := toNearest_rounds (p := 53) (by norm_num)
  have hok : ∃ out, normalizeSourcesFloat (toNearest 53) [⟨[2, 1], [2, -1]⟩, ⟨[2, 1], [0.5, 0.25]⟩] = .ok out := by
    unfold normalizeSourcesFloat
    rw [if_neg (by simp)]
    dsimp only
    split_ifs
    · exact ⟨_, rfl⟩
    · exact ⟨_, rfl⟩
  obtain ⟨out, hout⟩ := hok
  obtain ⟨-, -, -, h4, h5⟩ := C144_stems (by norm_num) hfl _ _ hout
  obtain ⟨mix, -, h6, -⟩ := C144_mixture (by norm_num) hfl _ _ hout [2, 1] 2 (by simp) (by simp)
  refine ⟨out, mix, hout, h6, h4 ⟨⟨[2, 1], [2, -1]⟩, by simp, 2, by simp, ?_⟩, fun o ho v hv => (h5 o ho v hv).2⟩
  have h7 := (limit_near hfl).2
  have h8 := roundoff_half (p := 53) (by norm_num)
  rw [abs_of_pos (by norm_num : (0 : ℝ) < 2)]
  linarith

/-- Non-vacuous: a stereo signal in single precision. -/
example : ∃ f, saveAudioFloat (toNearest 24) ⟨[2, 3], [1, -3, 0, 0.5, 0, 1]⟩ true 0.7 = .ok f ∧ f.channels = 2 ∧
    (∀ t c, t < 3 → c < 2 → |f.at t c| ≤ toNearest 24 0.7) ∧ ∃ t c, t < 3 ∧ c < 2 ∧ |f.at t c| = toNearest 24 0.7 := by
  obtain ⟨f, h1, h2, -, -, -, h6⟩ := C144_saved (by norm_num) (toNearest_rounds (p := 24) (by norm_num)) _ _ _ _
    (.channelsFirst 2 3 [1, -3, 0, 0.5, 0, 1] rfl (by norm_num)) (by norm_num) 0.7 (by norm_num)
  obtain ⟨h7, h8, -⟩ := h6 1 0 (by norm_num) (by norm_num) (by norm_num) (by
    intro t c ht hc
    interval_cases t <;> interval_cases c <;> norm_num [abs_le])
  exact ⟨f, h1, h2, h7, h8⟩

/-- Non-vacuous: the signal is saved, loaded as channels by samples, and saved again. -/
example : ∃ f g, saveAudioFloat (toNearest 24) ⟨[3], [1, -3, 0.1]⟩ = .ok f ∧
    saveAudioFloat (toNearest 24) ⟨[3], [f.at 0 0, f.at 1 0, f.at 2 0]⟩ = .ok g ∧
    ∀ t c, t < 3 → c < 1 → g.at t c = f.at t c := by
  have hfl := toNearest_rounds (p := 24) (by norm_num)
  obtain ⟨f, h1, -⟩ := C144_saved (by norm_num) hfl _ _ _ _ (.mono 3 [1, -3, 0.1] rfl) le_rfl 1 one_pos
  obtain ⟨⟨g, h2, -, -, h3⟩, -⟩ := C144_again (by norm_num) hfl _ ⟨[3], [f.at 0 0, f.at 1 0, f.at 2 0]⟩ _ _ _ _
    (.mono 3 [1, -3, 0.1] rfl) (.mono 3 _ rfl) le_rfl f h1 (fun t c ht hc => by
      interval_cases t <;> interval_cases c <;> rfl) 1
  exact ⟨f, g, h1, h2, h3⟩

end Torchrir.Props
