import Verif.Spec.Builder
import Verif.Lemmas.Inverse
import Mathlib.Data.List.GetD
import Mathlib.Data.List.Forall2
import Mathlib.Tactic.Linarith
import Mathlib.Tactic.Positivity
import Mathlib.Tactic.FieldSimp
import Mathlib.Tactic.Ring

/-! # Lemmas about the placement of sources in the dataset builder -/

namespace Torchrir.Lemmas

open Torchrir.Model Torchrir.Spec

theorem uniformDraw_mem {a b u : ℝ} (hab : a ≤ b) (h0 : 0 ≤ u) (h1 : u ≤ 1) :
    a ≤ uniformDraw a b u ∧ uniformDraw a b u ≤ b := by
  unfold uniformDraw
  constructor <;> nlinarith [mul_nonneg (sub_nonneg.mpr hab) h0, mul_le_mul_of_nonneg_left h1 (sub_nonneg.mpr hab)]

theorem horizontalDistance_around (center : P3) {r : ℝ} (hr : 0 ≤ r) (azimuth z : ℝ) :
    horizontalDistance (around center r azimuth z) center = r := by
  unfold horizontalDistance around
  have : (center.x + r * Real.cos azimuth - center.x) ^ 2 +
      (center.y + r * Real.sin azimuth - center.y) ^ 2 = r ^ 2 := by
    have := Real.sin_sq_add_cos_sq azimuth
    have h2 : (r * Real.cos azimuth) ^ 2 + (r * Real.sin azimuth) ^ 2 =
        r ^ 2 * (Real.sin azimuth ^ 2 + Real.cos azimuth ^ 2) := by ring
    rw [this, mul_one] at h2
    simpa using h2
  rw [this, Real.sqrt_sq hr]

/-- Along one axis a source is inside, up to the tolerance of the code. -/
theorem axis_inside {c p lo hi r : ℝ} {b : Option ℝ} (h : axisBound c p lo hi = .ok b) (hlo : lo ≤ p)
    (hhi : p ≤ hi) (hr : 0 ≤ r) (hb : ∀ x ∈ b, r ≤ x) :
    lo - r * 1e-9 ≤ p + r * c ∧ p + r * c ≤ hi + r * 1e-9 := by
  have hre : 0 ≤ r * (1e-9 : ℝ) := by positivity
  unfold axisBound at h
  split_ifs at h with h1 h2 h3
  · cases h
    have hc : 0 < c := lt_trans (by norm_num) h1
    have := hb _ rfl
    rw [le_div_iff₀ hc] at this
    exact ⟨by nlinarith [mul_nonneg hr hc.le], by linarith⟩
  · cases h
    have hc : c < 0 := lt_trans h2 (by norm_num)
    have := hb _ rfl
    rw [le_div_iff_of_neg hc] at this
    refine ⟨by linarith, ?_⟩
    have : r * c ≤ 0 := mul_nonpos_of_nonneg_of_nonpos hr hc.le
    linarith
  · cases h
    have h1 : c ≤ 1e-9 := not_lt.mp h1
    have h2 : -1e-9 ≤ c := not_lt.mp h2
    exact ⟨by nlinarith, by nlinarith⟩

theorem axis_bound_ge {c p lo hi R : ℝ} (hc1 : c ≤ 1) (hc2 : -1 ≤ c) (hR : 0 ≤ R) (hlo : R ≤ p - lo)
    (hhi : R ≤ hi - p) : ∃ b, axisBound c p lo hi = .ok b ∧ (∀ x ∈ b, R ≤ x) ∧
      (b = none → -1e-9 ≤ c ∧ c ≤ 1e-9) := by
  unfold axisBound
  split_ifs with h1 h2 h3
  · have hc : 0 < c := lt_trans (by norm_num) h1
    refine ⟨_, rfl, fun x hx => ?_, by simp⟩
    cases hx
    rw [le_div_iff₀ hc]
    nlinarith
  · have hc : c < 0 := lt_trans h2 (by norm_num)
    refine ⟨_, rfl, fun x hx => ?_, by simp⟩
    cases hx
    rw [le_div_iff_of_neg hc]
    nlinarith
  · rcases h3 with h3 | h3 <;> linarith
  · exact ⟨none, rfl, fun x hx => (nomatch hx), fun _ => ⟨not_lt.mp h2, not_lt.mp h1⟩⟩

/-- The distance of the centre from the four walls of the area is at least `R`. -/
def Clear (center : P3) (a : Area) (R : ℝ) : Prop :=
  (R ≤ center.x - a.xmin ∧ R ≤ a.xmax - center.x) ∧ R ≤ center.y - a.ymin ∧ R ≤ a.ymax - center.y

theorem maxUniformRadius_le (center : P3) (a : Area) (R : ℝ) :
    R ≤ maxUniformRadius center a ↔ Clear center a R := by
  unfold maxUniformRadius Clear
  simp only [le_min_iff]
  tauto

/-- The largest radius in any direction is at least the distance from the nearest wall. -/
theorem maxRadius_ge {azimuth : ℝ} {center room margin : P3} {R : ℝ} (hR : 0 ≤ R)
    (h : Clear center (areaOf room margin) R) : R ≤ maxRadiusForAzimuth azimuth center room margin := by
  obtain ⟨⟨h1, h2⟩, h3, h4⟩ := h
  obtain ⟨bx, ex, gx, nx⟩ := axis_bound_ge (Real.cos_le_one azimuth) (Real.neg_one_le_cos azimuth) hR h1 h2
  obtain ⟨bz, ey, gy, ny⟩ := axis_bound_ge (Real.sin_le_one azimuth) (Real.neg_one_le_sin azimuth) hR h3 h4
  unfold maxRadiusForAzimuth
  simp only [ex, ey]
  cases bx with
  | none =>
    cases bz with
    | none =>
      obtain ⟨a1, a2⟩ := nx rfl
      obtain ⟨b1, b2⟩ := ny rfl
      have := Real.sin_sq_add_cos_sq azimuth
      have k1 : Real.cos azimuth ^ 2 ≤ (1e-9) ^ 2 := sq_le_sq' a1 a2
      have k2 : Real.sin azimuth ^ 2 ≤ (1e-9) ^ 2 := sq_le_sq' b1 b2
      norm_num at k1 k2
      linarith
    | some y => exact gy y rfl
  | some x =>
    cases bz with
    | none => exact gx x rfl
    | some y => exact le_min (gx x rfl) (gy y rfl)

/-- Positions with at most the largest radius are inside the area, up to the tolerance. -/
theorem maxRadius_inside {azimuth : ℝ} {center room margin : P3} {r : ℝ} (hr : 0 ≤ r)
    (hc : Clear center (areaOf room margin) 0) (h : r ≤ maxRadiusForAzimuth azimuth center room margin)
    (z : ℝ) :
    let p := around center r azimuth z
    let a := areaOf room margin
    (a.xmin - r * 1e-9 ≤ p.x ∧ p.x ≤ a.xmax + r * 1e-9) ∧ a.ymin - r * 1e-9 ≤ p.y ∧ p.y ≤ a.ymax + r * 1e-9 := by
  obtain ⟨⟨h1, h2⟩, h3, h4⟩ := hc
  unfold maxRadiusForAzimuth at h
  simp only at h
  cases ex : axisBound (Real.cos azimuth) center.x (areaOf room margin).xmin (areaOf room margin).xmax with
  | error e =>
    rw [ex] at h
    simp only at h
    linarith
  | ok bx =>
    cases ey : axisBound (Real.sin azimuth) center.y (areaOf room margin).ymin (areaOf room margin).ymax with
    | error e =>
      rw [ex, ey] at h
      simp only at h
      linarith
    | ok bz =>
      rw [ex, ey] at h
      refine ⟨axis_inside ex (by linarith) (by linarith) hr fun x hx => ?_,
        axis_inside ey (by linarith) (by linarith) hr fun x hx => ?_⟩
      · cases hx
        cases bz with
        | none => exact h
        | some y => exact le_trans h (min_le_left _ _)
      · cases hx
        cases bx with
        | none => exact h
        | some y => exact le_trans h (min_le_right _ _)

/-- What `_sample_position_on_azimuth` returns. -/
theorem samplePosition_ok {ur uz azimuth : ℝ} {center room margin : P3} {minRadius : ℝ}
    {maxRadius : Option ℝ} {p : P3} (hur : 0 ≤ ur ∧ ur ≤ 1) (huz : 0 ≤ uz ∧ uz ≤ 1)
    (h : samplePosition ur uz azimuth center room margin minRadius maxRadius = .ok p) :
    ∃ r z, p = around center r azimuth z ∧ minRadius ≤ r ∧
      r ≤ maxRadiusForAzimuth azimuth center room margin ∧ (∀ m ∈ maxRadius, r ≤ m) ∧
      (areaOf room margin).zmin ≤ z ∧ z ≤ (areaOf room margin).zmax := by
  unfold samplePosition at h
  dsimp only at h
  by_cases hz : (areaOf room margin).zmax ≤ (areaOf room margin).zmin
  · rw [if_pos hz] at h
    cases h
  rw [if_neg hz] at h
  obtain ⟨z1, z2⟩ := uniformDraw_mem (not_le.mp hz).le huz.1 huz.2
  cases maxRadius with
  | none =>
    dsimp only at h
    split_ifs at h with hr
    cases h
    obtain ⟨r1, r2⟩ := uniformDraw_mem (not_lt.mp hr) hur.1 hur.2
    exact ⟨_, _, rfl, r1, r2, fun m hm => (nomatch hm), z1, z2⟩
  | some m =>
    dsimp only at h
    split_ifs at h with hr
    cases h
    obtain ⟨r1, r2⟩ := uniformDraw_mem (not_lt.mp hr) hur.1 hur.2
    refine ⟨_, _, rfl, r1, le_trans r2 (min_le_left _ _), fun m' hm => ?_, z1, z2⟩
    cases hm
    exact le_trans r2 (min_le_right _ _)

theorem samplePosition_succeeds {ur uz azimuth : ℝ} {center room margin : P3} {minRadius : ℝ}
    {maxRadius : Option ℝ} (hz : (areaOf room margin).zmin < (areaOf room margin).zmax)
    (hr : minRadius ≤ maxRadiusForAzimuth azimuth center room margin) (hm : ∀ m ∈ maxRadius, minRadius ≤ m) :
    ∃ p, samplePosition ur uz azimuth center room margin minRadius maxRadius = .ok p := by
  unfold samplePosition
  dsimp only
  rw [if_neg (not_le.mpr hz)]
  cases maxRadius with
  | none =>
    dsimp only
    rw [if_neg (not_lt.mpr hr)]
    exact ⟨_, rfl⟩
  | some m =>
    dsimp only
    rw [if_neg (not_lt.mpr (le_min hr (hm m rfl)))]
    exact ⟨_, rfl⟩

/-- Within the clear radius, the whole circle is inside the area. -/
theorem around_inside {center : P3} {a : Area} {R r : ℝ} (hc : Clear center a R) (hr : 0 ≤ r) (hrR : r ≤ R)
    (azimuth z : ℝ) :
    (a.xmin ≤ (around center r azimuth z).x ∧ (around center r azimuth z).x ≤ a.xmax) ∧
      a.ymin ≤ (around center r azimuth z).y ∧ (around center r azimuth z).y ≤ a.ymax := by
  obtain ⟨⟨h1, h2⟩, h3, h4⟩ := hc
  unfold around
  have c1 := Real.cos_le_one azimuth
  have c2 := Real.neg_one_le_cos azimuth
  have s1 := Real.sin_le_one azimuth
  have s2 := Real.neg_one_le_sin azimuth
  dsimp only
  refine ⟨⟨by nlinarith, by nlinarith⟩, by nlinarith, by nlinarith⟩

/-- The values of a moving source. -/
structure Moves (center : P3) (moveDuration speedMin speedMax : ℝ) (r azimuth z : ℝ) (p : Placed) : Prop where
  speed : speedMin ≤ p.velocity ∧ p.velocity ≤ speedMax
  turn : p.turn = 1 ∨ p.turn = -1
  angular : p.angularVelocity = p.turn * p.velocity / r
  endAzimuth : p.endAzimuth = azimuth + p.angularVelocity * moveDuration
  stop : p.stop = around center r p.endAzimuth z

/-- The values of a resting source. -/
structure Rests (azimuth : ℝ) (p : Placed) : Prop where
  stop : p.stop = p.start
  endAzimuth : p.endAzimuth = azimuth
  speed : p.velocity = 0 ∧ p.angularVelocity = 0 ∧ p.turn = 0

theorem moveSource_ok {us : ℝ} {ut : Bool} {center : P3} {r azimuth z : ℝ} {a : Area}
    {moveDuration speedMin speedMax minRadius : ℝ} {p : Placed} (hus : 0 ≤ us ∧ us ≤ 1)
    (hsp : speedMin ≤ speedMax) (hr : 0 ≤ r)
    (h : moveSource us ut (around center r azimuth z) azimuth center a moveDuration speedMin speedMax
      minRadius = .ok p) :
    p.start = around center r azimuth z ∧ p.startAzimuth = azimuth ∧
      Moves center moveDuration speedMin speedMax r azimuth z p := by
  unfold moveSource at h
  dsimp only at h
  rw [horizontalDistance_around center hr] at h
  by_cases h1 : r < minRadius
  · rw [if_pos h1] at h
    cases h
  rw [if_neg h1] at h
  by_cases h2 : r ≤ 1e-9
  · rw [if_pos h2] at h
    cases h
  rw [if_neg h2] at h
  cases ut
  all_goals
    simp only [Bool.false_eq_true, if_false, if_true] at h
    split at h
    · cases h
    · cases h
      exact ⟨rfl, rfl, uniformDraw_mem hsp hus.1 hus.2, by simp, rfl, rfl, rfl⟩

theorem moveSource_succeeds {us : ℝ} {ut : Bool} {center : P3} {r azimuth z : ℝ} {a : Area}
    {moveDuration speedMin speedMax minRadius R : ℝ} (hmin : 1e-9 < minRadius) (hr : minRadius ≤ r)
    (hc : Clear center a R) (hrR : r ≤ R) :
    ∃ p, moveSource us ut (around center r azimuth z) azimuth center a moveDuration speedMin speedMax
      minRadius = .ok p := by
  have hr0 : 0 ≤ r := le_trans (le_trans (by norm_num) hmin.le) hr
  unfold moveSource
  dsimp only
  rw [horizontalDistance_around center hr0, if_neg (not_lt.mpr hr),
    if_neg (not_le.mpr (lt_of_lt_of_le hmin hr)), if_neg]
  · exact ⟨_, rfl⟩
  · rw [not_not]
    exact around_inside hc hr0 hrR _ z

/-- The start azimuth of source `i` in a trial. -/
noncomputable def azimuthOf (d : TrialDraws) (n i : ℕ) : ℝ :=
  d.base * (2 * Real.pi) + (d.slots.getD i 0 : ℝ) * (2 * Real.pi / n)

/-- What a successful trial says about source `i`. -/
def PlacedAs (d : TrialDraws) (room center margin : P3) (n : ℕ) (moving : List ℕ)
    (moveDuration speedMin speedMax minRadius R : ℝ) (i : ℕ) (p : Placed) : Prop :=
  ∃ r z, p.start = around center r (azimuthOf d n i) z ∧ p.startAzimuth = azimuthOf d n i ∧
    minRadius ≤ r ∧ r ≤ maxRadiusForAzimuth (azimuthOf d n i) center room margin ∧
    (areaOf room margin).zmin ≤ z ∧ z ≤ (areaOf room margin).zmax ∧
    (i ∈ moving → r ≤ R ∧ Moves center moveDuration speedMin speedMax r (azimuthOf d n i) z p) ∧
    (i ∉ moving → Rests (azimuthOf d n i) p)

theorem mapM_forall₂ {α β : Type} {f : α → Except String β} :
    ∀ {l : List α} {r : List β}, l.mapM f = .ok r → List.Forall₂ (fun a b => f a = .ok b) l r
  | [], r, h => by
    rw [List.mapM_nil] at h
    cases h
    exact .nil
  | a :: l, r, h => by
    rw [List.mapM_cons, bind_eq_ok] at h
    obtain ⟨b, hb, h⟩ := h
    rw [bind_eq_ok] at h
    obtain ⟨bs, hbs, h⟩ := h
    cases h
    exact .cons hb (mapM_forall₂ hbs)

theorem mapM_succeeds {α β : Type} {f : α → Except String β} {l : List α}
    (h : ∀ x ∈ l, ∃ y, f x = .ok y) : ∃ r, l.mapM f = .ok r := by
  induction l with
  | nil => exact ⟨[], rfl⟩
  | cons a l ih =>
    obtain ⟨y, hy⟩ := h a List.mem_cons_self
    obtain ⟨r, hr⟩ := ih fun x hx => h x (List.mem_cons_of_mem _ hx)
    exact ⟨y :: r, by rw [List.mapM_cons, hy, ok_bind, hr]; rfl⟩

theorem mapM_range_ok {β : Type} {n : ℕ} {f : ℕ → Except String β} {l : List β}
    (h : (List.range n).mapM f = .ok l) : l.length = n ∧ ∀ i, ∀ hi : i < l.length, f i = .ok l[i] := by
  have h2 := mapM_forall₂ h
  have hlen : l.length = n := by simpa using h2.length_eq.symm
  refine ⟨hlen, fun i hi => ?_⟩
  have := h2.get (i := i) (by simpa using hlen ▸ hi) hi
  simpa using this

theorem placeOnce_ok {d : TrialDraws} {room center margin : P3} {n : ℕ} {moving : List ℕ}
    {moveDuration speedMin speedMax minRadius R : ℝ} {placed : List Placed} (hd : TrialDraws.Valid d n)
    (hmin : 0 ≤ minRadius) (hsp : speedMin ≤ speedMax)
    (h : placeOnce d room center margin n moving moveDuration speedMin speedMax minRadius R = .ok placed) :
    placed.length = n ∧ ∀ i, ∀ hi : i < placed.length,
      PlacedAs d room center margin n moving moveDuration speedMin speedMax minRadius R i placed[i] := by
  unfold placeOnce at h
  dsimp only at h
  rw [bind_eq_ok] at h
  obtain ⟨starts, hs, h⟩ := h
  obtain ⟨l1, g1⟩ := mapM_range_ok hs
  obtain ⟨l2, g2⟩ := mapM_range_ok h
  refine ⟨l2, fun i hi => ?_⟩
  have hi1 : i < starts.length := by omega
  obtain ⟨r, z, e, r1, r2, r3, z1, z2⟩ := samplePosition_ok (hd.radius i) (hd.height i) (g1 i hi1)
  have hget : starts.getD i ⟨0, 0, 0⟩ = around center r (azimuthOf d n i) z := by
    rw [List.getD_eq_getElem _ _ hi1]
    exact e
  have g := g2 i hi
  rw [hget] at g
  have hr0 : 0 ≤ r := le_trans hmin r1
  by_cases hm : i ∈ moving
  · rw [if_pos hm] at g
    obtain ⟨k1, k2, k3⟩ := moveSource_ok (hd.speed i) hsp hr0 g
    refine ⟨r, z, k1, k2, r1, r2, z1, z2, fun _ => ⟨r3 R (by simp [hm]), k3⟩, fun h => absurd hm h⟩
  · rw [if_neg hm] at g
    have g' := Except.ok.inj g
    refine ⟨r, z, ?_, ?_, r1, r2, z1, z2, fun h => absurd h hm, fun _ => ⟨?_, ?_, ?_⟩⟩
    all_goals rw [← g']
    · rfl
    · rfl
    · exact ⟨rfl, rfl, rfl⟩

theorem placeOnce_succeeds {d : TrialDraws} {room center margin : P3} {n : ℕ} {moving : List ℕ}
    {moveDuration speedMin speedMax minRadius R : ℝ} (hd : TrialDraws.Valid d n) (hmin : 1e-9 < minRadius)
    (hR : minRadius ≤ R) (hc : Clear center (areaOf room margin) R)
    (hz : (areaOf room margin).zmin < (areaOf room margin).zmax) :
    ∃ placed, placeOnce d room center margin n moving moveDuration speedMin speedMax minRadius R =
      .ok placed := by
  have hR0 : 0 ≤ R := le_trans (le_trans (by norm_num) hmin.le) hR
  unfold placeOnce
  dsimp only
  obtain ⟨starts, hs⟩ := mapM_succeeds (l := List.range n)
    (f := fun i => samplePosition (d.radius i) (d.height i) (azimuthOf d n i) center room margin minRadius
      (if i ∈ moving then some R else none))
    (fun i _ => samplePosition_succeeds hz (le_trans hR (maxRadius_ge hR0 hc)) (by
      intro m hm
      split_ifs at hm
      · cases hm
        exact hR
      · cases hm))
  unfold azimuthOf at hs
  rw [hs]
  obtain ⟨l1, g1⟩ := mapM_range_ok hs
  refine mapM_succeeds fun i hi => ?_
  rw [List.mem_range] at hi
  have hi1 : i < starts.length := by omega
  obtain ⟨r, z, e, r1, r2, r3, z1, z2⟩ := samplePosition_ok (hd.radius i) (hd.height i) (g1 i hi1)
  have hget : starts.getD i ⟨0, 0, 0⟩ = around center r (azimuthOf d n i) z := by
    rw [List.getD_eq_getElem _ _ hi1]
    exact e
  rw [hget]
  by_cases hm : i ∈ moving
  · rw [if_pos hm]
    exact moveSource_succeeds hmin r1 hc (r3 R (by simp [hm]))
  · rw [if_neg hm]
    exact ⟨_, rfl⟩

theorem tryPlace_ok {trial : TrialDraws → Except String (List Placed)} {draws : ℕ → TrialDraws} :
    ∀ {left k : ℕ} {p : List Placed}, tryPlace trial draws left k = .ok p → ∃ j, trial (draws j) = .ok p
  | 0, k, p, h => by cases h
  | left + 1, k, p, h => by
    unfold tryPlace at h
    cases ht : trial (draws k) with
    | ok q =>
      rw [ht] at h
      cases h
      exact ⟨k, ht⟩
    | error e =>
      rw [ht] at h
      exact tryPlace_ok h

/-- What the arguments of a successful placement satisfy. -/
structure Motion.Valid (m : Motion) : Prop where
  sources : 0 < m.nSources
  moving : 0 ≤ m.nMoving ∧ m.nMoving ≤ m.nSources
  ratios : 0 ≤ m.startRatio ∧ m.startRatio < m.endRatio ∧ m.endRatio ≤ 1
  speeds : 0 < m.speedMin ∧ m.speedMin ≤ m.speedMax
  duration : 0 < m.duration * (m.endRatio - m.startRatio)

theorem placeSources_ok {draws : ℕ → TrialDraws} {choice : List ℕ} {room center margin : P3} {m : Motion}
    {minRadius : ℝ} {maxTrials : ℕ} {placed : List Placed} {moving : List ℕ}
    (hd : ∀ k, TrialDraws.Valid (draws k) m.nSources.toNat) (hmin : 0 ≤ minRadius)
    (hch : ChoiceOf choice m.nSources.toNat m.nMoving.toNat)
    (h : placeSources draws choice room center margin m minRadius maxTrials = .ok (placed, moving)) :
    Motion.Valid m ∧ Clear center (areaOf room margin) minRadius ∧ moving.Perm choice ∧
      placed.length = m.nSources.toNat ∧ ∃ j, ∀ i, ∀ hi : i < placed.length,
        PlacedAs (draws j) room center margin m.nSources.toNat moving
          (m.duration * (m.endRatio - m.startRatio)) m.speedMin m.speedMax minRadius
          (maxUniformRadius center (areaOf room margin)) i placed[i] := by
  unfold placeSources at h
  dsimp only at h
  split_ifs at h with h1 h2 h3 h4 h5 h6 h7
  · have hv : Motion.Valid m := ⟨by omega, by omega, h3, ⟨by push Not at h4; exact h4.1, by push Not at h4; exact h4.2⟩,
      not_le.mp h5⟩
    cases ht : tryPlace (fun d => placeOnce d room center margin m.nSources.toNat (choice.mergeSort (· ≤ ·))
        (m.duration * (m.endRatio - m.startRatio)) m.speedMin m.speedMax minRadius
        (maxUniformRadius center (areaOf room margin))) draws maxTrials 0 with
    | error e =>
      rw [ht] at h
      cases h
    | ok p =>
      rw [ht] at h
      obtain ⟨rfl, rfl⟩ : p = placed ∧ choice.mergeSort (· ≤ ·) = moving := by simpa [Except.map] using h
      obtain ⟨j, hj⟩ := tryPlace_ok ht
      obtain ⟨k1, k2⟩ := placeOnce_ok (hd j) hmin hv.speeds.2 hj
      exact ⟨hv, (maxUniformRadius_le _ _ _).mp (not_lt.mp h6), List.mergeSort_perm _ _, k1, j, k2⟩
  · have hv : Motion.Valid m := ⟨by omega, by omega, h3, ⟨by push Not at h4; exact h4.1, by push Not at h4; exact h4.2⟩,
      not_le.mp h5⟩
    cases ht : tryPlace (fun d => placeOnce d room center margin m.nSources.toNat []
        (m.duration * (m.endRatio - m.startRatio)) m.speedMin m.speedMax minRadius
        (maxUniformRadius center (areaOf room margin))) draws maxTrials 0 with
    | error e =>
      rw [ht] at h
      cases h
    | ok p =>
      rw [ht] at h
      obtain ⟨rfl, rfl⟩ : p = placed ∧ [] = moving := by simpa [Except.map] using h
      obtain ⟨j, hj⟩ := tryPlace_ok ht
      obtain ⟨k1, k2⟩ := placeOnce_ok (hd j) hmin hv.speeds.2 hj
      refine ⟨hv, (maxUniformRadius_le _ _ _).mp (not_lt.mp h6), ?_, k1, j, k2⟩
      have : choice = [] := List.eq_nil_of_length_eq_zero (by rw [hch.length]; omega)
      rw [this]

end Torchrir.Lemmas
