import Verif.Props.Pairs
import Mathlib.Algebra.Order.Chebyshev

/-!
# C33, C34: directivity patterns
-/

namespace Torchrir.Props

open Torchrir.Model Torchrir.Spec Torchrir.Lemmas

/-! ## C33 -/

/-- **C33, names.** A name is accepted exactly when, in lower case, it is one of the names of a
pattern, and it then gives the gain of that pattern. -/
theorem C33_accepted_names (name : String) (c g : ℝ) :
    directivityGain name c = .ok g ↔ ∃ p : Pattern, name.toLower ∈ p.names ∧ g = p.gain c :=
  directivityGain_iff name c g

/-- **C33, letter case.** Names that differ in letter case only are treated alike. -/
theorem C33_case_insensitive (a b : String) (h : a.toLower = b.toLower) (c : ℝ) :
    directivityGain a c = directivityGain b c := by
  unfold directivityGain
  rw [h]

/-- **C33, on axis.** The gain straight ahead is 1. -/
theorem C33_unit_on_axis (name : String) (g : ℝ) (h : directivityGain name 1 = .ok g) : g = 1 := by
  obtain ⟨p, -, rfl⟩ := (directivityGain_iff _ _ _).mp h
  cases p <;> simp [Pattern.gain] <;> norm_num

/-- **C33, range.** The gain lies in `[-1, 1]` in every direction. -/
theorem C33_gain_bounded (name : String) (c g : ℝ) (hc : |c| ≤ 1)
    (h : directivityGain name c = .ok g) : |g| ≤ 1 := by
  obtain ⟨p, -, rfl⟩ := (directivityGain_iff _ _ _).mp h
  obtain ⟨h1, h2⟩ := abs_le.mp hc
  rw [abs_le]
  cases p <;> simp only [Pattern.gain]
  · norm_num
  · split_ifs <;> norm_num
  all_goals constructor <;> linarith

/-- The patterns without a negative lobe. -/
def Pattern.NoNegativeLobe : Pattern → Prop
  | .omni | .halfOmni | .subcardioid | .cardioid => True
  | .hypercardioid | .bidirectional => False

/-- **C33, sign.** Exactly the omni, half-omni, subcardioid and cardioid patterns are non-negative in
every direction. -/
theorem C33_nonnegative_iff (p : Pattern) (name : String) (hn : name.toLower ∈ p.names) :
    (∀ c g, |c| ≤ 1 → directivityGain name c = .ok g → 0 ≤ g) ↔ Pattern.NoNegativeLobe p := by
  constructor
  · intro h
    have := h (-1) (p.gain (-1)) (by simp) (directivityGain_of_name p name hn _)
    cases p <;> simp only [Pattern.NoNegativeLobe] <;> simp only [Pattern.gain] at this <;> linarith
  · intro hp c g hc h
    rw [directivityGain_of_name p name hn] at h
    obtain ⟨h1, h2⟩ := abs_le.mp hc
    rw [← Except.ok.inj h]
    cases p <;> simp only [Pattern.NoNegativeLobe] at hp <;> simp only [Pattern.gain]
    · norm_num
    · split_ifs <;> norm_num
    all_goals linarith

theorem cosAngle_mem {d : ℕ} (v u : Fin d → ℝ) : |cosAngle v u| ≤ 1 := by
  unfold cosAngle
  rw [abs_div, abs_of_nonneg (a := _ * _) (by positivity)]
  apply div_le_one_of_le₀ _ (by positivity)
  rw [← Real.sqrt_mul (Finset.sum_nonneg fun i _ => sq_nonneg _)]
  apply Real.abs_le_sqrt
  exact Finset.sum_mul_sq_le_sq_mul_sq _ _ _

theorem cosAngle_same {d : ℕ} (u : Fin d → ℝ) (hu : 0 < fnorm u) (a : ℝ) (ha : 0 < a) :
    cosAngle (a • u) u = 1 := by
  unfold cosAngle
  have e : ∑ i, u i ^ 2 = fnorm u ^ 2 := by
    unfold fnorm
    rw [Real.sq_sqrt (Finset.sum_nonneg fun i _ => sq_nonneg _)]
  have e1 : ∑ i, (a • u) i * u i = a * fnorm u ^ 2 := by
    rw [← e, Finset.mul_sum]
    exact Finset.sum_congr rfl fun i _ => by simp; ring
  have e2 : Real.sqrt (∑ i, (a • u) i ^ 2) = a * fnorm u := by
    have : ∑ i, (a • u) i ^ 2 = (a * fnorm u) ^ 2 := by
      rw [mul_pow, ← e, Finset.mul_sum]
      exact Finset.sum_congr rfl fun i _ => by simp; ring
    rw [this, Real.sqrt_sq (by positivity)]
  rw [e1, e2]
  change _ / (_ * fnorm u) = 1
  field_simp

/-- **C33, devices.** The gain of a device with axis `u` towards `v`, as the simulators evaluate it,
is the pattern at the angle between the two; it lies in `[-1, 1]`, and it is 1 on the axis. -/
theorem C33_device_gain {d : ℕ} (p : Pattern) (name : String) (hn : name.toLower ∈ p.names)
    (v u : Fin d → ℝ) (hv : v ≠ 0) (hu : 1e-8 ≤ Real.sqrt (∑ i, u i ^ 2)) :
    ∃ g, deviceGain name (List.ofFn v) (normalizeVec (List.ofFn u)) = .ok g ∧
      g = p.gain (cosAngle v u) ∧ |g| ≤ 1 ∧ ∀ a : ℝ, 0 < a → v = a • u → g = 1 := by
  refine ⟨_, deviceGain_eq p name hn v u (Or.inl hv) hu, rfl, ?_, ?_⟩
  · exact C33_gain_bounded name _ _ (cosAngle_mem v u) (directivityGain_of_name p name hn _)
  · rintro a ha rfl
    unfold Pattern.towards
    rw [cosAngle_same u (lt_of_lt_of_le (by norm_num) hu) a ha]
    exact C33_unit_on_axis name _ (directivityGain_of_name p name hn _)

/-- **C33, pairs of names.** One name is used for both sides; a tuple must have two names. -/
theorem C33_pair_of_names (a : DirArg) (s m : String) :
    splitDirectivity a = .ok (s, m) ↔ a = .tuple [s, m] ∨ s = m ∧ a = .one s := by
  rcases a with x | l
  · simp only [splitDirectivity, Except.ok.injEq, Prod.mk.injEq, reduceCtorEq, DirArg.one.injEq,
      false_or]
    constructor
    · rintro ⟨rfl, rfl⟩; exact ⟨rfl, rfl⟩
    · rintro ⟨rfl, rfl⟩; exact ⟨rfl, rfl⟩
  · rcases l with _ | ⟨x, _ | ⟨y, _ | ⟨z, l⟩⟩⟩ <;> simp [splitDirectivity]

theorem lower_FIGURE8 : "FIGURE-8".toLower = "figure-8" := by
  apply String.toList_inj.mp; simp [String.toLower, String.toList_map]

example : directivityGain "FIGURE-8" (-1) = .ok (-1) :=
  (C33_accepted_names _ _ _).mpr ⟨.bidirectional, by rw [lower_FIGURE8]; decide, rfl⟩

example : ¬ ∃ g, directivityGain "shotgun" 0 = .ok g := by
  rintro ⟨g, h⟩
  obtain ⟨p, hp, -⟩ := (C33_accepted_names _ _ _).mp h
  rw [show "shotgun".toLower = "shotgun" by
    apply String.toList_inj.mp; simp [String.toLower, String.toList_map]] at hp
  cases p <;> exact absurd hp (by decide)

example : ∃ g, deviceGain "FIGURE-8" (List.ofFn ![6, 8]) (normalizeVec (List.ofFn ![3, 4])) = .ok g
    ∧ g = 1 := by
  obtain ⟨g, h, -, -, h1⟩ := C33_device_gain .bidirectional "FIGURE-8"
    (by rw [lower_FIGURE8]; decide) ![6, 8] ![3, 4] (by intro h; simpa using congrFun h 0)
    (by apply Real.le_sqrt_of_sq_le; simp [Fin.sum_univ_two]; norm_num)
  refine ⟨g, h, h1 2 (by norm_num) ?_⟩
  funext i
  fin_cases i <;> simp <;> norm_num

/-! ## C34 -/

/-- **C34 fails.** A spelling of the omnidirectional pattern other than the literal `"omni"` (for
example `"omnidirectional"` or `"Omni"`) is accepted as a name of the pattern but cannot be simulated
without orientations. -/
theorem C34_other_spellings_fails (name : String) (hne : name ≠ "omni") (w : World) (room : Room)
    (sources mics : Entity) (_hs : sources.orientation = none) (hm : mics.orientation = none)
    (a : SimArgs) (ho : a.orientation = none) (hdir : a.directivity = some (.one name)) (r : Tensor ℝ) :
    simulateRir w room sources mics a ≠ .ok r := by
  intro h
  unfold simulateRir at h
  obtain ⟨⟨cfg, N, tmax, dir⟩, hres, h⟩ := (bind_eq_ok _ _ _).mp h
  have hd : dir = .one name := by
    unfold resolveConfig at hres
    obtain ⟨_, _, hres⟩ := (bind_eq_ok _ _ _).mp hres
    obtain ⟨_, _, hres⟩ := (bind_eq_ok _ _ _).mp hres
    have := Except.ok.inj hres
    simp only [Prod.mk.injEq] at this
    rw [← this.2.2.2, hdir]
    rfl
  subst hd
  dsimp only at h
  obtain ⟨_, _, h⟩ := (bind_eq_ok _ _ _).mp h
  obtain ⟨⟨p1, o1⟩, h1, h⟩ := (bind_eq_ok _ _ _).mp h
  dsimp only at h
  obtain ⟨⟨p2, o2⟩, h2, h⟩ := (bind_eq_ok _ _ _).mp h
  dsimp only at h
  have e2 : o2 = none := by
    rw [ho] at h2
    have := Except.ok.inj h2
    simp only [Prod.mk.injEq] at this
    rw [← this.2, hm]
  subst e2
  obtain ⟨_, _, h⟩ := (bind_eq_ok _ _ _).mp h
  obtain ⟨_, _, h⟩ := (bind_eq_ok _ _ _).mp h
  obtain ⟨_, _, h⟩ := (bind_eq_ok _ _ _).mp h
  obtain ⟨_, _, h⟩ := (bind_eq_ok _ _ _).mp h
  obtain ⟨⟨s, m⟩, h3, h⟩ := (bind_eq_ok _ _ _).mp h
  dsimp only at h
  have e3 : m = name := by
    have := Except.ok.inj h3
    simp only [Prod.mk.injEq] at this
    exact this.2.symm
  obtain ⟨_, h4, _⟩ := (bind_eq_ok _ _ _).mp h
  unfold resolveMicDir at h4
  rw [e3, if_neg hne] at h4
  cases h4

theorem lower_long : "omnidirectional".toLower = "omnidirectional" := by
  apply String.toList_inj.mp; simp [String.toLower, String.toList_map]

theorem lower_OMNI : "OMNI".toLower = "omni" := by
  apply String.toList_inj.mp; simp [String.toLower, String.toList_map]

/-- Two names of the omnidirectional pattern for which the request fails although the literal
`"omni"` simulates. -/
example (w : World) (name : String) (hn : name = "omnidirectional" ∨ name = "OMNI") :
    (∀ c, directivityGain name c = .ok 1) ∧
    (∀ r, simulateRir w (boxRoom ![4, 5] ![0.9, 0.8] ![0.7, 0.6] 16000 343) (points ![![1, 2]])
      (points ![![3, 4]]) { omniArgs (d := 2) (.order 3) 1000 { rirHpfEnable := false } with
        directivity := some (.one name) } ≠ .ok r) ∧
    ∃ r, simulateRir w (boxRoom ![4, 5] ![0.9, 0.8] ![0.7, 0.6] 16000 343) (points ![![1, 2]])
      (points ![![3, 4]]) (omniArgs (d := 2) (.order 3) 1000 { rirHpfEnable := false }) = .ok r := by
  refine ⟨fun c => ?_, fun r => ?_, _, C05_static_rir_formula (Or.inl rfl) (by norm_num)
    (by norm_num) w _ _ _ _ _ (by norm_num) (by norm_num) _ _ (by norm_num) _ plainConfig_valid rfl _ _⟩
  · apply directivityGain_of_name .omni
    rcases hn with rfl | rfl
    · rw [lower_long]; decide
    · rw [lower_OMNI]; decide
  · refine C34_other_spellings_fails name ?_ w _ _ _ rfl rfl _ rfl rfl r
    rcases hn with rfl | rfl <;> decide

end Torchrir.Props
