import Verif.Lemmas.Plan
import Verif.Spec.Directivity
import Mathlib.Algebra.BigOperators.Field

/-! # Orientations and directional gains -/

namespace Torchrir.Lemmas

open Torchrir.Model
open Torchrir.Spec

theorem omni_lower : "omni".toLower ∈ Pattern.omni.names := by
  have : "omni".toLower = "omni" := by
    apply String.toList_inj.mp
    simp [String.toLower, String.toList_map]
  rw [this]
  decide

theorem directivityGain_of_name (p : Pattern) (name : String) (h : name.toLower ∈ p.names) (c : ℝ) :
    directivityGain name c = .ok (p.gain c) := by
  unfold directivityGain
  generalize name.toLower = q at h ⊢
  cases p <;> simp only [Pattern.names, List.mem_cons, List.not_mem_nil, or_false] at h
  · rcases h with rfl | rfl <;> simp [Pattern.gain]
  · rcases h with rfl | rfl | rfl <;> simp [Pattern.gain]
  · rcases h with rfl | rfl <;> simp [Pattern.gain] <;> norm_num
  · rcases h with rfl | rfl <;> simp [Pattern.gain] <;> norm_num
  · rcases h with rfl | rfl <;> simp [Pattern.gain] <;> norm_num
  · rcases h with rfl | rfl | rfl | rfl <;> simp [Pattern.gain]

theorem directivityGain_iff (name : String) (c g : ℝ) :
    directivityGain name c = .ok g ↔ ∃ p : Pattern, name.toLower ∈ p.names ∧ g = p.gain c := by
  constructor
  · intro h
    have key : ∃ p : Pattern, name.toLower ∈ p.names := by
      unfold directivityGain at h
      simp only at h
      split at h
      · exact ⟨.omni, by assumption⟩
      split at h
      · exact ⟨.halfOmni, by assumption⟩
      split at h
      · exact ⟨.subcardioid, by assumption⟩
      split at h
      · exact ⟨.cardioid, by assumption⟩
      split at h
      · exact ⟨.hypercardioid, by assumption⟩
      split at h
      · exact ⟨.bidirectional, by assumption⟩
      cases h
    obtain ⟨p, hp⟩ := key
    rw [directivityGain_of_name p name hp] at h
    exact ⟨p, hp, (Except.ok.inj h).symm⟩
  · rintro ⟨p, hp, rfl⟩
    exact directivityGain_of_name p name hp c

/-- Euclidean norm. -/
noncomputable def fnorm {d : ℕ} (v : Fin d → ℝ) : ℝ := Real.sqrt (∑ i, v i ^ 2)

theorem norm2_ofFn' {d : ℕ} (v : Fin d → ℝ) : norm2 (List.ofFn v) = fnorm v := norm2_ofFn v

theorem normalizeVec_ofFn {d : ℕ} (v : Fin d → ℝ) :
    normalizeVec (List.ofFn v) = List.ofFn fun i => v i / max (fnorm v) (1e-8) := by
  unfold normalizeVec
  rw [norm2_ofFn', List.map_ofFn]
  rfl

theorem fnorm_div {d : ℕ} (v : Fin d → ℝ) (a : ℝ) (ha : 0 < a) :
    fnorm (fun i => v i / a) = fnorm v / a := by
  unfold fnorm
  simp only [div_pow]
  rw [← Finset.sum_div, Real.sqrt_div (Finset.sum_nonneg fun i _ => sq_nonneg _),
    Real.sqrt_sq ha.le]

theorem normalizeVec_unit {d : ℕ} (v : Fin d → ℝ) (h : 1e-8 ≤ fnorm v) :
    normalizeVec (List.ofFn v) = List.ofFn fun i => v i / fnorm v := by
  rw [normalizeVec_ofFn, max_eq_left h]

theorem fnorm_unit {d : ℕ} (v : Fin d → ℝ) (h : 0 < fnorm v) : fnorm (fun i => v i / fnorm v) = 1 := by
  rw [fnorm_div _ _ h, div_self h.ne']

theorem normalizeVec_twice {d : ℕ} (v : Fin d → ℝ) (h : 1e-8 ≤ fnorm v) :
    normalizeVec (normalizeVec (List.ofFn v)) = normalizeVec (List.ofFn v) := by
  have hp : 0 < fnorm v := lt_of_lt_of_le (by norm_num) h
  rw [normalizeVec_unit v h, normalizeVec_unit _ (by rw [fnorm_unit v hp]; norm_num),
    fnorm_unit v hp]
  simp

theorem dot_ofFn {d : ℕ} (v u : Fin d → ℝ) : dot (List.ofFn v) (List.ofFn u) = ∑ i, v i * u i := by
  unfold dot
  rw [zipWith_ofFn, List.sum_ofFn]

theorem fnorm_pos {d : ℕ} {v : Fin d → ℝ} (h : v ≠ 0) : 0 < fnorm v := by
  unfold fnorm
  apply Real.sqrt_pos.mpr
  obtain ⟨i, hi⟩ := Function.ne_iff.mp h
  exact Finset.sum_pos' (fun j _ => sq_nonneg _) ⟨i, Finset.mem_univ _, by
    have : v i ≠ 0 := hi
    positivity⟩

theorem cosBetween_eq {d : ℕ} (v u : Fin d → ℝ) (hv : v ≠ 0) (hu : 1e-8 ≤ fnorm u) :
    cosBetween (List.ofFn v) (normalizeVec (List.ofFn u)) = some (cosAngle v u) := by
  have hp := fnorm_pos hv
  have hq : 0 < fnorm u := lt_of_lt_of_le (by norm_num) hu
  unfold cosBetween
  rw [norm2_ofFn', if_neg hp.ne', normalizeVec_twice u hu, normalizeVec_unit u hu, List.map_ofFn,
    dot_ofFn]
  congr 1
  unfold cosAngle
  rw [Finset.sum_div]
  apply Finset.sum_congr rfl
  intro i _
  show v i / fnorm v * (u i / fnorm u) = v i * u i / (fnorm v * fnorm u)
  rw [div_mul_div_comm]

theorem directivityGainNaN_of_name (p : Pattern) (name : String) (h : name.toLower ∈ p.names) :
    (p.usesCosine = false → directivityGainNaN name = .ok (p.gain 0)) ∧
      (p.usesCosine = true → ∀ g, directivityGainNaN name ≠ .ok g) := by
  unfold directivityGainNaN
  generalize name.toLower = q at h ⊢
  cases p <;> simp only [Pattern.names, List.mem_cons, List.not_mem_nil, or_false] at h
  · rcases h with rfl | rfl <;> simp [Pattern.gain, Pattern.usesCosine]
  · rcases h with rfl | rfl | rfl <;> simp [Pattern.gain, Pattern.usesCosine]
  · rcases h with rfl | rfl <;> simp [Pattern.usesCosine]
  · rcases h with rfl | rfl <;> simp [Pattern.usesCosine]
  · rcases h with rfl | rfl <;> simp [Pattern.usesCosine]
  · rcases h with rfl | rfl | rfl | rfl <;> simp [Pattern.usesCosine]

theorem cosBetween_zero (d : ℕ) (o : Vec) : cosBetween (List.ofFn (0 : Fin d → ℝ)) o = none := by
  unfold cosBetween
  rw [norm2_ofFn', if_pos (by simp [fnorm])]

theorem cosAngle_zero {d : ℕ} (u : Fin d → ℝ) : cosAngle 0 u = 0 := by
  unfold cosAngle
  simp

theorem deviceGain_eq {d : ℕ} (p : Pattern) (name : String) (h : name.toLower ∈ p.names)
    (v u : Fin d → ℝ) (hv : v ≠ 0 ∨ p.usesCosine = false) (hu : 1e-8 ≤ fnorm u) :
    deviceGain name (List.ofFn v) (normalizeVec (List.ofFn u)) = .ok (p.towards u v) := by
  unfold deviceGain Pattern.towards
  by_cases ho : name = "omni"
  · subst ho
    rw [if_pos rfl]
    have h1 := directivityGain_of_name p "omni" h (cosAngle v u)
    have h2 := directivityGain_of_name .omni "omni" omni_lower (cosAngle v u)
    rw [h2] at h1
    exact h1
  · rw [if_neg ho, if_neg (by rw [normalizeVec_ofFn]; simp)]
    by_cases h0 : v = 0
    · subst h0
      rw [cosBetween_zero, cosAngle_zero]
      exact (directivityGainNaN_of_name p name h).1 (hv.resolve_left (by simp))
    · rw [cosBetween_eq v u h0 hu]
      exact directivityGain_of_name p name h _

theorem tensor2_lastAxisRows {n d : ℕ} (f : Fin n → Fin d → ℝ) :
    (tensor2 f).lastAxisRows = List.ofFn fun i => List.ofFn (f i) := by
  have h := tensor2_rows f
  unfold Tensor.rows tensor2 at h
  unfold Tensor.lastAxisRows tensor2
  simpa using h

theorem orientationToUnit_tensor2 {n d : ℕ} (hd : d = 2 ∨ d = 3) (u : Fin n → Fin d → ℝ) :
    orientationToUnit (tensor2 u) d
      = .ok ⟨[n, d], (List.ofFn fun s => normalizeVec (List.ofFn (u s))).flatten⟩ := by
  have e : normalizeOrientation (tensor2 u)
      = ⟨[n, d], (List.ofFn fun s => normalizeVec (List.ofFn (u s))).flatten⟩ := by
    unfold normalizeOrientation
    rw [tensor2_lastAxisRows, List.map_ofFn]
    rfl
  rw [← e]
  unfold orientationToUnit
  rcases hd with rfl | rfl
  · simp [tensor2, Tensor.ndim]
  · simp [tensor2, Tensor.ndim]

theorem rows_of_flatten {n d : ℕ} (r : Fin n → List ℝ) (h : ∀ i, (r i).length = d) :
    (⟨[n, d], (List.ofFn r).flatten⟩ : Tensor ℝ).rows = List.ofFn r := by
  unfold Tensor.rows
  simp only
  apply groups_flatten
  · simp
  · intro x hx
    obtain ⟨i, rfl⟩ := (List.mem_ofFn' _ _).mp hx
    exact h i

theorem resolveSrcDirs_tensor2 {n d : ℕ} (hd : d = 2 ∨ d = 3) (u : Fin n → Fin d → ℝ) (sp : String)
    (h : sp ≠ "omni") :
    resolveSrcDirs sp (some (tensor2 u)) d n
      = .ok (some (List.ofFn fun s => normalizeVec (List.ofFn (u s)))) := by
  unfold resolveSrcDirs
  rw [if_neg h]
  simp only
  rw [orientationToUnit_tensor2 hd, ok_bind]
  rw [if_neg (by simp [Tensor.ndim]), if_neg (by simp [Tensor.ndim]),
    rows_of_flatten _ (by simp [normalizeVec])]
  rfl

theorem resolveMicDir_tensor2 {n d : ℕ} (hd : d = 2 ∨ d = 3) (u : Fin n → Fin d → ℝ) (mp : String)
    (h : mp ≠ "omni") :
    resolveMicDir mp (some (tensor2 u)) d
      = .ok (some (.perMic (List.ofFn fun s => normalizeVec (List.ofFn (u s))))) := by
  unfold resolveMicDir
  rw [if_neg h]
  simp only
  rw [orientationToUnit_tensor2 hd, ok_bind]
  rw [if_pos (by simp [Tensor.ndim]), rows_of_flatten _ (by simp [normalizeVec])]
  rfl

theorem resolveSrcDirs_omni (o : Option (Tensor ℝ)) (d n : ℕ) :
    resolveSrcDirs "omni" o d n = .ok none := rfl

theorem resolveMicDir_omni (o : Option (Tensor ℝ)) (d : ℕ) :
    resolveMicDir "omni" o d = .ok none := rfl

theorem getD_ofFn {n : ℕ} {α : Type} (f : Fin n → α) (i : Fin n) (x : α) :
    (List.ofFn f).getD i x = f i := by
  simp [List.getD_eq_getElem?_getD]

end Torchrir.Lemmas
