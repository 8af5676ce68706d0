import Verif.Model.Images
import Verif.Spec.Ism
import Verif.Lemmas.Lists
import Mathlib.Data.List.OfFn
import Mathlib.Data.List.Forall2
import Mathlib.Algebra.BigOperators.Fin
import Mathlib.Tactic.Ring
import Mathlib.Tactic.Linarith

/-! # Image index sets, positions and gains -/

namespace Torchrir.Lemmas

open Torchrir.Model Torchrir.Spec

/-! ## Index sets -/

theorem symRange_ok (n : ℕ) : ∃ l, symRange n = .ok l ∧ l.Nodup ∧
    (∀ x : ℤ, x ∈ l ↔ -(n : ℤ) ≤ x ∧ x ≤ n) := by
  refine ⟨_, by rw [symRange, if_neg (by omega)], ?_, ?_⟩
  · apply List.Nodup.map
    · intro a b h; simp only at h; omega
    · exact List.nodup_range
  · intro x
    simp only [List.mem_map, List.mem_range, Int.toNat_natCast]
    constructor
    · rintro ⟨i, hi, rfl⟩; omega
    · intro h; exact ⟨(x + n).toNat, by omega, by omega⟩

theorem mem_meshgrid : ∀ (rs : List (List ℤ)) (v : List ℤ),
    v ∈ meshgrid rs ↔ List.Forall₂ (· ∈ ·) v rs
  | [], v => by simp [meshgrid]
  | r :: rs, v => by
    rw [meshgrid, List.mem_flatMap, List.forall₂_cons_right_iff]
    constructor
    · rintro ⟨x, hx, hv⟩
      obtain ⟨w, hw, rfl⟩ := List.mem_map.mp hv
      exact ⟨x, w, hx, (mem_meshgrid rs w).mp hw, rfl⟩
    · rintro ⟨x, w, hx, hw, rfl⟩
      exact ⟨x, hx, List.mem_map.mpr ⟨w, (mem_meshgrid rs w).mpr hw, rfl⟩⟩

theorem nodup_meshgrid : ∀ (rs : List (List ℤ)), (∀ r ∈ rs, r.Nodup) → (meshgrid rs).Nodup
  | [], _ => by simp [meshgrid]
  | r :: rs, h => by
    rw [meshgrid, List.nodup_flatMap]
    constructor
    · intro x _
      exact (nodup_meshgrid rs fun r hr => h r (by simp [hr])).map
        (fun a b hab => (List.cons.inj hab).2)
    · refine List.Pairwise.imp ?_ (h r (by simp))
      intro a b hab
      rw [Function.onFun, List.disjoint_left]
      intro v hv hv'
      obtain ⟨w, _, rfl⟩ := List.mem_map.mp hv
      obtain ⟨w', _, h'⟩ := List.mem_map.mp hv'
      exact hab (List.cons.inj h').1.symm

/-- `nVec` lists every element of `A` exactly once (as coordinate lists). -/
def IsImageList {d : ℕ} (nVec : List (List ℤ)) (A : Finset (Fin d → ℤ)) : Prop :=
  nVec.Nodup ∧ ∀ v, v ∈ nVec ↔ ∃ n ∈ A, List.ofFn n = v

theorem IsImageList.sum {d : ℕ} {nVec : List (List ℤ)} {A : Finset (Fin d → ℤ)}
    (h : IsImageList nVec A) (f : List ℤ → ℝ) :
    (nVec.map f).sum = ∑ n ∈ A, f (List.ofFn n) := by
  rw [← List.sum_toFinset f h.1]
  symm
  apply Finset.sum_bij (fun n _ => List.ofFn n)
  · intro n hn; rw [List.mem_toFinset, h.2]; exact ⟨n, hn, rfl⟩
  · intro a _ b _ hab; exact List.ofFn_injective hab
  · intro v hv
    rw [List.mem_toFinset, h.2] at hv
    obtain ⟨n, hn, hv⟩ := hv
    exact ⟨n, hn, hv⟩
  · intros; rfl

theorem IsImageList.length {d : ℕ} {nVec : List (List ℤ)} {A : Finset (Fin d → ℤ)}
    (h : IsImageList nVec A) : nVec.length = A.card := by
  have := h.sum (fun _ => 1)
  simp at this
  exact_mod_cast this

theorem forall₂_ofFn {d : ℕ} (v : List ℤ) (rs : Fin d → List ℤ) :
    List.Forall₂ (· ∈ ·) v (List.ofFn rs) ↔
      ∃ n : Fin d → ℤ, List.ofFn n = v ∧ ∀ i, n i ∈ rs i := by
  constructor
  · intro h
    have hlen : v.length = d := by simpa using h.length_eq
    subst hlen
    refine ⟨fun i => v[i], by simp, ?_⟩
    intro i
    have := (List.forall₂_iff_get.mp h).2 i i.2 (by simp)
    simpa using this
  · rintro ⟨n, rfl, h⟩
    rw [List.forall₂_iff_get]
    refine ⟨by simp, ?_⟩
    intro i h1 h2
    simpa using h _

theorem sum_abs_ofFn {d : ℕ} (n : Fin d → ℤ) :
    ((List.ofFn n).map fun i => |i|).sum = ∑ i, |n i| := by
  rw [List.map_ofFn, List.sum_ofFn]; rfl

theorem abs_le_of_sum_le {d : ℕ} {n : Fin d → ℤ} {N : ℤ} (h : ∑ i, |n i| ≤ N) (i : Fin d) :
    -N ≤ n i ∧ n i ≤ N := by
  have h1 : |n i| ≤ ∑ j, |n j| :=
    Finset.single_le_sum (f := fun j => |n j|) (fun j _ => abs_nonneg _) (Finset.mem_univ i)
  exact abs_le.mp (h1.trans h)

theorem imageSourceIndices_order (d N : ℕ) :
    ∃ l, imageSourceIndices N d none = .ok l ∧ IsImageList l (orderSet d N) := by
  obtain ⟨r, hr, hnd, hmem⟩ := symRange_ok N
  refine ⟨_, by unfold imageSourceIndices; simp only []; rw [hr]; rfl, ?_, ?_⟩
  · apply List.Nodup.filter
    apply nodup_meshgrid
    intro x hx
    rw [List.eq_of_mem_replicate hx]; exact hnd
  · intro v
    have hrep : List.replicate d r = List.ofFn fun _ : Fin d => r := by simp [List.ofFn_const]
    rw [List.mem_filter, mem_meshgrid, hrep, forall₂_ofFn]
    constructor
    · rintro ⟨⟨n, rfl, hn⟩, hs⟩
      refine ⟨n, ?_, rfl⟩
      rw [decide_eq_true_eq, sum_abs_ofFn] at hs
      simp only [orderSet, Finset.mem_filter, Fintype.mem_piFinset, Finset.mem_Icc]
      exact ⟨fun i => (hmem _).mp (hn i), hs⟩
    · rintro ⟨n, hn, rfl⟩
      simp only [orderSet, Finset.mem_filter, Fintype.mem_piFinset, Finset.mem_Icc] at hn
      refine ⟨⟨n, rfl, fun i => (hmem _).mpr (hn.1 i)⟩, ?_⟩
      rw [decide_eq_true_eq, sum_abs_ofFn]
      exact hn.2

theorem mapM_symRange {d : ℕ} (nb : Fin d → ℕ) :
    ∃ rs : Fin d → List ℤ, (List.ofFn fun i => (nb i : ℤ)).mapM symRange = .ok (List.ofFn rs) ∧
      (∀ i, (rs i).Nodup) ∧ ∀ i x, x ∈ rs i ↔ -(nb i : ℤ) ≤ x ∧ x ≤ nb i := by
  have h := fun n : ℕ => symRange_ok n
  choose g hg1 hg2 hg3 using h
  refine ⟨fun i => g (nb i), ?_, fun i => hg2 _, fun i x => hg3 _ x⟩
  have : (List.ofFn fun i => (nb i : ℤ)) = (List.ofFn nb).map (fun n : ℕ => (n : ℤ)) := by
    rw [List.map_ofFn]; rfl
  rw [this, List.mapM_map, mapM_ok (g := g)]
  · rw [List.map_ofFn]; rfl
  · intro x _; exact hg1 x

theorem imageSourceIndices_box (m : ℤ) {d : ℕ} (nb : Fin d → ℕ) :
    ∃ l, imageSourceIndices m d (some (List.ofFn fun i => (nb i : ℤ))) = .ok l ∧
      IsImageList l (boxSet nb) := by
  obtain ⟨rs, h1, h2, h3⟩ := mapM_symRange nb
  refine ⟨meshgrid (List.ofFn rs), ?_, ?_, ?_⟩
  · unfold imageSourceIndices
    simp only [List.length_ofFn, ne_eq, not_true, if_false]
    rw [h1]; rfl
  · apply nodup_meshgrid
    intro r hr
    obtain ⟨i, rfl⟩ := (List.mem_ofFn' _ _).mp hr
    exact h2 i
  · intro v
    rw [mem_meshgrid, forall₂_ofFn]
    constructor
    · rintro ⟨n, rfl, hn⟩
      refine ⟨n, ?_, rfl⟩
      simp only [boxSet, Fintype.mem_piFinset, Finset.mem_Icc]
      exact fun i => (h3 _ _).mp (hn i)
    · rintro ⟨n, hn, rfl⟩
      simp only [boxSet, Fintype.mem_piFinset, Finset.mem_Icc] at hn
      exact ⟨n, rfl, fun i => (h3 _ _).mpr (hn i)⟩

/-! ## Positions and gains -/

theorem mirrored_closed (L s : ℝ) (j : ℕ) :
    mirrored L s (2 * j) .hi = 2 * L * j + s ∧
    mirrored L s (2 * j) .lo = -(2 * L * j) + s ∧
    mirrored L s (2 * j + 1) .hi = 2 * L * (j + 1) - s ∧
    mirrored L s (2 * j + 1) .lo = -(2 * L * j) - s := by
  induction j with
  | zero => simp [mirrored]
  | succ j ih =>
    obtain ⟨_, _, h3, h4⟩ := ih
    have a1 : mirrored L s (2 * (j + 1)) .hi = 2 * L * ((j + 1 : ℕ) : ℝ) + s := by
      rw [show 2 * (j + 1) = 2 * j + 1 + 1 by ring, mirrored, h4]; push_cast; ring
    have a2 : mirrored L s (2 * (j + 1)) .lo = -(2 * L * ((j + 1 : ℕ) : ℝ)) + s := by
      rw [show 2 * (j + 1) = 2 * j + 1 + 1 by ring, mirrored, h3]; push_cast; ring
    refine ⟨a1, a2, ?_, ?_⟩
    · rw [mirrored, a2]; ring
    · rw [mirrored, a1]; ring

theorem absorbed_closed (a b : ℝ) (j : ℕ) :
    absorbed a b (2 * j) .hi = b ^ j * a ^ j ∧
    absorbed a b (2 * j) .lo = b ^ j * a ^ j ∧
    absorbed a b (2 * j + 1) .hi = b ^ (j + 1) * a ^ j ∧
    absorbed a b (2 * j + 1) .lo = b ^ j * a ^ (j + 1) := by
  induction j with
  | zero => simp [absorbed]
  | succ j ih =>
    obtain ⟨_, _, h3, h4⟩ := ih
    have a1 : absorbed a b (2 * (j + 1)) .hi = b ^ (j + 1) * a ^ (j + 1) := by
      rw [show 2 * (j + 1) = 2 * j + 1 + 1 by ring, absorbed, h4]; ring
    have a2 : absorbed a b (2 * (j + 1)) .lo = b ^ (j + 1) * a ^ (j + 1) := by
      rw [show 2 * (j + 1) = 2 * j + 1 + 1 by ring, absorbed, h3]; ring
    refine ⟨a1, a2, ?_, ?_⟩
    · rw [absorbed, a2]; ring
    · rw [absorbed, a1]; ring

theorem int_cases (n : ℤ) :
    ∃ j : ℕ, n = 2 * j ∨ n = 2 * j + 1 ∨ n = -(2 * j + 1) ∨ n = -(2 * (j + 1)) := by
  rcases Int.even_or_odd' n with ⟨m, hm | hm⟩
  · rcases le_or_gt 0 m with h | h
    · exact ⟨m.toNat, by omega⟩
    · exact ⟨(-m - 1).toNat, by omega⟩
  · rcases le_or_gt 0 m with h | h
    · exact ⟨m.toNat, by omega⟩
    · exact ⟨(-m - 1).toNat, by omega⟩

theorem axis_image (L s : ℝ) (n : ℤ) :
    imageBase L n + imageSign n * s = mirrored L s n.natAbs (lastWall n) := by
  obtain ⟨j, h | h | h | h⟩ := int_cases n
  · have e : n.natAbs = 2 * j := by omega
    rw [lastWall, if_pos (by omega), e, (mirrored_closed L s j).1, imageBase, imageSign,
      if_pos (by omega), show (n + 1) / 2 = (j : ℤ) by omega]
    push_cast; ring
  · have e : n.natAbs = 2 * j + 1 := by omega
    rw [lastWall, if_pos (by omega), e, (mirrored_closed L s j).2.2.1, imageBase, imageSign,
      if_neg (by omega), show (n + 1) / 2 = (j : ℤ) + 1 by omega]
    push_cast; ring
  · have e : n.natAbs = 2 * j + 1 := by omega
    rw [lastWall, if_neg (by omega), e, (mirrored_closed L s j).2.2.2, imageBase, imageSign,
      if_neg (by omega), show (n + 1) / 2 = -(j : ℤ) by omega]
    push_cast; ring
  · have e : n.natAbs = 2 * (j + 1) := by omega
    rw [lastWall, if_neg (by omega), e, (mirrored_closed L s (j + 1)).2.1, imageBase, imageSign,
      if_pos (by omega), show (n + 1) / 2 = -((j : ℤ) + 1) by omega]
    push_cast; ring

theorem axis_coeff (lo hi : ℝ) (n : ℤ) :
    axisCoeff [lo, hi] n = absorbed lo hi n.natAbs (lastWall n) := by
  unfold axisCoeff reflHi reflLo
  simp only [List.getD_cons_succ, List.getD_cons_zero]
  have habs : |n| = n.natAbs := Int.abs_eq_natAbs n
  obtain ⟨j, h | h | h | h⟩ := int_cases n
  · have e : n.natAbs = 2 * j := by omega
    rw [show lastWall n = .hi from if_pos (by omega), e, (absorbed_closed lo hi j).1, if_pos (by omega),
      if_pos (by omega)]
    congr 2 <;> omega
  · have e : n.natAbs = 2 * j + 1 := by omega
    rw [show lastWall n = .hi from if_pos (by omega), e, (absorbed_closed lo hi j).2.2.1, if_pos (by omega),
      if_pos (by omega)]
    congr 2 <;> omega
  · have e : n.natAbs = 2 * j + 1 := by omega
    rw [show lastWall n = .lo from if_neg (by omega), e, (absorbed_closed lo hi j).2.2.2, if_neg (by omega),
      if_neg (by omega)]
    congr 2 <;> omega
  · have e : n.natAbs = 2 * (j + 1) := by omega
    rw [show lastWall n = .lo from if_neg (by omega), e, (absorbed_closed lo hi (j + 1)).2.1, if_neg (by omega),
      if_neg (by omega)]
    congr 2 <;> omega

theorem zipWith_ofFn {α β γ : Type} {d : ℕ} (f : α → β → γ) (a : Fin d → α) (b : Fin d → β) :
    List.zipWith f (List.ofFn a) (List.ofFn b) = List.ofFn fun i => f (a i) (b i) := by
  apply List.ext_getElem <;> simp

theorem groups_wallList {d : ℕ} (lo hi : Fin d → ℝ) :
    groups d 2 (wallList lo hi) = List.ofFn fun i => [lo i, hi i] := by
  unfold wallList
  apply groups_flatten
  · simp
  · intro r hr
    obtain ⟨i, rfl⟩ := (List.mem_ofFn' _ _).mp hr
    rfl

theorem reflectionCoefficients_eq {d : ℕ} (lo hi : Fin d → ℝ) (n : Fin d → ℤ) :
    (List.zipWith axisCoeff (groups (List.ofFn n).length 2 (wallList lo hi)) (List.ofFn n)).prod
      = wallGain lo hi n := by
  rw [List.length_ofFn, groups_wallList, zipWith_ofFn, List.prod_ofFn]
  unfold wallGain
  apply Finset.prod_congr rfl
  intro i _
  exact axis_coeff _ _ _

end Torchrir.Lemmas
