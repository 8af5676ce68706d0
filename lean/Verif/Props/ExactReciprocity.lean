import Verif.Props.Symmetry

/-! # Reciprocity of directional devices beyond the direct path: C11 -/

namespace Torchrir.Props

open Torchrir.Model Torchrir.Spec Torchrir.Lemmas

/-- One component of the path seen from the other end: reversed after an even number of reflections,
unchanged after an odd number. -/
theorem axis_swap_signed (L x y : ℝ) (n : ℤ) :
    x - mirrored L y (swapIdx n).natAbs (lastWall (swapIdx n)) =
      if n % 2 = 0 then -(y - mirrored L x n.natAbs (lastWall n))
      else y - mirrored L x n.natAbs (lastWall n) := by
  rw [mirrored_cases, mirrored_cases]
  unfold swapIdx
  split
  · rw [if_pos (by omega)]; push_cast; ring
  · ring

/-- An angle does not depend on the sign of the components across the axis. -/
theorem cosAngle_congr {d : ℕ} {v v' u : Fin d → ℝ} (h : ∀ i, v' i = v i ∨ (v' i = -v i ∧ u i = 0)) :
    cosAngle v' u = cosAngle v u := by
  have h1 : ∑ i, v' i * u i = ∑ i, v i * u i := by
    refine Finset.sum_congr rfl fun i _ => ?_
    rcases h i with h | ⟨h, h'⟩
    · rw [h]
    · rw [h']; ring
  have h2 : ∑ i, v' i ^ 2 = ∑ i, v i ^ 2 := by
    refine Finset.sum_congr rfl fun i _ => ?_
    rcases h i with h | ⟨h, -⟩
    · rw [h]
    · rw [h]; ring
  unfold cosAngle
  rw [h1, h2]

theorem absorbed_black {k : ℕ} (w : Wall) (hk : k ≠ 0) : absorbed 0 0 k w = 0 := by
  obtain ⟨j, rfl⟩ := Nat.exists_eq_succ_of_ne_zero hk
  cases w <;> simp [absorbed]

/-- The reflections along axis `i` are seen alike by the device and by its mirror image: no wall across
that axis reflects, or the device is omnidirectional or its axis is parallel to these walls. -/
def MirrorSafe {d n : ℕ} (lo hi : Fin d → ℝ) (p : Pattern) (axis : Fin n → Fin d → ℝ) : Prop :=
  ∀ i, (lo i = 0 ∧ hi i = 0) ∨ p = .omni ∨ ∀ s, axis s i = 0

theorem rir_reciprocal_directional {d nS nM : ℕ} (S : Setup d) (A : Finset (Fin d → ℤ))
    (hA : SignInvariant A) (ps pm : Pattern) (us : Fin nS → Fin d → ℝ) (um : Fin nM → Fin d → ℝ)
    (hs : MirrorSafe S.lo S.hi ps us) (hm : MirrorSafe S.lo S.hi pm um) (s : Fin nS) (m : Fin nM)
    (x y : Fin d → ℝ) (k : ℕ) :
    rir S A (ps.towards (us s)) (pm.towards (um m)) x y k
      = rir S A (pm.towards (um m)) (ps.towards (us s)) y x k := by
  unfold rir
  apply Finset.sum_bij' (fun n _ => fun i => swapIdx (n i)) (fun n _ => fun i => swapIdx (n i))
  · intro n hn; exact hA n hn _ fun i => abs_swapIdx _
  · intro n hn; exact hA n hn _ fun i => abs_swapIdx _
  · intro n _; funext i; exact swapIdx_swapIdx _
  · intro n _; funext i; exact swapIdx_swapIdx _
  · intro n _
    have hd : pathLength y (image S.L x n) = pathLength x (image S.L y fun i => swapIdx (n i)) := by
      unfold pathLength Spec.dist
      congr 2
      apply Finset.sum_congr rfl
      intro i _
      exact axis_swap _ _ _ _
    have hg : wallGain S.lo S.hi (fun i => swapIdx (n i)) = wallGain S.lo S.hi n := by
      unfold wallGain
      apply Finset.prod_congr rfl
      intro i _
      exact absorbed_swap _ _ _
    dsimp only
    rw [hd, hg]
    by_cases hw : wallGain S.lo S.hi n = 0
    · rw [hw]; ring
    have hn : ∀ i, S.lo i = 0 ∧ S.hi i = 0 → n i = 0 := by
      rintro i ⟨h1, h2⟩
      by_contra h0
      apply hw
      unfold wallGain
      apply Finset.prod_eq_zero (Finset.mem_univ i)
      rw [h1, h2]
      exact absorbed_black _ (Int.natAbs_ne_zero.mpr h0)
    have hsame : ∀ {q : ℕ} (p : Pattern) (ax : Fin q → Fin d → ℝ) (j : Fin q) (v v' : Fin d → ℝ),
        MirrorSafe S.lo S.hi p ax → (∀ i, v' i = if n i % 2 = 0 then v i else -v i) →
        p.towards (ax j) v' = p.towards (ax j) v := by
      intro q p ax j v v' hp hv
      by_cases ho : p = .omni
      · rw [ho]; rfl
      unfold Pattern.towards
      rw [cosAngle_congr]
      intro i
      rw [hv i]
      split
      · exact .inl rfl
      · rename_i h
        refine .inr ⟨rfl, ?_⟩
        rcases hp i with h' | h' | h'
        · rw [hn i h'] at h
          simp at h
        · exact absurd h' ho
        · exact h' j
    rw [hsame ps us s (y - image S.L x n) (image S.L y (fun i => swapIdx (n i)) - x) hs ?_,
      hsame pm um m (image S.L x n - y) (x - image S.L y (fun i => swapIdx (n i))) hm ?_]
    · ring
    · intro i
      have := axis_swap_signed (S.L i) (x i) (y i) (n i)
      simp only [Pi.sub_apply, image]
      rw [this]
      split <;> ring
    · intro i
      have := axis_swap_signed (S.L i) (x i) (y i) (n i)
      simp only [Pi.sub_apply, image]
      rw [← neg_sub, this]
      split <;> ring

/-- **C11, partial, with reflections.** Exchanging sources and microphones together with their patterns and
axes transposes the result for all orders and image boxes, provided that every device is parallel to the
reflecting walls (or omnidirectional); walls that do not reflect put no condition on it.  Missing: axes not
parallel to a reflecting wall, for which the property is false (`C11_directional_reciprocity_fails`). -/
theorem C11_parallel_reciprocity_partial {d nS nM : ℕ} (hd : d = 2 ∨ d = 3) (hS : 0 < nS)
    (hM : 0 < nM) (w : World) (L lo hi : Fin d → ℝ) (fs c : ℝ) (hfs : 0 < fs) (hc : 0 < c)
    (sel : Selection d) (K : ℕ) (hK : 0 < K)
    (cfg : Config) (hcfg : cfg.validate = .ok ()) (hoff : cfg.rirHpfEnable = false)
    (src us : Fin nS → Fin d → ℝ) (mic um : Fin nM → Fin d → ℝ)
    (ps pm : Pattern) (sp mp : String) (hps : sp.toLower ∈ ps.names) (hpm : mp.toLower ∈ pm.names)
    (hus : ∀ s, 1e-8 ≤ Real.sqrt (∑ i, us s i ^ 2))
    (hum : ∀ m, 1e-8 ≤ Real.sqrt (∑ i, um m i ^ 2))
    (hs : MirrorSafe lo hi ps us) (hm : MirrorSafe lo hi pm um)
    (hne : ∀ s m, ∀ n ∈ sel.images, image L (src s) n ≠ mic m) :
    ∃ f : Fin nS → Fin nM → Fin K → ℝ,
      simulateRir w (boxRoom L lo hi fs c) (orientedPoints src us) (orientedPoints mic um)
        (directionalArgs sel K cfg sp mp) = .ok (tensor3 f) ∧
      simulateRir w (boxRoom L lo hi fs c) (orientedPoints mic um) (orientedPoints src us)
        (directionalArgs sel K cfg mp sp) = .ok (tensor3 fun m s => f s m) := by
  refine ⟨_, C05_static_rir_formula_directional hd hS hM w L lo hi fs c hfs hc sel K hK cfg
    hcfg hoff src us mic um ps pm sp mp hps hpm hus hum hne, ?_⟩
  rw [C05_static_rir_formula_directional hd hM hS w L lo hi fs c hfs hc sel K hK cfg
    hcfg hoff mic um src us pm ps mp sp hpm hps hum hus ?_]
  · congr 2
    funext m s k
    exact (rir_reciprocal_directional (setupFor w cfg L lo hi fs c) _ (selection_signInvariant sel)
      ps pm us um hs hm s m _ _ _).symm
  · intro m s n hn heq
    refine hne s m (fun i => swapIdx (n i)) (selection_signInvariant sel n hn _ fun i => abs_swapIdx _) ?_
    funext i
    have h := axis_swap_signed (L i) (mic m i) (src s i) (n i)
    have h0 : src s i - mirrored (L i) (mic m i) (n i).natAbs (lastWall (n i)) = 0 := by
      rw [sub_eq_zero]
      exact (congrFun heq i).symm
    rw [h0] at h
    have : mic m i - mirrored (L i) (src s i) (swapIdx (n i)).natAbs (lastWall (swapIdx (n i))) = 0 := by
      rw [h]; split <;> simp
    unfold image
    linarith

/-- A cardioid and a figure-8 device with horizontal axes, in a hall whose floor and ceiling reflect and
whose other walls are open: reflections up to the fifth order. -/
example (w : World) : ∃ f : Fin 1 → Fin 1 → Fin 1000 → ℝ,
    simulateRir w (boxRoom ![4, 5, 3] ![0, 0, 0.8] ![0, 0, 0.6] 16000 343)
      (orientedPoints ![![1, 2, 1]] ![![1, 0, 0]]) (orientedPoints ![![2.5, 4, 2]] ![![0, -2, 0]])
      (directionalArgs (d := 3) (.order 5) 1000 { rirHpfEnable := false } "card" "figure8")
        = .ok (tensor3 f) ∧
    simulateRir w (boxRoom ![4, 5, 3] ![0, 0, 0.8] ![0, 0, 0.6] 16000 343)
      (orientedPoints ![![2.5, 4, 2]] ![![0, -2, 0]]) (orientedPoints ![![1, 2, 1]] ![![1, 0, 0]])
      (directionalArgs (d := 3) (.order 5) 1000 { rirHpfEnable := false } "figure8" "card")
        = .ok (tensor3 fun m s => f s m) := by
  apply C11_parallel_reciprocity_partial (Or.inr rfl) (by norm_num) (by norm_num) w _ _ _ _ _
    (by norm_num) (by norm_num) _ _ (by norm_num) _ plainConfig_valid rfl _ _ _ _
    .cardioid .bidirectional
  · rw [show "card".toLower = "card" by
      apply String.toList_inj.mp; simp [String.toLower, String.toList_map]]
    decide
  · rw [show "figure8".toLower = "figure8" by
      apply String.toList_inj.mp; simp [String.toLower, String.toList_map]]
    decide
  · intro s
    fin_cases s
    rw [Real.le_sqrt' (by norm_num)]
    simp [Fin.sum_univ_three]
    norm_num
  · intro s
    fin_cases s
    rw [Real.le_sqrt' (by norm_num)]
    simp [Fin.sum_univ_three]
    norm_num
  · intro i
    fin_cases i
    · left; simp
    · left; simp
    · right; right; intro s; fin_cases s; rfl
  · intro i
    fin_cases i
    · left; simp
    · left; simp
    · right; right; intro s; fin_cases s; rfl
  · intro s m n hn heq
    fin_cases s; fin_cases m
    have h := congrFun heq 0
    simp only [image] at h
    rw [mirrored_cases] at h
    simp at h
    split at h
    · have : (4 * (n 0 : ℝ)) = 1.5 := by linarith
      have h2 : ((8 * n 0 : ℤ) : ℝ) = ((3 : ℤ) : ℝ) := by push_cast; linarith
      have h3 : (8 * n 0 : ℤ) = 3 := by exact_mod_cast h2
      omega
    · have h2 : ((8 * n 0 : ℤ) : ℝ) = ((-1 : ℤ) : ℝ) := by push_cast; linarith
      have h3 : (8 * n 0 : ℤ) = -1 := by exact_mod_cast h2
      omega

/-! ## Without a condition on the axes -/

/-- A direction as it was before the reflections of image `n`: its component along an axis is reversed by
an odd number of reflections there. -/
def unfolded {d : ℕ} (n : Fin d → ℤ) (v : Fin d → ℝ) : Fin d → ℝ := fun i => if n i % 2 = 0 then v i else -v i

/-- The response if the source emits path `n` in direction `emit n v` and the microphone receives it from
direction `receive n (-v)`, where `v` points from the image to the microphone. -/
noncomputable def rirAlong {d : ℕ} (S : Setup d) (A : Finset (Fin d → ℤ))
    (emit receive : (Fin d → ℤ) → (Fin d → ℝ) → Fin d → ℝ) (gs gm : (Fin d → ℝ) → ℝ)
    (src mic : Fin d → ℝ) (k : ℕ) : ℝ :=
  ∑ n ∈ A,
    let p := image S.L src n
    let r := pathLength mic p
    wallGain S.lo S.hi n * gs (emit n (mic - p)) * gm (receive n (p - mic)) / r
      * kernel S.shape S.fdl (r * S.fs / S.c) k

theorem rir_exchanged {d : ℕ} (S : Setup d) (A : Finset (Fin d → ℤ)) (hA : SignInvariant A)
    (gs gm : (Fin d → ℝ) → ℝ) (x y : Fin d → ℝ) (k : ℕ) :
    rir S A gm gs y x k = rirAlong S A unfolded unfolded gs gm x y k := by
  unfold rir rirAlong
  apply Finset.sum_bij' (fun n _ => fun i => swapIdx (n i)) (fun n _ => fun i => swapIdx (n i))
  · intro n hn; exact hA n hn _ fun i => abs_swapIdx _
  · intro n hn; exact hA n hn _ fun i => abs_swapIdx _
  · intro n _; funext i; exact swapIdx_swapIdx _
  · intro n _; funext i; exact swapIdx_swapIdx _
  · intro n _
    have hd : pathLength x (image S.L y n) = pathLength y (image S.L x fun i => swapIdx (n i)) := by
      unfold pathLength Spec.dist
      congr 2
      apply Finset.sum_congr rfl
      intro i _
      exact axis_swap _ _ _ _
    have hg : wallGain S.lo S.hi (fun i => swapIdx (n i)) = wallGain S.lo S.hi n := by
      unfold wallGain
      apply Finset.prod_congr rfl
      intro i _
      exact absorbed_swap _ _ _
    have hpar : ∀ i, swapIdx (n i) % 2 = 0 ↔ n i % 2 = 0 := by
      intro i
      unfold swapIdx
      split <;> omega
    have h1 : unfolded (fun i => swapIdx (n i)) (y - image S.L x fun i => swapIdx (n i)) = image S.L y n - x := by
      funext i
      have := axis_swap_signed (S.L i) (y i) (x i) (n i)
      simp only [unfolded, Pi.sub_apply, image, hpar]
      rw [this]
      split <;> ring
    have h2 : unfolded (fun i => swapIdx (n i)) ((image S.L x fun i => swapIdx (n i)) - y) = x - image S.L y n := by
      funext i
      have := axis_swap_signed (S.L i) (y i) (x i) (n i)
      simp only [unfolded, Pi.sub_apply, image, hpar]
      rw [← neg_sub, this]
      split <;> ring
    dsimp only
    rw [hd, hg, h1, h2]
    ring

/-- **C11, exactly.** What the two calls compute for arbitrary axes.  A path that leaves the source in
direction `unfolded n v` arrives along `v`.  Before the exchange the code gives the arriving direction to both
devices: right for the microphones, wrong for the sources.  After the exchange it gives the leaving direction to
both: right for the devices that were sources, wrong for the others.  A response is the transposed one exactly
if the two sums agree. -/
theorem C11_exactly {d nS nM : ℕ} (hd : d = 2 ∨ d = 3) (hS : 0 < nS)
    (hM : 0 < nM) (w : World) (L lo hi : Fin d → ℝ) (fs c : ℝ) (hfs : 0 < fs) (hc : 0 < c)
    (sel : Selection d) (K : ℕ) (hK : 0 < K)
    (cfg : Config) (hcfg : cfg.validate = .ok ()) (hoff : cfg.rirHpfEnable = false)
    (src us : Fin nS → Fin d → ℝ) (mic um : Fin nM → Fin d → ℝ)
    (ps pm : Pattern) (sp mp : String) (hps : sp.toLower ∈ ps.names) (hpm : mp.toLower ∈ pm.names)
    (hus : ∀ s, 1e-8 ≤ Real.sqrt (∑ i, us s i ^ 2))
    (hum : ∀ m, 1e-8 ≤ Real.sqrt (∑ i, um m i ^ 2))
    (hne : ∀ s m, ∀ n ∈ sel.images, image L (src s) n ≠ mic m) :
    simulateRir w (boxRoom L lo hi fs c) (orientedPoints src us) (orientedPoints mic um)
        (directionalArgs sel K cfg sp mp)
      = .ok (tensor3 fun s m (k : Fin K) => rirAlong (setupFor w cfg L lo hi fs c) sel.images
          (fun _ v => v) (fun _ v => v) (ps.towards (us s)) (pm.towards (um m)) (src s) (mic m) k) ∧
    simulateRir w (boxRoom L lo hi fs c) (orientedPoints mic um) (orientedPoints src us)
        (directionalArgs sel K cfg mp sp)
      = .ok (tensor3 fun m s (k : Fin K) => rirAlong (setupFor w cfg L lo hi fs c) sel.images
          unfolded unfolded (ps.towards (us s)) (pm.towards (um m)) (src s) (mic m) k) := by
  refine ⟨C05_static_rir_formula_directional hd hS hM w L lo hi fs c hfs hc sel K hK cfg
    hcfg hoff src us mic um ps pm sp mp hps hpm hus hum hne, ?_⟩
  rw [C05_static_rir_formula_directional hd hM hS w L lo hi fs c hfs hc sel K hK cfg
    hcfg hoff mic um src us pm ps mp sp hpm hps hum hus ?_]
  · congr 2
    funext m s k
    exact rir_exchanged (setupFor w cfg L lo hi fs c) _ (selection_signInvariant sel) _ _ _ _ _
  · intro m s n hn heq
    refine hne s m (fun i => swapIdx (n i)) (selection_signInvariant sel n hn _ fun i => abs_swapIdx _) ?_
    funext i
    have h := axis_swap_signed (L i) (mic m i) (src s i) (n i)
    have h0 : src s i - mirrored (L i) (mic m i) (n i).natAbs (lastWall (n i)) = 0 := by
      rw [sub_eq_zero]
      exact (congrFun heq i).symm
    rw [h0] at h
    have : mic m i - mirrored (L i) (src s i) (swapIdx (n i)).natAbs (lastWall (swapIdx (n i))) = 0 := by
      rw [h]; split <;> simp
    unfold image
    linarith

/-- That a path which leaves a source in direction `unfolded n v` arrives along `v`: one step, a reflection at
a wall across axis `i`, reverses component `i`. -/
theorem unfolded_step {d : ℕ} (n : Fin d → ℤ) (i : Fin d) (v : Fin d → ℝ) :
    unfolded (Function.update n i (n i + 1)) v = Function.update (unfolded n v) i (-(unfolded n v i)) := by
  funext j
  by_cases hj : j = i
  · subst hj
    simp only [unfolded, Function.update_self]
    by_cases h : n j % 2 = 0
    · rw [if_neg (by omega), if_pos h]
    · rw [if_pos (by omega), if_neg h, neg_neg]
  · simp only [unfolded, Function.update_of_ne hj]

end Torchrir.Props
