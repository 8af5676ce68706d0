import Verif.Props.Mirror
import Verif.Lemmas.Movement
import Mathlib.Analysis.SpecificLimits.Normed
import Mathlib.Topology.Algebra.InfiniteSum.NatInt

/-!
# C125: how many images an order has, and what the higher orders can contribute
-/

namespace Torchrir.Props

open Torchrir.Model Torchrir.Spec Torchrir.Lemmas

/-! ## Specification -/

/-- The number of images of reflection order exactly `j` in a room with two or three dimensions. -/
def imagesOfOrder (d j : ℕ) : ℕ :=
  if j = 0 then 1 else if d = 2 then 4 * j else 4 * j ^ 2 + 2

namespace Truncation

open Mirror

/-! ## Counting -/

/-- The integers of absolute value `m`. -/
def pair (m : ℕ) : Finset ℤ := {(m : ℤ), -(m : ℤ)}

theorem mem_pair {m : ℕ} {z : ℤ} : z ∈ pair m ↔ z.natAbs = m := by
  simp only [pair, Finset.mem_insert, Finset.mem_singleton]
  omega

theorem card_pair (m : ℕ) : (pair m).card = if m = 0 then 1 else 2 := by
  unfold pair
  split
  · subst_vars; simp
  · rw [Finset.card_pair (by omega)]

theorem mem_shell {d j : ℕ} (n : Fin d → ℤ) : n ∈ orderShell d j ↔ ∑ i, (n i).natAbs = j := by
  simp only [orderShell, Finset.mem_filter, mem_orderSet]
  have := order_natAbs n
  omega

theorem card_zero (j : ℕ) : (orderShell 0 j).card = if j = 0 then 1 else 0 := by
  split
  · subst_vars
    rw [Finset.card_eq_one]
    refine ⟨Fin.elim0, ?_⟩
    ext n
    rw [mem_shell, Finset.mem_singleton]
    simp [eq_iff_true_of_subsingleton]
  · rw [Finset.card_eq_zero, Finset.eq_empty_iff_forall_notMem]
    intro n
    rw [mem_shell]
    simp only [Finset.univ_eq_empty, Finset.sum_empty]
    omega

theorem card_succ (d j : ℕ) :
    (orderShell (d + 1) j).card = ∑ i ∈ Finset.range (j + 1), (if i = 0 then 1 else 2) * (orderShell d (j - i)).card := by
  rw [Finset.card_eq_sum_card_fiberwise (f := fun n => (n 0).natAbs) (t := Finset.range (j + 1))]
  · refine Finset.sum_congr rfl fun i hi => ?_
    rw [Finset.mem_range] at hi
    rw [← card_pair i, ← Finset.card_product]
    refine Finset.card_nbij' (fun n => (n 0, Fin.tail n)) (fun p => Fin.cons p.1 p.2) ?_ ?_ ?_ ?_
    · intro n hn
      rw [Finset.mem_coe, Finset.mem_filter, mem_shell, Fin.sum_univ_succ] at hn
      rw [Finset.mem_coe, Finset.mem_product, mem_pair, mem_shell]
      refine ⟨hn.2, ?_⟩
      show ∑ i : Fin d, (n i.succ).natAbs = j - i
      omega
    · rintro ⟨z, n⟩ hn
      rw [Finset.mem_coe, Finset.mem_product, mem_pair, mem_shell] at hn
      rw [Finset.mem_coe, Finset.mem_filter, mem_shell, Fin.sum_univ_succ]
      simp only [Fin.cons_zero, Fin.cons_succ]
      simp only at hn
      exact ⟨by omega, hn.1⟩
    · intro n _
      exact Fin.cons_self_tail n
    · rintro ⟨z, n⟩ _
      simp
  · intro n hn
    rw [Finset.mem_coe, mem_shell, Fin.sum_univ_succ] at hn
    rw [Finset.mem_coe, Finset.mem_range]
    show (n 0).natAbs < j + 1
    omega

theorem card_one (j : ℕ) : (orderShell 1 j).card = if j = 0 then 1 else 2 := by
  rw [card_succ, Finset.sum_range_succ, Finset.sum_eq_zero]
  · simp [card_zero]
  · intro i hi
    rw [Finset.mem_range] at hi
    rw [card_zero, if_neg (show ¬ j - i = 0 by omega), mul_zero]

theorem card_two (j : ℕ) : (orderShell 2 j).card = if j = 0 then 1 else 4 * j := by
  rw [card_succ]
  rcases j with _ | j
  · simp [card_one]
  · rw [if_neg (by omega), Finset.sum_range_succ, Finset.sum_range_succ']
    have : ∑ k ∈ Finset.range j, (if k + 1 = 0 then 1 else 2) * (orderShell 1 (j + 1 - (k + 1))).card = 4 * j := by
      rw [Finset.sum_congr rfl (g := fun _ => 4)]
      · simp [mul_comm]
      · intro k hk
        rw [Finset.mem_range] at hk
        rw [card_one, if_neg (by omega), if_neg (by omega)]
    rw [this]
    simp [card_one]
    ring

theorem card_three (j : ℕ) : (orderShell 3 j).card = if j = 0 then 1 else 4 * j ^ 2 + 2 := by
  rw [card_succ]
  rcases j with _ | j
  · simp [card_two]
  · rw [if_neg (by omega), Finset.sum_range_succ, Finset.sum_range_succ']
    have : ∑ k ∈ Finset.range j, (if k + 1 = 0 then 1 else 2) * (orderShell 2 (j + 1 - (k + 1))).card
        = 4 * (j * (j + 1)) := by
      rw [Finset.sum_congr rfl (g := fun k => 8 * (j - 1 - k + 1))]
      · rw [Finset.sum_range_reflect (fun k => 8 * (k + 1)) j, ← Finset.mul_sum]
        have := Finset.sum_range_succ' (fun k => k) j
        have h2 := Finset.sum_range_id_mul_two (j + 1)
        simp only [add_tsub_cancel_right] at h2
        simp only [add_zero] at this
        rw [← this]
        nlinarith
      · intro k hk
        rw [Finset.mem_range] at hk
        rw [card_two, if_neg (by omega), if_neg (by omega)]
        omega
    rw [this]
    simp [card_two]
    ring

theorem card_shell {d : ℕ} (hd : d = 2 ∨ d = 3) (j : ℕ) : (orderShell d j).card = imagesOfOrder d j := by
  unfold imagesOfOrder
  rcases hd with rfl | rfl
  · rw [card_two, if_pos rfl]
  · rw [card_three, if_neg (show ¬ (3 : ℕ) = 2 by omega)]

theorem card_orderSet (d N : ℕ) : (orderSet d N).card = ∑ j ∈ Finset.range (N + 1), (orderShell d j).card := by
  rw [Finset.card_eq_sum_card_fiberwise (f := fun n => ∑ i, (n i).natAbs) (t := Finset.range (N + 1))]
  · refine Finset.sum_congr rfl fun j hj => ?_
    congr 1
    ext n
    rw [Finset.mem_range] at hj
    rw [Finset.mem_filter, mem_orderSet, mem_shell]
    have := order_natAbs n
    omega
  · intro n hn
    rw [Finset.mem_coe, mem_orderSet] at hn
    rw [Finset.mem_coe, Finset.mem_range]
    have := order_natAbs n
    show ∑ i, (n i).natAbs < N + 1
    omega

/-! ## Bounds -/

theorem absorbed_le {x y b : ℝ} (hx : |x| ≤ b) (hy : |y| ≤ b) (k : ℕ) (w : Wall) : |absorbed x y k w| ≤ b ^ k := by
  have hb : 0 ≤ b := (abs_nonneg x).trans hx
  induction k generalizing w with
  | zero => cases w <;> simp [absorbed]
  | succ k ih =>
    cases w <;> rw [absorbed, abs_mul, pow_succ, mul_comm (b ^ k)]
    · exact mul_le_mul hx (ih _) (abs_nonneg _) hb
    · exact mul_le_mul hy (ih _) (abs_nonneg _) hb

theorem wallGain_le {d : ℕ} {lo hi : Fin d → ℝ} {b : ℝ} (hlo : ∀ i, |lo i| ≤ b) (hhi : ∀ i, |hi i| ≤ b)
    (n : Fin d → ℤ) : |wallGain lo hi n| ≤ b ^ (∑ i, (n i).natAbs) := by
  unfold wallGain
  rw [Finset.abs_prod, ← Finset.prod_pow_eq_pow_sum]
  exact Finset.prod_le_prod (fun _ _ => abs_nonneg _) fun i _ => absorbed_le (hlo i) (hhi i) _ _

/-- What the images of one order can contribute. -/
theorem shell_le {d : ℕ} (hd : d = 2 ∨ d = 3) (S : Setup d) (hsh : ∀ x, |S.shape x| ≤ 1) {b : ℝ}
    (hlo : ∀ i, |S.lo i| ≤ b) (hhi : ∀ i, |S.hi i| ≤ b) {src mic : Fin d → ℝ}
    (hs : ∀ i, 0 ≤ src i ∧ src i ≤ S.L i) (hm : ∀ i, 0 ≤ mic i ∧ mic i ≤ S.L i) (j k : ℕ) :
    |rir S (orderShell d j) omni omni src mic k| ≤ imagesOfOrder d j * b ^ j / pathLength mic src := by
  unfold rir
  refine (Finset.abs_sum_le_sum_abs _ _).trans ?_
  rw [← card_shell hd, mul_div_assoc, ← nsmul_eq_mul]
  refine Finset.sum_le_card_nsmul _ _ _ fun n hn => ?_
  rw [mem_shell] at hn
  have hr : 0 < pathLength mic src := pathLength_pos _ _
  have hr' : pathLength mic src ≤ pathLength mic (image S.L src n) :=
    max_le_max (dist_image_ge hs hm n) le_rfl
  have hg := wallGain_le hlo hhi n
  rw [hn] at hg
  simp only [omni, mul_one]
  rw [abs_mul, abs_div, abs_of_pos (hr.trans_le hr')]
  have hk := kernel_bounded hsh S.fdl (pathLength mic (image S.L src n) * S.fs / S.c) k
  calc |wallGain S.lo S.hi n| / pathLength mic (image S.L src n) * |kernel S.shape S.fdl _ k|
      ≤ |wallGain S.lo S.hi n| / pathLength mic (image S.L src n) * 1 := by
        have := hr.trans_le hr'
        gcongr
    _ ≤ b ^ j / pathLength mic src := by
        rw [mul_one]
        gcongr
        exact (abs_nonneg _).trans hg

theorem imagesOfOrder_le {d : ℕ} (j : ℕ) : (imagesOfOrder d j : ℝ) ≤ 4 * j ^ 2 + 2 := by
  unfold imagesOfOrder
  split
  · subst_vars; norm_num
  · split
    · push_cast
      nlinarith [sq_nonneg ((j : ℝ) - 1), sq_nonneg (j : ℝ)]
    · push_cast; rfl

theorem summable_orders {d : ℕ} {b : ℝ} (h0 : 0 ≤ b) (h1 : b < 1) (r : ℝ) (hr : 0 < r) :
    Summable fun j : ℕ => imagesOfOrder d j * b ^ j / r := by
  have hb : ‖b‖ < 1 := by rw [Real.norm_of_nonneg h0]; exact h1
  have s2 := summable_pow_mul_geometric_of_norm_lt_one 2 hb
  have s0 := summable_geometric_of_lt_one h0 h1
  refine Summable.of_nonneg_of_le (fun j => by positivity) (fun j => ?_) (((s2.mul_left 4).add (s0.mul_left 2)).div_const r)
  have := imagesOfOrder_le (d := d) j
  have hp : 0 ≤ b ^ j := pow_nonneg h0 j
  gcongr
  nlinarith

end Truncation

open Truncation Mirror

/-! ## C125 -/

/-- **C125, number of images.** `max_order = N` selects `2 N² + 2 N + 1` images in two dimensions and
`(4 N³ + 6 N² + 8 N + 3) / 3` in three. -/
theorem C125_image_number (N : ℕ) :
    (∃ l, imageSourceIndices N 2 none = .ok l ∧ l.length = 2 * N ^ 2 + 2 * N + 1) ∧
    (∃ l, imageSourceIndices N 3 none = .ok l ∧ 3 * l.length = 4 * N ^ 3 + 6 * N ^ 2 + 8 * N + 3) := by
  constructor
  · obtain ⟨l, h1, h2⟩ := imageSourceIndices_order 2 N
    refine ⟨l, h1, ?_⟩
    rw [h2.length, card_orderSet]
    clear h1 h2
    induction N with
    | zero => simp [card_two]
    | succ N ih => rw [Finset.sum_range_succ, ih, card_two, if_neg (by omega)]; ring
  · obtain ⟨l, h1, h2⟩ := imageSourceIndices_order 3 N
    refine ⟨l, h1, ?_⟩
    rw [h2.length, card_orderSet]
    clear h1 h2
    induction N with
    | zero => simp [card_three]
    | succ N ih => rw [Finset.sum_range_succ, mul_add, ih, card_three, if_neg (by omega)]; ring

/-- **C125, higher orders.** If no wall coefficient exceeds `b` in absolute value, raising `max_order` from `N` to `N'`
changes every sample by at most the number of the new images of each order times the power of `b` with this order,
divided by the distance of source and microphone. -/
theorem C125_higher_orders {d nS nM : ℕ} (hd : d = 2 ∨ d = 3) (hS : 0 < nS) (hM : 0 < nM) (w : World)
    (L lo hi : Fin d → ℝ) (b : ℝ) (hlo : ∀ i, |lo i| ≤ b) (hhi : ∀ i, |hi i| ≤ b)
    (fs c : ℝ) (hfs : 0 < fs) (hc : 0 < c) (N N' : ℕ) (hN : N ≤ N') (K : ℕ) (hK : 0 < K)
    (cfg : Config) (hcfg : cfg.validate = .ok ()) (hoff : cfg.rirHpfEnable = false)
    (src : Fin nS → Fin d → ℝ) (mic : Fin nM → Fin d → ℝ)
    (hs : ∀ s i, 0 ≤ src s i ∧ src s i ≤ L i) (hm : ∀ m i, 0 ≤ mic m i ∧ mic m i ≤ L i) :
    ∃ f f' : Fin nS → Fin nM → Fin K → ℝ,
      simulateRir w (boxRoom L lo hi fs c) (points src) (points mic) (omniArgs (d := d) (.order N) K cfg)
        = .ok (tensor3 f) ∧
      simulateRir w (boxRoom L lo hi fs c) (points src) (points mic) (omniArgs (d := d) (.order N') K cfg)
        = .ok (tensor3 f') ∧
      ∀ s m k, |f' s m k - f s m k| ≤
        (∑ j ∈ Finset.Ico (N + 1) (N' + 1), imagesOfOrder d j * b ^ j) / pathLength (mic m) (src s) := by
  refine ⟨_, _, C05_static_rir_formula hd hS hM w _ _ _ fs c hfs hc (.order N) K hK cfg hcfg hoff _ _,
    C05_static_rir_formula hd hS hM w _ _ _ fs c hfs hc (.order N') K hK cfg hcfg hoff _ _, fun s m k => ?_⟩
  show |rir _ (orderSet d N') _ _ _ _ _ - rir _ (orderSet d N) _ _ _ _ _| ≤ _
  rw [rir_shells, rir_shells, ← Finset.sum_Ico_eq_sub _ (by omega : N + 1 ≤ N' + 1), Finset.sum_div]
  refine (Finset.abs_sum_le_sum_abs _ _).trans (Finset.sum_le_sum fun j _ => ?_)
  exact shell_le hd (setupFor w cfg L lo hi fs c) (kernelShape_bounded _ _) hlo hhi (hs s) (hm m) j k

/-- **C125, convergence.** If all wall coefficients are at most `b < 1` in absolute value, the responses converge for
`max_order → ∞`, uniformly in the sample and the length of the response. -/
theorem C125_converges {d nS nM : ℕ} (hd : d = 2 ∨ d = 3) (hS : 0 < nS) (hM : 0 < nM) (w : World)
    (L lo hi : Fin d → ℝ) (b : ℝ) (hb : b < 1) (hlo : ∀ i, |lo i| ≤ b) (hhi : ∀ i, |hi i| ≤ b)
    (fs c : ℝ) (hfs : 0 < fs) (hc : 0 < c)
    (cfg : Config) (hcfg : cfg.validate = .ok ()) (hoff : cfg.rirHpfEnable = false)
    (src : Fin nS → Fin d → ℝ) (mic : Fin nM → Fin d → ℝ)
    (hs : ∀ s i, 0 ≤ src s i ∧ src s i ≤ L i) (hm : ∀ m i, 0 ≤ mic m i ∧ mic m i ≤ L i) :
    ∃ g : Fin nS → Fin nM → ℕ → ℝ, ∀ ε > 0, ∃ N₀ : ℕ, ∀ N ≥ N₀, ∀ K > 0,
      ∃ f : Fin nS → Fin nM → Fin K → ℝ,
        simulateRir w (boxRoom L lo hi fs c) (points src) (points mic) (omniArgs (d := d) (.order N) K cfg)
          = .ok (tensor3 f) ∧ ∀ s m k, |f s m k - g s m k| ≤ ε := by
  have hb0 : 0 ≤ b := by
    rcases hd with rfl | rfl
    · exact (abs_nonneg _).trans (hlo 0)
    · exact (abs_nonneg _).trans (hlo 0)
  let part : Fin nS → Fin nM → ℕ → ℕ → ℝ := fun s m k j =>
    rir (setupFor w cfg L lo hi fs c) (orderShell d j) omni omni (src s) (mic m) k
  let top : ℕ → ℝ := fun j => imagesOfOrder d j * b ^ j / 1e-6
  have hpart : ∀ s m k j, |part s m k j| ≤ top j := by
    intro s m k j
    refine (shell_le hd (setupFor w cfg L lo hi fs c) (kernelShape_bounded _ _) hlo hhi (hs s) (hm m) j k).trans ?_
    show _ ≤ (imagesOfOrder d j : ℝ) * b ^ j / 1e-6
    have : (1e-6 : ℝ) ≤ pathLength (mic m) (src s) := le_max_right _ _
    gcongr
  have htop : Summable top := summable_orders hb0 hb _ (by norm_num)
  have hsum : ∀ s m k, Summable (part s m k) := fun s m k =>
    Summable.of_norm_bounded htop fun j => by rw [Real.norm_eq_abs]; exact hpart s m k j
  refine ⟨fun s m k => ∑' j, part s m k j, fun ε hε => ?_⟩
  have hlim := tendsto_sum_nat_add top
  obtain ⟨N₀, h0⟩ := (Metric.tendsto_atTop.mp hlim) ε hε
  refine ⟨N₀, fun N hN K hK => ⟨_,
    C05_static_rir_formula hd hS hM w _ _ _ fs c hfs hc (.order N) K hK cfg hcfg hoff _ _, fun s m k => ?_⟩⟩
  show |rir _ (orderSet d N) _ _ _ _ _ - _| ≤ _
  rw [rir_shells]
  have e := (hsum s m k).sum_add_tsum_nat_add (N + 1)
  have e' : (∑ j ∈ Finset.range (N + 1), part s m k j) - ∑' j, part s m k j = -∑' j, part s m k (j + (N + 1)) := by
    linarith
  change |(∑ j ∈ Finset.range (N + 1), part s m k j) - ∑' j, part s m k j| ≤ ε
  rw [e', abs_neg]
  have hs1 : Summable fun j => top (j + (N + 1)) := (summable_nat_add_iff (N + 1)).mpr htop
  have h1 : ‖∑' j, part s m k (j + (N + 1))‖ ≤ ∑' j, top (j + (N + 1)) :=
    tsum_of_norm_bounded hs1.hasSum fun j => by rw [Real.norm_eq_abs]; exact hpart s m k _
  have h2 := h0 (N + 1) (by omega)
  rw [Real.dist_eq, sub_zero] at h2
  exact h1.trans ((le_abs_self _).trans h2.le)

/-- A 4 m × 5 m room with coefficients up to 0.9; source and microphone 2 m apart. -/
example (w : World) (N N' : ℕ) (hN : N ≤ N') : ∃ f f' : Fin 1 → Fin 1 → Fin 1000 → ℝ,
    simulateRir w (boxRoom ![4, 5] ![0.9, 0.8] ![0.7, 0.6] 16000 343) (points ![![1, 2]]) (points ![![3, 2]])
      (omniArgs (d := 2) (.order N) 1000 { rirHpfEnable := false }) = .ok (tensor3 f) ∧
    simulateRir w (boxRoom ![4, 5] ![0.9, 0.8] ![0.7, 0.6] 16000 343) (points ![![1, 2]]) (points ![![3, 2]])
      (omniArgs (d := 2) (.order N') 1000 { rirHpfEnable := false }) = .ok (tensor3 f') ∧
    ∀ k, |f' 0 0 k - f 0 0 k| ≤ (∑ j ∈ Finset.Ico (N + 1) (N' + 1), 4 * (j : ℝ) * 0.9 ^ j) / 2 := by
  obtain ⟨f, f', h1, h2, h3⟩ := C125_higher_orders (d := 2) (nS := 1) (nM := 1) (Or.inl rfl) (by norm_num) (by norm_num)
    w ![4, 5] ![0.9, 0.8] ![0.7, 0.6] 0.9
    (by intro i; fin_cases i <;> norm_num [abs_le])
    (by intro i; fin_cases i <;> norm_num [abs_le])
    16000 343 (by norm_num) (by norm_num) N N' hN 1000 (by norm_num) _ plainConfig_valid rfl ![![1, 2]] ![![3, 2]]
    (by intro s i; fin_cases s; fin_cases i <;> norm_num)
    (by intro s i; fin_cases s; fin_cases i <;> norm_num)
  refine ⟨f, f', h1, h2, fun k => (h3 0 0 k).trans (le_of_eq ?_)⟩
  have hp : pathLength (![![3, 2]] 0) ((![![1, 2]] : Fin 1 → Fin 2 → ℝ) 0) = 2 := by
    unfold pathLength Spec.dist
    have : (∑ i : Fin 2, ((![![3, 2]] : Fin 1 → Fin 2 → ℝ) 0 i - (![![1, 2]] : Fin 1 → Fin 2 → ℝ) 0 i) ^ 2) = 2 ^ 2 := by
      simp [Fin.sum_univ_two]; norm_num
    rw [this, Real.sqrt_sq (by norm_num)]
    norm_num
  rw [hp]
  congr 1
  refine Finset.sum_congr rfl fun j hj => ?_
  rw [Finset.mem_Ico] at hj
  unfold imagesOfOrder
  rw [if_neg (by omega), if_pos rfl]
  push_cast
  ring

/-- The 4 m × 5 m room has a limit. -/
example (w : World) : ∃ g : Fin 1 → Fin 1 → ℕ → ℝ, ∀ ε > 0, ∃ N₀ : ℕ, ∀ N ≥ N₀, ∀ K > 0,
    ∃ f : Fin 1 → Fin 1 → Fin K → ℝ,
      simulateRir w (boxRoom ![4, 5] ![0.9, 0.8] ![0.7, 0.6] 16000 343) (points ![![1, 2]]) (points ![![3, 2]])
        (omniArgs (d := 2) (.order N) K { rirHpfEnable := false }) = .ok (tensor3 f) ∧
      ∀ s m k, |f s m k - g s m k| ≤ ε :=
  C125_converges (d := 2) (nS := 1) (nM := 1) (Or.inl rfl) (by norm_num) (by norm_num)
    w ![4, 5] ![0.9, 0.8] ![0.7, 0.6] 0.9 (by norm_num)
    (by intro i; fin_cases i <;> norm_num [abs_le])
    (by intro i; fin_cases i <;> norm_num [abs_le])
    16000 343 (by norm_num) (by norm_num) _ plainConfig_valid rfl ![![1, 2]] ![![3, 2]]
    (by intro s i; fin_cases s; fin_cases i <;> norm_num)
    (by intro s i; fin_cases s; fin_cases i <;> norm_num)

end Torchrir.Props
