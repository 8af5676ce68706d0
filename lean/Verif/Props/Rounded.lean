import Verif.Lemmas.Rounded
import Verif.Props.Pairs
import Mathlib.Analysis.SpecialFunctions.Exp

/-!
# C102: rounding, devices and chunk sizes

C06 says that chunk sizes do not change the sum of real numbers that a simulation computes.
Machines round every addition, and a GPU adds in an order of its own.  Here: added one after the
other the samples do not depend on the chunk sizes for any addition whatsoever; added in any
order with relative error `u` per addition, they stay within the usual bound of the exact value.
-/

namespace Torchrir.Props

open Torchrir.Model Torchrir.Spec Torchrir.Lemmas

/-! ## With exact additions nothing changes -/

/-- **C102, the model.** With real addition in order the functions are those of the other
chapters. -/
theorem C102_exact (w : World) (room : Room) (a : SimArgs) :
    (∀ sources mics, simulateRirWith exactAdder w room sources mics a
      = simulateRir w room sources mics a) ∧
    ∀ srcTraj micTraj, simulateDynamicRirWith exactAdder w room srcTraj micTraj a
      = simulateDynamicRir w room srcTraj micTraj a := by
  constructor
  · intro sources mics
    unfold simulateRirWith simulateRir
    simp only [accumulateRirBatchWith_exact]
  · intro srcTraj micTraj
    unfold simulateDynamicRirWith simulateDynamicRir
    simp only [accumulateRirBatchWith_exact]

/-! ## Added in order, the chunk sizes never matter -/

/-- **C102, static, in order.** For a call that succeeds, a device that adds the entries of every
`scatter_add_` one after the other computes the same samples, to the last bit, for all chunk
sizes; nothing is assumed about its addition. -/
theorem C102_in_order_static (ad : Adder) (had : AddsInOrder ad) (w : World) (room : Room)
    (sources mics : Entity) (hfs : 0 < room.fs) (hs : sources.positions.WF)
    (hm : mics.positions.WF) (a : SimArgs) (cfg : Config) (i₁ j₁ i₂ j₂ : ℤ)
    (hi₁ : 0 < i₁) (hj₁ : 0 < j₁) (hi₂ : 0 < i₂) (hj₂ : 0 < j₂)
    (hok : ∃ r, simulateRir w room sources mics { a with config := some cfg } = .ok r) :
    simulateRirWith ad w room sources mics { a with config := some ({ cfg with imageChunkSize := i₁, accumulateChunkSize := j₁ }) }
      = simulateRirWith ad w room sources mics { a with config := some ({ cfg with imageChunkSize := i₂, accumulateChunkSize := j₂ }) } := by
  obtain ⟨r, h⟩ := hok
  obtain ⟨L, nS, nM, src, mic, hsize, e1, e2⟩ := static_shapes hs hm h
  obtain ⟨P, hP⟩ := StaticPlan.exists hsize e1 e2 h
  obtain ⟨ns, hns, hnd, hmem⟩ := hP.imgA.exists_list
  have key : ∀ i j : ℤ, 0 < i → 0 < j →
      simulateRirWith ad w room sources mics { a with config := some (withChunks cfg i j) }
        = (do
          let rir ← diffuseStep w (tensor3 fun s m (k : Fin P.K.toNat) =>
            (P.taps w room L ns s m (src s) (mic m) k).foldl ad.add 0) room
            (wallList P.lo P.hi) a.tdiff P.tmax P.cfg.seed
          applyRirHpf w room.fs P.cfg rir) := by
    intro i j hi hj
    obtain ⟨hc, hP2⟩ := planOk_chunks (i := cfg.imageChunkSize) (j := cfg.accumulateChunkSize)
      hi hj hP.toPlanOk
    have hP' : StaticPlan room sources mics { a with config := some (withChunks cfg i j) } L src
        mic { P with cfg := withChunks cfg i j } := ⟨hP2, hP.hsrc, hP.hmic⟩
    obtain ⟨F, hF, hF'⟩ := hP'.evalWith w hfs.ne' ad orderRel_eq (covers_eq had) hns hmem
    rw [hF]
    obtain ⟨Pcfg, N, tmax, dir, K, lo, hi', nVec, A, sp, mp, so, mo, sd, md⟩ := P
    simp only at hc
    subst hc
    have hcell : (tensor3 fun s m (k : Fin K.toNat) => F s m k)
        = tensor3 fun s m (k : Fin K.toNat) =>
          (Plan.taps ⟨withChunks cfg cfg.imageChunkSize cfg.accumulateChunkSize, N, tmax, dir, K,
            lo, hi', nVec, A, sp, mp, so, mo, sd, md⟩ w room L ns s m (src s) (mic m) k).foldl
              ad.add 0 := by
      congr 1
      funext s m k
      obtain ⟨l, rfl, h'⟩ := hF' s m k k.2
      exact h'
    exact congrArg (fun t => (do
      let rir ← diffuseStep w t room (wallList lo hi') a.tdiff tmax cfg.seed
      applyRirHpf w room.fs (withChunks cfg i j) rir)) hcell
  exact (key i₁ j₁ hi₁ hj₁).trans (key i₂ j₂ hi₂ hj₂).symm

/-- **C102, dynamic, in order.** -/
theorem C102_in_order_dynamic (ad : Adder) (had : AddsInOrder ad) (w : World) (room : Room)
    (srcTraj micTraj : Tensor ℝ) (hfs : 0 < room.fs) (hs : srcTraj.WF) (hm : micTraj.WF)
    (a : SimArgs) (cfg : Config) (i₁ j₁ i₂ j₂ : ℤ)
    (hi₁ : 0 < i₁) (hj₁ : 0 < j₁) (hi₂ : 0 < i₂) (hj₂ : 0 < j₂)
    (hok : ∃ r, simulateDynamicRir w room srcTraj micTraj { a with config := some cfg } = .ok r) :
    simulateDynamicRirWith ad w room srcTraj micTraj { a with config := some ({ cfg with imageChunkSize := i₁, accumulateChunkSize := j₁ }) }
      = simulateDynamicRirWith ad w room srcTraj micTraj { a with config := some ({ cfg with imageChunkSize := i₂, accumulateChunkSize := j₂ }) } := by
  obtain ⟨r, h⟩ := hok
  obtain ⟨L, nT, nS, nM, src, mic, hsize, e1, e2⟩ := dynamic_shapes hs hm h
  obtain ⟨P, hP⟩ := DynamicPlan.exists hsize e1 e2 h
  obtain ⟨ns, hns, hnd, hmem⟩ := hP.imgA.exists_list
  have key : ∀ i j : ℤ, 0 < i → 0 < j →
      simulateDynamicRirWith ad w room srcTraj micTraj
          { a with config := some (withChunks cfg i j) }
        = applyRirHpf w room.fs P.cfg (tensor4 fun t s m (k : Fin P.K.toNat) =>
            (P.taps w room L ns s m (src t s) (mic t m) k).foldl ad.add 0) := by
    intro i j hi hj
    obtain ⟨hc, hP2⟩ := planOk_chunks (i := cfg.imageChunkSize) (j := cfg.accumulateChunkSize)
      hi hj hP.toPlanOk
    have hP' : DynamicPlan room { a with config := some (withChunks cfg i j) } L src
        mic { P with cfg := withChunks cfg i j } := ⟨hP2, hP.hT, hP.hori⟩
    obtain ⟨F, hF, hF'⟩ := hP'.evalWith w hfs.ne' e1 e2 ad orderRel_eq (covers_eq had) hns hmem
    rw [hF]
    obtain ⟨Pcfg, N, tmax, dir, K, lo, hi', nVec, A, sp, mp, so, mo, sd, md⟩ := P
    simp only at hc
    subst hc
    have hcell : (tensor4 fun t s m (k : Fin K.toNat) => F t s m k)
        = tensor4 fun t s m (k : Fin K.toNat) =>
          (Plan.taps ⟨withChunks cfg cfg.imageChunkSize cfg.accumulateChunkSize, N, tmax, dir, K,
            lo, hi', nVec, A, sp, mp, so, mo, sd, md⟩ w room L ns s m (src t s) (mic t m) k).foldl
              ad.add 0 := by
      congr 1
      funext t s m k
      obtain ⟨l, rfl, h'⟩ := hF' t s m k k.2
      exact h'
    exact congrArg (fun t => applyRirHpf w room.fs (withChunks cfg i j) t) hcell
  exact (key i₁ j₁ hi₁ hj₁).trans (key i₂ j₂ hi₂ hj₂).symm

/-! ## Added in any order, the error is bounded -/

/-- A sample computed by a rounding device against the specification. -/
theorem near_of_plan {d nS nM : ℕ} {room : Room} {a : SimArgs} {L : Fin d → ℝ} {P : Plan d nS nM}
    {used : Fin nS → Fin nM → (Fin d → ℝ) → Prop} (hP : PlanOk room a L P used) (w : World)
    {u : ℝ} (hu : 0 ≤ u) {add : ℝ → ℝ → ℝ} (hadd : RoundsWithin u add) {ns : List (Fin d → ℤ)}
    (hnd : ns.Nodup) (hmem : ∀ n, n ∈ ns ↔ n ∈ P.A) (s : Fin nS) (m : Fin nM)
    (src mic : Fin d → ℝ) (k : ℕ) {l : List ℝ}
    (hl : l.Perm (P.taps w room L ns s m src mic k)) :
    |l.foldl add 0 - rir (P.setup w room L) P.A (P.gs s) (P.gm m) src mic k|
      ≤ ((1 + u) ^ P.A.card - 1)
        * rirMagnitude (P.setup w room L) P.A (P.gs s) (P.gm m) src mic k := by
  obtain ⟨-, -, -, -, ⟨hf0, hf1⟩, -⟩ := (Config.valid_iff P.cfg).mp (resolveConfig_valid hP.res)
  obtain ⟨h1, h2, h3⟩ := P.taps_facts w room L
    (by show P.cfg.fracDelayLength.toNat % 2 = 1; omega) hnd hmem s m src mic k
  rw [← h1, ← h2]
  exact sum_near hu hadd hl _ h3

/-- **C102, static.** On a device whose additions have relative error at most `u`, whatever the
order in which it adds and whatever the chunk sizes, an omnidirectional simulation without filter
and tail succeeds, and every sample differs from the image-source formula of C05 by at most
`(1 + u)^n - 1` times the sum of the magnitudes of the contributions, `n` being the number of
images. -/
theorem C102_static {d nS nM : ℕ} (hd : d = 2 ∨ d = 3) (hS : 0 < nS) (hM : 0 < nM)
    (u : ℝ) (hu : 0 ≤ u) (ad : Adder) (hadd : RoundsWithin u ad.add) (hall : AddsEverything ad)
    (w : World) (L lo hi : Fin d → ℝ) (fs c : ℝ) (hfs : 0 < fs) (_hc : 0 < c)
    (sel : Selection d) (K : ℕ) (hK : 0 < K)
    (cfg : Config) (hcfg : cfg.validate = .ok ()) (hoff : cfg.rirHpfEnable = false)
    (src : Fin nS → Fin d → ℝ) (mic : Fin nM → Fin d → ℝ) :
    ∃ h : Fin nS → Fin nM → Fin K → ℝ,
      simulateRirWith ad w (boxRoom L lo hi fs c) (points src) (points mic) (omniArgs sel K cfg)
        = .ok (tensor3 h) ∧
      ∀ s m k, |h s m k - rir (setupFor w cfg L lo hi fs c) sel.images omni omni (src s) (mic m) k|
        ≤ ((1 + u) ^ sel.images.card - 1)
          * rirMagnitude (setupFor w cfg L lo hi fs c) sel.images omni omni (src s) (mic m) k := by
  obtain ⟨l, hP⟩ := omniPlan_static hd hS hM L lo hi fs c sel K hK cfg hcfg src mic
  obtain ⟨ns, hns, hnd, hmem⟩ := hP.imgA.exists_list
  obtain ⟨F, hF, hF'⟩ := hP.evalWith w hfs.ne' ad orderRel_perm (covers_perm hall) hns hmem
  refine ⟨fun s m k => F s m k, ?_, ?_⟩
  · rw [hF]
    exact applyRirHpf_off _ _ _ hoff _
  · intro s m k
    obtain ⟨l', hl, e⟩ := hF' s m k k.2
    simp only
    rw [e]
    exact near_of_plan hP.toPlanOk w hu hadd hnd hmem s m (src s) (mic m) k hl

/-- **C102, any static call.** The same for every call the exact simulation accepts without
filter and tail: rounding never makes it fail, and moves each sample of each source and
microphone by at most `(1 + u)^n - 1` times the magnitude of the contributions of its `n` images,
for the gains `gs`, `gm` and the room of that call. -/
theorem C102_static_any (u : ℝ) (hu : 0 ≤ u) (ad : Adder) (hadd : RoundsWithin u ad.add)
    (hall : AddsEverything ad) (w : World) (room : Room) (sources mics : Entity)
    (hfs : 0 < room.fs) (hs : sources.positions.WF) (hm : mics.positions.WF) (a : SimArgs)
    (cfg : Config) (hcfg : a.config = some cfg) (hoff : cfg.rirHpfEnable = false)
    (htd : a.tdiff = none) (R : Tensor ℝ) (h : simulateRir w room sources mics a = .ok R) :
    ∃ (d nS nM K : ℕ) (S : Setup d) (A : Finset (Fin d → ℤ))
      (gs : Fin nS → (Fin d → ℝ) → ℝ) (gm : Fin nM → (Fin d → ℝ) → ℝ)
      (src : Fin nS → Fin d → ℝ) (mic : Fin nM → Fin d → ℝ) (h' : Fin nS → Fin nM → Fin K → ℝ),
      room.size = List.ofFn S.L ∧ S.fs = room.fs ∧ S.c = room.c ∧ asPoints sources.positions = tensor2 src ∧
      asPoints mics.positions = tensor2 mic ∧
      R = tensor3 (fun s m (k : Fin K) => rir S A (gs s) (gm m) (src s) (mic m) k) ∧
      simulateRirWith ad w room sources mics a = .ok (tensor3 h') ∧
      ∀ s m k, |h' s m k - rir S A (gs s) (gm m) (src s) (mic m) k|
        ≤ ((1 + u) ^ A.card - 1) * rirMagnitude S A (gs s) (gm m) (src s) (mic m) k := by
  obtain ⟨L, nS, nM, src, mic, hsize, e1, e2⟩ := static_shapes hs hm h
  obtain ⟨P, hP⟩ := StaticPlan.exists hsize e1 e2 h
  obtain ⟨ns, hns, hnd, hmem⟩ := hP.imgA.exists_list
  obtain ⟨F, hF, hF'⟩ := hP.evalWith w hfs.ne' ad orderRel_perm (covers_perm hall) hns hmem
  have hPc : P.cfg = cfg := by
    have := hP.res
    unfold resolveConfig at this
    simp only [hcfg, Option.getD_some, bind_eq_ok] at this
    obtain ⟨_, _, _, _, h3⟩ := this
    exact (congrArg (fun p => p.1) (Except.ok.inj h3)).symm
  have hoff' : P.cfg.rirHpfEnable = false := by rw [hPc]; exact hoff
  have hstep : ∀ t, diffuseStep w t room (wallList P.lo P.hi) a.tdiff P.tmax P.cfg.seed = .ok t :=
    fun t => by rw [htd]; rfl
  refine ⟨_, nS, nM, P.K.toNat, P.setup w room L, P.A, P.gs, P.gm, src, mic,
    fun s m k => F s m k, hsize, rfl, rfl, e1, e2, ?_, ?_, ?_⟩
  · rw [hP.eval w hfs.ne', hstep, ok_bind, applyRirHpf_off _ _ _ hoff'] at h
    exact (Except.ok.inj h).symm
  · rw [hF, hstep, ok_bind, applyRirHpf_off _ _ _ hoff']
  · intro s m k
    obtain ⟨l', hl, e⟩ := hF' s m k k.2
    simp only
    rw [e]
    exact near_of_plan hP.toPlanOk w hu hadd hnd hmem s m (src s) (mic m) k hl

/-- **C102, dynamic.** The same for every step of a dynamic simulation. -/
theorem C102_dynamic {d nT nS nM : ℕ} (hd : d = 2 ∨ d = 3) (hT : 0 < nT) (hS : 0 < nS)
    (hM : 0 < nM) (u : ℝ) (hu : 0 ≤ u) (ad : Adder) (hadd : RoundsWithin u ad.add)
    (hall : AddsEverything ad)
    (w : World) (L lo hi : Fin d → ℝ) (fs c : ℝ) (hfs : 0 < fs) (_hc : 0 < c)
    (sel : Selection d) (K : ℕ) (hK : 0 < K)
    (cfg : Config) (hcfg : cfg.validate = .ok ()) (hoff : cfg.rirHpfEnable = false)
    (src : Fin nT → Fin nS → Fin d → ℝ) (mic : Fin nT → Fin nM → Fin d → ℝ) :
    ∃ h : Fin nT → Fin nS → Fin nM → Fin K → ℝ,
      simulateDynamicRirWith ad w (boxRoom L lo hi fs c) (tensor3 src) (tensor3 mic)
        (omniArgs sel K cfg) = .ok (tensor4 h) ∧
      ∀ t s m k,
        |h t s m k
          - rir (setupFor w cfg L lo hi fs c) sel.images omni omni (src t s) (mic t m) k|
        ≤ ((1 + u) ^ sel.images.card - 1)
          * rirMagnitude (setupFor w cfg L lo hi fs c) sel.images omni omni (src t s) (mic t m) k := by
  obtain ⟨l, hP⟩ := omniPlan_dynamic hd hT hS hM L lo hi fs c sel K hK cfg hcfg src mic
  obtain ⟨ns, hns, hnd, hmem⟩ := hP.imgA.exists_list
  obtain ⟨F, hF, hF'⟩ := hP.evalWith w hfs.ne' (sTraj := tensor3 src) (mTraj := tensor3 mic)
    rfl rfl ad orderRel_perm (covers_perm hall) hns hmem
  refine ⟨fun t s m k => F t s m k, ?_, ?_⟩
  · rw [hF]
    exact applyRirHpf_off _ _ _ hoff _
  · intro t s m k
    obtain ⟨l', hl, e⟩ := hF' t s m k k.2
    simp only
    rw [e]
    exact near_of_plan hP.toPlanOk w hu hadd hnd hmem s m (src t s) (mic t m) k hl

/-- **C102, two runs.** Two devices that differ in nothing but how they add, with any two choices
of chunk sizes, agree on every sample up to both error bounds. -/
theorem C102_two_runs {d nS nM : ℕ} (hd : d = 2 ∨ d = 3) (hS : 0 < nS) (hM : 0 < nM)
    (u u' : ℝ) (hu : 0 ≤ u) (hu' : 0 ≤ u') (ad ad' : Adder) (hadd : RoundsWithin u ad.add)
    (hadd' : RoundsWithin u' ad'.add) (hall : AddsEverything ad) (hall' : AddsEverything ad')
    (w : World) (L lo hi : Fin d → ℝ) (fs c : ℝ) (hfs : 0 < fs) (hc : 0 < c)
    (sel : Selection d) (K : ℕ) (hK : 0 < K)
    (cfg : Config) (hcfg : cfg.validate = .ok ()) (hoff : cfg.rirHpfEnable = false)
    (i j : ℤ) (hi' : 0 < i) (hj : 0 < j)
    (src : Fin nS → Fin d → ℝ) (mic : Fin nM → Fin d → ℝ) :
    ∃ h h' : Fin nS → Fin nM → Fin K → ℝ,
      simulateRirWith ad w (boxRoom L lo hi fs c) (points src) (points mic) (omniArgs sel K cfg)
        = .ok (tensor3 h) ∧
      simulateRirWith ad' w (boxRoom L lo hi fs c) (points src) (points mic)
        (omniArgs sel K { cfg with imageChunkSize := i, accumulateChunkSize := j })
        = .ok (tensor3 h') ∧
      ∀ s m k, |h s m k - h' s m k|
        ≤ ((1 + u) ^ sel.images.card - 1 + ((1 + u') ^ sel.images.card - 1))
          * rirMagnitude (setupFor w cfg L lo hi fs c) sel.images omni omni (src s) (mic m) k := by
  have hcfg' : (withChunks cfg i j).validate = .ok () := by
    rw [Config.valid_iff] at hcfg ⊢
    obtain ⟨a1, a2, a3, a4, a5, a6, a7, a8, a9, a10⟩ := hcfg
    exact ⟨a1, a2, a3, a4, a5, a6, hi', hj, a9, a10⟩
  obtain ⟨h, h1, h2⟩ := C102_static hd hS hM u hu ad hadd hall w L lo hi fs c hfs hc sel K hK cfg
    hcfg hoff src mic
  obtain ⟨h', h1', h2'⟩ := C102_static hd hS hM u' hu' ad' hadd' hall' w L lo hi fs c hfs hc sel K
    hK (withChunks cfg i j) hcfg' hoff src mic
  refine ⟨h, h', h1, h1', fun s m k => ?_⟩
  have e1 := h2 s m k
  have e2 : |h' s m k - rir (setupFor w cfg L lo hi fs c) sel.images omni omni (src s) (mic m) k|
      ≤ ((1 + u') ^ sel.images.card - 1)
        * rirMagnitude (setupFor w cfg L lo hi fs c) sel.images omni omni (src s) (mic m) k :=
    h2' s m k
  rw [abs_sub_comm] at e2
  rw [add_mul]
  exact le_trans (abs_sub_le _ _ _) (add_le_add e1 e2)

/-- The factor in the bounds is at most `2 n u` as long as `n u ≤ 1`. -/
theorem C102_factor (u : ℝ) (hu : 0 ≤ u) (n : ℕ) (h : n * u ≤ 1) : (1 + u) ^ n - 1 ≤ 2 * n * u := by
  have e1 : (1 + u) ^ n ≤ Real.exp (n * u) := by
    have : 1 + u ≤ Real.exp u := by linarith [Real.add_one_le_exp u]
    calc (1 + u) ^ n ≤ Real.exp u ^ n := pow_le_pow_left₀ (by linarith) this n
      _ = Real.exp (n * u) := (Real.exp_nat_mul u n).symm
  have hnn : (0 : ℝ) ≤ n * u := mul_nonneg (Nat.cast_nonneg n) hu
  have e2 : Real.exp (n * u) ≤ 1 + n * u + (n * u) ^ 2 := by
    have := Real.abs_exp_sub_one_sub_id_le (x := n * u) (by rw [abs_of_nonneg hnn]; exact h)
    linarith [le_abs_self (Real.exp (n * u) - 1 - n * u)]
  nlinarith

/-! ## To the last bit the order does matter -/

/-- A commutative addition that is exact except for one pair, where it is off by one part in
a thousand. -/
noncomputable def fussyAdd (x y : ℝ) : ℝ :=
  if (x = 3 ∧ y = 4) ∨ (x = 4 ∧ y = 3) then (x + y) * (1 + 1 / 1000) else x + y

theorem fussyAdd_comm (x y : ℝ) : fussyAdd x y = fussyAdd y x := by
  unfold fussyAdd
  have e : ((x = 3 ∧ y = 4) ∨ (x = 4 ∧ y = 3)) ↔ ((y = 3 ∧ x = 4) ∨ (y = 4 ∧ x = 3)) := by tauto
  simp only [e, add_comm x y]

theorem fussyAdd_rounds : RoundsWithin (1 / 1000) fussyAdd := by
  intro x y
  unfold fussyAdd
  split
  · have : (x + y) * (1 + 1 / 1000) - (x + y) = 1 / 1000 * (x + y) := by ring
    rw [this, abs_mul, abs_of_nonneg (by norm_num : (0 : ℝ) ≤ 1 / 1000)]
  · rw [sub_self, abs_zero]
    positivity

theorem unitTap (a : ℝ) : tapEntries (freshTables 1 1) 1 1 false 1 0 ⌊(0 : ℝ)⌋ (0 - (⌊(0 : ℝ)⌋ : ℝ)) a
    = .ok [(0, a)] := by
  have hs : Torchrir.Model.sinc 0 = 1 := by simp [Torchrir.Model.sinc]
  simp [tapEntries, tapFilter, filtDirect, freshTables, fdlGrid, fdlOffsets, hannWindow, halfLen,
    hs, bind, Except.bind, pure, Except.pure]

/-- Three images arriving at sample 0 with amplitudes 1, 2 and 4, accumulated into one sample by a
device that adds every chunk in reverse. -/
noncomputable def threeImages (chunk : ℕ) : Except String (List ℝ) :=
  accumulateImplWith fussyAdd (fun _ es => es.reverse) (freshTables 1 1) 1 1 false chunk 1 1 [0]
    [[0, 0, 0]] [[1, 2, 4]]

/-- **C102 is not an equality.** With a commutative addition of small relative error, two chunk
sizes can give different samples when a chunk is not added in order. -/
theorem C102_bitwise_fails : threeImages 1 ≠ threeImages 3 := by
  have h1 : threeImages 1 = .ok [(3 + 4) * (1 + 1 / 1000)] := by
    unfold threeImages accumulateImplWith accumulateImplTaps
    have hr : rangeStep 3 1 = [0, 1, 2] := by decide
    simp only [List.map_cons, List.map_nil, List.headD_cons, List.length_cons, List.length_nil,
      Nat.zero_add, Nat.reduceAdd, hr, List.zipWith_cons_cons, List.zipWith_nil_right]
    have hc : ∀ b a : ℝ, accumulateChunkTaps fussyAdd List.reverse
        (fun row i f a => tapEntries (freshTables 1 1) 1 1 false 1 row i f a) [b]
        [[⌊(0 : ℝ)⌋]] [[0 - (⌊(0 : ℝ)⌋ : ℝ)]] [[a]] = .ok [fussyAdd b a] := by
      intro b a
      unfold accumulateChunkTaps
      simp only [List.zip_cons_cons, List.zip_nil_right, List.zipIdx_cons, List.zipIdx_nil,
        List.mapM_cons, List.mapM_nil, unitTap]
      simp [scatterAddWith, bind, Except.bind, pure, Except.pure]
    have s1 : ∀ (x y z : ℤ), slice 0 (min (0 + 1) 3) [x, y, z] = [x] := fun _ _ _ => rfl
    have s2 : ∀ (x y z : ℤ), slice 1 (min (1 + 1) 3) [x, y, z] = [y] := fun _ _ _ => rfl
    have s3 : ∀ (x y z : ℤ), slice 2 (min (2 + 1) 3) [x, y, z] = [z] := fun _ _ _ => rfl
    have t1 : ∀ (x y z : ℝ), slice 0 (min (0 + 1) 3) [x, y, z] = [x] := fun _ _ _ => rfl
    have t2 : ∀ (x y z : ℝ), slice 1 (min (1 + 1) 3) [x, y, z] = [y] := fun _ _ _ => rfl
    have t3 : ∀ (x y z : ℝ), slice 2 (min (2 + 1) 3) [x, y, z] = [z] := fun _ _ _ => rfl
    simp only [List.foldlM_cons, List.foldlM_nil, s1, s2, s3, t1, t2, t3, hc, ok_bind]
    have f1 : fussyAdd 0 1 = 1 := by unfold fussyAdd; norm_num
    have f2 : fussyAdd 1 2 = 3 := by unfold fussyAdd; norm_num
    have f3 : fussyAdd 3 4 = (3 + 4) * (1 + 1 / 1000) := by unfold fussyAdd; norm_num
    rw [f1, f2, f3]
    rfl
  have h2 : threeImages 3 = .ok [7] := by
    unfold threeImages accumulateImplWith accumulateImplTaps
    have hr : rangeStep 3 3 = [0] := by decide
    simp only [List.map_cons, List.map_nil, List.headD_cons, List.length_cons, List.length_nil,
      Nat.zero_add, Nat.reduceAdd, hr, List.zipWith_cons_cons, List.zipWith_nil_right]
    have s1 : ∀ (x y z : ℤ), slice 0 (min (0 + 3) 3) [x, y, z] = [x, y, z] := fun _ _ _ => rfl
    have t1 : ∀ (x y z : ℝ), slice 0 (min (0 + 3) 3) [x, y, z] = [x, y, z] := fun _ _ _ => rfl
    have hc : accumulateChunkTaps fussyAdd List.reverse
        (fun row i f a => tapEntries (freshTables 1 1) 1 1 false 1 row i f a) [0]
        [[⌊(0 : ℝ)⌋, ⌊(0 : ℝ)⌋, ⌊(0 : ℝ)⌋]]
        [[0 - (⌊(0 : ℝ)⌋ : ℝ), 0 - (⌊(0 : ℝ)⌋ : ℝ), 0 - (⌊(0 : ℝ)⌋ : ℝ)]] [[1, 2, 4]]
        = .ok [fussyAdd (fussyAdd (fussyAdd 0 4) 2) 1] := by
      unfold accumulateChunkTaps
      simp only [List.zip_cons_cons, List.zip_nil_right, List.zipIdx_cons, List.zipIdx_nil,
        List.mapM_cons, List.mapM_nil, unitTap]
      simp [scatterAddWith, bind, Except.bind, pure, Except.pure]
    simp only [List.foldlM_cons, List.foldlM_nil, s1, t1, hc, ok_bind]
    have f1 : fussyAdd 0 4 = 4 := by unfold fussyAdd; norm_num
    have f2 : fussyAdd 4 2 = 6 := by unfold fussyAdd; norm_num
    have f3 : fussyAdd 6 1 = 7 := by unfold fussyAdd; norm_num
    rw [f1, f2, f3]
    rfl
  rw [h1, h2]
  intro h
  have := (List.cons.inj (Except.ok.inj h)).1
  norm_num at this

/-! ## Examples -/

/-- A device that adds backwards, every sum too large by one unit in the last place of single
precision. -/
noncomputable def greedyAdder : Adder := ⟨fun x y => (x + y) * (1 + 2⁻¹ ^ 24), fun _ _ es => es.reverse⟩

theorem greedyAdder_rounds : RoundsWithin (2⁻¹ ^ 24) greedyAdder.add := by
  intro x y
  show |(x + y) * (1 + 2⁻¹ ^ 24) - (x + y)| ≤ _
  have : (x + y) * (1 + 2⁻¹ ^ 24) - (x + y) = 2⁻¹ ^ 24 * (x + y) := by ring
  rw [this, abs_mul, abs_of_nonneg (by positivity : (0 : ℝ) ≤ 2⁻¹ ^ 24)]

theorem greedyAdder_all : AddsEverything greedyAdder := fun _ _ es => es.reverse_perm

/-- One source and two microphones in a 4 m × 5 m room at order 3. -/
example (w : World) : ∃ h : Fin 1 → Fin 2 → Fin 1000 → ℝ,
    simulateRirWith greedyAdder w (boxRoom ![4, 5] ![0.9, 0.8] ![0.7, 0.6] 16000 343)
      (points ![![1, 2]]) (points ![![3, 4], ![2, 2]])
      (omniArgs (d := 2) (.order 3) 1000 { rirHpfEnable := false }) = .ok (tensor3 h) :=
  (C102_static (Or.inl rfl) (by norm_num) (by norm_num) _ (by positivity) greedyAdder
    greedyAdder_rounds greedyAdder_all w _ _ _ _ _ (by norm_num) (by norm_num) _ _ (by norm_num) _
    plainConfig_valid rfl _ _).imp fun _ h => h.1

/-- Up to 8 million images the factor of single precision is at most `n / 8388608`. -/
example (n : ℕ) (hn : n ≤ 8000000) : (1 + (2⁻¹ : ℝ) ^ 24) ^ n - 1 ≤ n / 8388608 := by
  have hn' : (n : ℝ) ≤ 8000000 := by exact_mod_cast hn
  refine le_trans (C102_factor _ (by positivity) n ?_) (le_of_eq ?_)
  · norm_num
    linarith
  · norm_num
    ring

/-- Chunks of 7 and 3 images on a device with an arbitrary addition. -/
example (add : ℝ → ℝ → ℝ) (w : World) :
    simulateRirWith ⟨add, fun _ _ es => es⟩ w
        (boxRoom ![4, 5] ![0.9, 0.8] ![0.7, 0.6] 16000 343)
        (points ![![1, 2]]) (points ![![3, 4], ![2, 2]])
        { omniArgs (d := 2) (.order 3) 1000 {} with config := some ({ ({ rirHpfEnable := false } : Config) with imageChunkSize := 7, accumulateChunkSize := 3 }) }
      = simulateRirWith ⟨add, fun _ _ es => es⟩ w
        (boxRoom ![4, 5] ![0.9, 0.8] ![0.7, 0.6] 16000 343)
        (points ![![1, 2]]) (points ![![3, 4], ![2, 2]])
        { omniArgs (d := 2) (.order 3) 1000 {} with config := some ({ ({ rirHpfEnable := false } : Config) with imageChunkSize := 100, accumulateChunkSize := 1 }) } :=
  C102_in_order_static _ (fun _ _ _ => rfl) w _ _ _ (by norm_num [boxRoom])
    (by simp [points, tensor2, Tensor.WF]) (by simp [points, tensor2, Tensor.WF])
    (omniArgs (d := 2) (.order 3) 1000 {}) { rirHpfEnable := false } 7 3 100 1 (by norm_num)
    (by norm_num) (by norm_num) (by norm_num)
    ⟨_, C05_static_rir_formula (Or.inl rfl) (by norm_num) (by norm_num) w _ _ _ _ _
      (by norm_num) (by norm_num) (.order 3) 1000 (by norm_num) _ plainConfig_valid rfl _ _⟩

end Torchrir.Props
