import Verif.Spec.Tail
import Verif.Props.Args
import Verif.Props.Acoustics
import Verif.Lemmas.Invariance
import Mathlib.Analysis.Complex.ExponentialBounds

/-!
# C110: what the diffuse tail contains
-/

namespace Torchrir.Props

open Torchrir.Model Torchrir.Spec Torchrir.Lemmas

/-- The tail for coefficients whose reverberation time is `T`. -/
theorem applyDiffuseTail_full {nS nM K : ℕ} (w : World)
    (hw : ∀ seed shape, (w.randn seed shape).length = shape.prod) (room : Room) (b : List ℝ) (T : Option ℝ)
    (hT : estimateT60FromBeta room.size b = .ok T) (hpos : ∀ t, T = some t → 0 < t)
    (f : Fin nS → Fin nM → Fin K → ℝ) (td : ℝ) (seed : Option ℤ) (i₀ : ℕ) (hi : 0 < i₀)
    (hi₀ : (i₀ : ℤ) = min ((K : ℤ) - 1) ⌊td * room.fs⌋) :
    ∃ (g : Fin nS → Fin nM → Fin K → ℝ) (ν : Fin nS → Fin nM → Fin (K - i₀) → ℝ),
      applyDiffuseTail w (tensor3 f) room b td seed = .ok (tensor3 g) ∧
      w.randn (seed.getD 0) [nS, nM, K - i₀] = (tensor3 ν).data ∧ HasTail T room.fs i₀ ν f g := by
  unfold applyDiffuseTail
  have hK : (tensor3 f).shape.getLastD 0 = K := by simp [tensor3]
  simp only [hK]
  have h0 : ¬ min ((K : ℤ) - 1) ⌊td * room.fs⌋ ≤ 0 := by omega
  rw [if_neg h0, hT, ok_bind]
  have hi0 : (min ((K : ℤ) - 1) ⌊td * room.fs⌋).toNat = i₀ := by omega
  rw [hi0]
  have hi0K : i₀ < K := by omega
  obtain ⟨ν, hν⟩ := exists_tensor3 ⟨[nS, nM, K - i₀], w.randn (seed.getD 0) [nS, nM, K - i₀]⟩
    (hw _ _) nS nM (K - i₀) rfl
  have hshape : (tensor3 f).shape.dropLast = [nS, nM] := by simp [tensor3]
  have hgr : groups ((tensor3 f).shape.dropLast.prod) (K - i₀)
      (w.randn (seed.getD 0) ((tensor3 f).shape.dropLast ++ [K - i₀]))
      = (List.ofFn fun i => List.ofFn fun j => List.ofFn (ν i j)).flatten := by
    rw [hshape]
    have h1 := ofRows3_lastAxisRows (n := K - i₀) (fun i j => List.ofFn (ν i j)) (by simp)
    rw [← tensor3_eq_ofRows3, ← hν] at h1
    rw [← h1]
    simp [Tensor.lastAxisRows]
  rw [hgr, tensor3_eq_ofRows3, ofRows3_lastAxisRows _ (by simp)]
  generalize hdec : List.map (fun (i : ℕ) => _) (List.range (K - i₀)) = decay
  have hdec' : decay = (List.range (K - i₀)).map fun i : ℕ => tailDecay T (i / room.fs) := by
    rw [← hdec]
    refine List.map_congr_left fun i _ => ?_
    rcases T with _ | t
    · simp only [tailDecay]
      congr 1
      ring
    · have := hpos t rfl
      simp only [tailDecay, if_neg (not_le.mpr this)]
      congr 1
      field_simp
  have hdl : decay.length = K - i₀ := by rw [hdec']; simp
  rw [zipWith_flatten_ofFn _ _ _ (by simp)]
  simp only [zipWith_ofFn]
  set row : Fin nS → Fin nM → List ℝ := fun i j => (List.ofFn (f i j)).take i₀ ++
    List.zipWith (fun a b => a * b * (|(List.ofFn (f i j)).getD (i₀ - 1) 0| + 1e-8))
      (List.ofFn (ν i j)) decay with hrow
  have hlen : ∀ i j, (row i j).length = K := by
    intro i j
    simp [hrow, hdl]
    omega
  refine ⟨fun s m k => (row s m)[k]'(by rw [hlen]; exact k.2), ν, ?_, congrArg Tensor.data hν, ?_, ?_⟩
  · show Except.ok _ = _
    congr 1
    have e : ∀ i j, List.ofFn (fun k : Fin K => (row i j)[k]'(by rw [hlen]; exact k.2)) = row i j := by
      intro i j
      apply List.ext_getElem
      · simp [hlen]
      · intro k h1 h2; simp
    rw [tensor3_eq_ofRows3]
    simp only [e]
    show Tensor.mk _ _ = ofRows3 K row
    have := ofRows3_data (n := K) row
    conv_rhs => rw [show ofRows3 K row = ⟨(ofRows3 K row).shape, (ofRows3 K row).data⟩ from rfl, this]
    rfl
  · intro s m k hk
    simp only [hrow]
    rw [Fin.getElem_fin, List.getElem_append_left (by simp; omega)]
    simp
  · intro s m last j hlast
    simp only [hrow, Fin.getElem_fin]
    rw [List.getElem_append_right (by simp)]
    have hl : i₀ - 1 = (last : ℕ) := by omega
    have hmin : min i₀ K = i₀ := by omega
    simp only [List.getElem_zipWith, hdec', List.length_take, List.length_ofFn, hmin, Nat.add_sub_cancel_left,
      List.getElem_ofFn, List.getElem_map, List.getElem_range, hl]
    simp [List.getD_eq_getElem?_getD]

theorem sabine_pos {d : ℕ} {L : Fin d → ℝ} (h : RealRoom L) {A : ℝ} (hA : 0 < A) : 0 < sabine L A :=
  div_pos (mul_pos (by norm_num) (volume_pos h)) hA

theorem reverbTime_pos {d : ℕ} {L : Fin d → ℝ} (h : RealRoom L) (β : Fin (2 * d) → ℝ) {t : ℝ}
    (ht : reverbTime L β = some t) : 0 < t := by
  unfold reverbTime at ht
  split_ifs at ht with hA
  rw [← Option.some.inj ht]
  exact sabine_pos h (not_le.mp hA)

theorem t60_of_beta {d : ℕ} {L : Fin d → ℝ} (hd : d = 2 ∨ d = 3) (β : Fin (2 * d) → ℝ) :
    estimateT60FromBeta (List.ofFn L) (List.ofFn β) = .ok (reverbTime L β) := by
  rw [t60_formula hd]
  unfold reverbTime
  congr 1

theorem chooseBeta_of_resolve {room : Room} {b : List ℝ} (h : resolveBeta room = .ok b) : chooseBeta room = .ok b := by
  unfold resolveBeta at h
  rw [bind_eq_ok] at h
  obtain ⟨b', h1, h2⟩ := h
  rw [raiseIf_bind_ok] at h2
  rw [h1, Except.ok.inj h2.2]

theorem rigid_time {d : ℕ} {L : Fin d → ℝ} (hd : d = 2 ∨ d = 3) :
    estimateT60FromBeta (List.ofFn L) (List.replicate (nWalls d) 1) = .ok none := by
  have e : List.replicate (nWalls d) (1 : ℝ) = List.ofFn fun _ : Fin (2 * d) => (1 : ℝ) := by
    rw [List.ofFn_const]
    rcases hd with rfl | rfl <;> rfl
  rw [e, t60_of_beta hd]
  unfold reverbTime
  rw [if_pos (by simp [absorption])]

/-- The coefficients a room resolves to have its reverberation time. -/
theorem decaysWith_estimate {d : ℕ} {room : Room} {L : Fin d → ℝ} {T : Option ℝ} (h : DecaysWith room L T)
    (hL : RealRoom L) (hsize : room.size = List.ofFn L) {b : List ℝ} (hb : resolveBeta room = .ok b) :
    estimateT60FromBeta room.size b = .ok T ∧ ∀ t, T = some t → 0 < t := by
  have hc := chooseBeta_of_resolve hb
  unfold chooseBeta at hc
  cases h with
  | walls β h =>
    rw [h] at hc
    rw [← Except.ok.inj hc, hsize]
    exact ⟨t60_of_beta hL.dim β, fun t => reverbTime_pos hL β⟩
  | time t h1 h2 =>
    rw [h1, h2, hsize] at hc
    simp only at hc
    have ht : 0 < t := by
      by_contra h
      rw [C30_nonpositive_rejected _ (not_lt.mp h)] at hc
      cases hc
    obtain ⟨β, e1, e2⟩ := C30_round_trip hL ht
    rw [e1] at hc
    rw [← Except.ok.inj hc, hsize]
    refine ⟨e2, fun x hx => ?_⟩
    rw [← Option.some.inj hx]
    exact lt_max_of_lt_left ht
  | neither h1 h2 =>
    rw [h1, h2, hsize] at hc
    simp only [List.length_ofFn] at hc
    rw [← Except.ok.inj hc, hsize]
    exact ⟨rigid_time hL.dim, fun t ht => by cases ht⟩

/-- **C110.** With a `tdiff` below the time limit, a succeeding unfiltered call succeeds with the same response in which
everything from sample `min (nsample - 1) ⌊tdiff fs⌋` on (if that is not the first) is replaced by the noise of the
configured seed, fading with the reverberation time of the room, and as loud as the last sample before. -/
theorem C110_tail_exactly {d : ℕ} (w : World) (hw : ∀ seed shape, (w.randn seed shape).length = shape.prod)
    (room : Room) (L : Fin d → ℝ) (hsize : room.size = List.ofFn L) (hL : ∀ i, 0 < L i) (T : Option ℝ)
    (hT : DecaysWith room L T) (sources mics : Entity) (hfs : 0 < room.fs) (hs : sources.positions.WF)
    (hm : mics.positions.WF) (a : SimArgs) (cfg : Config) (hcfg : a.config = some cfg)
    (hoff : cfg.rirHpfEnable = false) (td tm : ℝ) (htm : effectiveTmax a = some tm) (hlt : td < tm) (R : Tensor ℝ)
    (h : simulateRir w room sources mics { a with tdiff := none } = .ok R) :
    ∃ (nS nM K : ℕ) (f g : Fin nS → Fin nM → Fin K → ℝ), R = tensor3 f ∧
      simulateRir w room sources mics { a with tdiff := some td } = .ok (tensor3 g) ∧
      ∀ i₀ : ℕ, 0 < i₀ → (i₀ : ℤ) = min ((K : ℤ) - 1) ⌊td * room.fs⌋ →
        ∃ ν : Fin nS → Fin nM → Fin (K - i₀) → ℝ,
          w.randn (cfg.seed.getD 0) [nS, nM, K - i₀] = (tensor3 ν).data ∧ HasTail T room.fs i₀ ν f g := by
  obtain ⟨L', nS, nM, src, mic, hsize', e1, e2⟩ := static_shapes hs hm h
  have hdd : room.size.length = d := by rw [hsize]; simp
  obtain ⟨P, hP⟩ := StaticPlan.exists hsize' e1 e2 h
  have hd : d = 2 ∨ d = 3 := by rw [← hdd]; exact hP.hd
  have hPc : P.cfg = cfg := cfg_of_resolve hcfg hP.res
  have hPt : P.tmax = some tm := (tmax_of_resolve hP.res).trans htm
  have hP' := StaticPlan.withTdiff (td' := some td) hP
  rw [hP.eval w hfs.ne'] at h
  have h' : applyRirHpf w room.fs P.cfg (P.static w room L' src mic) = .ok R := h
  rw [applyRirHpf_off _ _ _ (by rw [hPc]; exact hoff)] at h'
  obtain ⟨hE, hpos⟩ := decaysWith_estimate hT ⟨hd, hL⟩ hsize hP.beta
  have hstep : ∀ rir, diffuseStep w rir room (wallList P.lo P.hi) (some td) P.tmax P.cfg.seed
      = applyDiffuseTail w rir room (wallList P.lo P.hi) td cfg.seed := by
    intro rir
    rw [hPt, hPc]
    unfold diffuseStep
    simp only [if_pos hlt]
  rw [hP'.eval w hfs.ne']
  simp only [hstep]
  by_cases hz : min ((P.K.toNat : ℤ) - 1) ⌊td * room.fs⌋ ≤ 0
  · refine ⟨nS, nM, P.K.toNat, _, fun s m (k : Fin P.K.toNat) =>
      rir (P.setup w room L') P.A (P.gs s) (P.gm m) (src s) (mic m) k, (Except.ok.inj h').symm, ?_,
      fun i₀ h1 h2 => by omega⟩
    have : applyDiffuseTail w (P.static w room L' src mic) room (wallList P.lo P.hi) td cfg.seed
        = .ok (P.static w room L' src mic) := by
      unfold applyDiffuseTail
      have hK : (P.static w room L' src mic).shape.getLastD 0 = P.K.toNat := by simp [Plan.static, tensor3]
      simp only [hK]
      rw [if_pos hz]
      rfl
    rw [this, ok_bind, applyRirHpf_off _ _ _ (by rw [hPc]; exact hoff)]
    rfl
  · obtain ⟨g, ν, hg1, hg2, hg3⟩ := applyDiffuseTail_full w hw room (wallList P.lo P.hi) T hE hpos
      (fun s m (k : Fin P.K.toNat) => rir (P.setup w room L') P.A (P.gs s) (P.gm m) (src s) (mic m) k) td cfg.seed
      (min ((P.K.toNat : ℤ) - 1) ⌊td * room.fs⌋).toNat (by omega) (by omega)
    refine ⟨nS, nM, P.K.toNat, _, g, (Except.ok.inj h').symm, ?_, ?_⟩
    · rw [show P.static w room L' src mic = tensor3 (fun s m (k : Fin P.K.toNat) =>
          rir (P.setup w room L') P.A (P.gs s) (P.gm m) (src s) (mic m) k) from rfl, hg1, ok_bind,
        applyRirHpf_off _ _ _ (by rw [hPc]; exact hoff)]
    · intro i₀ h1 h2
      have e : (min ((P.K.toNat : ℤ) - 1) ⌊td * room.fs⌋).toNat = i₀ := by omega
      subst e
      exact ⟨ν, hg2, hg3⟩

/-- **C110.** The fading of the tail is a fall by 60 dB per reverberation time, up to one part in 10 000: every `T`
seconds the amplitude is multiplied by the same number, which differs from `1/1000` by less than `10⁻⁷`. -/
theorem C110_sixty_dB : ∃ q : ℝ, |q - 1 / 1000| ≤ 1 / 10 ^ 7 ∧
    ∀ T t : ℝ, 0 < T → tailDecay (some T) (t + T) = q * tailDecay (some T) t := by
  refine ⟨Real.exp (-6.9078), ?_, ?_⟩
  · have h1 := Real.exp_one_gt_d9
    have h2 := Real.exp_one_lt_d9
    have e : Real.exp (-6.9078) = Real.exp 0.0922 / Real.exp 1 ^ 7 := by
      rw [eq_div_iff (by positivity), ← Real.exp_nat_mul, ← Real.exp_add]
      norm_num
    have hx1 : (1.09658 : ℝ) ≤ Real.exp 0.0922 := by
      have := Real.sum_le_exp_of_nonneg (x := (0.0922 : ℝ)) (by norm_num) 4
      refine le_trans ?_ this
      norm_num [Finset.sum_range_succ, Nat.factorial]
    have hx2 : Real.exp 0.0922 ≤ 1.09659 := by
      have := Real.exp_bound' (x := (0.0922 : ℝ)) (by norm_num) (by norm_num) (n := 4) (by norm_num)
      refine le_trans this ?_
      norm_num [Finset.sum_range_succ, Nat.factorial]
    have hp1 : (2.7182818283 : ℝ) ^ 7 ≤ Real.exp 1 ^ 7 := pow_le_pow_left₀ (by norm_num) h1.le 7
    have hp2 : Real.exp 1 ^ 7 ≤ (2.7182818286 : ℝ) ^ 7 := pow_le_pow_left₀ (by positivity) h2.le 7
    rw [e, abs_le]
    constructor
    · have : 1 / 1000 - 1 / 10 ^ 7 ≤ Real.exp 0.0922 / Real.exp 1 ^ 7 := by
        rw [le_div_iff₀ (by positivity)]
        refine le_trans ?_ hx1
        refine le_trans (mul_le_mul_of_nonneg_left hp2 (by norm_num)) ?_
        norm_num
      linarith
    · have : Real.exp 0.0922 / Real.exp 1 ^ 7 ≤ 1 / 1000 + 1 / 10 ^ 7 := by
        rw [div_le_iff₀ (by positivity)]
        refine le_trans hx2 ?_
        refine le_trans ?_ (mul_le_mul_of_nonneg_left hp1 (by norm_num))
        norm_num
      linarith
  · intro T t hT
    simp only [tailDecay]
    rw [← Real.exp_add]
    congr 1
    field_simp
    ring

theorem exists_ofFn {n : ℕ} {α : Type} (l : List α) (h : l.length = n) : ∃ f : Fin n → α, l = List.ofFn f := by
  subst h
  exact ⟨l.get, (List.ofFn_get l).symm⟩

theorem boxRoom_decays {d : ℕ} (L lo hi : Fin d → ℝ) (fs c : ℝ) : ∃ β : Fin (2 * d) → ℝ,
    wallList lo hi = List.ofFn β ∧ DecaysWith (boxRoom L lo hi fs c) L (reverbTime L β) := by
  have hlen : (wallList lo hi).length = 2 * d := by
    rw [show 2 * d = d * 2 from Nat.mul_comm _ _]
    exact flatten_ofFn_length _ (by simp)
  obtain ⟨β, hβ⟩ := exists_ofFn _ hlen
  exact ⟨β, hβ, .walls β (by rw [← hβ]; rfl)⟩

theorem orderSet_zero (d : ℕ) : orderSet d 0 = {0} := by
  ext n
  rw [mem_orderSet, Finset.mem_singleton]
  constructor
  · intro h
    have h0 : ∑ i, |n i| = 0 := le_antisymm (by simpa using h) (Finset.sum_nonneg fun _ _ => abs_nonneg _)
    funext i
    exact abs_eq_zero.mp ((Finset.sum_eq_zero_iff_of_nonneg fun _ _ => abs_nonneg _).mp h0 i (Finset.mem_univ i))
  · rintro rfl
    simp

theorem image_zero {d : ℕ} (L x : Fin d → ℝ) : image L x 0 = x := by
  funext i
  simp [image, mirrored]

/-- **C110, level.** The tail is not as loud as the response it continues: with the direct sound alone, a tail that starts
after the direct sound has passed has the level `10⁻⁸` however loud the direct sound was. -/
theorem C110_level_fails {d nS nM : ℕ} (hd : d = 2 ∨ d = 3) (hS : 0 < nS) (hM : 0 < nM) (w : World)
    (hw : ∀ seed shape, (w.randn seed shape).length = shape.prod) (L lo hi : Fin d → ℝ) (hL : ∀ i, 0 < L i)
    (fs c : ℝ) (hfs : 0 < fs) (hc : 0 < c) (K : ℕ) (hK : 0 < K) (cfg : Config) (hcfg : cfg.validate = .ok ())
    (hoff : cfg.rirHpfEnable = false) (tm td : ℝ) (htm : cfg.tmax = some tm) (hlt : td < tm)
    (src : Fin nS → Fin d → ℝ) (mic : Fin nM → Fin d → ℝ) (i₀ : ℕ)
    (hi₀ : (i₀ : ℤ) = min ((K : ℤ) - 1) ⌊td * fs⌋)
    (hlate : ∀ s m, ⌊pathLength (mic m) (src s) * fs / c⌋ + cfg.fracDelayLength < (i₀ : ℤ)) :
    ∃ (g : Fin nS → Fin nM → Fin K → ℝ) (ν : Fin nS → Fin nM → Fin (K - i₀) → ℝ) (T : Option ℝ),
      simulateRir w (boxRoom L lo hi fs c) (points src) (points mic)
        { omniArgs (d := d) (.order 0) K cfg with tdiff := some td } = .ok (tensor3 g) ∧
      (∀ s m (k : Fin K), (k : ℕ) < i₀ → g s m k = 1 / pathLength (mic m) (src s)
        * kernel (setupFor w cfg L lo hi fs c).shape cfg.fracDelayLength.toNat (pathLength (mic m) (src s) * fs / c) k) ∧
      w.randn (cfg.seed.getD 0) [nS, nM, K - i₀] = (tensor3 ν).data ∧ DecaysWith (boxRoom L lo hi fs c) L T ∧
      ∀ s m (j : Fin (K - i₀)), g s m ⟨i₀ + j, by omega⟩ = ν s m j * tailDecay T (j / fs) * 1e-8 := by
  obtain ⟨l, hP⟩ := omniPlan_static hd hS hM L lo hi fs c (.order 0) K hK cfg hcfg src mic
  obtain ⟨β, hβ, hT⟩ := boxRoom_decays L lo hi fs c
  obtain ⟨hE, hpos⟩ := decaysWith_estimate hT ⟨hd, hL⟩ rfl (resolveBeta_boxRoom hd L lo hi fs c)
  obtain ⟨-, -, -, -, ⟨hf0, hf1⟩, -⟩ := (Config.valid_iff cfg).mp hcfg
  have hr0 : 0 < i₀ := by
    have h1 := hlate ⟨0, hS⟩ ⟨0, hM⟩
    have h2 : 0 ≤ ⌊pathLength (mic ⟨0, hM⟩) (src ⟨0, hS⟩) * fs / c⌋ := Int.floor_nonneg.mpr
      (div_nonneg (mul_nonneg (le_trans (by norm_num) (le_max_right _ _)) hfs.le) hc.le)
    omega
  have hrir : ∀ s m (k : ℕ), rir (setupFor w cfg L lo hi fs c) (orderSet d 0) omni omni (src s) (mic m) k
      = 1 / pathLength (mic m) (src s) * kernel (setupFor w cfg L lo hi fs c).shape cfg.fracDelayLength.toNat
        (pathLength (mic m) (src s) * fs / c) k := by
    intro s m k
    unfold rir
    rw [orderSet_zero, Finset.sum_singleton]
    simp only [setupFor, image_zero, omni, mul_one]
    have : wallGain lo hi 0 = 1 := by simp [wallGain, absorbed]
    rw [this]
  obtain ⟨g, ν, hg1, hg2, hg3, hg4⟩ := applyDiffuseTail_full w hw (boxRoom L lo hi fs c) (wallList lo hi) _ hE hpos
    (fun s m (k : Fin K) => rir (setupFor w cfg L lo hi fs c) (orderSet d 0) omni omni (src s) (mic m) k) td cfg.seed
    i₀ hr0 hi₀
  have hP' : StaticPlan (boxRoom L lo hi fs c) (points src) (points mic)
      { omniArgs (d := d) (.order 0) K cfg with tdiff := some td } L src mic
      (omniPlan nS nM lo hi (.order 0) K cfg l) := StaticPlan.withTdiff (td := none) hP
  refine ⟨g, ν, _, ?_, ?_, hg2, hT, ?_⟩
  · rw [hP'.eval w hfs.ne']
    have : diffuseStep w ((omniPlan nS nM lo hi (.order 0) K cfg l).static w (boxRoom L lo hi fs c) L src mic)
        (boxRoom L lo hi fs c) (wallList lo hi) (some td) cfg.tmax cfg.seed = .ok (tensor3 g) := by
      unfold diffuseStep
      simp only [htm, if_pos hlt]
      exact hg1
    refine Eq.trans (congrArg (· >>= _) this) ?_
    rw [ok_bind]
    exact applyRirHpf_off _ _ _ hoff _
  · intro s m k hk
    exact (hg3 s m k hk).trans (hrir s m k)
  · intro s m j
    have hiK : i₀ - 1 < K := by omega
    have := hg4 s m ⟨i₀ - 1, hiK⟩ j (by simp; omega)
    rw [this]
    simp only [hrir]
    have hk : kernel (setupFor w cfg L lo hi fs c).shape cfg.fracDelayLength.toNat
        (pathLength (mic m) (src s) * fs / c) (i₀ - 1) = 0 := by
      unfold kernel
      have := hlate s m
      rw [if_neg (by omega)]
    rw [hk]
    simp [boxRoom]

theorem tailConfig_valid : ({ rirHpfEnable := false, tmax := some 0.1 } : Config).validate = .ok () := by
  rw [Config.valid_iff]
  refine ⟨by simp, by simp, ?_, by simp, by norm_num, by norm_num, by norm_num, by norm_num, by norm_num, ?_⟩
  · intro t ht; cases ht; norm_num
  · intro n hn; cases hn; norm_num

/-- A room made for a reverberation time of 0.4 s: the tail fades with 0.4 s. -/
example (w : World) (hw : ∀ seed shape, (w.randn seed shape).length = shape.prod) :
    ∃ (nS nM K : ℕ) (f g : Fin nS → Fin nM → Fin K → ℝ),
      simulateRir w { size := [6, 4, 3], fs := 16000, t60 := some 0.4 } (points ![![1, 2, 1]]) (points ![![3, 2, 1]])
        { omniArgs (d := 3) (.order 3) 1600 { rirHpfEnable := false, tmax := some 0.1 } with tdiff := some 0.02 }
        = .ok (tensor3 g) ∧
      ∀ i₀ : ℕ, 0 < i₀ → (i₀ : ℤ) = min ((K : ℤ) - 1) ⌊(0.02 : ℝ) * 16000⌋ →
        ∃ ν : Fin nS → Fin nM → Fin (K - i₀) → ℝ, w.randn 0 [nS, nM, K - i₀] = (tensor3 ν).data ∧
          HasTail (some 0.4) 16000 i₀ ν f g := by
  obtain ⟨b, hb, hl⟩ : ∃ b, estimateBetaFromT60 [6, 4, 3] 0.4 = .ok b ∧ b.length = 2 * 3 := by
    unfold estimateBetaFromT60
    rw [if_neg (by norm_num)]
    exact ⟨_, rfl, by simp⟩
  obtain ⟨lo, hi, rfl⟩ := wallList_of_length (d := 3) b hl
  have hsize : ([6, 4, 3] : List ℝ) = List.ofFn (![6, 4, 3] : Fin 3 → ℝ) := by simp
  have hT : DecaysWith { size := [6, 4, 3], fs := 16000, t60 := some 0.4 } (![6, 4, 3] : Fin 3 → ℝ) (some 0.4) := by
    have := DecaysWith.time (room := { size := [6, 4, 3], fs := 16000, t60 := some 0.4 }) (L := ![6, 4, 3]) 0.4 rfl rfl
    rwa [max_eq_left] at this
    have hA : surface (![6, 4, 3] : Fin 3 → ℝ) = 108 := by
      simp [surface, wallArea, Fin.sum_univ_succ, Finset.prod_filter, Fin.prod_univ_three]
      norm_num
    have hV : volume (![6, 4, 3] : Fin 3 → ℝ) = 72 := by
      simp [volume, Fin.prod_univ_three]
      norm_num
    rw [sabine, hA, hV]
    norm_num
  have h0 := (C20_t60_room_is_beta_room w [6, 4, 3] 16000 343 0.4 _ hb
    (omniArgs (d := 3) (.order 3) 1600 { rirHpfEnable := false, tmax := some 0.1 })).1
      (points ![![1, 2, 1]]) (points ![![3, 2, 1]])
  rw [hsize] at h0
  have h1 := C05_static_rir_formula (Or.inr rfl) (by norm_num) (by norm_num) w ![6, 4, 3] lo hi 16000 343
    (by norm_num) (by norm_num) (.order 3) 1600 (by norm_num) _ tailConfig_valid rfl ![![1, 2, 1]] ![![3, 2, 1]]
  obtain ⟨nS, nM, K, f, g, -, h3, h4⟩ := C110_tail_exactly w hw _ ![6, 4, 3] hsize
    (fun i => by fin_cases i <;> norm_num) _ hT (points ![![1, 2, 1]]) (points ![![3, 2, 1]]) (by norm_num)
    (by simp [Tensor.WF, points, tensor2]) (by simp [Tensor.WF, points, tensor2])
    (omniArgs (d := 3) (.order 3) 1600 { rirHpfEnable := false, tmax := some 0.1 }) _ rfl rfl 0.02 0.1 rfl
    (by norm_num) _ (by rw [hsize]; exact h0.trans h1)
  exact ⟨nS, nM, K, f, g, h3, h4⟩

/-- A direct sound of one metre, over after 128 samples, and a tail from sample 320 on. -/
example (w : World) (hw : ∀ seed shape, (w.randn seed shape).length = shape.prod) :
    ∃ (g : Fin 1 → Fin 1 → Fin 1600 → ℝ) (ν : Fin 1 → Fin 1 → Fin 1280 → ℝ) (T : Option ℝ),
      simulateRir w (boxRoom ![4, 5] ![0.9, 0.8] ![0.7, 0.6] 16000 343) (points ![![1, 2]]) (points ![![2, 2]])
        { omniArgs (d := 2) (.order 0) 1600 { rirHpfEnable := false, tmax := some 0.1 } with tdiff := some 0.02 }
        = .ok (tensor3 g) ∧
      ∀ j : Fin 1280, g 0 0 ⟨320 + j, by omega⟩ = ν 0 0 j * tailDecay T (j / 16000) * 1e-8 := by
  have hp : pathLength (![2, 2] : Fin 2 → ℝ) ![1, 2] = 1 := by
    have : Spec.dist (![2, 2] : Fin 2 → ℝ) ![1, 2] = 1 := by
      simp [Spec.dist, Fin.sum_univ_two]
      norm_num
    unfold pathLength
    rw [this]
    norm_num
  obtain ⟨g, ν, T, h1, -, -, -, h2⟩ := C110_level_fails (Or.inl rfl) (by norm_num) (by norm_num) w hw ![4, 5]
    ![0.9, 0.8] ![0.7, 0.6] (fun i => by fin_cases i <;> norm_num) 16000 343 (by norm_num) (by norm_num) 1600
    (by norm_num) _ tailConfig_valid rfl 0.1 0.02 rfl (by norm_num) ![![1, 2]] ![![2, 2]] 320
    (by
      have : ⌊(0.02 : ℝ) * 16000⌋ = 320 := by rw [Int.floor_eq_iff]; norm_num
      rw [this]
      norm_num)
    (by
      intro s m
      have e1 : (![![1, 2]] : Fin 1 → Fin 2 → ℝ) s = ![1, 2] := by fin_cases s; rfl
      have e2 : (![![2, 2]] : Fin 1 → Fin 2 → ℝ) m = ![2, 2] := by fin_cases m; rfl
      rw [e1, e2, hp]
      have : ⌊(1 : ℝ) * 16000 / 343⌋ = 46 := by rw [Int.floor_eq_iff]; norm_num
      rw [this]
      norm_num)
  exact ⟨g, ν, T, h1, fun j => h2 0 0 j⟩

end Torchrir.Props
