import Verif.Model.Scipy
import Verif.Props.Hpf
import Verif.Props.Symmetry
import Verif.Props.Kernel

/-!
# C86: zero-phase filtering
-/

namespace Torchrir.Props

open Torchrir.Model Torchrir.Spec Torchrir.Lemmas

/-- `a * x + y`, sample by sample. -/
def lc (a : ℝ) (x y : List ℝ) : List ℝ := List.zipWith (fun u v => a * u + v) x y

theorem lc_length {a : ℝ} {x y : List ℝ} {n : ℕ} (hx : x.length = n) (hy : y.length = n) :
    (lc a x y).length = n := by
  simp [lc, hx, hy]

theorem lc_headD (a : ℝ) {x y : List ℝ} (h : x.length = y.length) :
    (lc a x y).headD 0 = a * x.headD 0 + y.headD 0 := by
  cases x with
  | nil => cases y with
    | nil => simp [lc]
    | cons => simp at h
  | cons u x => cases y with
    | nil => simp at h
    | cons v y => rfl

theorem lc_reverse (a : ℝ) {x y : List ℝ} (h : x.length = y.length) :
    (lc a x y).reverse = lc a x.reverse y.reverse := by
  unfold lc
  exact List.reverse_zipWith h

theorem getLastD_reverse (x : List ℝ) : x.getLastD 0 = x.reverse.headD 0 := by
  rw [List.getLastD_eq_getLast?, List.headD_eq_head?_getD, List.head?_reverse]

theorem lc_getLastD (a : ℝ) {x y : List ℝ} (h : x.length = y.length) :
    (lc a x y).getLastD 0 = a * x.getLastD 0 + y.getLastD 0 := by
  rw [getLastD_reverse, getLastD_reverse x, getLastD_reverse y, lc_reverse a h,
    lc_headD a (by simpa using h)]

theorem biquadRun_length (q : Biquad) : ∀ (z : ℝ × ℝ) (x : List ℝ), (biquadRun q z x).length = x.length
  | _, [] => rfl
  | z, x :: xs => by simp [biquadRun, biquadRun_length q _ xs]

theorem biquadRun_lc (q : Biquad) (a : ℝ) : ∀ (z z' : ℝ × ℝ) (x y : List ℝ), x.length = y.length →
    biquadRun q (a * z.1 + z'.1, a * z.2 + z'.2) (lc a x y) = lc a (biquadRun q z x) (biquadRun q z' y)
  | _, _, [], [], _ => rfl
  | z, z', u :: x, v :: y, h => by
    have ih := biquadRun_lc q a (q.b1 * u - q.a1 * (q.b0 * u + z.1) + z.2, q.b2 * u - q.a2 * (q.b0 * u + z.1))
      (q.b1 * v - q.a1 * (q.b0 * v + z'.1) + z'.2, q.b2 * v - q.a2 * (q.b0 * v + z'.1)) x y
      (by simpa using h)
    unfold lc at ih ⊢
    rw [List.zipWith_cons_cons]
    simp only [biquadRun, List.zipWith_cons_cons]
    congr 1
    · ring
    · rw [← ih]
      congr 1
      ext <;> dsimp only <;> ring
  | _, _, [], _ :: _, h => by simp at h
  | _, _, _ :: _, [], h => by simp at h

theorem sosfilt_length : ∀ (s : List (Biquad × (ℝ × ℝ))) (x : List ℝ), (sosfilt s x).length = x.length
  | [], _ => rfl
  | (q, z) :: rest, x => by rw [sosfilt, sosfilt_length rest, biquadRun_length]

theorem sosfilt_lc (a : ℝ) : ∀ (sos : List Biquad) (v v' : ℝ) (x y : List ℝ), x.length = y.length →
    sosfilt (startStates sos (a * v + v')) (lc a x y) =
      lc a (sosfilt (startStates sos v) x) (sosfilt (startStates sos v') y)
  | [], _, _, _, _, _ => rfl
  | q :: rest, v, v', x, y, h => by
    simp only [startStates, sosfilt]
    rw [show (a * v + v') * ((q.b0 + q.b1 + q.b2) / (1 + q.a1 + q.a2)) =
        a * (v * ((q.b0 + q.b1 + q.b2) / (1 + q.a1 + q.a2))) +
          v' * ((q.b0 + q.b1 + q.b2) / (1 + q.a1 + q.a2)) by ring,
      ← sosfilt_lc a rest _ _ _ _ (by rw [biquadRun_length, biquadRun_length, h]), ← biquadRun_lc q a _ _ x y h]
    congr 2
    ext <;> dsimp only <;> ring

theorem oddExt_length (n : ℕ) (x : List ℝ) (h : n < x.length) : (oddExt n x).length = x.length + 2 * n := by
  simp [oddExt]
  omega

theorem lc_append (a : ℝ) {x y x' y' : List ℝ} (h : x.length = y.length) :
    lc a (x ++ x') (y ++ y') = lc a x y ++ lc a x' y' := by
  unfold lc
  exact List.zipWith_append h

theorem lc_map (a s t : ℝ) : ∀ x y : List ℝ,
    (lc a x y).map (2 * (a * s + t) - ·) = lc a (x.map (2 * s - ·)) (y.map (2 * t - ·))
  | [], _ => by simp [lc]
  | _ :: _, [] => by simp [lc]
  | u :: x, v :: y => by
    have ih := lc_map a s t x y
    unfold lc at ih ⊢
    simp only [List.zipWith_cons_cons, List.map_cons, ih]
    congr 1
    ring

theorem oddExt_lc (a : ℝ) (n : ℕ) {x y : List ℝ} (h : x.length = y.length) :
    oddExt n (lc a x y) = lc a (oddExt n x) (oddExt n y) := by
  have e1 : ((lc a x y).drop 1).take n = lc a ((x.drop 1).take n) ((y.drop 1).take n) := by
    unfold lc
    rw [List.drop_zipWith, List.take_zipWith]
  have e2 : ((lc a x y).reverse.drop 1).take n =
      lc a ((x.reverse.drop 1).take n) ((y.reverse.drop 1).take n) := by
    rw [lc_reverse a h]
    unfold lc
    rw [List.drop_zipWith, List.take_zipWith]
  unfold oddExt
  rw [e1, e2, lc_headD a h, lc_getLastD a h, lc_reverse a (by simp [h]), lc_map, lc_map,
    lc_append a (by simp [h]), lc_append a (by simp [h])]

/-- The result for a row that is long enough. -/
noncomputable def zeroPhase (sos : List Biquad) (x : List ℝ) : List ℝ :=
  let ext := oddExt (padLength sos) x
  let y := sosfilt (startStates sos (ext.headD 0)) ext
  let z := sosfilt (startStates sos (y.getLastD 0)) y.reverse
  (z.reverse.drop (padLength sos)).take x.length

theorem zeroPhase_length (sos : List Biquad) (x : List ℝ) (h : padLength sos < x.length) :
    (zeroPhase sos x).length = x.length := by
  unfold zeroPhase
  simp only [List.length_take, List.length_drop, List.length_reverse, sosfilt_length, oddExt_length _ _ h]
  omega

theorem zeroPhase_lc (sos : List Biquad) (a : ℝ) (x y : List ℝ) (h : x.length = y.length) :
    zeroPhase sos (lc a x y) = lc a (zeroPhase sos x) (zeroPhase sos y) := by
  have he : (oddExt (padLength sos) x).length = (oddExt (padLength sos) y).length := by
    simp [oddExt, h]
  unfold zeroPhase
  dsimp only
  rw [oddExt_lc a _ h, lc_headD a he, sosfilt_lc a sos _ _ _ _ he,
    lc_getLastD a (by rw [sosfilt_length, sosfilt_length, he]),
    lc_reverse a (by rw [sosfilt_length, sosfilt_length, he]),
    sosfilt_lc a sos _ _ _ _ (by simp [sosfilt_length, he]),
    lc_reverse a (by simp [sosfilt_length, he]), lc_length h rfl]
  conv_rhs => rw [h]
  unfold lc
  rw [List.drop_zipWith, List.take_zipWith]

theorem lc_ofFn {n : ℕ} (a : ℝ) (x y : Fin n → ℝ) :
    lc a (List.ofFn x) (List.ofFn y) = List.ofFn fun i => a * x i + y i := by
  unfold lc
  apply List.ext_getElem <;> simp

/-- **C86.** `sosfiltfilt` rejects rows of at most `padlen` samples and acts as a linear map on longer
ones, keeping their length. -/
theorem C86_linear_or_rejected (design : ℤ → ℝ → List (String × String) → Except String (List Biquad))
    (randn : ℤ → List ℕ → List ℝ) (device : DeviceType) (sos : List Biquad) (K : ℕ) :
    (K ≤ padLength sos → ∀ x : Fin K → ℝ, ∃ e, sosfiltfilt sos (List.ofFn x) = .error e) ∧
    (padLength sos < K → ∃ G : (Fin K → ℝ) →ₗ[ℝ] (Fin K → ℝ),
      ActsAs (scipyWorld design randn device) sos G) := by
  constructor
  · intro h x
    unfold sosfiltfilt
    dsimp only
    rw [if_pos (by simpa using h)]
    exact ⟨_, rfl⟩
  · intro h
    have hlen : ∀ x : Fin K → ℝ, (zeroPhase sos (List.ofFn x)).length = K := fun x => by
      rw [zeroPhase_length sos _ (by simpa using h), List.length_ofFn]
    have hlc : ∀ (a : ℝ) (x y : Fin K → ℝ) (i : Fin K),
        (zeroPhase sos (List.ofFn (a • x + y))).getD i 0 =
          a * (zeroPhase sos (List.ofFn x)).getD i 0 + (zeroPhase sos (List.ofFn y)).getD i 0 := by
      intro a x y i
      have e : List.ofFn (a • x + y) = lc a (List.ofFn x) (List.ofFn y) := by
        rw [lc_ofFn]
        rfl
      rw [e, zeroPhase_lc sos a _ _ (by simp)]
      unfold lc
      rw [List.getD_eq_getElem _ _ (by simp [hlen]), List.getD_eq_getElem _ _ (by simp [hlen]),
        List.getD_eq_getElem _ _ (by simp [hlen]), List.getElem_zipWith]
    have h0 : ∀ i : Fin K, (zeroPhase sos (List.ofFn (0 : Fin K → ℝ))).getD i 0 = 0 := by
      intro i
      have := hlc 1 0 0 i
      simp only [smul_zero, add_zero, one_mul] at this
      linarith
    refine ⟨{ toFun := fun x i => (zeroPhase sos (List.ofFn x)).getD i 0, map_add' := ?_, map_smul' := ?_ }, ?_⟩
    · intro x y
      funext i
      have := hlc 1 x y i
      rw [one_smul, one_mul] at this
      exact this
    · intro a x
      funext i
      have := hlc a x 0 i
      rw [add_zero, h0, add_zero] at this
      exact this
    · intro x
      show sosfiltfilt sos (List.ofFn x) = _
      unfold sosfiltfilt
      dsimp only
      rw [if_neg (by simpa using h)]
      show Except.ok (zeroPhase sos (List.ofFn x)) = _
      congr 1
      apply List.ext_getElem
      · rw [hlen]; simp
      · intro n h1 h2
        rw [List.getElem_ofFn]
        exact (List.getD_eq_getElem _ _ h1).symm

/-- The second order Butterworth high-pass at a quarter of the sample rate, on 20 samples. -/
example (randn : ℤ → List ℕ → List ℝ) : ∃ G : (Fin 20 → ℝ) →ₗ[ℝ] (Fin 20 → ℝ),
    ActsAs (scipyWorld (fun _ _ _ => .ok [⟨0.29, -0.58, 0.29, 0, 0.17⟩]) randn .cpu)
      [⟨0.29, -0.58, 0.29, 0, 0.17⟩] G :=
  (C86_linear_or_rejected _ randn .cpu [⟨0.29, -0.58, 0.29, 0, 0.17⟩] 20).2 (by
    unfold padLength
    norm_num)

theorem biquadRun_settled (q : Biquad) (hq : 1 + q.a1 + q.a2 ≠ 0) (v : ℝ) : ∀ n : ℕ,
    biquadRun q ((stepState q).1 * v, (stepState q).2 * v) (List.replicate n v) =
      List.replicate n (v * ((q.b0 + q.b1 + q.b2) / (1 + q.a1 + q.a2)))
  | 0 => rfl
  | n + 1 => by
    rw [List.replicate_succ, List.replicate_succ]
    unfold biquadRun
    dsimp only
    congr 1
    · unfold stepState
      field_simp
      ring
    · rw [← biquadRun_settled q hq v n]
      congr 1
      unfold stepState
      ext
      · dsimp only
        field_simp
        ring
      · dsimp only
        field_simp
        ring

/-- The gain at zero frequency. -/
noncomputable def dcGain : List Biquad → ℝ
  | [] => 1
  | q :: rest => (q.b0 + q.b1 + q.b2) / (1 + q.a1 + q.a2) * dcGain rest

theorem sosfilt_settled : ∀ (sos : List Biquad), (∀ q ∈ sos, 1 + q.a1 + q.a2 ≠ 0) → ∀ (v : ℝ) (n : ℕ),
    sosfilt (startStates sos v) (List.replicate n v) = List.replicate n (v * dcGain sos)
  | [], _, v, n => by simp [startStates, sosfilt, dcGain]
  | q :: rest, h, v, n => by
    rw [startStates, sosfilt, biquadRun_settled q (h q (by simp)),
      sosfilt_settled rest fun p hp => h p (by simp [hp])]
    rw [dcGain]
    congr 1
    ring

/-- **C86, constants.** A constant row is multiplied by the square of the gain at zero frequency from
the first to the last sample, without transients; a high-pass filter, whose gain there is zero, removes
it completely. -/
theorem C86_constant (sos : List Biquad) (h : ∀ q ∈ sos, 1 + q.a1 + q.a2 ≠ 0) (v : ℝ) (n : ℕ)
    (hn : padLength sos < n) :
    sosfiltfilt sos (List.replicate n v) = .ok (List.replicate n (v * dcGain sos ^ 2)) := by
  have hext : oddExt (padLength sos) (List.replicate n v) = List.replicate (n + 2 * padLength sos) v := by
    have h1 : (List.replicate n v).headD 0 = v := by
      obtain ⟨m, rfl⟩ : ∃ m, n = m + 1 := ⟨n - 1, by omega⟩
      rfl
    have h2 : (List.replicate n v).getLastD 0 = v := by
      rw [getLastD_reverse, List.reverse_replicate, h1]
    unfold oddExt
    rw [h1, h2]
    simp only [List.drop_replicate, List.take_replicate, List.reverse_replicate, List.map_replicate]
    rw [show 2 * v - v = v by ring, List.replicate_append_replicate, List.replicate_append_replicate]
    congr 1
    omega
  unfold sosfiltfilt
  dsimp only
  rw [if_neg (by simpa using hn), hext]
  have hpos : n + 2 * padLength sos = (n + 2 * padLength sos - 1) + 1 := by omega
  have hh : (List.replicate (n + 2 * padLength sos) v).headD 0 = v := by
    rw [hpos]
    rfl
  rw [hh, sosfilt_settled sos h]
  have hl : (List.replicate (n + 2 * padLength sos) (v * dcGain sos)).getLastD 0 = v * dcGain sos := by
    rw [getLastD_reverse, List.reverse_replicate, hpos]
    rfl
  rw [hl, List.reverse_replicate, sosfilt_settled sos h, List.reverse_replicate, List.drop_replicate,
    List.take_replicate, List.length_replicate]
  congr 2
  · omega
  · ring

/-- A high-pass section removes a constant. -/
example : sosfiltfilt [⟨0.29, -0.58, 0.29, 0, 0.17⟩] (List.replicate 20 3) = .ok (List.replicate 20 0) := by
  rw [C86_constant _ (by norm_num) 3 20 (by unfold padLength; norm_num)]
  norm_num [dcGain]

/-- **C86, short responses.** If the designed filter is one full section (such as the default second
order Butterworth filter), a call asking for at most nine samples raises. -/
theorem C86_short_response_rejected {d nS nM : ℕ} (hd : d = 2 ∨ d = 3) (hS : 0 < nS) (hM : 0 < nM)
    (design : ℤ → ℝ → List (String × String) → Except String (List Biquad))
    (hdes : ∀ n wc kw sos, design n wc kw = .ok sos → ∃ q, sos = [q] ∧ q.b2 ≠ 0)
    (randn : ℤ → List ℕ → List ℝ) (device : DeviceType) (L lo hi : Fin d → ℝ) (fs c : ℝ) (hfs : 0 < fs)
    (hc : 0 < c) (sel : Selection d) (K : ℕ) (hK : K ≤ 9) (cfg : Config)
    (hon : cfg.rirHpfEnable = true) (src : Fin nS → Fin d → ℝ) (mic : Fin nM → Fin d → ℝ) :
    ∃ e, simulateRir (scipyWorld design randn device) (boxRoom L lo hi fs c) (points src) (points mic)
      (omniArgs sel K cfg) = .error e := by
  set w := scipyWorld design randn device with hw
  cases h : simulateRir w (boxRoom L lo hi fs c) (points src) (points mic) (omniArgs sel K cfg) with
  | error e => exact ⟨e, rfl⟩
  | ok R =>
    exfalso
    obtain ⟨raw, sos, h1, ⟨_, _, kw, hsos, -⟩, rows, -, h3⟩ := C85_filter_is_last w _ hfs (points src)
      (points mic) (omniArgs sel K cfg) cfg hon R h
    have hcfg : (unfiltered cfg).validate = .ok () := by
      unfold simulateRir at h1
      rw [bind_eq_ok] at h1
      obtain ⟨r, hr, -⟩ := h1
      have hv := resolveConfig_valid hr
      rwa [cfg_of_resolve rfl hr] at hv
    have hK0 : 0 < K := by
      unfold simulateRir at h1
      rw [bind_eq_ok] at h1
      obtain ⟨r, hr, h1⟩ := h1
      simp only [bind_eq_ok] at h1
      obtain ⟨n, hn, -⟩ := h1
      have h4 := (validateArgs_inv hn).1
      have h5 := (validateArgs_inv hn).2.1
      have h6 := Except.ok.inj h4
      omega
    have h2 : simulateRir w (boxRoom L lo hi fs c) (points src) (points mic)
        (omniArgs sel K (unfiltered cfg)) = .ok raw := h1
    rw [C05_static_rir_formula hd hS hM w L lo hi fs c hfs hc sel K hK0 (unfiltered cfg) hcfg rfl] at h2
    cases h2
    rw [tensor3_eq_ofRows3, ofRows3_lastAxisRows _ (by simp)] at h3
    obtain ⟨q, rfl, hq⟩ := hdes _ _ _ _ hsos
    have hpad : padLength [q] = 9 := by
      unfold padLength
      simp [hq]
    obtain ⟨hl, hg⟩ := List.forall₂_iff_get.mp h3
    obtain ⟨i, hi', e⟩ := List.mem_iff_getElem.mp (flatten_mem (fun (s : Fin nS) (m : Fin nM) =>
      List.ofFn fun k : Fin K => rir (setupFor w (unfiltered cfg) L lo hi fs c) sel.images omni omni
        (src s) (mic m) k) ⟨0, hS⟩ ⟨0, hM⟩)
    have hy := hg i hi' (hl ▸ hi')
    rw [List.get_eq_getElem, e] at hy
    obtain ⟨e, he⟩ := (C86_linear_or_rejected design randn device [q] K).1 (by omega)
      (fun k : Fin K => rir (setupFor w (unfiltered cfg) L lo hi fs c) sel.images omni omni
          (src ⟨0, hS⟩) (mic ⟨0, hM⟩) k)
    have hy' : sosfiltfilt [q] _ = .ok _ := hy
    rw [he] at hy'
    cases hy'

example (randn : ℤ → List ℕ → List ℝ) : ∃ e,
    simulateRir (scipyWorld (fun _ _ _ => .ok [⟨0.29, -0.58, 0.29, 0, 0.17⟩]) randn .cpu)
      (boxRoom ![4, 5] ![0.9, 0.8] ![0.7, 0.6] 16000 343) (points ![![1, 2]]) (points ![![3, 4]])
      (omniArgs (d := 2) (.order 3) 9 {}) = .error e :=
  C86_short_response_rejected (Or.inl rfl) (by norm_num) (by norm_num) _
    (fun _ _ _ sos h => ⟨_, (Except.ok.inj h).symm, by norm_num⟩) randn .cpu _ _ _ _ _ (by norm_num)
    (by norm_num) _ 9 le_rfl _ rfl _ _

/-- First order Butterworth high-pass at a quarter of the sample rate: `tan (π / 4) = 1` in the bilinear
transform leaves `(1 - z⁻¹) / 2`. -/
noncomputable def halfBand : List Biquad := [⟨1 / 2, -1 / 2, 0, 0, 0⟩]

theorem halfBand_pad : padLength halfBand = 6 := by
  unfold padLength halfBand
  simp

theorem halfBand_ten (v : ℝ) : sosfiltfilt halfBand [0, 0, 0, 0, 0, 0, v, 0, 0, 0] =
    .ok [0, 0, 0, 0, 0, -v / 4, v / 2, -v / 4, 0, 0] := by
  unfold sosfiltfilt
  dsimp only
  rw [halfBand_pad, if_neg (by simp)]
  unfold halfBand
  simp [oddExt, startStates, stepState, sosfilt, biquadRun]
  ring_nf
  trivial

theorem halfBand_seven (v : ℝ) : sosfiltfilt halfBand [0, 0, 0, 0, 0, 0, v] =
    .ok [0, 0, 0, 0, 0, -v / 4, 0] := by
  unfold sosfiltfilt
  dsimp only
  rw [halfBand_pad, if_neg (by simp)]
  unfold halfBand
  simp [oddExt, startStates, stepState, sosfilt, biquadRun]
  ring_nf
  trivial

/-- The design that returns `halfBand` for order 1 and a cutoff at half the Nyquist frequency. -/
noncomputable def halfBandDesign (n : ℤ) (wc : ℝ) (_ : List (String × String)) :
    Except String (List Biquad) :=
  open Classical in if n = 1 ∧ wc = 1 / 2 then .ok halfBand else .error "not modelled"

/-- First order filter at 85 Hz and a kernel of one tap. -/
noncomputable def halfBandConfig : Config :=
  { rirHpfFc := 85, rirHpfKwargs := ⟨some 1, [("type", "butter")]⟩, fracDelayLength := 1, useLut := false }

theorem dist_six_and_a_half : Spec.dist ![7, 1] ![0.5, 1] = (6.5 : ℝ) := by
  unfold Spec.dist
  rw [Fin.sum_univ_two]
  show Real.sqrt ((7 - 0.5) ^ 2 + (1 - 1) ^ 2) = 6.5
  rw [show ((7 : ℝ) - 0.5) ^ 2 + (1 - 1) ^ 2 = 6.5 ^ 2 by norm_num, Real.sqrt_sq (by norm_num)]

theorem halfBand_raw (w : World) (N K : ℕ) (hK : 0 < K) :
    simulateRir w (boxRoom ![8, 8] (fun _ => 0) (fun _ => 0) 340 340) (points ![![0.5, 1]])
        (points ![![7, 1]]) (omniArgs (d := 2) (.order N) K (unfiltered halfBandConfig))
      = .ok (tensor3 fun (_ _ : Fin 1) (k : Fin K) =>
          if (k : ℕ) = 6 then 2 / Real.pi / 6.5 else 0) := by
  rw [C17_anechoic_is_direct_path (Or.inl rfl) (by norm_num) (by norm_num) w _ _ _ (by norm_num)
    (by norm_num) (.order N) K hK _ (by rw [Config.valid_iff]; simp [unfiltered, halfBandConfig]) rfl]
  congr 2
  funext s m k
  have hp : pathLength (![![7, 1]] m) (![![0.5, 1]] s) = 6.5 := by
    rw [Subsingleton.elim m 0, Subsingleton.elim s 0]
    show max (Spec.dist ![7, 1] ![0.5, 1]) _ = _
    rw [dist_six_and_a_half]
    norm_num
  rw [hp]
  have hfl : ⌊(6.5 : ℝ) * 340 / 340⌋ = 6 := by
    rw [Int.floor_eq_iff]
    norm_num
  show 1 / 6.5 * kernel Spec.sinc 1 (6.5 * 340 / 340) k = _
  unfold kernel
  rw [hfl]
  by_cases h : (k : ℕ) = 6
  · rw [if_pos h, if_pos (by rw [h]; norm_num), h]
    norm_num [hann, Spec.sinc]
    rw [show Real.pi * (1 / 2) = Real.pi / 2 by ring, Real.sin_pi_div_two]
    field_simp
  · rw [if_neg h, if_neg, mul_zero]
    rintro ⟨h1, h2⟩
    norm_num at h2
    omega

theorem rowFilter_on {w : World} {fs : ℝ} {cfg : Config} (hon : cfg.rirHpfEnable = true) {sos : w.Sos}
    (hdes : designHpfSos w fs cfg.rirHpfFc cfg.rirHpfKwargs = .ok sos) (row : List ℝ) :
    rowFilter w fs cfg row = w.sosfiltfilt sos row := by
  unfold rowFilter
  rw [if_neg (by simp [hon]), hdes, ok_bind]

/-- **C86 fails: the filtered response starts before the direct sound and depends on `nsample`.** Source
and microphone are 6.5 samples apart in an anechoic room and the filter is a first order Butterworth
filter. Sample 5 is not zero, although C09 promises silence before 5.5 without the filter; and sample 6
is different when only 7 samples are asked for, although C08 promises the same samples without it. -/
theorem C86_causal_and_prefix_fails (randn : ℤ → List ℕ → List ℝ) (N : ℕ) :
    ∃ (f : Fin 1 → Fin 1 → Fin 10 → ℝ) (g : Fin 1 → Fin 1 → Fin 7 → ℝ),
      simulateRir (scipyWorld halfBandDesign randn .cpu) (boxRoom ![8, 8] (fun _ => 0) (fun _ => 0) 340 340)
        (points ![![0.5, 1]]) (points ![![7, 1]]) (omniArgs (d := 2) (.order N) 10 halfBandConfig)
          = .ok (tensor3 f) ∧
      simulateRir (scipyWorld halfBandDesign randn .cpu) (boxRoom ![8, 8] (fun _ => 0) (fun _ => 0) 340 340)
        (points ![![0.5, 1]]) (points ![![7, 1]]) (omniArgs (d := 2) (.order N) 7 halfBandConfig)
          = .ok (tensor3 g) ∧
      (5 : ℝ) < Spec.dist ![0.5, 1] ![7, 1] * 340 / 340 - 1 ∧ f 0 0 5 ≠ 0 ∧ g 0 0 6 ≠ f 0 0 6 := by
  set w := scipyWorld halfBandDesign randn .cpu with hw
  have hdes : designHpfSos w 340 halfBandConfig.rirHpfFc halfBandConfig.rirHpfKwargs
      = .ok halfBand := by
    unfold designHpfSos
    dsimp only [halfBandConfig]
    rw [if_neg (by norm_num)]
    show halfBandDesign 1 (2 * 85 / 340) [("ftype", "butter")] = _
    unfold halfBandDesign
    rw [if_pos ⟨rfl, by norm_num⟩]
    rfl
  have hv : (2 / Real.pi / 6.5 : ℝ) ≠ 0 := by positivity
  have run : ∀ (K : ℕ) (hK : 0 < K) (y : Fin K → ℝ),
      sosfiltfilt halfBand (List.ofFn fun k : Fin K => if (k : ℕ) = 6 then 2 / Real.pi / 6.5 else 0)
        = .ok (List.ofFn y) →
      simulateRir w (boxRoom ![8, 8] (fun _ => 0) (fun _ => 0) 340 340) (points ![![0.5, 1]])
        (points ![![7, 1]]) (omniArgs (d := 2) (.order N) K halfBandConfig)
          = .ok (tensor3 fun (_ _ : Fin 1) => y) := by
    intro K hK y hy
    have hsplit := static_split w (boxRoom ![8, 8] (fun _ => 0) (fun _ => 0) 340 340)
      (points ![![0.5, 1]]) (points ![![7, 1]]) (omniArgs (d := 2) (.order N) K halfBandConfig) halfBandConfig
    have e1 : ({ omniArgs (d := 2) (.order N) K halfBandConfig with config := some halfBandConfig } : SimArgs)
      = omniArgs (d := 2) (.order N) K halfBandConfig := rfl
    have e2 : ({ omniArgs (d := 2) (.order N) K halfBandConfig with
        config := some (unfiltered halfBandConfig) } : SimArgs)
      = omniArgs (d := 2) (.order N) K (unfiltered halfBandConfig) := rfl
    rw [e1, e2, halfBand_raw w N K hK, ok_bind] at hsplit
    rw [hsplit]
    show applyRirHpf w 340 halfBandConfig _ = _
    rw [tensor3_eq_ofRows3, hpf_rows3 (by norm_num) (by norm_num) w _ _ _ (by simp)]
    refine ⟨fun _ _ => List.ofFn y, fun i j => ?_, rfl⟩
    exact (rowFilter_on rfl hdes _).trans hy
  set v : ℝ := 2 / Real.pi / 6.5 with hvdef
  refine ⟨fun _ _ => ![0, 0, 0, 0, 0, -v / 4, v / 2, -v / 4, 0, 0],
    fun _ _ => ![0, 0, 0, 0, 0, -v / 4, 0], run 10 (by norm_num) _ ?_, run 7 (by norm_num) _ ?_, ?_, ?_, ?_⟩
  · have := halfBand_ten v
    simpa [List.ofFn_succ] using this
  · have := halfBand_seven v
    simpa [List.ofFn_succ] using this
  · have : Spec.dist ![0.5, 1] ![7, 1] = (6.5 : ℝ) := by
      rw [Torchrir.Lemmas.dist_comm, dist_six_and_a_half]
    rw [this]
    norm_num
  · show -v / 4 ≠ 0
    exact div_ne_zero (neg_ne_zero.mpr hv) (by norm_num)
  · show (0 : ℝ) ≠ v / 2
    exact (div_ne_zero hv (by norm_num)).symm

end Torchrir.Props
