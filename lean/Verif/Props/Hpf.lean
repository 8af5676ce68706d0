import Verif.Spec.Hpf
import Verif.Props.Static
import Verif.Props.Signal

/-!
# C85: the high-pass filter
-/

namespace Torchrir.Props

open Torchrir.Model Torchrir.Spec Torchrir.Lemmas

theorem lookup_cons_if (p : String × String) (l : List (String × String)) (key : String) :
    (p :: l).lookup key = if key = p.1 then some p.2 else l.lookup key := by
  rw [List.lookup_cons]
  by_cases h : key = p.1
  · rw [if_pos h, beq_iff_eq.mpr h]
  · rw [if_neg h, beq_eq_false_iff_ne.mpr h]

theorem lookup_any (l : List (String × String)) (key : String) :
    l.any (·.1 = key) = (l.lookup key).isSome := by
  induction l with
  | nil => rfl
  | cons p l ih =>
    rw [List.any_cons, lookup_cons_if, ih]
    by_cases h : key = p.1
    · simp [h]
    · have h' : p.1 ≠ key := fun e => h e.symm
      simp [h, h']

theorem lookup_renamed (l : List (String × String)) (hf : l.lookup "ftype" = none) (key : String) :
    (l.map fun p => if p.1 = "type" then ("ftype", p.2) else p).lookup key =
      if key = "ftype" then l.lookup "type" else if key = "type" then none else l.lookup key := by
  induction l with
  | nil => simp
  | cons p l ih =>
    obtain ⟨k, v⟩ := p
    rw [lookup_cons_if] at hf
    have h1 : ¬ "ftype" = k := fun e => by simp [e] at hf
    rw [if_neg h1] at hf
    rw [List.map_cons, lookup_cons_if, lookup_cons_if, lookup_cons_if, ih hf]
    by_cases h2 : k = "type"
    · subst h2
      simp only [if_true]
      split_ifs <;> rfl
    · rw [if_neg h2]
      have h2' : ¬ "type" = k := fun e => h2 e.symm
      dsimp only
      rw [if_neg h2']
      split_ifs with h3 h4 h5 <;> first | rfl | (subst_vars; contradiction)

/-- The design step succeeds exactly for the filter the configuration asks for. -/
theorem designHpfSos_designed {w : World} {fs : ℝ} (hfs : 0 < fs) {cfg : Config} {sos : w.Sos}
    (h : designHpfSos w fs cfg.rirHpfFc cfg.rirHpfKwargs = .ok sos) : Designed w fs cfg sos := by
  unfold designHpfSos at h
  dsimp only at h
  by_cases hw : 0 < 2 * cfg.rirHpfFc / fs ∧ 2 * cfg.rirHpfFc / fs < 1
  · rw [if_neg (not_not.mpr hw)] at h
    have e : 2 * cfg.rirHpfFc / fs = cfg.rirHpfFc / (fs / 2) := by field_simp
    rw [e] at h hw
    refine ⟨?_, ?_, ?_⟩
    · exact (div_pos_iff_of_pos_right (by linarith)).mp hw.1
    · exact (div_lt_one (by linarith)).mp hw.2
    · refine ⟨_, h, ?_⟩
      rw [lookup_any, lookup_any]
      unfold keyword
      cases hf : cfg.rirHpfKwargs.rest.lookup "ftype" with
      | some v =>
        simp only [Option.isSome_some, Bool.not_true, Bool.and_false, Bool.false_eq_true, if_false]
        exact ⟨by rw [hf]; rfl, fun _ _ _ => trivial⟩
      | none =>
        cases ht : cfg.rirHpfKwargs.rest.lookup "type" with
        | none =>
          simp only [Option.isSome_none, Bool.false_and, Bool.false_eq_true, if_false]
          exact ⟨by rw [hf]; rfl, fun _ _ _ => trivial⟩
        | some v =>
          simp only [Option.isSome_some, Option.isSome_none, Bool.not_false, Bool.and_true, if_true]
          refine ⟨?_, fun key h1 h2 => ?_⟩
          · rw [lookup_renamed _ hf, if_pos rfl, ht]
            rfl
          · rw [lookup_renamed _ hf, if_neg h1, if_neg h2]
  · rw [if_pos hw] at h
    cases h

theorem unfiltered_validate (cfg : Config) : (unfiltered cfg).validate = cfg.validate := rfl

theorem forall₂_of_mapM {α β : Type} {f : α → Except String β} : ∀ {l : List α} {r : List β},
    l.mapM f = .ok r → List.Forall₂ (fun x y => f x = .ok y) l r
  | [], r, h => by
    rw [List.mapM_nil] at h
    cases h
    exact .nil
  | a :: l, r, h => by
    rw [List.mapM_cons] at h
    simp only [bind_eq_ok] at h
    obtain ⟨b, hb, bs, hbs, h⟩ := h
    cases h
    exact .cons hb (forall₂_of_mapM hbs)

theorem static_split (w : World) (room : Room) (sources mics : Entity) (a : SimArgs) (cfg : Config) :
    simulateRir w room sources mics { a with config := some cfg } =
      simulateRir w room sources mics { a with config := some (unfiltered cfg) } >>=
        applyRirHpf w room.fs cfg := by
  unfold simulateRir resolveConfig
  simp only [Option.getD_some, bind_assoc, pure_bind, unfiltered_validate]
  refine bind_congr fun _ => bind_congr fun _ => bind_congr fun _ => bind_congr fun _ =>
    bind_congr fun _ => bind_congr fun _ => bind_congr fun _ => bind_congr fun _ =>
    bind_congr fun _ => bind_congr fun _ => bind_congr fun _ => bind_congr fun _ =>
    bind_congr fun _ => bind_congr fun _ => ?_
  rfl

theorem dynamic_split (w : World) (room : Room) (src mic : Tensor ℝ) (a : SimArgs) (cfg : Config) :
    simulateDynamicRir w room src mic { a with config := some cfg } =
      simulateDynamicRir w room src mic { a with config := some (unfiltered cfg) } >>=
        applyRirHpf w room.fs cfg := by
  unfold simulateDynamicRir resolveConfig
  simp only [Option.getD_some, bind_assoc, pure_bind, unfiltered_validate]
  refine bind_congr fun _ => bind_congr fun _ => bind_congr fun _ => bind_congr fun _ =>
    bind_congr fun _ => bind_congr fun _ => bind_congr fun _ => bind_congr fun _ =>
    bind_congr fun _ => bind_congr fun _ => bind_congr fun _ => bind_congr fun _ => ?_
  rfl

theorem applyRirHpf_on {w : World} {fs : ℝ} (hfs : 0 < fs) {cfg : Config} (hon : cfg.rirHpfEnable = true)
    {raw R : Tensor ℝ} (h : applyRirHpf w fs cfg raw = .ok R) :
    ∃ sos, Designed w fs cfg sos ∧ RowsFiltered w sos raw R := by
  unfold applyRirHpf at h
  rw [if_neg (by simp [hon])] at h
  simp only [bind_eq_ok] at h
  obtain ⟨sos, h1, rows, h2, h3⟩ := h
  cases h3
  exact ⟨sos, designHpfSos_designed hfs h1, rows, rfl, forall₂_of_mapM h2⟩

/-- **C85.** With the filter switched on, `simulate_rir` returns the result it gives with the filter
switched off, diffuse tail included, with every response filtered by itself. -/
theorem C85_filter_is_last (w : World) (room : Room) (hfs : 0 < room.fs) (sources mics : Entity)
    (a : SimArgs) (cfg : Config) (hon : cfg.rirHpfEnable = true) (R : Tensor ℝ)
    (h : simulateRir w room sources mics { a with config := some cfg } = .ok R) :
    ∃ raw sos, simulateRir w room sources mics { a with config := some (unfiltered cfg) } = .ok raw ∧
      Designed w room.fs cfg sos ∧ RowsFiltered w sos raw R := by
  rw [static_split, bind_eq_ok] at h
  obtain ⟨raw, h1, h2⟩ := h
  obtain ⟨sos, h3, h4⟩ := applyRirHpf_on hfs hon h2
  exact ⟨raw, sos, h1, h3, h4⟩

/-- **C85, moving devices.** The same holds for `simulate_dynamic_rir`. -/
theorem C85_filter_is_last_dynamic (w : World) (room : Room) (hfs : 0 < room.fs) (src mic : Tensor ℝ)
    (a : SimArgs) (cfg : Config) (hon : cfg.rirHpfEnable = true) (R : Tensor ℝ)
    (h : simulateDynamicRir w room src mic { a with config := some cfg } = .ok R) :
    ∃ raw sos, simulateDynamicRir w room src mic { a with config := some (unfiltered cfg) } = .ok raw ∧
      Designed w room.fs cfg sos ∧ RowsFiltered w sos raw R := by
  rw [dynamic_split, bind_eq_ok] at h
  obtain ⟨raw, h1, h2⟩ := h
  obtain ⟨sos, h3, h4⟩ := applyRirHpf_on hfs hon h2
  exact ⟨raw, sos, h1, h3, h4⟩

/-- **C85, cutoff.** A cutoff of half the sample rate or more is rejected in every call with the
filter switched on. -/
theorem C85_high_cutoff_rejected (w : World) (room : Room) (hfs : 0 < room.fs) (a : SimArgs)
    (cfg : Config) (hon : cfg.rirHpfEnable = true) (hfc : room.fs / 2 ≤ cfg.rirHpfFc) :
    (∀ sources mics, ∃ e, simulateRir w room sources mics { a with config := some cfg } = .error e) ∧
    ∀ src mic, ∃ e, simulateDynamicRir w room src mic { a with config := some cfg } = .error e := by
  constructor
  · intro sources mics
    cases h : simulateRir w room sources mics { a with config := some cfg } with
    | error e => exact ⟨e, rfl⟩
    | ok R =>
      obtain ⟨_, sos, -, h1, -⟩ := C85_filter_is_last w room hfs sources mics a cfg hon R h
      exact absurd h1.2.1 (not_lt.mpr hfc)
  · intro src mic
    cases h : simulateDynamicRir w room src mic { a with config := some cfg } with
    | error e => exact ⟨e, rfl⟩
    | ok R =>
      obtain ⟨_, sos, -, h1, -⟩ := C85_filter_is_last_dynamic w room hfs src mic a cfg hon R h
      exact absurd h1.2.1 (not_lt.mpr hfc)

/-- **C85, filter off.** With the filter switched off, scipy plays no role. -/
theorem C85_off_without_scipy (w w' : World) (hd : w'.device = w.device) (hr : w'.randn = w.randn)
    (room : Room) (a : SimArgs) (cfg : Config) (hoff : cfg.rirHpfEnable = false) :
    (∀ sources mics, simulateRir w room sources mics { a with config := some cfg } =
      simulateRir w' room sources mics { a with config := some cfg }) ∧
    ∀ src mic, simulateDynamicRir w room src mic { a with config := some cfg } =
      simulateDynamicRir w' room src mic { a with config := some cfg } := by
  have hf : ∀ t, applyRirHpf w room.fs cfg t = applyRirHpf w' room.fs cfg t := fun t => by
    rw [applyRirHpf_off _ _ _ hoff, applyRirHpf_off _ _ _ hoff]
  have ht : ∀ t beta td tm, diffuseStep w t room beta td tm cfg.seed =
      diffuseStep w' t room beta td tm cfg.seed := fun t beta td tm => by
    unfold diffuseStep applyDiffuseTail
    rw [hr]
  constructor
  · intro sources mics
    unfold simulateRir resolveConfig
    simp only [Option.getD_some, bind_assoc, pure_bind, hf, ht, hd]
  · intro src mic
    unfold simulateDynamicRir resolveConfig
    simp only [Option.getD_some, bind_assoc, pure_bind, hf, hd]

theorem applyRirHpf_linear {w : World} {fs : ℝ} {cfg : Config} (hon : cfg.rirHpfEnable = true)
    {sos : w.Sos} (hdes : designHpfSos w fs cfg.rirHpfFc cfg.rirHpfKwargs = .ok sos) {K : ℕ}
    {G : (Fin K → ℝ) →ₗ[ℝ] (Fin K → ℝ)} (hG : ActsAs w sos G) {a b : ℕ} (ha : 0 < a) (hb : 0 < b)
    (f : Fin a → Fin b → Fin K → ℝ) :
    applyRirHpf w fs cfg (tensor3 f) = .ok (tensor3 fun i j => G (f i j)) := by
  rw [tensor3_eq_ofRows3, hpf_rows3 ha hb w fs cfg _ (by simp)]
  refine ⟨fun i j => List.ofFn (G (f i j)), fun i j => ?_, rfl⟩
  unfold rowFilter
  rw [if_neg (by simp [hon]), hdes, ok_bind]
  exact hG _

theorem design_default {w : World} {fs : ℝ} (hfs : 0 < fs) {cfg : Config} (h0 : 0 < cfg.rirHpfFc)
    (h1 : cfg.rirHpfFc < fs / 2)
    (hkw : cfg.rirHpfKwargs = ⟨some 2, [("rp", "5.0"), ("rs", "60.0"), ("type", "butter")]⟩)
    {sos : w.Sos} (hsos : w.iirfilter 2 (cfg.rirHpfFc / (fs / 2))
      [("rp", "5.0"), ("rs", "60.0"), ("ftype", "butter")] = .ok sos) :
    designHpfSos w fs cfg.rirHpfFc cfg.rirHpfKwargs = .ok sos := by
  unfold designHpfSos
  have e : 2 * cfg.rirHpfFc / fs = cfg.rirHpfFc / (fs / 2) := by field_simp
  dsimp only
  rw [e, if_neg (not_not.mpr ⟨by positivity, (div_lt_one (by linarith)).mpr h1⟩), hkw]
  exact hsos

/-- **C85, closed form.** With the default filter settings, if the second order Butterworth filter is
designed and acts as a linear map on `K` samples, then the call succeeds and every response is the sum
over the images of the filtered kernel of the path, attenuated by walls and distance. -/
theorem C85_filtered_formula {d nS nM : ℕ} (hd : d = 2 ∨ d = 3) (hS : 0 < nS) (hM : 0 < nM)
    (w : World) (L lo hi : Fin d → ℝ) (fs c : ℝ) (hfs : 0 < fs) (hc : 0 < c)
    (sel : Selection d) (K : ℕ) (hK : 0 < K)
    (cfg : Config) (hcfg : cfg.validate = .ok ()) (hon : cfg.rirHpfEnable = true)
    (hkw : cfg.rirHpfKwargs = ⟨some 2, [("rp", "5.0"), ("rs", "60.0"), ("type", "butter")]⟩)
    (hfc : cfg.rirHpfFc < fs / 2)
    (sos : w.Sos) (hsos : w.iirfilter 2 (cfg.rirHpfFc / (fs / 2))
      [("rp", "5.0"), ("rs", "60.0"), ("ftype", "butter")] = .ok sos)
    (G : (Fin K → ℝ) →ₗ[ℝ] (Fin K → ℝ)) (hG : ActsAs w sos G)
    (src : Fin nS → Fin d → ℝ) (mic : Fin nM → Fin d → ℝ) :
    simulateRir w (boxRoom L lo hi fs c) (points src) (points mic) (omniArgs sel K cfg)
      = .ok (tensor3 fun s m k => ∑ n ∈ sel.images,
          wallGain lo hi n / pathLength (mic m) (image L (src s) n) *
            G (fun j : Fin K =>
              kernel (kernelShape (cfg.useLut && w.device ≠ .mps) cfg.sincLutGranularity.toNat)
                cfg.fracDelayLength.toNat (pathLength (mic m) (image L (src s) n) * fs / c) j) k) := by
  have h0 : 0 < cfg.rirHpfFc := ((Config.valid_iff cfg).mp hcfg).2.2.2.2.2.2.2.2.1
  have hsplit := static_split w (boxRoom L lo hi fs c) (points src) (points mic) (omniArgs sel K cfg) cfg
  have e1 : ({ omniArgs sel K cfg with config := some cfg } : SimArgs) = omniArgs sel K cfg := rfl
  have e2 : ({ omniArgs sel K cfg with config := some (unfiltered cfg) } : SimArgs)
    = omniArgs sel K (unfiltered cfg) := rfl
  rw [e1, e2, C05_static_rir_formula hd hS hM w L lo hi fs c hfs hc sel K hK (unfiltered cfg)
    ((unfiltered_validate cfg).trans hcfg) rfl, ok_bind] at hsplit
  rw [hsplit]
  show applyRirHpf w fs cfg _ = _
  rw [applyRirHpf_linear hon (design_default hfs h0 hfc hkw hsos) hG hS hM]
  congr 2
  funext s m
  have e : (fun k : Fin K => rir (setupFor w (unfiltered cfg) L lo hi fs c) sel.images omni omni (src s)
      (mic m) k) = ∑ n ∈ sel.images, (wallGain lo hi n / pathLength (mic m) (image L (src s) n)) •
        fun j : Fin K =>
          kernel (kernelShape (cfg.useLut && w.device ≠ .mps) cfg.sincLutGranularity.toNat)
            cfg.fracDelayLength.toNat (pathLength (mic m) (image L (src s) n) * fs / c) j := by
    funext k
    rw [Finset.sum_apply]
    unfold rir
    refine Finset.sum_congr rfl fun n _ => ?_
    dsimp only [setupFor, Pi.smul_apply, smul_eq_mul, unfiltered]
    simp only [omni]
    ring
  rw [e, map_sum]
  funext k
  rw [Finset.sum_apply]
  refine Finset.sum_congr rfl fun n _ => ?_
  rw [map_smul]
  rfl

/-- A world whose filter halves every sample. -/
noncomputable def halvingWorld (randn : ℤ → List ℕ → List ℝ) : World :=
  { Sos := Unit, iirfilter := fun _ _ _ => .ok (), sosfiltfilt := fun _ x => .ok (x.map (· / 2)), randn
    device := .cpu }

theorem halving_acts (randn : ℤ → List ℕ → List ℝ) (K : ℕ) :
    ActsAs (halvingWorld randn) () ((1 / 2 : ℝ) • (LinearMap.id : (Fin K → ℝ) →ₗ[ℝ] (Fin K → ℝ))) := by
  intro x
  show Except.ok ((List.ofFn x).map (· / 2)) = _
  rw [List.map_ofFn]
  congr 2
  funext i
  simp
  ring

/-- The default configuration at 16 kHz. -/
example (randn : ℤ → List ℕ → List ℝ) : ∃ f : Fin 1 → Fin 1 → Fin 1000 → ℝ,
    simulateRir (halvingWorld randn) (boxRoom ![4, 5] ![0.9, 0.8] ![0.7, 0.6] 16000 343)
      (points ![![1, 2]]) (points ![![3, 4]]) (omniArgs (d := 2) (.order 3) 1000 {}) = .ok (tensor3 f) ∧
    ∃ raw sos, simulateRir (halvingWorld randn) (boxRoom ![4, 5] ![0.9, 0.8] ![0.7, 0.6] 16000 343)
        (points ![![1, 2]]) (points ![![3, 4]]) (omniArgs (d := 2) (.order 3) 1000 (unfiltered {})) = .ok raw ∧
      RowsFiltered (halvingWorld randn) sos raw (tensor3 f) := by
  have h := C85_filtered_formula (Or.inl rfl) (by norm_num) (by norm_num) (halvingWorld randn) ![4, 5]
    ![0.9, 0.8] ![0.7, 0.6] 16000 343 (by norm_num) (by norm_num) (.order 3) 1000 (by norm_num) {}
    (by rw [Config.valid_iff]; simp) rfl rfl (by norm_num) () rfl _ (halving_acts randn 1000)
    ![![1, 2]] ![![3, 4]]
  obtain ⟨raw, sos, h1, -, h2⟩ := C85_filter_is_last (halvingWorld randn)
    (boxRoom ![4, 5] ![0.9, 0.8] ![0.7, 0.6] 16000 343) (by norm_num [boxRoom]) (points ![![1, 2]])
    (points ![![3, 4]]) (omniArgs (d := 2) (.order 3) 1000 {}) {} rfl _ h
  exact ⟨_, h, raw, sos, h1, h2⟩

/-- A cutoff of 9 kHz at 16 kHz. -/
example (w : World) : ∃ e, simulateRir w (boxRoom ![4, 5] ![0.9, 0.8] ![0.7, 0.6] 16000 343)
    (points ![![1, 2]]) (points ![![3, 4]]) (omniArgs (d := 2) (.order 3) 1000 { rirHpfFc := 9000 })
      = .error e :=
  (C85_high_cutoff_rejected w (boxRoom ![4, 5] ![0.9, 0.8] ![0.7, 0.6] 16000 343) (by norm_num [boxRoom]) (omniArgs (d := 2) (.order 3) 1000 {})
    { rirHpfFc := 9000 } rfl (by norm_num [boxRoom])).1 _ _

end Torchrir.Props
