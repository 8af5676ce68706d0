import Verif.Model.Dtypes
import Verif.Lemmas.Plan
import Verif.Lemmas.Rounded
import Verif.Props.Room
import Verif.Props.Tail

/-!
# C109: integer tensors

Simulations of positions, sizes and coefficients stored as integers.
-/

namespace Torchrir.Props

open Torchrir.Model Torchrir.Spec Torchrir.Lemmas

/-- A point in whole metres: every coordinate rounded towards zero. -/
noncomputable def wholeMetres {d : ℕ} (x : Fin d → ℝ) : Fin d → ℝ := fun i => ((trunc (x i) : ℤ) : ℝ)

/-! ## Computed in floating point -/

theorem castReal_floating : castReal .floating = id := by funext x; rfl

theorem castReals_floating : castReals .floating = id := by
  funext t
  cases t
  simp [castReals, castReal_floating]

theorem castRoom_floating (r : Room) : castRoom .floating r = r := by
  cases r
  simp [castRoom, castReal_floating]

theorem castEntity_floating (e : Entity) : castEntity .floating e = e := by
  cases e
  simp [castEntity, castReals_floating]

theorem castOri_floating : castOri .floating = id := by
  funext o
  cases o <;> simp [castOri, castReals_floating]

theorem resolveBetaIn_floating (r : Room) : resolveBetaIn .floating r = resolveBeta r := by
  unfold resolveBetaIn
  rw [castRoom_floating, castReal_floating]
  simp only [raiseIf, reduceCtorEq, false_and, if_false, ok_bind, List.map_id]
  exact bind_pure _

theorem refusesVectors_floating (p : String) (o : Option (Tensor ℝ)) (d : ℕ) :
    refusesVectors .floating p o d = .ok () := by
  unfold refusesVectors
  exact raiseIf_neg (by simp) _

theorem applyRirHpfIn_floating (w : World) (fs : ℝ) (cfg : Config) (t : Tensor ℝ) :
    applyRirHpfIn .floating w fs cfg t = applyRirHpf w fs cfg t := by
  unfold applyRirHpfIn
  rw [castReals_floating]
  exact bind_pure _

theorem diffuseStep_skipped (w : World) (rir : Tensor ℝ) (room : Room) (b b' : List ℝ) (td tm : Option ℝ)
    (seed : Option ℤ) (h : ∀ t m, td = some t → tm = some m → m ≤ t) :
    diffuseStep w rir room b td tm seed = diffuseStep w rir room b' td tm seed := by
  unfold diffuseStep
  rcases td with _ | t <;> rcases tm with _ | m <;> try rfl
  have := h t m rfl rfl
  simp [not_lt.mpr this]

theorem exceptMap_bind {α β γ : Type} (x : Except String α) (f : α → Except String β) (g : β → γ) :
    (x >>= f).map g = x >>= fun y => (f y).map g := by
  cases x <;> rfl

theorem bind_pure_map {α β : Type} (x : Except String α) (g : α → β) : (x >>= fun y => pure (g y)) = x.map g := by
  cases x <;> rfl

theorem typed_floating_static (w : World) (room : TypedRoom) (st : NumType) (sources mics : Entity)
    (dtype : Option NumType) (a : SimArgs) (hdt : dtype.getD st = .floating)
    (hd : ∀ beta, resolveBeta room.room = .ok beta → ∀ rir tmax seed,
      diffuseStep w rir room.room (beta.map (castReal room.sizeType)) a.tdiff tmax seed
      = diffuseStep w rir room.room beta a.tdiff tmax seed) :
    simulateRirTyped w room st sources mics dtype a
      = (simulateRir w room.room sources mics a).map fun R => (.floating, R) := by
  have hori : a.orientation.map (castOri .floating) = a.orientation := by rw [castOri_floating]; simp
  unfold simulateRirTyped simulateRir
  cases hb : resolveBeta room.room with
  | error e =>
    simp only [hdt, castRoom_floating, castEntity_floating, hori, resolveBetaIn_floating, hb, exceptMap_bind]
    rfl
  | ok beta =>
    simp only [hdt, castRoom_floating, castEntity_floating, hori, resolveBetaIn_floating, refusesVectors_floating,
      applyRirHpfIn_floating, diffuseStepIn, hb, hd beta hb, accumulateIn, exceptMap_bind, ok_bind, bind_pure_map]

theorem typed_floating_dynamic (w : World) (room : TypedRoom) (st : NumType) (srcTraj micTraj : Tensor ℝ)
    (dtype : Option NumType) (a : SimArgs) (hdt : dtype.getD st = .floating) :
    simulateDynamicRirTyped w room st srcTraj micTraj dtype a
      = (simulateDynamicRir w room.room srcTraj micTraj a).map fun R => (.floating, R) := by
  have hori : a.orientation.map (castOri .floating) = a.orientation := by rw [castOri_floating]; simp
  unfold simulateDynamicRirTyped simulateDynamicRir
  simp only [hdt, castRoom_floating, castReals_floating, id, hori, resolveBetaIn_floating, refusesVectors_floating,
    applyRirHpfIn_floating, accumulateIn, exceptMap_bind, ok_bind, bind_pure_map]

/-! ## Computed in integers -/

/-- The message of `scatter_add_`. -/
abbrev scatterRefuses : String := "RuntimeError: scatter(): Expected self.dtype to be equal to src.dtype"

open Classical in
theorem foldlM_same {β : Type} (step : List ℝ → β → Except String (List ℝ)) (P : β → Prop) (e : String)
    (b : List ℝ) (h : ∀ x, step b x = if P x then .error e else .ok b) (l : List β) :
    l.foldlM step b = if ∃ x ∈ l, P x then .error e else .ok b := by
  induction l with
  | nil => simp [pure, Except.pure]
  | cons x l ih =>
    rw [List.foldlM_cons, h]
    by_cases hx : P x
    · rw [if_pos hx, if_pos ⟨x, by simp, hx⟩]
      rfl
    · rw [if_neg hx, ok_bind, ih]
      by_cases hl : ∃ y ∈ l, P y
      · rw [if_pos hl, if_pos (by obtain ⟨y, hy, h'⟩ := hl; exact ⟨y, by simp [hy], h'⟩)]
      · rw [if_neg hl, if_neg (by
          rintro ⟨y, hy, h'⟩
          rcases List.mem_cons.mp hy with rfl | hy
          · exact hx h'
          · exact hl ⟨y, hy, h'⟩)]

theorem foldlM_inv {β : Type} (step : List ℝ → β → Except String (List ℝ))
    (h : ∀ b x b', step b x = .ok b' → b' = b) (l : List β) :
    ∀ b b', l.foldlM step b = .ok b' → b' = b := by
  induction l with
  | nil => intro b b' hb; exact (Except.ok.inj hb).symm
  | cons x l ih =>
    intro b b' hb
    rw [List.foldlM_cons, bind_eq_ok] at hb
    obtain ⟨b1, h1, h2⟩ := hb
    rw [ih _ _ h2, h _ _ _ h1]

theorem accumulateInt_ok {cfg : Config} {nSm N : ℕ} {buf buf' : List ℝ} {sample : List (List ℝ)}
    (h : accumulateInt cfg nSm N buf sample = .ok buf') : buf' = buf := by
  unfold accumulateInt at h
  rw [raiseIf_bind_ok, raiseIf_bind_ok] at h
  exact (Except.ok.inj h.2.2).symm

/-- A path reaches the response: some tap of its kernel, `⌊x⌋ + o` for an arrival at `x` (shifted by half a kernel),
is one of the `N` samples just when the unshifted arrival is before sample `N`. -/
theorem tap_inside {fdl N : ℕ} (hf : 0 < fdl) {y : ℝ} (hy : 0 ≤ y) :
    (∃ o ∈ fdlOffsets fdl, 0 ≤ ⌊y + halfLen fdl⌋ + o ∧ ⌊y + halfLen fdl⌋ + o < (N : ℤ)) ↔ y < N := by
  have e : ⌊y + (halfLen fdl : ℝ)⌋ = ⌊y⌋ + halfLen fdl := by
    rw [show ((halfLen fdl : ℕ) : ℝ) = (((halfLen fdl : ℕ) : ℤ) : ℝ) by push_cast; rfl, Int.floor_add_intCast]
  have h0 : 0 ≤ ⌊y⌋ := Int.floor_nonneg.mpr hy
  have hlt : y < N ↔ ⌊y⌋ < (N : ℤ) := by rw [Int.floor_lt]; simp
  rw [hlt, e]
  constructor
  · rintro ⟨o, ho, -, h2⟩
    unfold fdlOffsets at ho
    obtain ⟨j, -, rfl⟩ := List.mem_map.mp ho
    omega
  · intro h
    refine ⟨-(halfLen fdl : ℤ), List.mem_map.mpr ⟨0, List.mem_range.mpr hf, by simp⟩, by omega, by omega⟩

theorem mem_slices {α : Type} {l : List α} {c : ℕ} (hc : 0 < c) (x : α) :
    (∃ start ∈ rangeStep l.length c, x ∈ slice start (min (start + c) l.length) l) ↔ x ∈ l := by
  constructor
  · rintro ⟨s, -, h⟩
    unfold slice at h
    exact List.mem_of_mem_take (List.mem_of_mem_drop h)
  · intro h
    obtain ⟨i, hi, rfl⟩ := List.getElem_of_mem h
    have h1 := Nat.div_add_mod i c
    have h2 := Nat.mod_lt i hc
    have h3 : i / c * c = c * (i / c) := Nat.mul_comm _ _
    refine ⟨i / c * c, ?_, ?_⟩
    · unfold rangeStep
      refine List.mem_map.mpr ⟨i / c, List.mem_range.mpr ?_, rfl⟩
      rw [Nat.div_lt_iff_lt_mul hc]
      have h1 := Nat.div_add_mod (l.length + c - 1) c
      have h2 := Nat.mod_lt (l.length + c - 1) hc
      have : (l.length + c - 1) / c * c = c * ((l.length + c - 1) / c) := Nat.mul_comm _ _
      omega
    · unfold slice
      refine List.mem_iff_getElem.mpr ⟨i - i / c * c, ?_, ?_⟩
      · simp only [List.length_drop, List.length_take]
        omega
      · rw [List.getElem_drop, List.getElem_take]
        congr 1
        omega

theorem castReals_points {n d : ℕ} (p : Fin n → Fin d → ℝ) :
    castEntity .int64 (points p) = points fun j => wholeMetres (p j) := by
  have : ((List.ofFn fun i => List.ofFn (p i)).flatten).map (castReal .int64)
      = (List.ofFn fun i => List.ofFn (wholeMetres (p i))).flatten := by
    rw [List.map_flatten, List.map_ofFn]
    congr 2
    funext i
    rw [Function.comp, List.map_ofFn]
    rfl
  unfold castEntity points
  simp only [Option.map_none]
  congr 1
  unfold castReals tensor2
  simp only
  rw [← this]

open Classical in
theorem evalInt_static {d nS nM : ℕ} (hd : d = 2 ∨ d = 3) (hS : 0 < nS) (hM : 0 < nM) (w : World) (room : TypedRoom)
    (hfs : 0 < room.room.fs) (hc0 : 0 < room.room.c) (L lo hi : Fin d → ℝ)
    (hsize : (castRoom .int64 room.room).size = List.ofFn L)
    (hbeta : resolveBetaIn .int64 room.room = .ok (wallList lo hi)) (sel : Selection d) (K : ℕ) (hK : 0 < K)
    (cfg : Config) (hcfg : cfg.validate = .ok ()) (hoff : cfg.rirHpfEnable = false)
    (src : Fin nS → Fin d → ℝ) (mic : Fin nM → Fin d → ℝ) (st : NumType) (dtype : Option NumType)
    (hdt : dtype.getD st = .int64) :
    simulateRirTyped w room st (points src) (points mic) dtype (omniArgs sel K cfg)
      = if ∃ s m, ∃ n ∈ sel.images, pathLength (wholeMetres (mic m)) (image L (wholeMetres (src s)) n)
            * room.room.fs / room.room.c < K
        then .error scatterRefuses
        else .ok (.int64, tensor3 fun (_ : Fin nS) (_ : Fin nM) (_ : Fin K) => 0) := by
  obtain ⟨l, himg, hA⟩ := selection_images sel
  obtain ⟨ns, rfl, hnd, hmem⟩ := hA.exists_list
  have hdim : ensureDim (List.ofFn L) = .ok () := by
    unfold ensureDim; rw [List.length_ofFn, if_pos hd]
  have hshape : validatePosShapes (tensor2 fun s => wholeMetres (src s)) (tensor2 fun m => wholeMetres (mic m)) d
      = .ok () := by
    unfold validatePosShapes
    simp only [raiseIf_bind_ok, raiseIf_ok]
    simp [tensor2, Tensor.ndim]
  have hlen : (castRoom .int64 room.room).size.length = d := by rw [hsize]; simp
  obtain ⟨-, -, -, -, ⟨hf0, hf1⟩, -⟩ := (Config.valid_iff cfg).mp hcfg
  have hfdl : 0 < cfg.fracDelayLength.toNat := by omega
  have hloop := foldlM_same (fun (buf : List ℝ) (start : ℕ) => do
      let chunk ← contributionsBatch (List.ofFn fun s => List.ofFn (wholeMetres (src s)))
        (List.ofFn fun m => List.ofFn (wholeMetres (mic m))) (List.ofFn L)
        (slice start (min (start + imageChunk cfg ns.length) ns.length) (ns.map List.ofFn))
        (slice start (min (start + imageChunk cfg ns.length) ns.length) (ns.map (wallGain lo hi)))
        room.room.c room.room.fs (halfLen cfg.fracDelayLength.toNat) "omni" "omni" none none
      accumulateInt cfg (nS * nM) K buf (chunk.flatten.map (·.map Prod.fst)))
    (fun start => ∃ s m, ∃ n ∈ slice start (min (start + imageChunk cfg ns.length) ns.length) ns,
      pathLength (wholeMetres (mic m)) (image L (wholeMetres (src s)) n) * room.room.fs / room.room.c < K)
    scatterRefuses (List.replicate (nS * nM * K) 0)
    (by
      intro start
      rw [slice_map, slice_map]
      have hc := contributionsBatch_eq (setupFor w cfg L lo hi room.room.fs room.room.c) hfs.ne'
        (halfLen cfg.fracDelayLength.toNat) (fun s => wholeMetres (src s)) (fun m => wholeMetres (mic m))
        (slice start (min (start + imageChunk cfg ns.length) ns.length) ns) "omni" "omni" none none
        (fun (_ : Fin nS) _ => 1) (fun (_ : Fin nM) _ => 1) (gains_omni _)
      refine Eq.trans (congrArg (· >>= _) hc) ?_
      rw [ok_bind]
      unfold accumulateInt
      rw [raiseIf_neg (Nat.mul_pos hS hM).ne', ok_bind]
      have key : (∃ row ∈ ((List.ofFn fun s => List.ofFn fun m =>
            (slice start (min (start + imageChunk cfg ns.length) ns.length) ns).map
              (contribOf (setupFor w cfg L lo hi room.room.fs room.room.c) (halfLen cfg.fracDelayLength.toNat)
                ((fun (_ : Fin nS) _ => 1) s) ((fun (_ : Fin nM) _ => 1) m) (wholeMetres (src s))
                (wholeMetres (mic m)))).flatten).map (·.map Prod.fst),
            ∃ x ∈ row, ∃ o ∈ fdlOffsets cfg.fracDelayLength.toNat, 0 ≤ ⌊x⌋ + o ∧ ⌊x⌋ + o < (K : ℤ)) ↔
          ∃ s m, ∃ n ∈ slice start (min (start + imageChunk cfg ns.length) ns.length) ns,
            pathLength (wholeMetres (mic m)) (image L (wholeMetres (src s)) n)
              * room.room.fs / room.room.c < K := by
        have hy : ∀ s m n, 0 ≤ pathLength (wholeMetres (mic m)) (image L (wholeMetres (src s)) n)
            * room.room.fs / room.room.c := fun s m n =>
          div_nonneg (mul_nonneg (le_trans (by norm_num) (le_max_right _ _)) hfs.le) hc0.le
        constructor
        · rintro ⟨row, hrow, x, hx, ho⟩
          obtain ⟨r, hr, rfl⟩ := List.mem_map.mp hrow
          obtain ⟨q, hq, hr⟩ := List.mem_flatten.mp hr
          obtain ⟨s, rfl⟩ := (List.mem_ofFn' _ _).mp hq
          obtain ⟨m, rfl⟩ := (List.mem_ofFn' _ _).mp hr
          obtain ⟨p, hp, rfl⟩ := List.mem_map.mp hx
          obtain ⟨n, hn, rfl⟩ := List.mem_map.mp hp
          exact ⟨s, m, n, hn, (tap_inside hfdl (hy s m n)).mp ho⟩
        · rintro ⟨s, m, n, hn, hlt⟩
          refine ⟨_, List.mem_map.mpr ⟨_, List.mem_flatten.mpr ⟨_, (List.mem_ofFn' _ _).mpr ⟨s, rfl⟩,
            (List.mem_ofFn' _ _).mpr ⟨m, rfl⟩⟩, rfl⟩, _, List.mem_map.mpr ⟨_, List.mem_map.mpr ⟨n, hn, rfl⟩, rfl⟩,
            (tap_inside hfdl (hy s m n)).mpr hlt⟩
      unfold raiseIf
      by_cases h : ∃ s m, ∃ n ∈ slice start (min (start + imageChunk cfg ns.length) ns.length) ns,
            pathLength (wholeMetres (mic m)) (image L (wholeMetres (src s)) n)
              * room.room.fs / room.room.c < K
      · rw [if_pos h, if_pos (key.mpr h)]
        rfl
      · rw [if_neg h, if_neg (fun h' => h (key.mp h'))]
        rfl)
    (rangeStep ns.length (imageChunk cfg ns.length))
  have hex : (∃ start ∈ rangeStep ns.length (imageChunk cfg ns.length), ∃ s m,
        ∃ n ∈ slice start (min (start + imageChunk cfg ns.length) ns.length) ns,
        pathLength (wholeMetres (mic m)) (image L (wholeMetres (src s)) n) * room.room.fs / room.room.c < K) ↔
      ∃ s m, ∃ n ∈ sel.images, pathLength (wholeMetres (mic m)) (image L (wholeMetres (src s)) n)
            * room.room.fs / room.room.c < K := by
    constructor
    · rintro ⟨start, hst, s, m, n, hn, h⟩
      exact ⟨s, m, n, (hmem n).mp ((mem_slices (imageChunk_pos hcfg _) n).mp ⟨start, hst, hn⟩), h⟩
    · rintro ⟨s, m, n, hn, h⟩
      obtain ⟨start, hst, hn'⟩ := (mem_slices (imageChunk_pos hcfg _) n).mpr ((hmem n).mpr hn)
      exact ⟨start, hst, s, m, n, hn', h⟩
  simp only [hex] at hloop
  unfold simulateRirTyped
  rw [resolveConfig_omni sel K cfg hcfg, ok_bind]
  simp only [hdt, castReals_points, hlen, hbeta, ok_bind]
  have e1 : (omniArgs sel K cfg).nsample = some (K : ℤ) := rfl
  have e2 : (omniArgs sel K cfg).orientation = none := rfl
  have e3 : (omniArgs sel K cfg).nbImg = sel.nbImg := rfl
  have e4 : (omniArgs sel K cfg).tdiff = none := rfl
  have hprep : ∀ {n : ℕ} (p : Fin n → Fin d → ℝ) b, prepareEntity (points p) none b = .ok (tensor2 p, none) :=
    fun _ _ => rfl
  have hasp : ∀ {n : ℕ} (p : Fin n → Fin d → ℝ), asPoints (tensor2 p) = tensor2 p := fun _ => rfl
  have hsplit : splitDirectivity (.one "omni") = .ok ("omni", "omni") := rfl
  have href : ∀ o, refusesVectors .int64 "omni" o d = .ok () := fun o => raiseIf_neg (by simp) _
  simp only [e1, e2, e3, e4, validateArgs_omni _ sel K hK, ok_bind, Option.map_none, hprep, hdim, hasp, hshape,
    himg, hsplit, href, resolveMicDir, resolveSrcDirs, if_true, tensor2_rows, hsize, reflectionCoefficients_map,
    List.length_map, accumulateIn]
  have e5 : (tensor2 fun s => wholeMetres (src s)).shape.getD 0 0 = nS := rfl
  have e6 : (tensor2 fun m => wholeMetres (mic m)).shape.getD 0 0 = nM := rfl
  simp only [e5, e6, Int.toNat_natCast]
  rw [hloop]
  split_ifs
  · rfl
  · rw [ok_bind]
    simp only [diffuseStepIn, ok_bind, applyRirHpfIn, applyRirHpf_off _ _ _ hoff]
    have h0 : castReal .int64 0 = 0 := by simp [castReal, trunc]
    simp only [castReals, List.map_replicate, h0]
    refine congrArg Except.ok (congrArg (Prod.mk NumType.int64) ?_)
    unfold tensor3
    simp [List.ofFn_const, Nat.mul_assoc]

theorem castReals_traj {nT n d : ℕ} (p : Fin nT → Fin n → Fin d → ℝ) :
    castReals .int64 (tensor3 p) = tensor3 fun t j => wholeMetres (p t j) := by
  unfold castReals tensor3
  simp only
  congr 1
  rw [List.map_flatten, List.map_ofFn]
  congr 2
  funext t
  rw [Function.comp, List.map_flatten, List.map_ofFn]
  congr 2
  funext i
  rw [Function.comp, List.map_ofFn]
  rfl

open Classical in
theorem evalInt_dynamic {d nT nS nM : ℕ} (hd : d = 2 ∨ d = 3) (hT : 0 < nT) (hS : 0 < nS) (hM : 0 < nM) (w : World) (room : TypedRoom)
    (hfs : 0 < room.room.fs) (hc0 : 0 < room.room.c) (L lo hi : Fin d → ℝ)
    (hsize : (castRoom .int64 room.room).size = List.ofFn L)
    (hbeta : resolveBetaIn .int64 room.room = .ok (wallList lo hi)) (sel : Selection d) (K : ℕ) (hK : 0 < K)
    (cfg : Config) (hcfg : cfg.validate = .ok ()) (hoff : cfg.rirHpfEnable = false)
    (src : Fin nT → Fin nS → Fin d → ℝ) (mic : Fin nT → Fin nM → Fin d → ℝ) (st : NumType) (dtype : Option NumType)
    (hdt : dtype.getD st = .int64) :
    simulateDynamicRirTyped w room st (tensor3 src) (tensor3 mic) dtype (omniArgs sel K cfg)
      = if ∃ t s m, ∃ n ∈ sel.images, pathLength (wholeMetres (mic t m)) (image L (wholeMetres (src t s)) n)
            * room.room.fs / room.room.c < K
        then .error scatterRefuses
        else .ok (.int64, tensor4 fun (_ : Fin nT) (_ : Fin nS) (_ : Fin nM) (_ : Fin K) => 0) := by
  obtain ⟨l, himg, hA⟩ := selection_images sel
  obtain ⟨ns, rfl, hnd, hmem⟩ := hA.exists_list
  have hdim : ensureDim (List.ofFn L) = .ok () := by
    unfold ensureDim; rw [List.length_ofFn, if_pos hd]
  have hshape : validateTrajShapes (tensor3 fun t s => wholeMetres (src t s))
      (tensor3 fun t m => wholeMetres (mic t m)) d = .ok () := by
    unfold validateTrajShapes
    simp only [raiseIf_bind_ok, raiseIf_ok]
    simp [tensor3, Tensor.ndim]
  have hlen : (castRoom .int64 room.room).size.length = d := by rw [hsize]; simp
  obtain ⟨-, -, -, -, ⟨hf0, hf1⟩, -⟩ := (Config.valid_iff cfg).mp hcfg
  have hfdl : 0 < cfg.fracDelayLength.toNat := by omega
  have hloop := foldlM_same (fun (buf : List ℝ) (start : ℕ) => do
      let chunk ← contributionsTimeBatch (List.ofFn fun t => List.ofFn fun s => List.ofFn (wholeMetres (src t s)))
        (List.ofFn fun t => List.ofFn fun m => List.ofFn (wholeMetres (mic t m))) (List.ofFn L)
        (slice start (min (start + imageChunk cfg ns.length) ns.length) (ns.map List.ofFn))
        (slice start (min (start + imageChunk cfg ns.length) ns.length) (ns.map (wallGain lo hi)))
        room.room.c room.room.fs (halfLen cfg.fracDelayLength.toNat) "omni" "omni" none none
      accumulateInt cfg (nT * nS * nM) K buf (chunk.flatten.flatten.map (·.map Prod.fst)))
    (fun start => ∃ t s m, ∃ n ∈ slice start (min (start + imageChunk cfg ns.length) ns.length) ns,
      pathLength (wholeMetres (mic t m)) (image L (wholeMetres (src t s)) n) * room.room.fs / room.room.c < K)
    scatterRefuses (List.replicate (nT * nS * nM * K) 0)
    (by
      intro start
      rw [slice_map, slice_map]
      have hc := contributionsTimeBatch_eq (setupFor w cfg L lo hi room.room.fs room.room.c) hfs.ne'
        (halfLen cfg.fracDelayLength.toNat) (fun t s => wholeMetres (src t s)) (fun t m => wholeMetres (mic t m))
        (slice start (min (start + imageChunk cfg ns.length) ns.length) ns) "omni" "omni" none none
        (fun (_ : Fin nS) _ => 1) (fun (_ : Fin nM) _ => 1) (gains_omni _)
      refine Eq.trans (congrArg (· >>= _) hc) ?_
      rw [ok_bind]
      unfold accumulateInt
      rw [raiseIf_neg (Nat.mul_pos (Nat.mul_pos hT hS) hM).ne', ok_bind]
      have key : (∃ row ∈ ((List.ofFn fun t => List.ofFn fun s => List.ofFn fun m =>
            (slice start (min (start + imageChunk cfg ns.length) ns.length) ns).map
              (contribOf (setupFor w cfg L lo hi room.room.fs room.room.c) (halfLen cfg.fracDelayLength.toNat)
                ((fun (_ : Fin nS) _ => 1) s) ((fun (_ : Fin nM) _ => 1) m) (wholeMetres (src t s))
                (wholeMetres (mic t m)))).flatten.flatten).map (·.map Prod.fst),
            ∃ x ∈ row, ∃ o ∈ fdlOffsets cfg.fracDelayLength.toNat, 0 ≤ ⌊x⌋ + o ∧ ⌊x⌋ + o < (K : ℤ)) ↔
          ∃ t s m, ∃ n ∈ slice start (min (start + imageChunk cfg ns.length) ns.length) ns,
            pathLength (wholeMetres (mic t m)) (image L (wholeMetres (src t s)) n)
              * room.room.fs / room.room.c < K := by
        have hy : ∀ t s m n, 0 ≤ pathLength (wholeMetres (mic t m)) (image L (wholeMetres (src t s)) n)
            * room.room.fs / room.room.c := fun t s m n =>
          div_nonneg (mul_nonneg (le_trans (by norm_num) (le_max_right _ _)) hfs.le) hc0.le
        constructor
        · rintro ⟨row, hrow, x, hx, ho⟩
          obtain ⟨r, hr, rfl⟩ := List.mem_map.mp hrow
          obtain ⟨q, hq, hr⟩ := List.mem_flatten.mp hr
          obtain ⟨q', hq', hq⟩ := List.mem_flatten.mp hq
          obtain ⟨t, rfl⟩ := (List.mem_ofFn' _ _).mp hq'
          obtain ⟨s, rfl⟩ := (List.mem_ofFn' _ _).mp hq
          obtain ⟨m, rfl⟩ := (List.mem_ofFn' _ _).mp hr
          obtain ⟨p, hp, rfl⟩ := List.mem_map.mp hx
          obtain ⟨n, hn, rfl⟩ := List.mem_map.mp hp
          exact ⟨t, s, m, n, hn, (tap_inside hfdl (hy t s m n)).mp ho⟩
        · rintro ⟨t, s, m, n, hn, hlt⟩
          refine ⟨_, List.mem_map.mpr ⟨_, List.mem_flatten.mpr ⟨_, List.mem_flatten.mpr ⟨_, (List.mem_ofFn' _ _).mpr ⟨t, rfl⟩,
            (List.mem_ofFn' _ _).mpr ⟨s, rfl⟩⟩, (List.mem_ofFn' _ _).mpr ⟨m, rfl⟩⟩, rfl⟩, _, List.mem_map.mpr ⟨_, List.mem_map.mpr ⟨n, hn, rfl⟩, rfl⟩,
            (tap_inside hfdl (hy t s m n)).mpr hlt⟩
      unfold raiseIf
      by_cases h : ∃ t s m, ∃ n ∈ slice start (min (start + imageChunk cfg ns.length) ns.length) ns,
            pathLength (wholeMetres (mic t m)) (image L (wholeMetres (src t s)) n)
              * room.room.fs / room.room.c < K
      · rw [if_pos h, if_pos (key.mpr h)]
        rfl
      · rw [if_neg h, if_neg (fun h' => h (key.mp h'))]
        rfl)
    (rangeStep ns.length (imageChunk cfg ns.length))
  have hex : (∃ start ∈ rangeStep ns.length (imageChunk cfg ns.length), ∃ t s m,
        ∃ n ∈ slice start (min (start + imageChunk cfg ns.length) ns.length) ns,
        pathLength (wholeMetres (mic t m)) (image L (wholeMetres (src t s)) n) * room.room.fs / room.room.c < K) ↔
      ∃ t s m, ∃ n ∈ sel.images, pathLength (wholeMetres (mic t m)) (image L (wholeMetres (src t s)) n)
            * room.room.fs / room.room.c < K := by
    constructor
    · rintro ⟨start, hst, t, s, m, n, hn, h⟩
      exact ⟨t, s, m, n, (hmem n).mp ((mem_slices (imageChunk_pos hcfg _) n).mp ⟨start, hst, hn⟩), h⟩
    · rintro ⟨t, s, m, n, hn, h⟩
      obtain ⟨start, hst, hn'⟩ := (mem_slices (imageChunk_pos hcfg _) n).mpr ((hmem n).mpr hn)
      exact ⟨start, hst, t, s, m, n, hn', h⟩
  simp only [hex] at hloop
  unfold simulateDynamicRirTyped
  rw [resolveConfig_omni sel K cfg hcfg, ok_bind]
  simp only [hdt, castReals_traj, hlen, hbeta, ok_bind]
  have e1 : (omniArgs sel K cfg).nsample = some (K : ℤ) := rfl
  have e2 : (omniArgs sel K cfg).orientation = none := rfl
  have e3 : (omniArgs sel K cfg).nbImg = sel.nbImg := rfl
  have hori : splitOrientation none = .ok (none, none) := rfl
  have hasp : ∀ {n : ℕ} (p : Fin nT → Fin n → Fin d → ℝ), asTraj (tensor3 p) = tensor3 p := fun _ => rfl
  have hsplit : splitDirectivity (.one "omni") = .ok ("omni", "omni") := rfl
  have href : ∀ o, refusesVectors .int64 "omni" o d = .ok () := fun o => raiseIf_neg (by simp) _
  simp only [e1, e2, e3, validateArgs_omni _ sel K hK, ok_bind, Option.map_none, hori, hdim, hasp, hshape,
    himg, hsplit, href, resolveMicDir, resolveSrcDirs, if_true, tensor3_planes, hsize, reflectionCoefficients_map,
    List.length_map, accumulateIn]
  have e5 : (tensor3 fun t s => wholeMetres (src t s)).shape.getD 1 0 = nS := rfl
  have e6 : (tensor3 fun t m => wholeMetres (mic t m)).shape.getD 1 0 = nM := rfl
  have e7 : (tensor3 fun t s => wholeMetres (src t s)).shape.getD 0 0 = nT := rfl
  simp only [e5, e6, e7, Int.toNat_natCast]
  rw [hloop]
  split_ifs
  · rfl
  · rw [ok_bind]
    simp only [ok_bind, applyRirHpfIn, applyRirHpf_off _ _ _ hoff]
    have h0 : castReal .int64 0 = 0 := by simp [castReal, trunc]
    simp only [castReals, List.map_replicate, h0]
    refine congrArg Except.ok (congrArg (Prod.mk NumType.int64) ?_)
    unfold tensor4 tensor3
    simp [List.ofFn_const, Nat.mul_assoc]

/-- A room as it appears after conversion to whole metres. -/
theorem resolveBetaIn_int {d : ℕ} (hd : d = 2 ∨ d = 3) (room : Room) (L : Fin d → ℝ)
    (hsize : room.size = List.ofFn L) (hb : ∀ b, room.beta = some b → b.length = 2 * d)
    (ht : ∀ t, room.t60 = some t → 0 < t ∧ ∀ i, 1 ≤ L i) :
    ∃ lo hi : Fin d → ℝ, resolveBetaIn .int64 room = .ok (wallList lo hi) := by
  have hcs : (castRoom .int64 room).size = List.ofFn (wholeMetres L) := by
    simp only [castRoom, hsize, List.map_ofFn]
    rfl
  have h1 : ∀ i, 1 ≤ L i → (1 : ℝ) ≤ wholeMetres L i := by
    intro i hi
    have : (1 : ℤ) ≤ trunc (L i) := by
      unfold trunc
      rw [if_pos (by linarith)]
      exact Int.le_floor.mpr (by simpa using hi)
    unfold wholeMetres
    exact_mod_cast this
  have hns : (room.beta = none ∧ room.t60.isSome) → ¬ NoSurface (castRoom .int64 room).size := by
    rintro ⟨-, h⟩ hn
    obtain ⟨t, h⟩ := Option.isSome_iff_exists.mp h
    rw [hcs] at hn
    have h2 := fun i => h1 i ((ht t h).2 i)
    rcases hd with rfl | rfl
    · simp only [List.ofFn_succ, List.ofFn_zero, NoSurface] at hn
      have := h2 0; have := h2 1
      simp only [Fin.isValue, Fin.succ_zero_eq_one] at *
      linarith
    · simp only [List.ofFn_succ, List.ofFn_zero, NoSurface] at hn
      have a0 := h2 0; have a1 := h2 1; have a2 := h2 2
      simp only [Fin.isValue, Fin.succ_zero_eq_one, Fin.succ_one_eq_two] at *
      nlinarith
  have hres : ∃ b, resolveBeta (castRoom .int64 room) = .ok b ∧ b.length = 2 * d := by
    have hnw : nWalls d = 2 * d := by rcases hd with rfl | rfl <;> rfl
    have key : ∃ b, chooseBeta (castRoom .int64 room) = .ok b ∧ b.length = 2 * d := by
      unfold chooseBeta
      rw [hcs]
      rcases hbe : room.beta with _ | b
      · rcases hte : room.t60 with _ | t
        · simp only [castRoom, hbe, hte, Option.map_none]
          exact ⟨_, rfl, by simp [hnw]⟩
        · simp only [castRoom, hbe, hte, Option.map_none]
          unfold estimateBetaFromT60
          rw [if_neg (not_le.mpr (ht t hte).1)]
          rcases hd with rfl | rfl
          · simp only [List.ofFn_succ, List.ofFn_zero]
            exact ⟨_, rfl, by simp⟩
          · simp only [List.ofFn_succ, List.ofFn_zero]
            exact ⟨_, rfl, by simp⟩
      · simp only [castRoom, hbe, Option.map_some]
        exact ⟨_, rfl, by simpa using hb b hbe⟩
    obtain ⟨b, e1, e2⟩ := key
    refine ⟨b, ?_, e2⟩
    unfold resolveBeta
    rw [e1, ok_bind, hcs]
    rw [raiseIf_neg, ok_bind]
    · rfl
    · simp [hnw, e2]
  obtain ⟨b, e1, e2⟩ := hres
  obtain ⟨lo, hi, e3⟩ := wallList_of_length (d := d) (b.map (castReal .int64)) (by simpa using e2)
  refine ⟨lo, hi, ?_⟩
  unfold resolveBetaIn
  simp only [raiseIf]
  rw [if_neg (fun h => hns ⟨h.2.1, h.2.2.1⟩ h.2.2.2), ok_bind, e1, ok_bind, ← e3]
  rfl

/-! ## The claims -/

/-- **C109, static (partial).** A simulation in floating point (asked for with `dtype`, or because the sources are
floating) depends on the values of all tensors only, except for the tail: that holds without a tail, for a room size in
floating point, for coefficients that are whole numbers, and for a room without coefficients and reverberation time.
Missing: an integer size with a reverberation time (`C109_tail_exactly`), and computations in integers
(`C109_integer_static_exactly`). -/
theorem C109_static_partial (w : World) (room : TypedRoom) (st : NumType) (sources mics : Entity)
    (dtype : Option NumType) (a : SimArgs) (hdt : dtype.getD st = .floating)
    (ht : a.tdiff = none ∨ room.sizeType = .floating ∨
      (∃ b, room.room.beta = some b ∧ ∀ x ∈ b, ∃ z : ℤ, x = z) ∨ (room.room.beta = none ∧ room.room.t60 = none)) :
    simulateRirTyped w room st sources mics dtype a
      = (simulateRir w room.room sources mics a).map fun R => (.floating, R) := by
  have hint : ∀ z : ℤ, castReal room.sizeType z = z := by
    intro z
    rcases room.sizeType with _ | _
    · rfl
    · simp [castReal, trunc]
  have hints : ∀ l : List ℝ, (∀ x ∈ l, ∃ z : ℤ, x = z) → l.map (castReal room.sizeType) = l := by
    intro l h
    conv_rhs => rw [← List.map_id l]
    refine List.map_congr_left fun x hx => ?_
    obtain ⟨z, rfl⟩ := h x hx
    exact hint z
  refine typed_floating_static w room st sources mics dtype a hdt ?_
  intro beta hb rir tmax seed
  have hc := chooseBeta_of_resolve hb
  unfold chooseBeta at hc
  rcases ht with h | h | ⟨b, h1, h2⟩ | ⟨h1, h2⟩
  · exact diffuseStep_skipped w rir room.room _ _ _ _ _ (by rw [h]; simp)
  · rw [h, castReal_floating, List.map_id]
  · rw [h1] at hc
    rw [← Except.ok.inj hc, hints b h2]
  · rw [h1, h2] at hc
    rw [← Except.ok.inj hc, hints]
    intro x hx
    exact ⟨1, by rw [List.eq_of_mem_replicate hx]; simp⟩

/-- **C109, dynamic (partial).** Dynamic simulations have no tail: in floating point they depend on the values only.
Missing: computations in integers (`C109_integer_dynamic_exactly`). -/
theorem C109_dynamic_partial (w : World) (room : TypedRoom) (st : NumType) (srcTraj micTraj : Tensor ℝ)
    (dtype : Option NumType) (a : SimArgs) (hdt : dtype.getD st = .floating) :
    simulateDynamicRirTyped w room st srcTraj micTraj dtype a
      = (simulateDynamicRir w room.room srcTraj micTraj a).map fun R => (.floating, R) :=
  typed_floating_dynamic w room st srcTraj micTraj dtype a hdt

open Classical in
/-- **C109, integers, static.** A simulation in integers works on positions and sizes in whole metres.  It raises as soon
as one path reaches its microphone within the response, and returns zeros otherwise. -/
theorem C109_integer_static_exactly {d nS nM : ℕ} (hd : d = 2 ∨ d = 3) (hS : 0 < nS) (hM : 0 < nM) (w : World)
    (room : TypedRoom) (hfs : 0 < room.room.fs) (hc : 0 < room.room.c) (L : Fin d → ℝ)
    (hsize : room.room.size = List.ofFn L) (hb : ∀ b, room.room.beta = some b → b.length = 2 * d)
    (ht : ∀ t, room.room.t60 = some t → 0 < t ∧ ∀ i, 1 ≤ L i) (sel : Selection d) (K : ℕ) (hK : 0 < K)
    (cfg : Config) (hcfg : cfg.validate = .ok ()) (hoff : cfg.rirHpfEnable = false)
    (src : Fin nS → Fin d → ℝ) (mic : Fin nM → Fin d → ℝ) (st : NumType) (dtype : Option NumType)
    (hdt : dtype.getD st = .int64) :
    simulateRirTyped w room st (points src) (points mic) dtype (omniArgs sel K cfg)
      = if ∃ s m, ∃ n ∈ sel.images,
            pathLength (wholeMetres (mic m)) (image (wholeMetres L) (wholeMetres (src s)) n)
              * room.room.fs / room.room.c < K
        then .error scatterRefuses
        else .ok (.int64, tensor3 fun (_ : Fin nS) (_ : Fin nM) (_ : Fin K) => 0) := by
  obtain ⟨lo, hi, hbeta⟩ := resolveBetaIn_int hd room.room L hsize hb ht
  exact evalInt_static hd hS hM w room hfs hc (wholeMetres L) lo hi
    (by simp only [castRoom, hsize, List.map_ofFn]; rfl) hbeta sel K hK cfg hcfg hoff src mic st dtype hdt

open Classical in
/-- **C109, integers, dynamic.** The same for trajectories. -/
theorem C109_integer_dynamic_exactly {d nT nS nM : ℕ} (hd : d = 2 ∨ d = 3) (hT : 0 < nT) (hS : 0 < nS) (hM : 0 < nM)
    (w : World) (room : TypedRoom) (hfs : 0 < room.room.fs) (hc : 0 < room.room.c) (L : Fin d → ℝ)
    (hsize : room.room.size = List.ofFn L) (hb : ∀ b, room.room.beta = some b → b.length = 2 * d)
    (ht : ∀ t, room.room.t60 = some t → 0 < t ∧ ∀ i, 1 ≤ L i) (sel : Selection d) (K : ℕ) (hK : 0 < K)
    (cfg : Config) (hcfg : cfg.validate = .ok ()) (hoff : cfg.rirHpfEnable = false)
    (src : Fin nT → Fin nS → Fin d → ℝ) (mic : Fin nT → Fin nM → Fin d → ℝ) (st : NumType) (dtype : Option NumType)
    (hdt : dtype.getD st = .int64) :
    simulateDynamicRirTyped w room st (tensor3 src) (tensor3 mic) dtype (omniArgs sel K cfg)
      = if ∃ t s m, ∃ n ∈ sel.images,
            pathLength (wholeMetres (mic t m)) (image (wholeMetres L) (wholeMetres (src t s)) n)
              * room.room.fs / room.room.c < K
        then .error scatterRefuses
        else .ok (.int64, tensor4 fun (_ : Fin nT) (_ : Fin nS) (_ : Fin nM) (_ : Fin K) => 0) := by
  obtain ⟨lo, hi, hbeta⟩ := resolveBetaIn_int hd room.room L hsize hb ht
  exact evalInt_dynamic hd hT hS hM w room hfs hc (wholeMetres L) lo hi
    (by simp only [castRoom, hsize, List.map_ofFn]; rfl) hbeta sel K hK cfg hcfg hoff src mic st dtype hdt

theorem castReals_zero {t : Tensor ℝ} (dt : NumType) (h : ∀ x ∈ t.data, x = 0) : ∀ x ∈ (castReals dt t).data, x = 0 := by
  intro x hx
  obtain ⟨y, hy, rfl⟩ := List.mem_map.mp hx
  rw [h y hy]
  cases dt <;> simp [castReal, trunc]

theorem mem_groups {n c : ℕ} {l g : List ℝ} (h : g ∈ groups n c l) {x : ℝ} (hx : x ∈ g) : x ∈ l := by
  unfold groups at h
  obtain ⟨i, -, rfl⟩ := List.mem_map.mp h
  exact List.mem_of_mem_drop (List.mem_of_mem_take hx)

theorem mapM_mem_result {α β : Type} {f : α → Except String β} :
    ∀ {l : List α} {r : List β}, l.mapM f = .ok r → ∀ y ∈ r, ∃ x ∈ l, f x = .ok y
  | [], r, h, y, hy => by
    rw [List.mapM_nil] at h
    rw [← Except.ok.inj h] at hy
    simp at hy
  | x :: l, r, h, y, hy => by
    rw [List.mapM_cons, bind_eq_ok] at h
    obtain ⟨b, h1, h⟩ := h
    rw [bind_eq_ok] at h
    obtain ⟨bs, h2, h⟩ := h
    rw [← Except.ok.inj h] at hy
    rcases List.mem_cons.mp hy with rfl | hy
    · exact ⟨x, by simp, h1⟩
    · obtain ⟨z, hz, e⟩ := mapM_mem_result h2 y hy
      exact ⟨z, by simp [hz], e⟩

theorem hpf_zero {w : World} (hz : ∀ sos row out, (∀ x ∈ row, x = 0) → w.sosfiltfilt sos row = .ok out → ∀ x ∈ out, x = 0)
    {fs : ℝ} {cfg : Config} {t R : Tensor ℝ} (h : ∀ x ∈ t.data, x = 0) (hR : applyRirHpf w fs cfg t = .ok R) :
    ∀ x ∈ R.data, x = 0 := by
  unfold applyRirHpf at hR
  split_ifs at hR
  · rw [← Except.ok.inj hR]
    exact h
  · rw [bind_eq_ok] at hR
    obtain ⟨sos, -, hR⟩ := hR
    rw [bind_eq_ok] at hR
    obtain ⟨rows, h1, hR⟩ := hR
    rw [← Except.ok.inj hR]
    intro x hx
    obtain ⟨row, hr, hx⟩ := List.mem_flatten.mp hx
    obtain ⟨inp, hi, e⟩ := mapM_mem_result h1 row hr
    exact hz sos inp row (fun y hy => h y (mem_groups hi hy)) e x hx

/-- **C109, integers.** Whatever the arguments, a simulation in integers that does not raise returns zeros (if the filter
turns silence into silence). -/
theorem C109_integer_silence (w : World)
    (hz : ∀ sos row out, (∀ x ∈ row, x = 0) → w.sosfiltfilt sos row = .ok out → ∀ x ∈ out, x = 0)
    (room : TypedRoom) (st : NumType) (dtype : Option NumType) (hdt : dtype.getD st = .int64) (a : SimArgs) :
    (∀ sources mics ty R, simulateRirTyped w room st sources mics dtype a = .ok (ty, R) →
      ty = .int64 ∧ ∀ x ∈ R.data, x = 0) ∧
    ∀ srcTraj micTraj ty R, simulateDynamicRirTyped w room st srcTraj micTraj dtype a = .ok (ty, R) →
      ty = .int64 ∧ ∀ x ∈ R.data, x = 0 := by
  have hpf : ∀ {fs : ℝ} {cfg : Config} {t R : Tensor ℝ}, (∀ x ∈ t.data, x = 0) →
      applyRirHpfIn .int64 w fs cfg t = .ok R → ∀ x ∈ R.data, x = 0 := by
    intro fs cfg t R h0 h
    unfold applyRirHpfIn at h
    rw [bind_eq_ok] at h
    obtain ⟨r, h1, h⟩ := h
    rw [← Except.ok.inj h]
    exact castReals_zero .int64 (hpf_zero hz h0 h1)
  constructor
  · intro sources mics ty R h
    unfold simulateRirTyped at h
    simp only [hdt] at h
    iterate 13 (rw [bind_eq_ok] at h; obtain ⟨_, -, h⟩ := h)
    rw [bind_eq_ok] at h; obtain ⟨buf, hbuf, h⟩ := h
    rw [bind_eq_ok] at h; obtain ⟨t1, h1, h⟩ := h
    rw [bind_eq_ok] at h; obtain ⟨t2, h2, h⟩ := h
    cases h
    refine ⟨rfl, hpf ?_ h2⟩
    have hb := foldlM_inv _ (fun b s b' hb => by
      rw [bind_eq_ok] at hb
      obtain ⟨c, -, hb⟩ := hb
      exact accumulateInt_ok hb) _ _ _ hbuf
    have ht1 : t1.data = buf := by
      unfold diffuseStepIn at h1
      split at h1
      · contradiction
      · split_ifs at h1
        exact (congrArg Tensor.data (Except.ok.inj h1)).symm
      · exact (congrArg Tensor.data (Except.ok.inj h1)).symm
    intro x hx
    rw [ht1, hb] at hx
    exact List.eq_of_mem_replicate hx
  · intro srcTraj micTraj ty R h
    unfold simulateDynamicRirTyped at h
    simp only [hdt] at h
    iterate 12 (rw [bind_eq_ok] at h; obtain ⟨_, -, h⟩ := h)
    rw [bind_eq_ok] at h; obtain ⟨buf, hbuf, h⟩ := h
    rw [bind_eq_ok] at h; obtain ⟨t2, h2, h⟩ := h
    cases h
    refine ⟨rfl, hpf ?_ h2⟩
    have hb := foldlM_inv _ (fun b s b' hb => by
      rw [bind_eq_ok] at hb
      obtain ⟨c, -, hb⟩ := hb
      exact accumulateInt_ok hb) _ _ _ hbuf
    intro x hx
    change x ∈ buf at hx
    rw [hb] at hx
    exact List.eq_of_mem_replicate hx

/-! ## The tail of a room with integer sizes -/

/-- The error of `torch.randn` for integers. -/
def Spec.randnRefuses : String := "RuntimeError: normal_kernel_cpu not implemented for 'Long'"

open Classical in
/-- **C109, tail in integers.** When a simulation in integers returns a response of `K` samples, the same simulation with
a diffuse tail raises exactly when the tail begins inside the response, and returns the same response otherwise. -/
theorem C109_integer_tail_exactly (w : World) (room : TypedRoom) (st : NumType) (sources mics : Entity)
    (dtype : Option NumType) (hdt : dtype.getD st = .int64) (a : SimArgs) (cfg : Config) (hcfg : a.config = some cfg)
    (hoff : cfg.rirHpfEnable = false) (td tm : ℝ) (htm : effectiveTmax a = some tm) (nS nM K : ℕ)
    (f : Fin nS → Fin nM → Fin K → ℝ)
    (h : simulateRirTyped w room st sources mics dtype { a with tdiff := none } = .ok (.int64, tensor3 f)) :
    simulateRirTyped w room st sources mics dtype { a with tdiff := some td }
      = if td < tm ∧ 1 < K ∧ 1 ≤ td * room.room.fs then .error Spec.randnRefuses else .ok (.int64, tensor3 f) := by
  have hres : resolveConfig { a with tdiff := some td } = resolveConfig { a with tdiff := none } := rfl
  unfold simulateRirTyped at h
  simp only [hdt] at h
  rw [bind_eq_ok] at h; obtain ⟨⟨cfg', mo, tm', dir⟩, e1, h⟩ := h
  have hc' : cfg' = cfg := cfg_of_resolve (a := { a with tdiff := none }) hcfg e1
  have ht' : tm' = effectiveTmax a := tmax_of_resolve (a := { a with tdiff := none }) e1
  rw [bind_eq_ok] at h; obtain ⟨ns, e2, h⟩ := h
  rw [bind_eq_ok] at h; obtain ⟨⟨sp, so⟩, e3, h⟩ := h
  rw [bind_eq_ok] at h; obtain ⟨⟨mp, mo'⟩, e4, h⟩ := h
  rw [bind_eq_ok] at h; obtain ⟨_, e5, h⟩ := h
  rw [bind_eq_ok] at h; obtain ⟨_, e6, h⟩ := h
  rw [bind_eq_ok] at h; obtain ⟨b, e7, h⟩ := h
  rw [bind_eq_ok] at h; obtain ⟨nv, e8, h⟩ := h
  rw [bind_eq_ok] at h; obtain ⟨⟨p1, p2⟩, e9, h⟩ := h
  rw [bind_eq_ok] at h; obtain ⟨_, e10, h⟩ := h
  rw [bind_eq_ok] at h; obtain ⟨md, e11, h⟩ := h
  rw [bind_eq_ok] at h; obtain ⟨_, e12, h⟩ := h
  rw [bind_eq_ok] at h; obtain ⟨sd, e13, h⟩ := h
  rw [bind_eq_ok] at h; obtain ⟨buf, e14, h⟩ := h
  rw [bind_eq_ok] at h; obtain ⟨R1, e15, h⟩ := h
  rw [bind_eq_ok] at h; obtain ⟨R2, e16, h⟩ := h
  subst hc'
  subst ht'
  have hR : R2 = tensor3 f := (Prod.mk.inj (Except.ok.inj h)).2
  subst hR
  have e15' := Except.ok.inj e15
  have hshape : R1.shape.getLastD 0 = K := by
    have hh := e16
    unfold applyRirHpfIn at hh
    rw [applyRirHpf_off _ _ _ hoff] at hh
    have := congrArg Tensor.shape (Except.ok.inj hh)
    simp [castReals, tensor3] at this
    rw [this]
    rfl
  simp only at e2 e3 e4 e5 e6 e8 e9 e10 e11 e12 e13 e14
  rw [htm] at e1 e2
  have hcond : (0 < min ((R1.shape.getLastD 0 : ℤ) - 1) ⌊td * room.room.fs⌋) ↔ 1 < K ∧ 1 ≤ td * room.room.fs := by
    rw [hshape, lt_min_iff, Int.floor_pos]
    constructor <;> rintro ⟨h1, h2⟩ <;> exact ⟨by omega, h2⟩
  unfold simulateRirTyped
  simp only [hdt, hres, e1, e2, e3, e4, e5, e6, e7, e8, e9, e10, e11, e12, e13, e14, ok_bind, e15']
  unfold diffuseStepIn
  simp only [hcond]
  split_ifs with hc
  · rfl
  · simp only [ok_bind, e16]
    rfl

theorem typed_tail (w : World) (room : TypedRoom) (st : NumType) (sources mics : Entity) (dtype : Option NumType)
    (hdt : dtype.getD st = .floating) (a : SimArgs) (cfg : Config) (hcfg : a.config = some cfg)
    (hoff : cfg.rirHpfEnable = false) (td : ℝ) (R : Tensor ℝ)
    (h : simulateRir w room.room sources mics { a with tdiff := none } = .ok R) :
    ∃ b, resolveBeta room.room = .ok b ∧ simulateRirTyped w room st sources mics dtype { a with tdiff := some td }
      = (diffuseStep w R room.room (b.map (castReal room.sizeType)) (some td) (effectiveTmax a) cfg.seed).map
          fun R => (.floating, R) := by
  have hori : a.orientation.map (castOri .floating) = a.orientation := by rw [castOri_floating]; simp
  have hres : resolveConfig { a with tdiff := some td } = resolveConfig { a with tdiff := none } := rfl
  unfold simulateRir at h
  rw [bind_eq_ok] at h; obtain ⟨⟨cfg', mo, tm, dir⟩, e1, h⟩ := h
  have hc' : cfg' = cfg := cfg_of_resolve (a := { a with tdiff := none }) hcfg e1
  have ht' : tm = effectiveTmax a := tmax_of_resolve (a := { a with tdiff := none }) e1
  rw [bind_eq_ok] at h; obtain ⟨ns, e2, h⟩ := h
  rw [bind_eq_ok] at h; obtain ⟨⟨sp, so⟩, e3, h⟩ := h
  rw [bind_eq_ok] at h; obtain ⟨⟨mp, mo'⟩, e4, h⟩ := h
  rw [bind_eq_ok] at h; obtain ⟨_, e5, h⟩ := h
  rw [bind_eq_ok] at h; obtain ⟨_, e6, h⟩ := h
  rw [bind_eq_ok] at h; obtain ⟨b, e7, h⟩ := h
  rw [bind_eq_ok] at h; obtain ⟨nv, e8, h⟩ := h
  rw [bind_eq_ok] at h; obtain ⟨⟨p1, p2⟩, e9, h⟩ := h
  rw [bind_eq_ok] at h; obtain ⟨md, e10, h⟩ := h
  rw [bind_eq_ok] at h; obtain ⟨sd, e11, h⟩ := h
  rw [bind_eq_ok] at h; obtain ⟨buf, e12, h⟩ := h
  rw [bind_eq_ok] at h; obtain ⟨R1, e13, h⟩ := h
  subst hc'
  subst ht'
  rw [applyRirHpf_off _ _ _ hoff] at h
  have hR : R = R1 := (Except.ok.inj h).symm
  subst hR
  refine ⟨b, e7, ?_⟩
  simp only at e2 e3 e4 e5 e6 e8 e9 e10 e11 e12
  have e14 := Except.ok.inj e13
  unfold simulateRirTyped
  simp only [hdt, castRoom_floating, castEntity_floating, hori, resolveBetaIn_floating, refusesVectors_floating,
    applyRirHpfIn_floating, diffuseStepIn, accumulateIn, ok_bind, hres, e1, e2, e3, e4, e5, e6, e7, e8, e9, e10, e11,
    e12, e14, applyRirHpf_off _ _ _ hoff]
  exact bind_pure_map _ _

theorem truncated_time {d : ℕ} {L : Fin d → ℝ} (hL : RealRoom L) {t : ℝ} {b : List ℝ}
    (h : estimateBetaFromT60 (List.ofFn L) t = .ok b) :
    estimateT60FromBeta (List.ofFn L) (b.map (castReal .int64)) = .ok (some (sabine L (surface L))) := by
  have ht : 0 < t := by
    by_contra h'
    rw [C30_nonpositive_rejected _ (not_lt.mp h')] at h
    cases h
  rw [beta_formula hL ht] at h
  rw [← Except.ok.inj h]
  have hv := volume_pos hL
  have hs := surface_pos hL
  set α := min (0.161 * volume L / (t * surface L)) 0.999 with hα
  have hα0 : 0 < α := lt_min (by positivity) (by norm_num)
  have hlt : Real.sqrt (1 - α) < 1 := by
    rw [Real.sqrt_lt' one_pos]
    linarith
  have h0 : castReal .int64 (Real.sqrt (1 - α)) = 0 := by
    have : ⌊Real.sqrt (1 - α)⌋ = 0 := by
      rw [Int.floor_eq_iff]
      exact ⟨by simp, by simpa using hlt⟩
    simp [castReal, trunc, Real.sqrt_nonneg, this]
  rw [List.map_replicate, h0, ← List.ofFn_const, t60_of_beta hL.dim]
  have hA : absorption L (fun _ : Fin (2 * d) => (0 : ℝ)) = surface L := by
    unfold absorption surface
    simp
  unfold reverbTime
  rw [hA, if_neg (not_le.mpr hs)]

/-- **C109, tail.** A room with an integer size made for a reverberation time: in floating point the response before the
tail is the right one, but the tail fades as in a room whose walls absorb everything (compare `C110_tail_exactly`, where
it fades with the time the room was made for). -/
theorem C109_tail_exactly {d : ℕ} (w : World) (hw : ∀ seed shape, (w.randn seed shape).length = shape.prod)
    (room : Room) (L : Fin d → ℝ) (hsize : room.size = List.ofFn L) (hL : ∀ i, 0 < L i) (t : ℝ)
    (hb : room.beta = none) (ht : room.t60 = some t) (sources mics : Entity) (hfs : 0 < room.fs)
    (hs : sources.positions.WF) (hm : mics.positions.WF) (a : SimArgs) (cfg : Config) (hcfg : a.config = some cfg)
    (hoff : cfg.rirHpfEnable = false) (td tm : ℝ) (htm : effectiveTmax a = some tm) (hlt : td < tm) (R : Tensor ℝ)
    (h : simulateRir w room sources mics { a with tdiff := none } = .ok R) (st : NumType) (dtype : Option NumType)
    (hdt : dtype.getD st = .floating) :
    ∃ (nS nM K : ℕ) (f g : Fin nS → Fin nM → Fin K → ℝ), R = tensor3 f ∧
      simulateRirTyped w ⟨.int64, room⟩ st sources mics dtype { a with tdiff := some td }
        = .ok (.floating, tensor3 g) ∧
      ∀ i₀ : ℕ, 0 < i₀ → (i₀ : ℤ) = min ((K : ℤ) - 1) ⌊td * room.fs⌋ →
        ∃ ν : Fin nS → Fin nM → Fin (K - i₀) → ℝ,
          w.randn (cfg.seed.getD 0) [nS, nM, K - i₀] = (tensor3 ν).data ∧
          HasTail (some (sabine L (surface L))) room.fs i₀ ν f g := by
  obtain ⟨nS, nM, K, f, -, rfl, -, -⟩ := C110_tail_exactly w hw room L hsize hL _ (.time t hb ht) sources mics hfs hs hm
    a cfg hcfg hoff td tm htm hlt R h
  obtain ⟨b, hbeta, hsim⟩ := typed_tail w ⟨.int64, room⟩ st sources mics dtype hdt a cfg hcfg hoff td _ h
  have hd : d = 2 ∨ d = 3 := by
    obtain ⟨L', nS', nM', src, mic, hsize', e1, e2⟩ := static_shapes hs hm h
    obtain ⟨P, hP⟩ := StaticPlan.exists hsize' e1 e2 h
    have : room.size.length = d := by rw [hsize]; simp
    rw [← this]
    exact hP.hd
  have hR : RealRoom L := ⟨hd, hL⟩
  have hc := chooseBeta_of_resolve hbeta
  have hc : estimateBetaFromT60 (List.ofFn L) t = .ok b := by
    unfold chooseBeta at hc
    simpa only [hb, ht, hsize] using hc
  have hE := truncated_time hR hc
  rw [hsim, htm]
  have hstep : diffuseStep w (tensor3 f) room (b.map (castReal .int64)) (some td) (some tm) cfg.seed
      = applyDiffuseTail w (tensor3 f) room (b.map (castReal .int64)) td cfg.seed := by
    unfold diffuseStep
    simp only [if_pos hlt]
  rw [hstep]
  by_cases hz : min ((K : ℤ) - 1) ⌊td * room.fs⌋ ≤ 0
  · refine ⟨nS, nM, K, f, f, rfl, ?_, fun i₀ h1 h2 => by omega⟩
    have : applyDiffuseTail w (tensor3 f) room (b.map (castReal .int64)) td cfg.seed = .ok (tensor3 f) := by
      unfold applyDiffuseTail
      have hK : (tensor3 f).shape.getLastD 0 = K := by simp [tensor3]
      simp only [hK]
      rw [if_pos hz]
      rfl
    rw [this]
    rfl
  · obtain ⟨g, ν, hg1, hg2, hg3⟩ := applyDiffuseTail_full w hw room (b.map (castReal .int64)) _
      (by rw [hsize]; exact hE) (fun x hx => by rw [← Option.some.inj hx]; exact sabine_pos hR (surface_pos hR)) f td
      cfg.seed (min ((K : ℤ) - 1) ⌊td * room.fs⌋).toNat (by omega) (by omega)
    refine ⟨nS, nM, K, f, g, rfl, by rw [hg1]; rfl, ?_⟩
    intro i₀ h1 h2
    have e : (min ((K : ℤ) - 1) ⌊td * room.fs⌋).toNat = i₀ := by omega
    subst e
    exact ⟨ν, hg2, hg3⟩

/-! ## Cases -/

/-- A room of 6 m × 4 m × 3 m with a source and a microphone two metres apart. -/
noncomputable abbrev wholeRoom : TypedRoom := ⟨.int64, { size := [6, 4, 3], fs := 16000, t60 := some 0.4 }⟩

theorem wholeRoom_float (w : World) (cfg : Config) (hcfg : cfg.validate = .ok ()) (hoff : cfg.rirHpfEnable = false) :
    ∃ R, simulateRir w wholeRoom.room (points ![![1, 2, 1]]) (points ![![3, 2, 1]])
      (omniArgs (d := 3) (.order 3) 1600 cfg) = .ok R := by
  obtain ⟨b, hb, hl⟩ : ∃ b, estimateBetaFromT60 [6, 4, 3] 0.4 = .ok b ∧ b.length = 2 * 3 := by
    unfold estimateBetaFromT60
    rw [if_neg (by norm_num)]
    exact ⟨_, rfl, by simp⟩
  obtain ⟨lo, hi, rfl⟩ := wallList_of_length (d := 3) b hl
  have hsize : ([6, 4, 3] : List ℝ) = List.ofFn (![6, 4, 3] : Fin 3 → ℝ) := by simp
  have h0 := (C20_t60_room_is_beta_room w [6, 4, 3] 16000 343 0.4 _ hb
    (omniArgs (d := 3) (.order 3) 1600 cfg)).1 (points ![![1, 2, 1]]) (points ![![3, 2, 1]])
  rw [hsize] at h0
  have h1 := C05_static_rir_formula (Or.inr rfl) (by norm_num) (by norm_num) w ![6, 4, 3] lo hi 16000 343
    (by norm_num) (by norm_num) (.order 3) 1600 (by norm_num) cfg hcfg hoff ![![1, 2, 1]] ![![3, 2, 1]]
  exact ⟨_, by rw [show wholeRoom.room = { size := List.ofFn (![6, 4, 3] : Fin 3 → ℝ), fs := 16000, t60 := some 0.4 } by
    rw [← hsize]]; exact h0.trans h1⟩

/-- **C109 fails.** The same positions in whole metres: as floating tensors they give a response, as integer tensors they
raise, although the values are the same. -/
theorem C109_fails (w : World) :
    (∃ R, simulateRirTyped w wholeRoom .floating (points ![![1, 2, 1]]) (points ![![3, 2, 1]]) none
      (omniArgs (d := 3) (.order 3) 1600 { rirHpfEnable := false }) = .ok (.floating, R)) ∧
    simulateRirTyped w wholeRoom .int64 (points ![![1, 2, 1]]) (points ![![3, 2, 1]]) none
      (omniArgs (d := 3) (.order 3) 1600 { rirHpfEnable := false }) = .error scatterRefuses := by
  constructor
  · obtain ⟨R, hR⟩ := wholeRoom_float w _ plainConfig_valid rfl
    exact ⟨R, by rw [C109_static_partial w wholeRoom .floating _ _ none _ rfl (Or.inl rfl), hR]; rfl⟩
  · rw [C109_integer_static_exactly (Or.inr rfl) (by norm_num) (by norm_num) w wholeRoom (by norm_num) (by norm_num)
      ![6, 4, 3] (by simp) (by simp) (by intro t ht; cases ht; exact ⟨by norm_num, fun i => by fin_cases i <;> norm_num⟩)
      (.order 3) 1600 (by norm_num) _ plainConfig_valid rfl ![![1, 2, 1]] ![![3, 2, 1]] .int64 none rfl]
    rw [if_pos]
    refine ⟨0, 0, 0, ?_, ?_⟩
    · simp [Selection.images, mem_orderSet]
    · have e1 : wholeMetres (![![3, 2, 1]] 0 : Fin 3 → ℝ) = ![3, 2, 1] := by
        funext i; fin_cases i <;> simp [wholeMetres, trunc]
      have e2 : wholeMetres (![![1, 2, 1]] 0 : Fin 3 → ℝ) = ![1, 2, 1] := by
        funext i; fin_cases i <;> simp [wholeMetres, trunc]
      have hp : pathLength (![3, 2, 1] : Fin 3 → ℝ) ![1, 2, 1] = 2 := by
        have : Spec.dist (![3, 2, 1] : Fin 3 → ℝ) ![1, 2, 1] = 2 := by
          simp [Spec.dist, Fin.sum_univ_three]
          norm_num
        unfold pathLength
        rw [this]
        norm_num
      rw [e1, e2, image_zero, hp]
      norm_num

/-- Half a metre of distance vanishes in integers, and a response of 10 samples is over before a path of 2 m arrives. -/
theorem wholeRoom_silent (w : World) (cfg : Config) (hcfg : cfg.validate = .ok ()) (hoff : cfg.rirHpfEnable = false) :
    simulateRirTyped w wholeRoom .floating (points ![![1.5, 2, 1]]) (points ![![3.5, 2, 1]]) (some .int64)
      (omniArgs (d := 3) (.order 0) 10 cfg)
      = .ok (.int64, tensor3 fun (_ : Fin 1) (_ : Fin 1) (_ : Fin 10) => 0) := by
  rw [C109_integer_static_exactly (Or.inr rfl) (by norm_num) (by norm_num) w wholeRoom (by norm_num) (by norm_num)
      ![6, 4, 3] (by simp) (by simp) (by intro t ht; cases ht; exact ⟨by norm_num, fun i => by fin_cases i <;> norm_num⟩)
      (.order 0) 10 (by norm_num) _ hcfg hoff ![![1.5, 2, 1]] ![![3.5, 2, 1]] .floating (some .int64) rfl]
  rw [if_neg]
  rintro ⟨s, m, n, hn, h⟩
  have hn : n = 0 := by
    have : n ∈ orderSet 3 0 := hn
    rw [orderSet_zero] at this
    exact Finset.mem_singleton.mp this
  subst hn
  have e1 : wholeMetres (![![3.5, 2, 1]] m : Fin 3 → ℝ) = ![3, 2, 1] := by
    have : ⌊(3.5 : ℝ)⌋ = 3 := by rw [Int.floor_eq_iff]; norm_num
    fin_cases m
    funext i; fin_cases i <;> simp [wholeMetres, trunc, this]; norm_num
  have e2 : wholeMetres (![![1.5, 2, 1]] s : Fin 3 → ℝ) = ![1, 2, 1] := by
    have : ⌊(1.5 : ℝ)⌋ = 1 := by rw [Int.floor_eq_iff]; norm_num
    fin_cases s
    funext i; fin_cases i <;> simp [wholeMetres, trunc, this]; norm_num
  have hp : pathLength (![3, 2, 1] : Fin 3 → ℝ) ![1, 2, 1] = 2 := by
    have : Spec.dist (![3, 2, 1] : Fin 3 → ℝ) ![1, 2, 1] = 2 := by
      simp [Spec.dist, Fin.sum_univ_three]
      norm_num
    unfold pathLength
    rw [this]
    norm_num
  rw [e1, e2, image_zero, hp] at h
  norm_num at h

example (w : World) :
    simulateRirTyped w wholeRoom .floating (points ![![1.5, 2, 1]]) (points ![![3.5, 2, 1]]) (some .int64)
      (omniArgs (d := 3) (.order 0) 10 { rirHpfEnable := false })
      = .ok (.int64, tensor3 fun (_ : Fin 1) (_ : Fin 1) (_ : Fin 10) => 0) :=
  wholeRoom_silent w _ plainConfig_valid rfl

/-- With a tail from 20 ms on the same simulation raises. -/
example (w : World) :
    simulateRirTyped w wholeRoom .floating (points ![![1.5, 2, 1]]) (points ![![3.5, 2, 1]]) (some .int64)
      { omniArgs (d := 3) (.order 0) 10 { rirHpfEnable := false, tmax := some 0.1 } with tdiff := some 0.02 }
      = .error Spec.randnRefuses := by
  rw [C109_integer_tail_exactly w wholeRoom .floating _ _ (some .int64) rfl _ _ rfl rfl 0.02 0.1 rfl 1 1 10 _
    (wholeRoom_silent w { rirHpfEnable := false, tmax := some 0.1 } tailConfig_valid rfl)]
  rw [if_pos ⟨by norm_num, by norm_num, by norm_num⟩]

/-- A room of 6 m × 4 m × 3 m given in integers and made for 0.4 s: the tail fades with less than 0.108 s. -/
example (w : World) (hw : ∀ seed shape, (w.randn seed shape).length = shape.prod) :
    ∃ (T : ℝ) (nS nM K : ℕ) (f g : Fin nS → Fin nM → Fin K → ℝ), T < 0.108 ∧
      simulateRirTyped w wholeRoom .floating (points ![![1, 2, 1]]) (points ![![3, 2, 1]]) none
        { omniArgs (d := 3) (.order 3) 1600 { rirHpfEnable := false, tmax := some 0.1 } with tdiff := some 0.02 }
        = .ok (.floating, tensor3 g) ∧
      ∀ i₀ : ℕ, 0 < i₀ → (i₀ : ℤ) = min ((K : ℤ) - 1) ⌊(0.02 : ℝ) * 16000⌋ →
        ∃ ν : Fin nS → Fin nM → Fin (K - i₀) → ℝ, HasTail (some T) 16000 i₀ ν f g := by
  obtain ⟨R, hR⟩ := wholeRoom_float w _ tailConfig_valid rfl
  obtain ⟨nS, nM, K, f, g, -, h3, h4⟩ := C109_tail_exactly w hw wholeRoom.room ![6, 4, 3] (by simp)
    (fun i => by fin_cases i <;> norm_num) 0.4 rfl rfl (points ![![1, 2, 1]]) (points ![![3, 2, 1]]) (by norm_num)
    (by simp [Tensor.WF, points, tensor2]) (by simp [Tensor.WF, points, tensor2])
    (omniArgs (d := 3) (.order 3) 1600 { rirHpfEnable := false, tmax := some 0.1 }) _ rfl rfl 0.02 0.1 rfl
    (by norm_num) R hR .floating none rfl
  refine ⟨sabine ![6, 4, 3] (surface ![6, 4, 3]), nS, nM, K, f, g, ?_, h3, fun i₀ h1 h2 => ?_⟩
  · have hA : surface (![6, 4, 3] : Fin 3 → ℝ) = 108 := by
      simp [surface, wallArea, Fin.sum_univ_succ, Finset.prod_filter, Fin.prod_univ_three]
      norm_num
    have hV : volume (![6, 4, 3] : Fin 3 → ℝ) = 72 := by
      simp [volume, Fin.prod_univ_three]
      norm_num
    rw [sabine, hA, hV]
    norm_num
  · obtain ⟨ν, -, h⟩ := h4 i₀ h1 h2
    exact ⟨ν, h⟩

/-- A source that stays in a corner of a large room, in integers: two steps of zeros. -/
example (w : World) :
    simulateDynamicRirTyped w ⟨.int64, { size := [6, 4], fs := 16000 }⟩ .int64
      (tensor3 (![![![1, 2]], ![![2, 2]]] : Fin 2 → Fin 1 → Fin 2 → ℝ))
      (tensor3 (![![![5, 2]], ![![5, 2]]] : Fin 2 → Fin 1 → Fin 2 → ℝ)) none
      (omniArgs (d := 2) (.order 0) 100 { rirHpfEnable := false })
      = .ok (.int64, tensor4 fun (_ : Fin 2) (_ : Fin 1) (_ : Fin 1) (_ : Fin 100) => 0) := by
  rw [C109_integer_dynamic_exactly (Or.inl rfl) (by norm_num) (by norm_num) (by norm_num) w
      ⟨.int64, { size := [6, 4], fs := 16000 }⟩ (by norm_num) (by norm_num)
      ![6, 4] (by simp) (by simp) (by simp) (.order 0) 100 (by norm_num) _ plainConfig_valid rfl
      ![![![1, 2]], ![![2, 2]]] ![![![5, 2]], ![![5, 2]]] .int64 none rfl]
  rw [if_neg]
  rintro ⟨t, s, m, n, hn, h⟩
  have hn : n = 0 := by
    have : n ∈ orderSet 2 0 := hn
    rw [orderSet_zero] at this
    exact Finset.mem_singleton.mp this
  subst hn
  rw [image_zero] at h
  have key : ∀ x y : Fin 2 → ℝ, 3 ≤ |x 0 - y 0| → 3 ≤ pathLength x y := by
    intro x y hxy
    refine le_trans ?_ (le_max_left _ _)
    unfold Spec.dist
    refine Real.le_sqrt_of_sq_le ?_
    rw [Fin.sum_univ_two]
    nlinarith [sq_abs (x 0 - y 0), sq_nonneg (x 1 - y 1)]
  have h3 := key _ _ (show 3 ≤ |wholeMetres ((![![![5, 2]], ![![5, 2]]] : Fin 2 → Fin 1 → Fin 2 → ℝ) t m) 0
      - wholeMetres ((![![![1, 2]], ![![2, 2]]] : Fin 2 → Fin 1 → Fin 2 → ℝ) t s) 0| by
    fin_cases t <;> fin_cases s <;> fin_cases m <;> simp [wholeMetres, trunc] <;> norm_num)
  rw [div_lt_iff₀ (by norm_num)] at h
  change _ * (16000 : ℝ) < ((100 : ℕ) : ℝ) * 343 at h
  push_cast at h
  linarith

/-- A world whose filter does nothing turns silence into silence: with the default configuration (filter on), too,
integer sources yield an error or zeros. -/
example (noise : ℤ → List ℕ → List ℝ) (sources mics : Entity) (R : Tensor ℝ)
    (h : simulateRirTyped ⟨Unit, fun _ _ _ => .ok (), fun _ row => .ok row, noise, .cpu⟩ wholeRoom .int64 sources mics
      none { maxOrder := some 3, nsample := some 1600 } = .ok (.int64, R)) : ∀ x ∈ R.data, x = 0 :=
  ((C109_integer_silence _ (by rintro sos row out hr h; cases h; exact hr) _ _ _ rfl _).1 _ _ _ _ h).2

end Torchrir.Props
