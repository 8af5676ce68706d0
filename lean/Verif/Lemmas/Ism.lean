import Verif.Model.Ism
import Verif.Lemmas.Accumulate
import Verif.Lemmas.Images

/-! # Closed forms of the simulation loops -/

namespace Torchrir.Lemmas

open Torchrir.Model
open Torchrir.Spec

/-! ## Lists from `Fin` functions -/

theorem zipIdx_ofFn {α : Type} {n : ℕ} (f : Fin n → α) :
    (List.ofFn f).zipIdx = List.ofFn fun i => (f i, (i : ℕ)) := by
  apply List.ext_getElem <;> simp

theorem mapM_ofFn {α β : Type} {n : ℕ} {a : Fin n → α} {b : Fin n → β}
    {f : α → Except String β} (h : ∀ i, f (a i) = .ok (b i)) :
    (List.ofFn a).mapM f = .ok (List.ofFn b) := by
  induction n with
  | zero => simp; rfl
  | succ n ih =>
    rw [List.ofFn_succ, List.mapM_cons, h 0, ih (fun i => h i.succ), List.ofFn_succ]
    rfl

theorem rowOf_eq_ofFn (N : ℕ) (F : ℕ → ℝ) : rowOf N F = List.ofFn fun k : Fin N => F k := by
  unfold rowOf
  apply List.ext_getElem <;> simp

theorem tensor2_rows {n d : ℕ} (f : Fin n → Fin d → ℝ) :
    (tensor2 f).rows = List.ofFn fun i => List.ofFn (f i) := by
  unfold tensor2 Tensor.rows
  apply groups_flatten
  · simp
  · intro r hr
    obtain ⟨i, rfl⟩ := (List.mem_ofFn' _ _).mp hr
    simp

theorem flatten_ofFn_length {α : Type} {n d : ℕ} (f : Fin n → List α) (h : ∀ i, (f i).length = d) :
    (List.ofFn f).flatten.length = n * d := by
  rw [length_flatten_of d]
  · simp
  · intro r hr
    obtain ⟨i, rfl⟩ := (List.mem_ofFn' _ _).mp hr
    exact h i

theorem tensor3_planes {a b c : ℕ} (f : Fin a → Fin b → Fin c → ℝ) :
    (tensor3 f).planes = List.ofFn fun i => List.ofFn fun j => List.ofFn (f i j) := by
  unfold tensor3 Tensor.planes
  simp only []
  rw [groups_flatten a (b * c)]
  · rw [List.map_ofFn]
    congr 1
    funext i
    simp only [Function.comp]
    apply groups_flatten
    · simp
    · intro r hr
      obtain ⟨i, rfl⟩ := (List.mem_ofFn' _ _).mp hr
      simp
  · simp
  · intro r hr
    obtain ⟨i, rfl⟩ := (List.mem_ofFn' _ _).mp hr
    exact flatten_ofFn_length _ (by simp)

/-! ## `Except` -/

theorem ok_bind {α β : Type} (a : α) (f : α → Except String β) :
    ((Except.ok a : Except String α) >>= f) = f a := rfl

theorem raiseIf_neg {p : Prop} [Decidable p] (h : ¬ p) (e : String) : raiseIf p e = .ok () :=
  if_neg h

theorem raiseIf_ok (p : Prop) [Decidable p] (e : String) (u : Unit) :
    raiseIf p e = .ok u ↔ ¬ p := by
  unfold raiseIf
  by_cases hp : p <;> simp [hp]

theorem bind_eq_ok {α β : Type} (x : Except String α) (f : α → Except String β) (b : β) :
    (x >>= f) = .ok b ↔ ∃ a, x = .ok a ∧ f a = .ok b := by
  cases x with
  | error e =>
    constructor
    · intro h; cases h
    · rintro ⟨a, h, _⟩; cases h
  | ok a => exact ⟨fun h => ⟨a, rfl, h⟩, by rintro ⟨a', h, h'⟩; cases h; exact h'⟩

theorem raiseIf_bind_ok {β : Type} (p : Prop) [Decidable p] (e : String) (x : Except String β)
    (b : β) : (raiseIf p e >>= fun _ => x) = .ok b ↔ ¬ p ∧ x = .ok b := by
  rw [bind_eq_ok]
  constructor
  · rintro ⟨_, h, h'⟩; exact ⟨(raiseIf_ok p e _).mp h, h'⟩
  · rintro ⟨h, h'⟩; exact ⟨(), (raiseIf_ok p e _).mpr h, h'⟩

/-! ## Images as a list of index functions -/

theorem IsImageList.exists_list {d : ℕ} {nVec : List (List ℤ)} {A : Finset (Fin d → ℤ)}
    (h : IsImageList nVec A) :
    ∃ ns : List (Fin d → ℤ), nVec = ns.map List.ofFn ∧ ns.Nodup ∧ ∀ n, n ∈ ns ↔ n ∈ A := by
  have hall : ∀ v ∈ nVec, ∃ n : Fin d → ℤ, List.ofFn n = v := fun v hv => by
    obtain ⟨n, _, hn⟩ := (h.2 v).mp hv; exact ⟨n, hn⟩
  have : ∃ ns : List (Fin d → ℤ), nVec = ns.map List.ofFn := by
    clear h
    induction nVec with
    | nil => exact ⟨[], rfl⟩
    | cons v l ih =>
      obtain ⟨n, hn⟩ := hall v (by simp)
      obtain ⟨ns, hns⟩ := ih (fun v hv => hall v (by simp [hv]))
      exact ⟨n :: ns, by rw [List.map_cons, hn, ← hns]⟩
  obtain ⟨ns, rfl⟩ := this
  refine ⟨ns, rfl, h.1.of_map _, ?_⟩
  intro n
  constructor
  · intro hn
    obtain ⟨m, hm, he⟩ := (h.2 (List.ofFn n)).mp (List.mem_map.mpr ⟨n, hn, rfl⟩)
    rwa [← List.ofFn_injective he]
  · intro hn
    obtain ⟨m, hm, he⟩ := List.mem_map.mp ((h.2 (List.ofFn n)).mpr ⟨n, hn, rfl⟩)
    rwa [← List.ofFn_injective he]

theorem sum_list_eq_finset {d : ℕ} {ns : List (Fin d → ℤ)} {A : Finset (Fin d → ℤ)}
    (h1 : ns.Nodup) (h2 : ∀ n, n ∈ ns ↔ n ∈ A) (f : (Fin d → ℤ) → ℝ) :
    (ns.map f).sum = ∑ n ∈ A, f n := by
  rw [← List.sum_toFinset f h1]
  apply Finset.sum_congr
  · ext n; rw [List.mem_toFinset, h2]
  · intros; rfl

theorem reflectionCoefficients_map {d : ℕ} (lo hi : Fin d → ℝ) (ns : List (Fin d → ℤ)) :
    reflectionCoefficients (ns.map List.ofFn) (wallList lo hi) = ns.map (wallGain lo hi) := by
  unfold reflectionCoefficients
  rw [List.map_map]
  apply List.map_congr_left
  intro n _
  exact reflectionCoefficients_eq lo hi n

theorem imagePositionsBatch_eq {d nS : ℕ} (L : Fin d → ℝ) (src : Fin nS → Fin d → ℝ)
    (ns : List (Fin d → ℤ)) :
    imagePositionsBatch (List.ofFn fun s => List.ofFn (src s)) (List.ofFn L) (ns.map List.ofFn)
      = List.ofFn fun s => ns.map fun n => List.ofFn (image L (src s) n) := by
  unfold imagePositionsBatch
  simp only [List.map_map, List.map_ofFn]
  congr 1
  funext s
  simp only [Function.comp, List.zipWith_map, List.zipWith_self]
  apply List.map_congr_left
  intro n _
  rw [zipWith_ofFn, List.map_ofFn, zipWith_ofFn, zipWith_ofFn]
  congr 1
  funext i
  exact axis_image _ _ _

theorem norm2_ofFn {d : ℕ} (v : Fin d → ℝ) : norm2 (List.ofFn v) = Real.sqrt (∑ i, v i ^ 2) := by
  unfold norm2 dot
  rw [zipWith_ofFn, List.sum_ofFn]
  congr 1
  apply Finset.sum_congr rfl
  intros; ring

theorem vsub_ofFn {d : ℕ} (a b : Fin d → ℝ) : vsub (List.ofFn a) (List.ofFn b) = List.ofFn (a - b) := by
  unfold vsub; rw [zipWith_ofFn]; rfl

theorem vneg_ofFn {d : ℕ} (a : Fin d → ℝ) : vneg (List.ofFn a) = List.ofFn (-a) := by
  unfold vneg; rw [List.map_ofFn]; rfl

theorem pathContribution_eq {d : ℕ} (p mic : Fin d → ℝ) (refl c fs : ℝ) (hfs : fs ≠ 0) (fdl2 : ℕ)
    (sp mp : String) (sd md : Vec) (gs gm : ℝ)
    (hs : deviceGain sp (List.ofFn (mic - p)) sd = .ok gs)
    (hm : deviceGain mp (List.ofFn (p - mic)) md = .ok gm) :
    pathContribution (List.ofFn p) (List.ofFn mic) refl c fs fdl2 sp mp sd md
      = .ok (pathLength mic p * fs / c + fdl2, refl * gs * gm / pathLength mic p) := by
  unfold pathContribution
  simp only [vsub_ofFn, vneg_ofFn, neg_sub]
  rw [hs]
  have e : norm2 (List.ofFn (mic - p)) = Spec.dist mic p := by
    rw [norm2_ofFn]; rfl
  rw [e]
  show (do let gm ← deviceGain mp (List.ofFn (p - mic)) md; _) = _
  rw [hm]
  show Except.ok _ = Except.ok _
  congr 2
  unfold pathLength
  field_simp

/-- Contribution of image `n` in the specification's terms. -/
noncomputable def contribOf {d : ℕ} (S : Setup d) (fdl2 : ℕ) (gs gm : (Fin d → ℝ) → ℝ)
    (src mic : Fin d → ℝ) (n : Fin d → ℤ) : ℝ × ℝ :=
  let p := image S.L src n
  (pathLength mic p * S.fs / S.c + fdl2,
    wallGain S.lo S.hi n * gs (mic - p) * gm (p - mic) / pathLength mic p)

/-- Gains at every used direction exist and equal the given gain functions. -/
structure GainsOk {d nS nM : ℕ} (sp mp : String) (sd : Option (List Vec)) (md : Option MicDir)
    (gs : Fin nS → (Fin d → ℝ) → ℝ) (gm : Fin nM → (Fin d → ℝ) → ℝ)
    (used : Fin nS → Fin nM → (Fin d → ℝ) → Prop) : Prop where
  src_some : ¬ (sp ≠ "omni" ∧ sd.isNone)
  mic_some : ¬ (mp ≠ "omni" ∧ md.isNone)
  src : ∀ s m v, used s m v →
    deviceGain sp (List.ofFn v) ((sd.getD []).getD s []) = .ok (gs s v)
  mic : ∀ m : Fin nM, ∃ mv, micVec md nM m = .ok mv ∧
    ∀ s v, used s m v → deviceGain mp (List.ofFn (-v)) mv = .ok (gm m (-v))

theorem contributionsBatch_eq {d nS nM : ℕ} (S : Setup d) (hfs : S.fs ≠ 0) (fdl2 : ℕ)
    (src : Fin nS → Fin d → ℝ) (mic : Fin nM → Fin d → ℝ) (ns : List (Fin d → ℤ))
    (sp mp : String) (sd : Option (List Vec)) (md : Option MicDir)
    (gs : Fin nS → (Fin d → ℝ) → ℝ) (gm : Fin nM → (Fin d → ℝ) → ℝ)
    (hg : GainsOk sp mp sd md gs gm
      fun s m v => ∃ n ∈ ns, v = mic m - image S.L (src s) n) :
    contributionsBatch (List.ofFn fun s => List.ofFn (src s)) (List.ofFn fun m => List.ofFn (mic m))
      (List.ofFn S.L) (ns.map List.ofFn) (ns.map (wallGain S.lo S.hi)) S.c S.fs fdl2 sp mp sd md
    = .ok (List.ofFn fun s => List.ofFn fun m =>
        ns.map (contribOf S fdl2 (gs s) (gm m) (src s) (mic m))) := by
  unfold contributionsBatch
  rw [raiseIf_neg hg.src_some, raiseIf_neg hg.mic_some, imagePositionsBatch_eq]
  simp only [ok_bind, zipIdx_ofFn]
  apply mapM_ofFn
  intro s
  simp only
  apply mapM_ofFn
  intro m
  obtain ⟨mv, hmv, hm⟩ := hg.mic m
  simp only [List.length_ofFn]
  rw [hmv, ok_bind]
  rw [List.zip_map', List.mapM_map]
  apply mapM_ok
  intro n hn
  have h1 := hg.src s m (mic m - image S.L (src s) n) ⟨n, hn, rfl⟩
  have h2 := hm s (mic m - image S.L (src s) n) ⟨n, hn, rfl⟩
  rw [neg_sub] at h2
  exact pathContribution_eq _ _ _ _ _ hfs _ _ _ _ _ _ _ h1 h2

/-- The image formula written out in the time-batched code. -/
theorem image_time_formula {d : ℕ} (L x : Fin d → ℝ) (ns : List (Fin d → ℤ)) :
    (List.zipWith (fun b sg => List.zipWith (· + ·) b (List.zipWith (· * ·) sg (List.ofFn x)))
      (((ns.map List.ofFn).map fun n => n.map fun i => (((i + 1) / 2 : ℤ) : ℝ)).map fun h =>
        List.zipWith (fun l x => 2 * l * x) (List.ofFn L) h)
      ((ns.map List.ofFn).map fun n => n.map fun i => if i % 2 = 0 then (1 : ℝ) else -1))
      = ns.map fun n => List.ofFn (image L x n) := by
  simp only [List.map_map, List.zipWith_map, List.zipWith_self, Function.comp, List.map_ofFn,
    zipWith_ofFn]
  apply List.map_congr_left
  intro n _
  congr 1
  funext i
  exact axis_image _ _ _

theorem contributionsTimeBatch_eq {d nT nS nM : ℕ} (S : Setup d) (hfs : S.fs ≠ 0) (fdl2 : ℕ)
    (src : Fin nT → Fin nS → Fin d → ℝ) (mic : Fin nT → Fin nM → Fin d → ℝ)
    (ns : List (Fin d → ℤ))
    (sp mp : String) (sd : Option (List Vec)) (md : Option MicDir)
    (gs : Fin nS → (Fin d → ℝ) → ℝ) (gm : Fin nM → (Fin d → ℝ) → ℝ)
    (hg : GainsOk sp mp sd md gs gm
      fun s m v => ∃ t, ∃ n ∈ ns, v = mic t m - image S.L (src t s) n) :
    contributionsTimeBatch (List.ofFn fun t => List.ofFn fun s => List.ofFn (src t s))
      (List.ofFn fun t => List.ofFn fun m => List.ofFn (mic t m))
      (List.ofFn S.L) (ns.map List.ofFn) (ns.map (wallGain S.lo S.hi)) S.c S.fs fdl2 sp mp sd md
    = .ok (List.ofFn fun t => List.ofFn fun s => List.ofFn fun m =>
        ns.map (contribOf S fdl2 (gs s) (gm m) (src t s) (mic t m))) := by
  unfold contributionsTimeBatch
  rw [raiseIf_neg hg.src_some, raiseIf_neg hg.mic_some]
  simp only [ok_bind, List.zip, zipWith_ofFn]
  apply mapM_ofFn
  intro t
  simp only [zipIdx_ofFn]
  apply mapM_ofFn
  intro s
  simp only
  apply mapM_ofFn
  intro m
  obtain ⟨mv, hmv, hm⟩ := hg.mic m
  simp only [List.length_ofFn]
  rw [hmv, ok_bind]
  rw [image_time_formula, ← List.zip, List.zip_map', List.mapM_map]
  apply mapM_ok
  intro n hn
  have h1 := hg.src s m (mic t m - image S.L (src t s) n) ⟨t, n, hn, rfl⟩
  have h2 := hm s (mic t m - image S.L (src t s) n) ⟨t, n, hn, rfl⟩
  rw [neg_sub] at h2
  exact pathContribution_eq _ _ _ _ _ hfs _ _ _ _ _ _ _ h1 h2

/-! ## The chunk loop over images -/

/-- What a valid configuration guarantees. -/
theorem Config.valid_iff (c : Config) : c.validate = .ok () ↔
    (∀ f, c.fs = some f → 0 < f) ∧ (∀ m, c.maxOrder = some m → 0 ≤ m) ∧
    (∀ t, c.tmax = some t → 0 < t) ∧ (∀ s, c.seed = some s → 0 ≤ s) ∧
    (0 < c.fracDelayLength ∧ c.fracDelayLength % 2 = 1) ∧ 0 < c.sincLutGranularity ∧
    0 < c.imageChunkSize ∧ 0 < c.accumulateChunkSize ∧ 0 < c.rirHpfFc ∧
    (∀ n, c.rirHpfKwargs.n = some n → 0 < n) := by
  unfold Config.validate
  simp only [raiseIf_bind_ok, raiseIf_ok]
  have hodd : ¬ (c.fracDelayLength ≤ 0 ∨ c.fracDelayLength % 2 = 0) ↔
      (0 < c.fracDelayLength ∧ c.fracDelayLength % 2 = 1) := by omega
  rw [hodd]
  simp only [not_exists, not_and, not_le, not_lt]

theorem replicate_eq_rows {ι : Type} (R : List ι) (N : ℕ) :
    List.replicate (R.length * N) (0 : ℝ) = (R.map fun _ => rowOf N fun _ => 0).flatten := by
  have : (rowOf N fun _ => (0 : ℝ)) = List.replicate N 0 := by
    unfold rowOf; simp
  rw [this, List.map_const', List.flatten_replicate_replicate]

theorem chunkLoop_eq {ι : Type} {d : ℕ} (cfg : Config) (hcfg : cfg.validate = .ok ())
    (dev : DeviceType) (R : List ι) (hR : R ≠ []) (ns : List (Fin d → ℤ))
    (g : ι → (Fin d → ℤ) → ℝ × ℝ) (N chunk : ℕ) (hchunk : 0 < chunk)
    (step : List ℝ → ℕ → Except String (List ℝ))
    (hstep : ∀ buf start, step buf start =
      accumulateRirBatch cfg dev R.length N buf
        ((R.map fun r => (slice start (min (start + chunk) ns.length) ns).map (g r)).map
          (·.map Prod.fst))
        ((R.map fun r => (slice start (min (start + chunk) ns.length) ns).map (g r)).map
          (·.map Prod.snd))) :
    (rangeStep ns.length chunk).foldlM step (List.replicate (R.length * N) 0)
      = .ok (R.map fun r => rowOf N fun k =>
          pairSum (kernelShape (cfg.useLut && dev ≠ .mps) cfg.sincLutGranularity.toNat)
            cfg.fracDelayLength.toNat (ns.map (g r)) k).flatten := by
  obtain ⟨-, -, -, -, ⟨hf0, hf1⟩, hgr, -, hac, -, -⟩ := (Config.valid_iff cfg).mp hcfg
  set fdl := cfg.fracDelayLength.toNat
  set gran := cfg.sincLutGranularity.toNat
  set h := kernelShape (cfg.useLut && dev ≠ .mps) gran with hh
  obtain ⟨b', h1, h2⟩ := foldlM_chunks ns.length chunk hchunk
    (fun p (b : List ℝ) => b = (R.map fun r => rowOf N fun k =>
        pairSum h fdl ((ns.take p).map (g r)) k).flatten) step
    (by
      intro start b hs hb
      refine ⟨_, ?_, rfl⟩
      rw [hstep, hb]
      have := accumulateImpl_eq (fdl := fdl) (gran := gran) (by omega) (by omega)
        (cfg.useLut && dev ≠ .mps) cfg.accumulateChunkSize.toNat (by omega) N
        (slice start (min (start + chunk) ns.length) ns).length
        (R.map fun r => ((fun k => pairSum h fdl ((ns.take start).map (g r)) k),
          (slice start (min (start + chunk) ns.length) ns).map (g r)))
        (by simpa using hR) (by
          intro p hp
          obtain ⟨r, _, rfl⟩ := List.mem_map.mp hp
          simp)
      simp only [List.map_map, Function.comp_def, List.length_map] at this
      unfold accumulateRirBatch
      simp only [List.map_map, Function.comp_def]
      rw [this]
      congr 2
      apply List.map_congr_left
      intro r _
      congr 1
      funext k
      rw [take_eq_append_slice ns start (min (start + chunk) ns.length) (by omega), List.map_append,
        pairSum_append])
    (List.replicate (R.length * N) 0) (by rw [replicate_eq_rows]; simp [pairSum])
  rw [h1, h2, List.take_length]

/-- The kernel sum over the image list is the specification's RIR. -/
theorem pairSum_eq_rir {d : ℕ} (S : Setup d) (hodd : S.fdl % 2 = 1)
    (gs gm : (Fin d → ℝ) → ℝ) (src mic : Fin d → ℝ) {ns : List (Fin d → ℤ)}
    {A : Finset (Fin d → ℤ)} (h1 : ns.Nodup) (h2 : ∀ n, n ∈ ns ↔ n ∈ A) (k : ℕ) :
    pairSum S.shape S.fdl (ns.map (contribOf S (halfLen S.fdl) gs gm src mic)) k
      = rir S A gs gm src mic k := by
  unfold pairSum rir
  rw [List.map_map, sum_list_eq_finset h1 h2]
  apply Finset.sum_congr rfl
  intro n _
  simp only [Function.comp, contribOf]
  rw [kernAt_shift _ hodd]

theorem pairs_map_flatten {nS nM N : ℕ} (f : Fin nS → Fin nM → ℕ → ℝ) :
    (((List.ofFn fun s => List.ofFn fun m => (s, m)).flatten.map fun r : Fin nS × Fin nM =>
      rowOf N (f r.1 r.2)).flatten) = (tensor3 fun s m (k : Fin N) => f s m k).data := by
  unfold tensor3
  rw [List.map_flatten, List.map_ofFn, List.flatten_flatten]
  rw [List.map_ofFn]
  congr 2
  funext s
  simp only [Function.comp, List.map_ofFn]
  congr 2
  funext m
  simp only [Function.comp, rowOf_eq_ofFn]

theorem pairs_length (nS nM : ℕ) :
    (List.ofFn fun s : Fin nS => List.ofFn fun m : Fin nM => (s, m)).flatten.length = nS * nM :=
  flatten_ofFn_length _ (by simp)

theorem imageChunk_pos {cfg : Config} (h : cfg.validate = .ok ()) (n : ℕ) : 0 < imageChunk cfg n := by
  obtain ⟨-, -, -, -, -, -, h', -⟩ := (Config.valid_iff cfg).mp h
  unfold imageChunk
  rw [if_neg (by omega)]
  omega

theorem resolveConfig_valid {a : SimArgs} {r : Config × ℤ × Option ℝ × DirArg}
    (h : resolveConfig a = .ok r) : r.1.validate = .ok () := by
  unfold resolveConfig at h
  simp only [bind_eq_ok] at h
  obtain ⟨_, h1, _, _, h2⟩ := h
  cases h2
  exact h1

/-- The kernel shape and length a configuration selects. -/
noncomputable def setupOf {d : ℕ} (w : World) (cfg : Config) (L lo hi : Fin d → ℝ) (fs c : ℝ) : Setup d :=
  ⟨L, lo, hi, fs, c, cfg.fracDelayLength.toNat,
    kernelShape (cfg.useLut && w.device ≠ .mps) cfg.sincLutGranularity.toNat⟩

/-- `simulate_rir` in closed form for resolved arguments. -/
theorem simulateRir_core {d nS nM : ℕ} (w : World) (room : Room) (sources mics : Entity)
    (a : SimArgs) (L lo hi : Fin d → ℝ) (src : Fin nS → Fin d → ℝ) (mic : Fin nM → Fin d → ℝ)
    (hd : d = 2 ∨ d = 3) (hS : 0 < nS) (hM : 0 < nM)
    (hsize : room.size = List.ofFn L) (hbeta : resolveBeta room = .ok (wallList lo hi))
    (hfs : room.fs ≠ 0)
    {cfg : Config} {N : ℤ} {tmax : Option ℝ} {dir : DirArg}
    (hres : resolveConfig a = .ok (cfg, N, tmax, dir))
    {K : ℤ} (hval : validateArgs room a.nsample tmax N = .ok K)
    {so mo : Option (Tensor ℝ)}
    {sPos mPos : Tensor ℝ}
    (hsrc : prepareEntity sources a.orientation true = .ok (sPos, so))
    (hmic : prepareEntity mics a.orientation false = .ok (mPos, mo))
    (hsPos : asPoints sPos = tensor2 src) (hmPos : asPoints mPos = tensor2 mic)
    {nVec : List (List ℤ)} (himg : imageSourceIndices N d a.nbImg = .ok nVec)
    {A : Finset (Fin d → ℤ)} (hA : IsImageList nVec A)
    {sp mp : String} (hsplit : splitDirectivity dir = .ok (sp, mp))
    {md : Option MicDir} (hmd : resolveMicDir mp mo d = .ok md)
    {sd : Option (List Vec)} (hsd : resolveSrcDirs sp so d nS = .ok sd)
    (gs : Fin nS → (Fin d → ℝ) → ℝ) (gm : Fin nM → (Fin d → ℝ) → ℝ)
    (hg : GainsOk sp mp sd md gs gm fun s m v => ∃ n ∈ A, v = mic m - image L (src s) n) :
    simulateRir w room sources mics a = (do
      let rir ← diffuseStep w (tensor3 fun s m (k : Fin K.toNat) =>
        rir (setupOf w cfg L lo hi room.fs room.c) A (gs s) (gm m) (src s) (mic m) k)
        room (wallList lo hi) a.tdiff tmax cfg.seed
      applyRirHpf w room.fs cfg rir) := by
  obtain ⟨ns, rfl, hnd, hmem⟩ := hA.exists_list
  have hcfg : cfg.validate = .ok () := resolveConfig_valid hres
  obtain ⟨-, -, -, -, ⟨hf0, hf1⟩, -⟩ := (Config.valid_iff cfg).mp hcfg
  have hdim : ensureDim room.size = .ok () := by
    unfold ensureDim; rw [hsize, List.length_ofFn, if_pos hd]
  have hshape : validatePosShapes (tensor2 src) (tensor2 mic) d = .ok () := by
    unfold validatePosShapes
    simp only [raiseIf_bind_ok, raiseIf_ok]
    simp [tensor2, Tensor.ndim]
  unfold simulateRir
  rw [hres, ok_bind]
  simp only []
  rw [hval, ok_bind, hsrc, ok_bind]
  simp only []
  rw [hmic, ok_bind]
  simp only []
  rw [hdim, ok_bind]
  have hlen : room.size.length = d := by rw [hsize]; simp
  rw [hsPos, hmPos, hlen, hshape, ok_bind, hbeta, ok_bind, himg, ok_bind, hsplit, ok_bind]
  simp only []
  rw [hmd, ok_bind]
  have e1 : (tensor2 src).shape.getD 0 0 = nS := rfl
  have e2 : (tensor2 mic).shape.getD 0 0 = nM := rfl
  rw [e1, e2, hsd, ok_bind, tensor2_rows, tensor2_rows, reflectionCoefficients_map, hsize]
  set S := setupOf w cfg L lo hi room.fs room.c with hSdef
  have hloop := chunkLoop_eq cfg hcfg w.device
    (List.ofFn fun s : Fin nS => List.ofFn fun m : Fin nM => (s, m)).flatten
    (by
      intro h0
      have := pairs_length nS nM
      rw [h0] at this
      simp at this
      omega) ns
    (fun r n => contribOf S (halfLen S.fdl) (gs r.1) (gm r.2) (src r.1) (mic r.2) n)
    K.toNat (imageChunk cfg ns.length) (imageChunk_pos hcfg _)
    (fun buf start => do
      let chunk ← contributionsBatch (List.ofFn fun s => List.ofFn (src s))
        (List.ofFn fun m => List.ofFn (mic m)) (List.ofFn L)
        (slice start (min (start + imageChunk cfg ns.length) ns.length) (ns.map List.ofFn))
        (slice start (min (start + imageChunk cfg ns.length) ns.length) (ns.map (wallGain lo hi)))
        room.c room.fs (halfLen cfg.fracDelayLength.toNat) sp mp sd md
      accumulateRirBatch cfg w.device (nS * nM) K.toNat buf
        (chunk.flatten.map (·.map Prod.fst)) (chunk.flatten.map (·.map Prod.snd)))
    (by
      intro buf start
      rw [slice_map, slice_map]
      have hc := contributionsBatch_eq S hfs (halfLen cfg.fracDelayLength.toNat) src mic
        (slice start (min (start + imageChunk cfg ns.length) ns.length) ns) sp mp sd md gs gm
        ⟨hg.src_some, hg.mic_some, fun s m v ⟨n, hn, hv⟩ => hg.src s m v ⟨n, (hmem n).mp
            (List.mem_of_mem_take (List.mem_of_mem_drop hn)), hv⟩,
          fun m => by
            obtain ⟨mv, h1, h2⟩ := hg.mic m
            exact ⟨mv, h1, fun s v ⟨n, hn, hv⟩ => h2 s v ⟨n, (hmem n).mp
              (List.mem_of_mem_take (List.mem_of_mem_drop hn)), hv⟩⟩⟩
      refine Eq.trans (congrArg (· >>= _) hc) ?_
      rw [ok_bind, pairs_length]
      congr 2
      all_goals
        rw [List.map_flatten, List.map_ofFn]
        congr 2
        funext s
        simp only [Function.comp, List.map_ofFn]
        rfl)
  rw [pairs_length] at hloop
  simp only [List.length_map] at hloop ⊢
  rw [hloop, ok_bind]
  have hdata := pairs_map_flatten (N := K.toNat) (fun (s : Fin nS) (m : Fin nM) k =>
    rir S A (gs s) (gm m) (src s) (mic m) k)
  have hrows : ∀ (s : Fin nS) (m : Fin nM) k,
      pairSum (kernelShape (cfg.useLut && w.device ≠ .mps) cfg.sincLutGranularity.toNat)
        cfg.fracDelayLength.toNat
        (ns.map fun n => contribOf S (halfLen S.fdl) (gs s) (gm m) (src s) (mic m) n) k
      = rir S A (gs s) (gm m) (src s) (mic m) k := fun s m k =>
    pairSum_eq_rir S (by show cfg.fracDelayLength.toNat % 2 = 1; omega) (gs s) (gm m) (src s) (mic m)
      hnd hmem k
  simp only [hrows]
  rw [hdata]
  rfl

theorem triples_length (nT nS nM : ℕ) :
    (List.ofFn fun t : Fin nT => List.ofFn fun s : Fin nS => List.ofFn fun m : Fin nM =>
      (t, s, m)).flatten.flatten.length = nT * nS * nM := by
  rw [List.flatten_flatten, List.map_ofFn]
  rw [flatten_ofFn_length (d := nS * nM)]
  · ring
  · intro t
    exact flatten_ofFn_length _ (by simp)

theorem triples_map_flatten {nT nS nM N : ℕ} (f : Fin nT → Fin nS → Fin nM → ℕ → ℝ) :
    (((List.ofFn fun t => List.ofFn fun s => List.ofFn fun m => (t, s, m)).flatten.flatten.map
      fun r : Fin nT × Fin nS × Fin nM => rowOf N (f r.1 r.2.1 r.2.2)).flatten)
      = (tensor4 fun t s m (k : Fin N) => f t s m k).data := by
  unfold tensor4
  simp only [List.map_flatten, List.map_ofFn, List.flatten_flatten, Function.comp_def]
  congr 2
  funext t
  unfold tensor3
  simp only [rowOf_eq_ofFn]

/-- `simulate_dynamic_rir` in closed form for resolved arguments. -/
theorem simulateDynamicRir_core {d nT nS nM : ℕ} (w : World) (room : Room) (a : SimArgs)
    (L lo hi : Fin d → ℝ) (src : Fin nT → Fin nS → Fin d → ℝ) (mic : Fin nT → Fin nM → Fin d → ℝ)
    {sTraj mTraj : Tensor ℝ} (hsT : asTraj sTraj = tensor3 src) (hmT : asTraj mTraj = tensor3 mic)
    (hd : d = 2 ∨ d = 3) (hT : 0 < nT) (hS : 0 < nS) (hM : 0 < nM)
    (hsize : room.size = List.ofFn L) (hbeta : resolveBeta room = .ok (wallList lo hi))
    (hfs : room.fs ≠ 0)
    {cfg : Config} {N : ℤ} {tmax : Option ℝ} {dir : DirArg}
    (hres : resolveConfig a = .ok (cfg, N, tmax, dir))
    {K : ℤ} (hval : validateArgs room a.nsample tmax N = .ok K)
    {so mo : Option (Tensor ℝ)} (hori : splitOrientation a.orientation = .ok (so, mo))
    {nVec : List (List ℤ)} (himg : imageSourceIndices N d a.nbImg = .ok nVec)
    {A : Finset (Fin d → ℤ)} (hA : IsImageList nVec A)
    {sp mp : String} (hsplit : splitDirectivity dir = .ok (sp, mp))
    {md : Option MicDir} (hmd : resolveMicDir mp mo d = .ok md)
    {sd : Option (List Vec)} (hsd : resolveSrcDirs sp so d nS = .ok sd)
    (gs : Fin nS → (Fin d → ℝ) → ℝ) (gm : Fin nM → (Fin d → ℝ) → ℝ)
    (hg : GainsOk sp mp sd md gs gm
      fun s m v => ∃ t, ∃ n ∈ A, v = mic t m - image L (src t s) n) :
    simulateDynamicRir w room sTraj mTraj a =
      applyRirHpf w room.fs cfg (tensor4 fun t s m (k : Fin K.toNat) =>
        rir (setupOf w cfg L lo hi room.fs room.c) A (gs s) (gm m) (src t s) (mic t m) k) := by
  obtain ⟨ns, rfl, hnd, hmem⟩ := hA.exists_list
  have hcfg : cfg.validate = .ok () := resolveConfig_valid hres
  obtain ⟨-, -, -, -, ⟨hf0, hf1⟩, -⟩ := (Config.valid_iff cfg).mp hcfg
  have hdim : ensureDim room.size = .ok () := by
    unfold ensureDim; rw [hsize, List.length_ofFn, if_pos hd]
  have hshape : validateTrajShapes (tensor3 src) (tensor3 mic) d = .ok () := by
    unfold validateTrajShapes
    simp only [raiseIf_bind_ok, raiseIf_ok]
    simp [tensor3, Tensor.ndim]
  unfold simulateDynamicRir
  rw [hres, ok_bind]
  simp only []
  rw [hval, ok_bind, hori, ok_bind]
  simp only []
  rw [hdim, ok_bind]
  have hlen : room.size.length = d := by rw [hsize]; simp
  rw [hsT, hmT, hlen, hshape, ok_bind, hbeta, ok_bind, himg, ok_bind, hsplit, ok_bind]
  simp only []
  rw [hmd, ok_bind]
  have e0 : (tensor3 src).shape.getD 0 0 = nT := rfl
  have e1 : (tensor3 src).shape.getD 1 0 = nS := rfl
  have e2 : (tensor3 mic).shape.getD 1 0 = nM := rfl
  rw [e0, e1, e2, hsd, ok_bind, tensor3_planes, tensor3_planes, reflectionCoefficients_map, hsize]
  set S := setupOf w cfg L lo hi room.fs room.c with hSdef
  have hloop := chunkLoop_eq cfg hcfg w.device
    (List.ofFn fun t : Fin nT => List.ofFn fun s : Fin nS => List.ofFn fun m : Fin nM =>
      (t, s, m)).flatten.flatten
    (by
      intro h0
      have := triples_length nT nS nM
      rw [h0] at this
      simp at this
      omega) ns
    (fun r n => contribOf S (halfLen S.fdl) (gs r.2.1) (gm r.2.2) (src r.1 r.2.1) (mic r.1 r.2.2) n)
    K.toNat (imageChunk cfg ns.length) (imageChunk_pos hcfg _)
    (fun buf start => do
      let chunk ← contributionsTimeBatch
        (List.ofFn fun t => List.ofFn fun s => List.ofFn (src t s))
        (List.ofFn fun t => List.ofFn fun m => List.ofFn (mic t m)) (List.ofFn L)
        (slice start (min (start + imageChunk cfg ns.length) ns.length) (ns.map List.ofFn))
        (slice start (min (start + imageChunk cfg ns.length) ns.length) (ns.map (wallGain lo hi)))
        room.c room.fs (halfLen cfg.fracDelayLength.toNat) sp mp sd md
      accumulateRirBatch cfg w.device (nT * nS * nM) K.toNat buf
        (chunk.flatten.flatten.map (·.map Prod.fst)) (chunk.flatten.flatten.map (·.map Prod.snd)))
    (by
      intro buf start
      rw [slice_map, slice_map]
      have hc := contributionsTimeBatch_eq S hfs (halfLen cfg.fracDelayLength.toNat) src mic
        (slice start (min (start + imageChunk cfg ns.length) ns.length) ns) sp mp sd md gs gm
        ⟨hg.src_some, hg.mic_some, fun s m v ⟨t, n, hn, hv⟩ => hg.src s m v ⟨t, n, (hmem n).mp
            (List.mem_of_mem_take (List.mem_of_mem_drop hn)), hv⟩,
          fun m => by
            obtain ⟨mv, h1, h2⟩ := hg.mic m
            exact ⟨mv, h1, fun s v ⟨t, n, hn, hv⟩ => h2 s v ⟨t, n, (hmem n).mp
              (List.mem_of_mem_take (List.mem_of_mem_drop hn)), hv⟩⟩⟩
      refine Eq.trans (congrArg (· >>= _) hc) ?_
      rw [ok_bind, triples_length]
      congr 2
      all_goals
        simp only [List.map_flatten, List.map_ofFn, List.flatten_flatten, Function.comp_def]
        rfl)
  rw [triples_length] at hloop
  simp only [List.length_map] at hloop ⊢
  rw [hloop, ok_bind]
  have hdata := triples_map_flatten (N := K.toNat)
    (fun (t : Fin nT) (s : Fin nS) (m : Fin nM) k =>
      rir S A (gs s) (gm m) (src t s) (mic t m) k)
  have hrows : ∀ (t : Fin nT) (s : Fin nS) (m : Fin nM) k,
      pairSum (kernelShape (cfg.useLut && w.device ≠ .mps) cfg.sincLutGranularity.toNat)
        cfg.fracDelayLength.toNat
        (ns.map fun n => contribOf S (halfLen S.fdl) (gs s) (gm m) (src t s) (mic t m) n) k
      = rir S A (gs s) (gm m) (src t s) (mic t m) k := fun t s m k =>
    pairSum_eq_rir S (by show cfg.fracDelayLength.toNat % 2 = 1; omega) (gs s) (gm m) (src t s)
      (mic t m) hnd hmem k
  simp only [hrows]
  rw [hdata]
  rfl

end Torchrir.Lemmas
