import Verif.Lemmas.Ism

/-! # A successful simulation has resolved all its arguments -/

namespace Torchrir.Lemmas

open Torchrir.Model
open Torchrir.Spec

theorem mapM_ok_mem {α β : Type} {f : α → Except String β} :
    ∀ {l : List α} {r : List β}, l.mapM f = .ok r → ∀ x ∈ l, ∃ y, f x = .ok y
  | [], _, _, x, hx => by simp at hx
  | a :: l, r, h, x, hx => by
    rw [List.mapM_cons, bind_eq_ok] at h
    obtain ⟨b, hb, h⟩ := h
    rw [bind_eq_ok] at h
    obtain ⟨bs, hbs, _⟩ := h
    rcases List.mem_cons.mp hx with rfl | hx
    · exact ⟨b, hb⟩
    · exact mapM_ok_mem hbs x hx

theorem foldlM_ok_mem {β : Type} {step : β → ℕ → Except String β} :
    ∀ {l : List ℕ} {b r : β}, l.foldlM step b = .ok r → ∀ x ∈ l, ∃ b₁ b₂, step b₁ x = .ok b₂
  | [], _, _, _, x, hx => by simp at hx
  | a :: l, b, r, h, x, hx => by
    rw [List.foldlM_cons, bind_eq_ok] at h
    obtain ⟨b', hb, h⟩ := h
    rcases List.mem_cons.mp hx with rfl | hx
    · exact ⟨b, b', hb⟩
    · exact foldlM_ok_mem h x hx

/-- Every index lies in some chunk. -/
theorem exists_chunk (n c i : ℕ) (hc : 0 < c) (hi : i < n) :
    ∃ start ∈ rangeStep n c, start ≤ i ∧ i < min (start + c) n := by
  refine ⟨i / c * c, ?_, Nat.div_mul_le_self i c, ?_⟩
  · simp only [rangeStep, List.mem_map, List.mem_range]
    refine ⟨i / c, ?_, rfl⟩
    rw [Nat.div_lt_iff_lt_mul hc]
    have := Nat.lt_div_mul_add (a := n + c - 1) hc
    omega
  · have := Nat.lt_div_mul_add (a := i) hc
    omega

theorem mem_slice {α : Type} (l : List α) (a b i : ℕ) (hi : i < l.length) (h1 : a ≤ i) (h2 : i < b) :
    l[i] ∈ slice a b l := by
  unfold slice
  rw [List.mem_iff_getElem]
  refine ⟨i - a, ?_, ?_⟩
  · simp; omega
  · simp only [List.getElem_drop, List.getElem_take]
    congr 1; omega

/-- Value of a gain (0 when it is not defined). -/
noncomputable def gainVal (pattern : String) (vec dir : Vec) : ℝ :=
  match deviceGain pattern vec dir with
  | .ok g => g
  | .error _ => 0

theorem gainVal_ok {p : String} {v d : Vec} (h : ∃ g, deviceGain p v d = .ok g) :
    deviceGain p v d = .ok (gainVal p v d) := by
  obtain ⟨g, hg⟩ := h
  unfold gainVal
  rw [hg]

theorem pathContribution_ok {img mic : Vec} {refl c fs : ℝ} {fdl2 : ℕ} {sp mp : String}
    {sd md : Vec} {r : ℝ × ℝ} (h : pathContribution img mic refl c fs fdl2 sp mp sd md = .ok r) :
    (∃ g, deviceGain sp (vsub mic img) sd = .ok g) ∧
      ∃ g, deviceGain mp (vneg (vsub mic img)) md = .ok g := by
  unfold pathContribution at h
  simp only [bind_eq_ok] at h
  obtain ⟨g1, h1, g2, h2, _⟩ := h
  exact ⟨⟨g1, h1⟩, ⟨g2, h2⟩⟩

/-- Everything a simulation derives from its arguments before the main loop. -/
structure Plan (d nS nM : ℕ) where
  cfg : Config
  N : ℤ
  tmax : Option ℝ
  dir : DirArg
  K : ℤ
  lo : Fin d → ℝ
  hi : Fin d → ℝ
  nVec : List (List ℤ)
  A : Finset (Fin d → ℤ)
  sp : String
  mp : String
  so : Option (Tensor ℝ)
  mo : Option (Tensor ℝ)
  sd : Option (List Vec)
  md : Option MicDir

namespace Plan
variable {d nS nM : ℕ} (P : Plan d nS nM)

/-- Gain of source `s` towards `v`. -/
noncomputable def gs (s : Fin nS) (v : Fin d → ℝ) : ℝ :=
  gainVal P.sp (List.ofFn v) ((P.sd.getD []).getD s [])

/-- Gain of microphone `m` towards `v`. -/
noncomputable def gm (m : Fin nM) (v : Fin d → ℝ) : ℝ :=
  gainVal P.mp (List.ofFn v) (match micVec P.md nM m with | .ok x => x | .error _ => [])

/-- The room and discretisation. -/
noncomputable def setup (w : World) (room : Room) (L : Fin d → ℝ) : Setup d :=
  setupOf w P.cfg L P.lo P.hi room.fs room.c

end Plan

/-- The plan is the one the arguments determine; common part of static and dynamic. -/
structure PlanOk {d nS nM : ℕ} (room : Room) (a : SimArgs) (L : Fin d → ℝ) (P : Plan d nS nM)
    (used : Fin nS → Fin nM → (Fin d → ℝ) → Prop) : Prop where
  hd : d = 2 ∨ d = 3
  hS : 0 < nS
  hM : 0 < nM
  size : room.size = List.ofFn L
  beta : resolveBeta room = .ok (wallList P.lo P.hi)
  res : resolveConfig a = .ok (P.cfg, P.N, P.tmax, P.dir)
  val : validateArgs room a.nsample P.tmax P.N = .ok P.K
  img : imageSourceIndices P.N d a.nbImg = .ok P.nVec
  imgA : IsImageList P.nVec P.A
  split : splitDirectivity P.dir = .ok (P.sp, P.mp)
  hmd : resolveMicDir P.mp P.mo d = .ok P.md
  hsd : resolveSrcDirs P.sp P.so d nS = .ok P.sd
  gains : GainsOk P.sp P.mp P.sd P.md P.gs P.gm used

/-- Static plan. -/
structure StaticPlan {d nS nM : ℕ} (room : Room) (sources mics : Entity) (a : SimArgs)
    (L : Fin d → ℝ) (src : Fin nS → Fin d → ℝ) (mic : Fin nM → Fin d → ℝ) (P : Plan d nS nM) :
    Prop extends PlanOk room a L P
      (fun s m v => ∃ n ∈ P.A, v = mic m - image L (src s) n) where
  hsrc : ∃ p, prepareEntity sources a.orientation true = .ok (p, P.so) ∧ asPoints p = tensor2 src
  hmic : ∃ p, prepareEntity mics a.orientation false = .ok (p, P.mo) ∧ asPoints p = tensor2 mic

/-- Dynamic plan. -/
structure DynamicPlan {d nT nS nM : ℕ} (room : Room) (a : SimArgs)
    (L : Fin d → ℝ) (src : Fin nT → Fin nS → Fin d → ℝ) (mic : Fin nT → Fin nM → Fin d → ℝ)
    (P : Plan d nS nM) :
    Prop extends PlanOk room a L P
      (fun s m v => ∃ t, ∃ n ∈ P.A, v = mic t m - image L (src t s) n) where
  hT : 0 < nT
  hori : splitOrientation a.orientation = .ok (P.so, P.mo)

/-- The raw static result before filter and tail. -/
noncomputable def Plan.static {d nS nM : ℕ} (P : Plan d nS nM) (w : World) (room : Room) (L : Fin d → ℝ)
    (src : Fin nS → Fin d → ℝ) (mic : Fin nM → Fin d → ℝ) : Tensor ℝ :=
  tensor3 fun s m (k : Fin P.K.toNat) =>
    rir (P.setup w room L) P.A (P.gs s) (P.gm m) (src s) (mic m) k

/-- The raw dynamic result before the filter. -/
noncomputable def Plan.dynamic {d nT nS nM : ℕ} (P : Plan d nS nM) (w : World) (room : Room)
    (L : Fin d → ℝ) (src : Fin nT → Fin nS → Fin d → ℝ) (mic : Fin nT → Fin nM → Fin d → ℝ) :
    Tensor ℝ :=
  tensor4 fun t s m (k : Fin P.K.toNat) =>
    rir (P.setup w room L) P.A (P.gs s) (P.gm m) (src t s) (mic t m) k

theorem StaticPlan.eval {d nS nM : ℕ} {room : Room} {sources mics : Entity} {a : SimArgs}
    {L : Fin d → ℝ} {src : Fin nS → Fin d → ℝ} {mic : Fin nM → Fin d → ℝ} {P : Plan d nS nM}
    (h : StaticPlan room sources mics a L src mic P) (w : World) (hfs : room.fs ≠ 0) :
    simulateRir w room sources mics a = (do
      let rir ← diffuseStep w (P.static w room L src mic) room (wallList P.lo P.hi) a.tdiff P.tmax
        P.cfg.seed
      applyRirHpf w room.fs P.cfg rir) := by
  obtain ⟨p, hp, hp'⟩ := h.hsrc
  obtain ⟨q, hq, hq'⟩ := h.hmic
  exact simulateRir_core w room sources mics a L P.lo P.hi src mic h.hd h.hS h.hM h.size h.beta hfs
    h.res h.val hp hq hp' hq' h.img h.imgA h.split h.hmd h.hsd P.gs P.gm h.gains

theorem DynamicPlan.eval {d nT nS nM : ℕ} {room : Room} {a : SimArgs}
    {L : Fin d → ℝ} {src : Fin nT → Fin nS → Fin d → ℝ} {mic : Fin nT → Fin nM → Fin d → ℝ}
    {P : Plan d nS nM} (h : DynamicPlan room a L src mic P) (w : World) (hfs : room.fs ≠ 0)
    {sTraj mTraj : Tensor ℝ} (hsT : asTraj sTraj = tensor3 src) (hmT : asTraj mTraj = tensor3 mic) :
    simulateDynamicRir w room sTraj mTraj a
      = applyRirHpf w room.fs P.cfg (P.dynamic w room L src mic) :=
  simulateDynamicRir_core w room a L P.lo P.hi src mic hsT hmT h.hd h.hT h.hS h.hM h.size h.beta
    hfs h.res h.val h.hori h.img h.imgA h.split h.hmd h.hsd P.gs P.gm h.gains

/-! ## Inversion of the resolution steps -/

theorem ofFn_of_length {α : Type} (l : List α) (n : ℕ) (h : l.length = n) :
    ∃ f : Fin n → α, l = List.ofFn f := by
  subst h; exact ⟨fun i => l[i], by simp⟩

theorem flatten_of_length {α : Type} {n m : ℕ} (l : List α) (h : l.length = n * m) :
    ∃ f : Fin n → Fin m → α, l = (List.ofFn fun i => List.ofFn (f i)).flatten := by
  refine ⟨fun i j => l[(i : ℕ) * m + j]'(by
    rw [h]
    calc (i : ℕ) * m + j < i * m + m := by omega
      _ = (i + 1) * m := by ring
      _ ≤ n * m := Nat.mul_le_mul_right _ i.2), ?_⟩
  by_cases hm : m = 0
  · subst hm
    have : l = [] := List.length_eq_zero_iff.mp (by simpa using h)
    subst this
    simp
  · have hlen : ∀ r ∈ (List.ofFn fun i : Fin n => List.ofFn fun j : Fin m =>
        l[(i : ℕ) * m + j]'(by
          rw [h]
          calc (i : ℕ) * m + j < i * m + m := by omega
            _ = (i + 1) * m := by ring
            _ ≤ n * m := Nat.mul_le_mul_right _ i.2)), r.length = m := by
      intro r hr
      obtain ⟨i, rfl⟩ := (List.mem_ofFn' _ _).mp hr
      simp
    match l, h, hlen with
    | [], h, hlen =>
      have : n * m = 0 := by simpa using h.symm
      have hn : n = 0 := by
        rcases Nat.mul_eq_zero.mp this with h' | h'
        · exact h'
        · exact absurd h' hm
      subst hn
      simp
    | x :: xs, h, hlen =>
      apply eq_flatten_of_getD m x _ _ hlen
      · simpa using h
      · intro r k hr hk
        simp only [List.length_ofFn] at hr
        have hb : r * m + k < (x :: xs).length := by
          rw [h]
          calc r * m + k < r * m + m := by omega
            _ = (r + 1) * m := by ring
            _ ≤ n * m := Nat.mul_le_mul_right _ hr
        rw [List.getD_eq_getElem _ _ hb, List.getD_eq_getElem _ _ (by simpa using hk)]
        simp

/-- A well-formed 2-D tensor is `tensor2` of a function. -/
theorem exists_tensor2 (t : Tensor ℝ) (hwf : t.WF) (n d : ℕ) (h : t.shape = [n, d]) :
    ∃ f : Fin n → Fin d → ℝ, t = tensor2 f := by
  obtain ⟨shape, data⟩ := t
  simp only at h
  subst h
  simp only [Tensor.WF, List.prod_cons, List.prod_nil, mul_one] at hwf
  obtain ⟨f, hf⟩ := flatten_of_length data hwf
  exact ⟨f, by rw [hf]; rfl⟩

theorem exists_tensor3 (t : Tensor ℝ) (hwf : t.WF) (n m d : ℕ) (h : t.shape = [n, m, d]) :
    ∃ f : Fin n → Fin m → Fin d → ℝ, t = tensor3 f := by
  obtain ⟨shape, data⟩ := t
  simp only at h
  subst h
  simp only [Tensor.WF, List.prod_cons, List.prod_nil, mul_one] at hwf
  obtain ⟨f, hf⟩ := flatten_of_length (n := n) (m := m * d) data hwf
  have hg := fun i => flatten_of_length (n := m) (m := d) (List.ofFn (f i)) (by simp)
  choose g hg using hg
  refine ⟨g, ?_⟩
  unfold tensor3
  rw [hf]
  congr 2
  congr 1
  funext i
  rw [hg i]

theorem wallList_of_length {d : ℕ} (b : List ℝ) (h : b.length = 2 * d) :
    ∃ lo hi : Fin d → ℝ, b = wallList lo hi := by
  obtain ⟨f, hf⟩ := flatten_of_length (n := d) (m := 2) b (by omega)
  refine ⟨fun i => f i 0, fun i => f i 1, ?_⟩
  rw [hf]
  unfold wallList
  congr 2

theorem resolveBeta_inv {room : Room} {b : List ℝ} (h : resolveBeta room = .ok b) :
    b.length = nWalls room.size.length := by
  unfold resolveBeta at h
  simp only [bind_eq_ok] at h
  obtain ⟨b', _, _, h2, h3⟩ := h
  rw [raiseIf_ok] at h2
  cases h3
  exact not_not.mp h2

theorem symRange_inv {n : ℤ} {l : List ℤ} (h : symRange n = .ok l) : 0 ≤ n := by
  unfold symRange at h
  by_contra hn
  rw [if_pos (by omega)] at h
  cases h

theorem imageSourceIndices_inv {N : ℤ} (hN : 0 ≤ N) {d : ℕ} {nb : Option (List ℤ)}
    {l : List (List ℤ)} (h : imageSourceIndices N d nb = .ok l) :
    ∃ A : Finset (Fin d → ℤ), IsImageList l A ∧ (0 : Fin d → ℤ) ∈ A ∧
      ((nb = none ∧ A = orderSet d N.toNat) ∨
        ∃ nb' : Fin d → ℕ, nb = some (List.ofFn fun i => (nb' i : ℤ)) ∧ A = boxSet nb') := by
  cases nb with
  | none =>
    obtain ⟨l', h1, h2⟩ := imageSourceIndices_order d N.toNat
    rw [Int.toNat_of_nonneg hN, h] at h1
    cases h1
    refine ⟨_, h2, ?_, Or.inl ⟨rfl, rfl⟩⟩
    simp [orderSet]
  | some nb =>
    have h' := h
    unfold imageSourceIndices at h'
    simp only at h'
    by_cases hlen : nb.length = d
    · rw [if_neg (by simpa using hlen), bind_eq_ok] at h'
      obtain ⟨rs, hrs, _⟩ := h'
      have hpos : ∀ x ∈ nb, 0 ≤ x := fun x hx => by
        obtain ⟨y, hy⟩ := mapM_ok_mem hrs x hx
        exact symRange_inv hy
      obtain ⟨f, rfl⟩ := ofFn_of_length nb d hlen
      have hf : (List.ofFn fun i => (((f i).toNat : ℕ) : ℤ)) = List.ofFn f := by
        congr 1; funext i
        exact Int.toNat_of_nonneg (hpos _ (by simp))
      obtain ⟨l', h1, h2⟩ := imageSourceIndices_box N (fun i => (f i).toNat)
      rw [hf, h] at h1
      cases h1
      refine ⟨_, h2, ?_, Or.inr ⟨_, by rw [hf], rfl⟩⟩
      simp [boxSet]
    · rw [if_pos (by simpa using hlen)] at h'
      cases h'

theorem validateArgs_inv {room : Room} {ns : Option ℤ} {tmax : Option ℝ} {N K : ℤ}
    (h : validateArgs room ns tmax N = .ok K) :
    resolveNsample room.fs ns tmax = .ok K ∧ 0 < K ∧ 0 ≤ N := by
  unfold validateArgs at h
  simp only [bind_eq_ok] at h
  obtain ⟨k, h1, _, h2, _, h3, h4⟩ := h
  rw [raiseIf_ok] at h2 h3
  cases h4
  exact ⟨h1, by omega, by omega⟩

theorem contributionsBatch_inv {srcPos micPos : List Vec} {size : Vec} {nVec : List (List ℤ)}
    {refl : List ℝ} {c fs : ℝ} {fdl2 : ℕ} {sp mp : String} {sd : Option (List Vec)}
    {md : Option MicDir} {r : List (List (List (ℝ × ℝ)))}
    (h : contributionsBatch srcPos micPos size nVec refl c fs fdl2 sp mp sd md = .ok r) :
    ¬ (sp ≠ "omni" ∧ sd.isNone) ∧ ¬ (mp ≠ "omni" ∧ md.isNone) ∧
    ∀ x ∈ (imagePositionsBatch srcPos size nVec).zipIdx, ∀ y ∈ micPos.zipIdx,
      ∃ mv, micVec md micPos.length y.2 = .ok mv ∧ ∀ z ∈ x.1.zip refl,
        ∃ v, pathContribution z.1 y.1 z.2 c fs fdl2 sp mp ((sd.getD []).getD x.2 []) mv = .ok v := by
  unfold contributionsBatch at h
  rw [raiseIf_bind_ok, raiseIf_bind_ok] at h
  obtain ⟨h1, h2, h3⟩ := h
  refine ⟨h1, h2, ?_⟩
  intro x hx y hy
  obtain ⟨_, h4⟩ := mapM_ok_mem h3 x hx
  obtain ⟨_, h5⟩ := mapM_ok_mem h4 y hy
  simp only [bind_eq_ok] at h5
  obtain ⟨mv, h6, h7⟩ := h5
  exact ⟨mv, h6, fun z hz => mapM_ok_mem h7 z hz⟩

theorem accumulateRirBatch_inv {cfg : Config} {dev : DeviceType} {nSm n : ℕ} {buf : List ℝ}
    {s a : List (List ℝ)} {r : List ℝ} (h : accumulateRirBatch cfg dev nSm n buf s a = .ok r) :
    0 < nSm := by
  unfold accumulateRirBatch accumulateImpl at h
  by_contra h0
  have : nSm = 0 := by omega
  subst this
  cases h

theorem mem_zipIdx_ofFn {α : Type} {n : ℕ} (f : Fin n → α) (i : Fin n) :
    (f i, (i : ℕ)) ∈ (List.ofFn f).zipIdx := by
  rw [zipIdx_ofFn]
  exact (List.mem_ofFn' _ _).mpr ⟨i, rfl⟩

theorem micVal_eq {md : Option MicDir} {n m : ℕ} {mv : Vec} (h : micVec md n m = .ok mv) :
    (match micVec md n m with | .ok x => x | .error _ => []) = mv := by rw [h]

theorem StaticPlan.exists {d nS nM : ℕ} {w : World} {room : Room} {sources mics : Entity}
    {a : SimArgs} {L : Fin d → ℝ} {src : Fin nS → Fin d → ℝ} {mic : Fin nM → Fin d → ℝ}
    (hsize : room.size = List.ofFn L)
    (hs : asPoints sources.positions = tensor2 src) (hm : asPoints mics.positions = tensor2 mic)
    {r : Tensor ℝ} (h : simulateRir w room sources mics a = .ok r) :
    ∃ P : Plan d nS nM, StaticPlan room sources mics a L src mic P := by
  unfold simulateRir at h
  rw [bind_eq_ok] at h
  obtain ⟨⟨cfg, N, tmax, dir⟩, hres, h⟩ := h
  simp only [bind_eq_ok] at h
  obtain ⟨K, hval, ⟨sPos, so⟩, hsrc, ⟨mPos, mo⟩, hmic, _, hdim, _, hshape, beta, hbeta, nVec, himg,
    ⟨sp, mp⟩, hsplit, md, hmd, sd, hsd, flat, hloop, _⟩ := h
  simp only at hshape hsd hloop hmd
  have hsPos : sPos = sources.positions := by
    unfold prepareEntity at hsrc
    split at hsrc <;> cases hsrc <;> rfl
  have hmPos : mPos = mics.positions := by
    unfold prepareEntity at hmic
    split at hmic <;> cases hmic <;> rfl
  have hlen : room.size.length = d := by rw [hsize]; simp
  subst hsPos hmPos
  rw [hlen] at himg hmd hsd
  rw [hs, hm] at hloop
  rw [hs] at hsd
  have hd : d = 2 ∨ d = 3 := by
    unfold ensureDim at hdim
    rw [hlen] at hdim
    by_contra hn
    rw [if_neg hn] at hdim
    cases hdim
  obtain ⟨_, hK, hN⟩ := validateArgs_inv hval
  obtain ⟨A, hA, h0, _⟩ := imageSourceIndices_inv hN himg
  have hwall : beta.length = 2 * d := by
    rw [resolveBeta_inv hbeta, hlen, nWalls]
    rcases hd with rfl | rfl <;> rfl
  obtain ⟨lo, hi, rfl⟩ := wallList_of_length beta hwall
  obtain ⟨ns, rfl, hnd, hmem⟩ := hA.exists_list
  have hcfg : cfg.validate = .ok () := resolveConfig_valid hres
  have e1 : (tensor2 src).shape.getD 0 0 = nS := rfl
  have e2 : (tensor2 mic).shape.getD 0 0 = nM := rfl
  rw [e1] at hsd
  rw [e1, e2, tensor2_rows, tensor2_rows, reflectionCoefficients_map, hsize] at hloop
  -- facts about each image
  have hper : ∀ n ∈ ns, (0 < nS * nM) ∧ (¬ (sp ≠ "omni" ∧ sd.isNone)) ∧
      (¬ (mp ≠ "omni" ∧ md.isNone)) ∧ ∀ (s : Fin nS) (m : Fin nM),
      ∃ mv, micVec md nM m = .ok mv ∧
        (∃ g, deviceGain sp (List.ofFn (mic m - image L (src s) n)) ((sd.getD []).getD s []) = .ok g) ∧
        (∃ g, deviceGain mp (List.ofFn (-(mic m - image L (src s) n))) mv = .ok g) := by
    intro n hn
    obtain ⟨i, hi, rfl⟩ := List.mem_iff_getElem.mp hn
    simp only [List.length_map] at hloop
    obtain ⟨start, hst, hs1, hs2⟩ := exists_chunk ns.length (imageChunk cfg ns.length) i
      (imageChunk_pos hcfg _) hi
    obtain ⟨b1, b2, hb⟩ := foldlM_ok_mem hloop start hst
    rw [bind_eq_ok] at hb
    obtain ⟨chunk, hc, hacc⟩ := hb
    rw [slice_map, slice_map] at hc
    have hin := mem_slice ns start (min (start + imageChunk cfg ns.length) ns.length) i hi hs1 hs2
    obtain ⟨c1, c2, c3⟩ := contributionsBatch_inv hc
    refine ⟨accumulateRirBatch_inv hacc, c1, c2, ?_⟩
    intro s m
    rw [imagePositionsBatch_eq] at c3
    obtain ⟨mv, hmv, hz⟩ := c3 _ (mem_zipIdx_ofFn _ s) _ (mem_zipIdx_ofFn _ m)
    rw [List.length_ofFn] at hmv
    refine ⟨mv, hmv, ?_⟩
    rw [List.zip_map'] at hz
    obtain ⟨v, hv⟩ := hz _ (List.mem_map.mpr ⟨_, hin, rfl⟩)
    have := pathContribution_ok hv
    rw [vsub_ofFn, vneg_ofFn] at this
    exact this
  obtain ⟨p0, p1, p2, p3⟩ := hper 0 ((hmem 0).mpr h0)
  have hS : 0 < nS := Nat.pos_of_mul_pos_right p0
  have hM : 0 < nM := Nat.pos_of_mul_pos_left p0
  refine ⟨⟨cfg, N, tmax, dir, K, lo, hi, ns.map List.ofFn, A, sp, mp, so, mo, sd, md⟩,
    ⟨hd, hS, hM, hsize, hbeta, hres, hval, himg, hA, hsplit, hmd, hsd, ?_⟩, ⟨_, hsrc, hs⟩, ⟨_, hmic, hm⟩⟩
  refine ⟨p1, p2, ?_, ?_⟩
  · rintro s m v ⟨n, hn, rfl⟩
    obtain ⟨mv, _, hg, _⟩ := (hper n ((hmem n).mpr hn)).2.2.2 s m
    exact gainVal_ok hg
  · intro m
    obtain ⟨mv, hmv, _⟩ := p3 ⟨0, hS⟩ m
    refine ⟨mv, hmv, ?_⟩
    rintro s v ⟨n, hn, rfl⟩
    obtain ⟨mv', hmv', _, hg⟩ := (hper n ((hmem n).mpr hn)).2.2.2 s m
    rw [hmv] at hmv'
    cases hmv'
    simp only [Plan.gm]
    rw [micVal_eq hmv]
    exact gainVal_ok hg

theorem contributionsTimeBatch_inv {d nT nS nM : ℕ} {src : Fin nT → Fin nS → Fin d → ℝ}
    {mic : Fin nT → Fin nM → Fin d → ℝ} {L : Fin d → ℝ} {ns : List (Fin d → ℤ)}
    {refl : (Fin d → ℤ) → ℝ} {c fs : ℝ} {fdl2 : ℕ} {sp mp : String} {sd : Option (List Vec)}
    {md : Option MicDir} {r : List (List (List (List (ℝ × ℝ))))}
    (h : contributionsTimeBatch (List.ofFn fun t => List.ofFn fun s => List.ofFn (src t s))
      (List.ofFn fun t => List.ofFn fun m => List.ofFn (mic t m)) (List.ofFn L)
      (ns.map List.ofFn) (ns.map refl) c fs fdl2 sp mp sd md = .ok r) :
    ¬ (sp ≠ "omni" ∧ sd.isNone) ∧ ¬ (mp ≠ "omni" ∧ md.isNone) ∧
    ∀ (t : Fin nT) (s : Fin nS) (m : Fin nM), ∃ mv, micVec md nM m = .ok mv ∧ ∀ n ∈ ns,
      (∃ g, deviceGain sp (List.ofFn (mic t m - image L (src t s) n)) ((sd.getD []).getD s []) = .ok g) ∧
      (∃ g, deviceGain mp (List.ofFn (-(mic t m - image L (src t s) n))) mv = .ok g) := by
  unfold contributionsTimeBatch at h
  rw [raiseIf_bind_ok, raiseIf_bind_ok] at h
  obtain ⟨h1, h2, h3⟩ := h
  refine ⟨h1, h2, ?_⟩
  intro t s m
  simp only [List.zip, zipWith_ofFn] at h3
  obtain ⟨_, h4⟩ := mapM_ok_mem h3 _ ((List.mem_ofFn' _ _).mpr ⟨t, rfl⟩)
  obtain ⟨_, h5⟩ := mapM_ok_mem h4 _ (mem_zipIdx_ofFn _ s)
  obtain ⟨_, h6⟩ := mapM_ok_mem h5 _ (mem_zipIdx_ofFn _ m)
  simp only [List.length_ofFn] at h6
  rw [bind_eq_ok] at h6
  obtain ⟨mv, hmv, h7⟩ := h6
  refine ⟨mv, hmv, ?_⟩
  intro n hn
  rw [image_time_formula, ← List.zip, List.zip_map'] at h7
  obtain ⟨v, hv⟩ := mapM_ok_mem h7 _ (List.mem_map.mpr ⟨n, hn, rfl⟩)
  have := pathContribution_ok hv
  rw [vsub_ofFn, vneg_ofFn] at this
  exact this

theorem DynamicPlan.exists {d nT nS nM : ℕ} {w : World} {room : Room}
    {a : SimArgs} {L : Fin d → ℝ} {src : Fin nT → Fin nS → Fin d → ℝ}
    {mic : Fin nT → Fin nM → Fin d → ℝ} (hsize : room.size = List.ofFn L)
    {sTraj mTraj : Tensor ℝ} (hsT : asTraj sTraj = tensor3 src) (hmT : asTraj mTraj = tensor3 mic)
    {r : Tensor ℝ} (h : simulateDynamicRir w room sTraj mTraj a = .ok r) :
    ∃ P : Plan d nS nM, DynamicPlan room a L src mic P := by
  unfold simulateDynamicRir at h
  rw [bind_eq_ok] at h
  obtain ⟨⟨cfg, N, tmax, dir⟩, hres, h⟩ := h
  simp only [bind_eq_ok] at h
  obtain ⟨K, hval, ⟨so, mo⟩, hori, _, hdim, _, hshape, beta, hbeta, nVec, himg,
    ⟨sp, mp⟩, hsplit, md, hmd, sd, hsd, flat, hloop, _⟩ := h
  simp only at hshape hsd hloop hmd
  have hlen : room.size.length = d := by rw [hsize]; simp
  rw [hlen] at himg hmd hsd
  rw [hsT, hmT] at hloop
  rw [hsT] at hsd
  have hd : d = 2 ∨ d = 3 := by
    unfold ensureDim at hdim
    rw [hlen] at hdim
    by_contra hn
    rw [if_neg hn] at hdim
    cases hdim
  obtain ⟨_, hK, hN⟩ := validateArgs_inv hval
  obtain ⟨A, hA, h0, _⟩ := imageSourceIndices_inv hN himg
  have hwall : beta.length = 2 * d := by
    rw [resolveBeta_inv hbeta, hlen, nWalls]
    rcases hd with rfl | rfl <;> rfl
  obtain ⟨lo, hi, rfl⟩ := wallList_of_length beta hwall
  obtain ⟨ns, rfl, hnd, hmem⟩ := hA.exists_list
  have hcfg : cfg.validate = .ok () := resolveConfig_valid hres
  have e0 : (tensor3 src).shape.getD 0 0 = nT := rfl
  have e1 : (tensor3 src).shape.getD 1 0 = nS := rfl
  have e2 : (tensor3 mic).shape.getD 1 0 = nM := rfl
  rw [e1] at hsd
  rw [e0, e1, e2, tensor3_planes, tensor3_planes, reflectionCoefficients_map, hsize] at hloop
  have hper : ∀ n ∈ ns, (0 < nT * nS * nM) ∧ (¬ (sp ≠ "omni" ∧ sd.isNone)) ∧
      (¬ (mp ≠ "omni" ∧ md.isNone)) ∧ ∀ (t : Fin nT) (s : Fin nS) (m : Fin nM),
      ∃ mv, micVec md nM m = .ok mv ∧
        (∃ g, deviceGain sp (List.ofFn (mic t m - image L (src t s) n)) ((sd.getD []).getD s [])
          = .ok g) ∧
        (∃ g, deviceGain mp (List.ofFn (-(mic t m - image L (src t s) n))) mv = .ok g) := by
    intro n hn
    obtain ⟨i, hi, rfl⟩ := List.mem_iff_getElem.mp hn
    simp only [List.length_map] at hloop
    obtain ⟨start, hst, hs1, hs2⟩ := exists_chunk ns.length (imageChunk cfg ns.length) i
      (imageChunk_pos hcfg _) hi
    obtain ⟨b1, b2, hb⟩ := foldlM_ok_mem hloop start hst
    rw [bind_eq_ok] at hb
    obtain ⟨chunk, hc, hacc⟩ := hb
    rw [slice_map, slice_map] at hc
    have hin := mem_slice ns start (min (start + imageChunk cfg ns.length) ns.length) i hi hs1 hs2
    obtain ⟨c1, c2, c3⟩ := contributionsTimeBatch_inv hc
    refine ⟨accumulateRirBatch_inv hacc, c1, c2, ?_⟩
    intro t s m
    obtain ⟨mv, hmv, hz⟩ := c3 t s m
    exact ⟨mv, hmv, hz _ hin⟩
  obtain ⟨p0, p1, p2, p3⟩ := hper 0 ((hmem 0).mpr h0)
  have hM : 0 < nM := Nat.pos_of_mul_pos_left p0
  have p0' : 0 < nT * nS := Nat.pos_of_mul_pos_right p0
  have hS : 0 < nS := Nat.pos_of_mul_pos_left p0'
  have hT : 0 < nT := Nat.pos_of_mul_pos_right p0'
  refine ⟨⟨cfg, N, tmax, dir, K, lo, hi, ns.map List.ofFn, A, sp, mp, so, mo, sd, md⟩,
    ⟨hd, hS, hM, hsize, hbeta, hres, hval, himg, hA, hsplit, hmd, hsd, ?_⟩, hT, hori⟩
  refine ⟨p1, p2, ?_, ?_⟩
  · rintro s m v ⟨t, n, hn, rfl⟩
    obtain ⟨mv, _, hg, _⟩ := (hper n ((hmem n).mpr hn)).2.2.2 t s m
    exact gainVal_ok hg
  · intro m
    obtain ⟨mv, hmv, _⟩ := p3 ⟨0, hT⟩ ⟨0, hS⟩ m
    refine ⟨mv, hmv, ?_⟩
    rintro s v ⟨t, n, hn, rfl⟩
    obtain ⟨mv', hmv', _, hg⟩ := (hper n ((hmem n).mpr hn)).2.2.2 t s m
    rw [hmv] at hmv'
    cases hmv'
    simp only [Plan.gm]
    rw [micVal_eq hmv]
    exact gainVal_ok hg

end Torchrir.Lemmas
