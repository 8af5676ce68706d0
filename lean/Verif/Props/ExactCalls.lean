import Verif.Props.Coincident
import Verif.Props.Dataset
import Verif.Props.Device
import Verif.Props.BuilderScene

/-! # Exact conditions for calls: C34, C37, C39, C41, C55, C61 -/

namespace Torchrir.Props

open Torchrir.Model Torchrir.Spec Torchrir.Lemmas

/-! ## C34, C37, C39 -/

/-- **C34 exactly.** Without orientations a static simulation succeeds exactly if both patterns are spelled `"omni"`,
whatever other spellings of the omnidirectional pattern are known. -/
theorem C34_exactly {d nS nM : ℕ} (hd : d = 2 ∨ d = 3) (hS : 0 < nS) (hM : 0 < nM) (w : World)
    (L lo hi : Fin d → ℝ) (fs c : ℝ) (hfs : 0 < fs) (sel : Selection d) (K : ℕ) (hK : 0 < K)
    (cfg : Config) (hcfg : cfg.validate = .ok ()) (hoff : cfg.rirHpfEnable = false)
    (src : Fin nS → Fin d → ℝ) (mic : Fin nM → Fin d → ℝ)
    (sp mp : String) (hsp : sp.toLower ∈ Pattern.omni.names) (hmp : mp.toLower ∈ Pattern.omni.names) :
    (∃ R, simulateRir w (boxRoom L lo hi fs c) (points src) (points mic) (directionalArgs sel K cfg sp mp) = .ok R) ↔
      sp = "omni" ∧ mp = "omni" := by
  constructor
  · rintro ⟨R, h⟩
    have := static_ready hd hS hM hcfg (so := none) (mo := none) (by simp) (by simp) h
    simpa [SourceReady, MicReady] using this
  · rintro ⟨h1, h2⟩
    have := C34_spellings_agree_partial hd hS hM w L lo hi fs c hfs sel K hK cfg hcfg src mic none none (by simp) (by simp)
      sp mp hsp hmp (Or.inl h1) (Or.inl h2)
    rw [show points src = ⟨tensor2 src, none⟩ from rfl, show points mic = ⟨tensor2 mic, none⟩ from rfl, this,
      omni_static_eval hd hS hM w L lo hi fs c hfs sel K hK cfg hcfg, applyRirHpf_off _ _ _ hoff]
    exact ⟨_, rfl⟩

/-- `"Omni"` for a source and a microphone in a room of 4 by 3 by 2.5. -/
example (w : World) : ¬ ∃ R, simulateRir w (boxRoom ![4, 3, 2.5] (fun _ => 0.5) (fun _ => 0.5) 16000 343) (points fun _ : Fin 1 => ![1, 1, 1])
    (points fun _ : Fin 1 => ![2, 1, 1]) (directionalArgs (d := 3) (.order 0) 100 { rirHpfEnable := false } "Omni" "omni")
      = .ok R := by
  rw [C34_exactly (Or.inr rfl) one_pos one_pos w _ _ _ _ _ (by norm_num) (.order 0) 100 (by norm_num) _ ?_ rfl _ _ "Omni"
    "omni" ?_ ?_]
  · simp
  · rw [Config.valid_iff]
    norm_num
    exact ⟨nofun, nofun, nofun, nofun⟩
  · rw [toLower_eq (r := "omni") (by decide)]
    simp [Pattern.names]
  · rw [toLower_eq (r := "omni") (by decide)]
    simp [Pattern.names]

/-- Where a gain exists, the pattern is known. -/
theorem gainAt_known {name : String} {c : Option ℝ} {g : ℝ} (h : gainAt name c = .ok g) :
    ∃ p : Pattern, name.toLower ∈ p.names := by
  cases c with
  | some c =>
    obtain ⟨p, hp, -⟩ := (directivityGain_iff _ _ _).mp h
    exact ⟨p, hp⟩
  | none =>
    unfold gainAt directivityGainNaN at h
    dsimp only at h
    split_ifs at h with h1 h2
    · exact ⟨.omni, h1⟩
    · exact ⟨.halfOmni, h2⟩

/-- Where a device gain exists, the pattern is the literal `"omni"` or known. -/
theorem deviceGain_known {name : String} {v u : Vec} {g : ℝ} (h : deviceGain name v u = .ok g) :
    name = "omni" ∨ ∃ p : Pattern, name.toLower ∈ p.names := by
  unfold deviceGain at h
  split_ifs at h with h1 h2
  · exact Or.inl h1
  · exact Or.inr (gainAt_known h)

/-- The devices of a plan are ready. -/
theorem planOk_ready {d nS nM : ℕ} {room : Room} {a : SimArgs} {L : Fin d → ℝ} {P : Plan d nS nM}
    {used : Fin nS → Fin nM → (Fin d → ℝ) → Prop} (hP : PlanOk room a L P used) (hused : ∀ s m, ∃ v, used s m v) :
    DeviceReady P.sp P.so ∧ DeviceReady P.mp P.mo := by
  obtain ⟨v, hv⟩ := hused ⟨0, hP.hS⟩ ⟨0, hP.hM⟩
  constructor
  · by_cases hn : P.sp = "omni"
    · exact Or.inl hn
    · refine Or.inr ⟨fun h => ?_, ?_⟩
      · have := hP.hsd
        unfold resolveSrcDirs at this
        rw [if_neg hn, h] at this
        cases this
      · exact (deviceGain_known (hP.gains.src _ _ _ hv)).resolve_left hn
  · by_cases hn : P.mp = "omni"
    · exact Or.inl hn
    · refine Or.inr ⟨fun h => ?_, ?_⟩
      · have := hP.hmd
        unfold resolveMicDir at this
        rw [if_neg hn, h] at this
        cases this
      · obtain ⟨mv, -, h⟩ := hP.gains.mic ⟨0, hP.hM⟩
        exact (deviceGain_known (h _ _ hv)).resolve_left hn

/-- **C37 exactly (static scenes).** The simulator runs an accepted static scene exactly if simulator and configuration
do not contradict each other, there are sources and microphones, and every directional device has an orientation and
a known pattern. (Without the high-pass filter; no image of a source lies at a microphone, or all are omnidirectional.) -/
theorem C37_static_exactly (conv : Flt → ℤ) (w : World) (room : Room) (S M : Entity)
    (hroom : AcceptedRoom conv room) (hS : AcceptedEntity S) (hM : AcceptedEntity M)
    (sc : StaticScene) (hsc : staticSceneNew room S M = .ok sc)
    (s sim : IsmSimulator) (hsim : ismSimulatorNew s = .ok sim)
    (hnb : ImageCountsFit sim.nbImg room.size.length)
    (cfg : Config) (hcfg : cfg.validate = .ok ()) (hoff : cfg.rirHpfEnable = false)
    (dir : DirArg) (sp mp : String) (hdir : sim.directivity = some dir)
    (hsplit : splitDirectivity dir = .ok (sp, mp))
    (hapart : (sp = "omni" ∧ mp = "omni") ∨ ApartFromImages room.size S.positions M.positions) :
    (∃ res, sim.simulate w (.new (.static sc)) (some cfg) = .ok res) ↔
      NoConflict sim cfg ∧ 0 < S.positions.shape.getD 0 0 ∧ 0 < M.positions.shape.getD 0 0 ∧
        DeviceReady sp S.orientation ∧ DeviceReady mp M.orientation := by
  constructor
  · rintro ⟨res, h⟩
    obtain ⟨sc', hn, -, hc, hrun, -⟩ := simulate_inv h
    cases Except.ok.inj hn
    obtain ⟨rfl, e1, e2⟩ := (staticSceneNew_ok _ _ _ _).mp hsc
    have hrun : simulateRir w room S M (sim.args cfg) = .ok res.rirs := hrun
    obtain ⟨d, hd, hlen, hfs, -⟩ := acceptedRoom_ready hroom
    obtain ⟨nS, dS, -, hsS, ⟨src, hsrc⟩, -⟩ := entity_asPoints hS
    obtain ⟨nM, dM, -, hsM, ⟨mic, hmic⟩, -⟩ := entity_asPoints hM
    rw [hsS] at e1 ⊢
    rw [hsM] at e2 ⊢
    simp only [List.getD_cons_succ, List.getD_cons_zero] at e1 e2 ⊢
    subst hlen
    subst e1
    subst e2
    obtain ⟨L, hL⟩ := ofFn_of_length room.size _ rfl
    obtain ⟨P, hP⟩ := StaticPlan.exists (L := L) (src := src) (mic := mic) hL (by rw [hsrc]; rfl)
      (by rw [hmic]; rfl) hrun
    obtain ⟨tmax, hres, -⟩ := sim_args_ok hsim room hfs hcfg hdir
    have e3 := hP.res.symm.trans hres
    simp only [Except.ok.injEq, Prod.mk.injEq] at e3
    have e4 := hP.split
    rw [e3.2.2.2, hsplit] at e4
    simp only [Except.ok.injEq, Prod.mk.injEq] at e4
    obtain ⟨_, e5, -⟩ := hP.hsrc
    obtain ⟨_, e6, -⟩ := hP.hmic
    have e5 : S.orientation = P.so := (Prod.mk.inj (Except.ok.inj e5)).2
    have e6 : M.orientation = P.mo := (Prod.mk.inj (Except.ok.inj e6)).2
    have := planOk_ready hP.toPlanOk fun s m => ⟨_, 0, hP.zero_mem, rfl⟩
    rw [← e4.1, ← e4.2, ← e5, ← e6] at this
    exact ⟨hc, hP.hS, hP.hM, this⟩
  · rintro ⟨hc, hS0, hM0, hsp, hmp⟩
    obtain ⟨raw, -, -, -, h⟩ := C37_static_simulates_partial conv w room S M hroom hS hM hS0 hM0 sc hsc s sim hsim hnb
      cfg hcfg hc dir sp mp hdir hsplit hsp hmp hapart
    unfold applyRirHpf at h
    rw [if_pos hoff] at h
    exact ⟨_, h⟩

/-- **C39 exactly.** The simulator runs an accepted dynamic scene exactly if simulator and configuration do not
contradict each other, there are time steps, sources and microphones, and both patterns are the literal `"omni"` —
whatever the orientations of the devices. (Without the high-pass filter.) -/
theorem C39_exactly (conv : Flt → ℤ) (w : World) (room : Room) (S M : Entity)
    (hroom : AcceptedRoom conv room) (hS : AcceptedEntity S) (hM : AcceptedEntity M)
    (srcTraj micTraj : Tensor Flt) (hta : srcTraj.WF) (htb : micTraj.WF)
    (sc : DynamicScene) (hsc : dynamicSceneNew room S M srcTraj micTraj = .ok sc)
    (s sim : IsmSimulator) (hsim : ismSimulatorNew s = .ok sim)
    (hnb : ImageCountsFit sim.nbImg room.size.length)
    (cfg : Config) (hcfg : cfg.validate = .ok ()) (hoff : cfg.rirHpfEnable = false)
    (dir : DirArg) (sp mp : String) (hdir : sim.directivity = some dir)
    (hsplit : splitDirectivity dir = .ok (sp, mp)) :
    (∃ res, sim.simulate w (.new (.dynamic sc)) (some cfg) = .ok res) ↔
      NoConflict sim cfg ∧ 0 < srcTraj.shape.getD 0 0 ∧ 0 < S.positions.shape.getD 0 0 ∧
        0 < M.positions.shape.getD 0 0 ∧ sp = "omni" ∧ mp = "omni" := by
  obtain ⟨rfl, e1, e2, hfin⟩ := (dynamicSceneNew_ok _ _ _ _ _ _).mp hsc
  have hv : (NewScene.dynamic ⟨room, S, M, srcTraj, micTraj⟩).validate = .ok () := by
    show (DynamicScene.validate _) = _
    unfold DynamicScene.validate
    dsimp only
    rw [(validateSceneEntities_ok _ _ _).mpr ⟨e1, e2⟩, ok_bind,
      (validateTrajs_ok _ _ _ _ _).mpr hfin]
  obtain ⟨-, -, T, h1, h2⟩ := hfin
  have hTs : srcTraj.shape.getD 0 0 = T := by
    rcases h1 with h | ⟨-, h⟩ <;> rw [h] <;> rfl
  rw [hTs]
  constructor
  · rintro ⟨res, h⟩
    have homni : sp = "omni" ∧ mp = "omni" := by
      by_contra hn
      obtain ⟨e, he⟩ := C39_directional_dynamic_fails w sim ⟨room, S, M, srcTraj, micTraj⟩ hta htb dir sp mp hdir hsplit
        (by tauto) (some cfg)
      rw [he] at h
      cases h
    obtain ⟨sc', hn, -, hc, hrun, -⟩ := simulate_inv h
    cases Except.ok.inj hn
    have hrun : simulateDynamicRir w room srcTraj.reals micTraj.reals (sim.args cfg) = .ok res.rirs := hrun
    obtain ⟨f, hf⟩ := traj_asTraj hta h1
    obtain ⟨g, hg⟩ := traj_asTraj htb h2
    obtain ⟨L, hL⟩ := ofFn_of_length room.size _ rfl
    obtain ⟨P, hP⟩ := DynamicPlan.exists hL hf hg hrun
    exact ⟨hc, hP.hT, hP.hS, hP.hM, homni⟩
  · rintro ⟨hc, hT, hS0, hM0, rfl, rfl⟩
    obtain ⟨raw, -, -, -, r4⟩ := dynamic_ready w hroom hS hM hS0 hM0 hta htb hT e1 e2 h1 h2 hsim hnb
      hcfg hdir hsplit none (Or.inl rfl) (Or.inl rfl) (Or.inr ⟨rfl, rfl, rfl⟩) (Or.inl ⟨rfl, rfl⟩)
    unfold applyRirHpf at r4
    rw [if_pos hoff] at r4
    have hrun : sim.run w cfg (.dynamic ⟨room, S, M, srcTraj, micTraj⟩) = .ok raw := r4
    rw [simulate_new hv hc, hrun]
    exact ⟨_, rfl⟩

/-- One source, one microphone: the settings decide. -/
example (conv : Flt → ℤ) (w : World) (pat : String) :
    ∃ S M sc, entityNew onePoint none = .ok S ∧ entityNew oneMic none = .ok M ∧
      dynamicSceneNew room3 S M ⟨[1, 1, 3], onePoint.data⟩ ⟨[1, 1, 3], oneMic.data⟩ = .ok sc ∧
      ((∃ res, IsmSimulator.simulate w { maxOrder := 2, nsample := some 100, directivity := some (.one pat) }
        (.new (.dynamic sc)) (some { rirHpfEnable := false }) = .ok res) ↔ pat = "omni") := by
  have f1 : ∀ x ∈ onePoint.data, x.isFinite := by simp [onePoint, Flt.isFinite]
  have f2 : ∀ x ∈ oneMic.data, x.isFinite := by simp [oneMic, Flt.isFinite]
  have e1 := entityNew_points 1 _ f1
  have e2 := entityNew_points 1 _ f2
  have hsc := (dynamicSceneNew_ok room3 ⟨⟨[1, 3], onePoint.data.map Flt.toReal⟩, none⟩
    ⟨⟨[1, 3], oneMic.data.map Flt.toReal⟩, none⟩ ⟨[1, 1, 3], onePoint.data⟩ ⟨[1, 1, 3], oneMic.data⟩
    ⟨room3, ⟨⟨[1, 3], onePoint.data.map Flt.toReal⟩, none⟩, ⟨⟨[1, 3], oneMic.data.map Flt.toReal⟩, none⟩,
      ⟨[1, 1, 3], onePoint.data⟩, ⟨[1, 1, 3], oneMic.data⟩⟩).mpr
    ⟨rfl, rfl, rfl, f1, f2, 1, Or.inl rfl, Or.inl rfl⟩
  have hsim : ismSimulatorNew { maxOrder := 2, nsample := some 100, directivity := some (.one pat) }
      = .ok { maxOrder := 2, nsample := some 100, directivity := some (.one pat) } := by
    simp [ismSimulatorNew, raiseIf]
    rfl
  have hcfg : ({ rirHpfEnable := false } : Config).validate = .ok () := by
    rw [Config.valid_iff]
    norm_num
    exact ⟨nofun, nofun, nofun, nofun⟩
  refine ⟨_, _, _, e1, e2, hsc, ?_⟩
  rw [C39_exactly conv w room3 _ _ (room3_accepted conv) ⟨_, none, by simp [Tensor.WF, onePoint], by simp, e1⟩
    ⟨_, none, by simp [Tensor.WF, oneMic], by simp, e2⟩ _ _ (by simp [Tensor.WF, onePoint])
    (by simp [Tensor.WF, oneMic]) _ hsc { maxOrder := 2, nsample := some 100, directivity := some (.one pat) } _
    hsim (Or.inl rfl) _ hcfg rfl _ pat pat rfl rfl]
  simp [NoConflict]

/-! ## C41 -/

/-- The device belongs to a backend that is not available. -/
def Unavailable (t : Torch) (d : TorchDevice) : Prop :=
  d.type = "cuda" ∧ t.cudaAvailable = false ∨ d.type = "mps" ∧ t.mpsAvailable = false

/-- **C41 exactly.** A device string leads to an unavailable backend exactly if MPS is not available and the string is
an MPS device with an index. -/
theorem C41_exactly (t : Torch) (ht : ParsesTypes t) (s : String) (prefer : List String) :
    (∃ d, resolveDevice t (.str s) prefer = .ok d ∧ Unavailable t d) ↔
      t.mpsAvailable = false ∧ "mps:".toList <+: s.toLower.toList ∧ ∃ d, t.parse s = .ok d ∧ d.type = "mps" := by
  have clash : ∀ {a b : List Char}, a <+: b → ∀ {c : List Char}, c <+: b → a <+: c ∨ c <+: a := by
    intro a b h c h'
    exact (List.prefix_or_prefix_of_prefix h h')
  have hparse : "mps:".toList <+: s.toLower.toList → resolveDevice t (.str s) prefer = t.parse s := by
    intro hp
    unfold resolveDevice resolveDeviceStr
    dsimp only
    rw [if_neg, if_neg, if_neg, if_neg]
    · intro h; rw [h] at hp; exact absurd hp (by decide)
    · intro h; rw [h] at hp; exact absurd hp (by decide)
    · intro h
      rcases clash hp h with h | h <;> exact absurd h (by decide)
    · intro h; rw [h] at hp; exact absurd hp (by decide)
  constructor
  · rintro ⟨d, hd, hu⟩
    by_cases hp : "mps:".toList <+: s.toLower.toList
    · rw [hparse hp] at hd
      rcases hu with ⟨h1, h2⟩ | ⟨h1, h2⟩
      · exfalso
        have : "cuda".toList <+: s.toLower.toList := by
          rw [toLower_toList]
          rcases ht s d hd with e | ⟨rest, e⟩
          · rw [e, h1]; decide
          · rw [e, h1]; exact ⟨(':' :: rest).map Char.toLower, by simp⟩
        rcases clash hp this with h | h <;> exact absurd h (by decide)
      · exact ⟨h2, hp, d, hd, h1⟩
    · exfalso
      obtain ⟨h1, h2⟩ := C41_never_unavailable_partial t ht s hp prefer d hd
      rcases hu with ⟨h3, h4⟩ | ⟨h3, h4⟩
      · rw [h1 h3] at h4; cases h4
      · rw [h2 h3] at h4; cases h4
  · rintro ⟨h1, hp, d, hd, h2⟩
    exact ⟨d, (hparse hp).trans hd, Or.inr ⟨h2, h1⟩⟩

/-- Where torch knows `mps:0` but has no MPS. -/
example (t : Torch) (ht : ParsesTypes t) (h : t.mpsAvailable = false) (h0 : t.parse "mps:0" = .ok ⟨"mps", some 0⟩) :
    ∃ d, resolveDevice t (.str "mps:0") = .ok d ∧ Unavailable t d :=
  (C41_exactly t ht _ _).mpr ⟨h, by rw [toLower_toList]; decide, _, h0, rfl⟩

/-! ## C55 -/

/-- A value as a tensor of the given dtype stores it: integers are rounded towards zero. -/
noncomputable def storedValue : NumType → ℝ → ℝ
  | .floating, x => x
  | .int64, x => if 0 ≤ x then ⌊x⌋ else ⌈x⌉

/-- An item with its audio stored in another dtype. -/
noncomputable def storedItem {μ : Type} (ty : NumType) (it : Item μ) : Item μ :=
  { it with type := ty, audio := ⟨it.audio.shape, it.audio.data.map (storedValue ty)⟩ }

theorem castVec_stored (ty : NumType) (v : Vec) : castVec ty v = v.map (storedValue ty) := by
  cases ty
  · exact (List.map_id v).symm
  · unfold castVec
    apply List.map_congr_left
    intro x _
    simp only [trunc, storedValue]
    split_ifs <;> rfl

theorem storedValue_typed (ty : NumType) (v : Vec) : Typed ty (v.map (storedValue ty)) := by
  rintro rfl x hx
  obtain ⟨y, -, rfl⟩ := List.mem_map.mp hx
  unfold storedValue
  dsimp only
  split_ifs
  · exact ⟨⌊y⌋, rfl⟩
  · exact ⟨⌈y⌉, rfl⟩

theorem storedValue_idem (ty : NumType) (v : Vec) :
    (v.map (storedValue ty)).map (storedValue ty) = v.map (storedValue ty) := by
  rw [← castVec_stored ty (v.map _)]
  exact castVec_same (Or.inr rfl) (storedValue_typed ty v)

/-- Collation looks only at the stored values. -/
theorem collate_stored {μ : Type} (first : Item μ) (rest : List (Item μ)) (pad : ℝ) (keep : Bool) :
    collate ((first :: rest).map (storedItem first.type)) (storedValue first.type pad) keep =
      collate (first :: rest) pad keep := by
  have ha : ∀ (row : List ℝ) (it : Item μ), assignPrefix first.type row (storedItem first.type it).audio =
      assignPrefix first.type row it.audio := by
    intro row it
    unfold assignPrefix storedItem
    dsimp only
    rw [castVec_stored, castVec_stored, storedValue_idem]
    rfl
  have hp : castVec first.type [storedValue first.type pad] = castVec first.type [pad] := by
    rw [castVec_stored, castVec_stored]
    exact storedValue_idem first.type [pad]
  rw [List.map_cons]
  unfold collate
  dsimp only
  have e1 : (storedItem first.type first).type = first.type := rfl
  have e2 : (storedItem first.type first).sampleRate = first.sampleRate := rfl
  rw [e1, e2, hp, ← List.map_cons, List.map_map, List.map_map, List.map_map, List.map_map, List.map_map, List.any_map]
  have e3 : ((fun x : Item μ => x.audio.numel) ∘ storedItem first.type) = fun x => x.audio.numel := rfl
  rw [e3, List.mapM_map]
  simp only [Function.comp_def, ha]
  rfl

/-- A batch is determined by its items. -/
theorem isBatch_unique {μ : Type} {items : List (Item μ)} {pad : ℝ} {keep : Bool} {b b' : Batch μ}
    (h : IsBatch items pad keep b) (h' : IsBatch items pad keep b') : b = b' := by
  obtain ⟨⟨n, r1, r2, it, hit, r3⟩, l, ra, i, t, sp, m⟩ := h
  obtain ⟨⟨n', r1', r2', it', hit', r3'⟩, l', ra', i', t', sp', m'⟩ := h'
  have hn : n = n' := le_antisymm (r3 ▸ r2' it hit) (r3' ▸ r2 it' hit')
  subst hn
  cases b
  cases b'
  simp only [Batch.mk.injEq]
  exact ⟨r1.trans r1'.symm, l.trans l'.symm, (ra it hit).symm.trans (ra' it hit), i.trans i'.symm, t.trans t'.symm,
    sp.trans sp'.symm, m.trans m'.symm⟩

/-- **C55 exactly.** For items of any dtypes: collation returns `b` exactly if the items are one-dimensional with one
sampling rate and `b` is the batch of the items with audio and padding value stored in the dtype of the first item. -/
theorem C55_exactly {μ : Type} (items : List (Item μ)) (pad : ℝ) (keep : Bool)
    (hnumel : ∀ it ∈ items, it.audio.data.length = it.audio.numel) (b : Batch μ) :
    collate items pad keep = .ok b ↔
      (∀ it ∈ items, ∀ it' ∈ items, it.sampleRate = it'.sampleRate) ∧
      (∀ it ∈ items, ∀ k ∈ it.audio.shape.dropLast, k = 1) ∧
      ∃ first, items.head? = some first ∧
        IsBatch (items.map (storedItem first.type)) (storedValue first.type pad) keep b := by
  cases items with
  | nil => simp [collate]
  | cons first rest =>
    have key : ∀ b, collate (first :: rest) pad keep = .ok b →
        IsBatch ((first :: rest).map (storedItem first.type)) (storedValue first.type pad) keep b := by
      intro b h
      rw [← collate_stored] at h
      refine C55_batch_partial _ _ _ ?_ ?_ ?_ ?_ b h
      · intro it hit
        obtain ⟨x, hx, rfl⟩ := List.mem_map.mp hit
        show (x.audio.data.map _).length = _
        rw [List.length_map, hnumel x hx]
        rfl
      · intro it hit
        obtain ⟨x, -, rfl⟩ := List.mem_map.mp hit
        exact storedValue_typed _ _
      · intro it hit f hf
        obtain ⟨x, -, rfl⟩ := List.mem_map.mp hit
        rw [List.map_cons, List.head?_cons, Option.mem_some_iff] at hf
        rw [← hf]
        exact Or.inr rfl
      · intro f hf
        rw [List.map_cons, List.head?_cons, Option.mem_some_iff] at hf
        rw [← hf]
        exact storedValue_typed first.type [pad]
    constructor
    · intro h
      have := (C55_accepted (first :: rest) pad keep).mp ⟨b, h⟩
      exact ⟨this.2.1, this.2.2, first, rfl, key b h⟩
    · rintro ⟨h1, h2, f, hf, hb⟩
      cases hf
      obtain ⟨b', h⟩ := (C55_accepted (first :: rest) pad keep).mpr ⟨by simp, h1, h2⟩
      rw [isBatch_unique hb (key b' h), h]

/-- A floating item after an integer one is rounded towards zero, and so is the padding. -/
example (b : Batch Unit) (h : collate [⟨.int64, ⟨[1], [5]⟩, 16000, "a", none, none, none⟩,
    ⟨.floating, ⟨[2], [0.5, -0.5]⟩, 16000, "b", none, none, none⟩] 0.7 false = .ok b) :
    b.audio = [[5, 0], [0, 0]] := by
  obtain ⟨-, -, f, hf, hb⟩ := (C55_exactly _ _ _ (by simp [Tensor.numel]) b).mp h
  cases hf
  obtain ⟨n, h1, h2, h3⟩ := hb.rows
  have hn : n = 2 := by simp [storedItem] at h2 h3; omega
  subst hn
  rw [h1]
  norm_num [storedItem, storedValue, List.replicate]

/-! ## C61 -/

/-- **C61 (loudness of the mixture).** No value of a mixture exceeds 0.99 times the number of sources. -/
theorem C61_mixture_bound {D : Type} (a : BuildArgs) (env : BuildEnv) (draws : ℕ → SceneDraws)
    (root : RootState D) (rate : ℕ) (scenes : List BuiltScene)
    (h : (buildDataset a env draws root).2 = .ok (rate, scenes)) (T : ℕ) (hT1 : T ≠ 1) (hT6 : T ≠ 6) :
    ∀ s ∈ scenes, (∀ c ∈ s.convolved, c.shape = [6, T]) →
      ∀ t m, t < T → m < 6 → |entry s.mixture.data 6 t m| ≤ 0.99 * a.nSources := by
  intro s hs hshape t m ht hm
  obtain ⟨h1, h2, -, ⟨g, -, -, h4⟩, h5, h6⟩ := C61_stems_partial a env draws root rate scenes h T hT1 hT6 s hs hshape
  rw [h6 t m ht hm]
  have key : ∀ l : List (Tensor ℝ), (∀ x ∈ l, ∀ v ∈ x.data, |v| ≤ 0.99) →
      |(l.map fun x => entry x.data 6 t m).sum| ≤ 0.99 * l.length := by
    intro l
    induction l with
    | nil => intro _; simp
    | cons x l ih =>
      intro hl
      rw [List.map_cons, List.sum_cons, List.length_cons]
      have hx : |entry x.data 6 t m| ≤ 0.99 := by
        unfold entry
        rw [List.getD_eq_getElem?_getD]
        cases hg : x.data[t * 6 + m]? with
        | none => norm_num
        | some v => exact hl x List.mem_cons_self v (List.mem_of_getElem? hg)
      have := ih fun y hy => hl y (List.mem_cons_of_mem _ hy)
      push_cast
      have := abs_add_le (entry x.data 6 t m) (l.map fun x => entry x.data 6 t m).sum
      linarith
  have := key s.stems h5
  rw [h1] at this
  have e : (a.nSources : ℝ) = s.convolved.length := by exact_mod_cast congrArg (Int.cast : ℤ → ℝ) h2.symm
  rw [e]
  exact this

/-- **C61 for one sample or six.** Then stems and mixture are not transposed: six rows of one or six values, the rows
being the microphones. The rest of C61 holds as before. -/
theorem C61_short_scenes_exactly {D : Type} (a : BuildArgs) (env : BuildEnv) (draws : ℕ → SceneDraws)
    (root : RootState D) (rate : ℕ) (scenes : List BuiltScene)
    (h : (buildDataset a env draws root).2 = .ok (rate, scenes)) (T : ℕ) (hT : T = 1 ∨ T = 6) :
    ∀ s ∈ scenes, (∀ c ∈ s.convolved, c.shape = [6, T] ∧ c.data.length = 6 * T) →
      s.stems.length = s.convolved.length ∧ (s.convolved.length : ℤ) = a.nSources ∧
      s.mixture.shape = [6, T] ∧
      (∃ g, 0 < g ∧ g ≤ 1 ∧ ∀ i, ∀ hi : i < s.stems.length, ∀ hi' : i < s.convolved.length,
        s.stems[i].shape = [6, T] ∧ ∀ t m, t < T → m < 6 →
          entry s.stems[i].data T m t = g * entry s.convolved[i].data T m t) ∧
      (∀ x ∈ s.stems, ∀ v ∈ x.data, |v| ≤ 0.99) ∧
      ∀ t m, t < T → m < 6 → entry s.mixture.data T m t = (s.stems.map fun x => entry x.data T m t).sum := by
  obtain ⟨room, mic, margin, base, hc, hb, -, -, hs⟩ := build_ok h
  obtain ⟨-, -, -, hns, -⟩ := checkBuildArgs_ok hc
  intro s hsm hshape
  obtain ⟨k, hk, rfl⟩ := List.getElem_of_mem hsm
  obtain ⟨-, -, -, -, ⟨raw, hraw, hnorm⟩, hlen, hmix, -⟩ := buildScene_ok (hs k hk)
  rw [(octahedron_ok hb).2.1] at hraw
  have hone : ∀ c ∈ scenes[k].convolved, toTimeChannel c 6 = .ok ⟨[6, T], c.data⟩ := by
    intro c hcm
    unfold toTimeChannel
    rw [(hshape c hcm).1]
    rcases hT with rfl | rfl <;> simp
  have hraw' : raw = scenes[k].convolved.map fun c => ⟨[6, T], c.data⟩ := by
    rw [mapM_ok (g := fun c : Tensor ℝ => (⟨[6, T], c.data⟩ : Tensor ℝ)) hone] at hraw
    exact (Except.ok.inj hraw).symm
  obtain ⟨g, g0, g1, hst, hbd, -⟩ := normalizeSources_ok (by norm_num) hnorm
  rw [hraw', List.map_map] at hst
  have hshapes : ∀ x ∈ scenes[k].stems, x.shape = [6, T] := by
    intro x hx
    rw [hst] at hx
    obtain ⟨c, -, rfl⟩ := List.mem_map.mp hx
    rfl
  have hwf : ∀ x ∈ scenes[k].stems, x.data.length = x.shape.prod := by
    intro x hx
    rw [hst] at hx
    obtain ⟨c, hc, rfl⟩ := List.mem_map.mp hx
    simp [(hshape c hc).2]
  obtain ⟨m1, m2⟩ := mixStems_ok hmix hwf
  have hlen' : scenes[k].stems.length = scenes[k].convolved.length := by rw [hst]; simp
  have hpos : 0 < scenes[k].stems.length := by omega
  refine ⟨hlen', by omega, ?_, ⟨g, g0, g1, fun i hi hi' => ⟨hshapes _ (List.getElem_mem hi), fun t m ht hm => ?_⟩⟩,
    hbd, fun t m _ _ => m2 _⟩
  · rw [← m1 _ (List.getElem_mem hpos)]
    exact hshapes _ (List.getElem_mem hpos)
  · have hget : scenes[k].stems[i].data = scenes[k].convolved[i].data.map (· * g) := by
      simp [hst]
    rw [hget, mul_comm]
    unfold entry
    have hj : m * T + t < scenes[k].convolved[i].data.length := by
      rw [(hshape _ (List.getElem_mem hi')).2]
      rcases hT with rfl | rfl <;> omega
    rw [List.getD_eq_getElem _ _ (by simpa using hj), List.getD_eq_getElem _ _ hj, List.getElem_map]

/-- Six channels of six samples. -/
example : ∃ s, (buildDataset (D := Unit) twoSpeakers (constantEnv ⟨[6, 6], List.replicate 36 0.9⟩) middleDraws
    .absent).2 = .ok (16000, [s]) ∧ s.mixture.shape = [6, 6] ∧
    ∀ t m, t < 6 → m < 6 → entry s.mixture.data 6 m t = (s.stems.map fun x => entry x.data 6 m t).sum := by
  obtain ⟨s, h1, h2, -⟩ := constant_scene ⟨[6, 6], List.replicate 36 0.9⟩ ⟨[6, 6], List.replicate 36 0.9⟩
    ⟨[6, 6], List.replicate 36 1.8⟩ (by simp [toTimeChannel])
    (normalize_quiet _ (by simp) (by norm_num [List.replicate])) (by
      unfold mixStems
      dsimp only
      rw [if_neg (by simp)]
      norm_num [List.replicate])
  obtain ⟨-, -, h3, -, -, h4⟩ := C61_short_scenes_exactly _ _ _ _ _ _ h1 6 (Or.inr rfl) s List.mem_cons_self
    (by rw [h2]; simp)
  exact ⟨s, h1, h3, h4⟩

/-- The mixture of two full-scale sources of this build stays below 1.98. -/
example : ∃ s rate, (buildDataset (D := Unit) twoSpeakers loudEnv middleDraws .absent).2 = .ok (rate, [s]) ∧
    ∀ t m, t < 2 → m < 6 → |entry s.mixture.data 6 t m| ≤ 0.99 * 2 := by
  obtain ⟨s, h, h1, -⟩ := loud_scene
  exact ⟨s, _, h, C61_mixture_bound _ _ _ _ _ _ h 2 (by decide) (by decide) s List.mem_cons_self
    (by rw [h1]; simp)⟩

end Torchrir.Props
