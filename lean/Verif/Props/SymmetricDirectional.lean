import Verif.Props.FirstOrderMoving
import Verif.Props.MirrorDirectional
import Verif.Props.SymmetricRoom

/-!
# C147: symmetries of scenes with directional devices
-/

namespace Torchrir.Props

open Torchrir.Model Torchrir.Spec Torchrir.Lemmas

namespace SymmetricDirectional

/-- What holds without the filter holds with it. -/
theorem lift {w : World} {room room' : Room} {S M S' M' : Entity} {d : ℕ} {sel sel' : Selection d} {K : ℕ} {cfg : Config}
    {sp mp : String} (hfs : room.fs = room'.fs)
    (h : simulateRir w room S M (directionalArgs sel K (unfiltered cfg) sp mp) =
      simulateRir w room' S' M' (directionalArgs sel' K (unfiltered cfg) sp mp)) :
    simulateRir w room S M (directionalArgs sel K cfg sp mp) =
      simulateRir w room' S' M' (directionalArgs sel' K cfg sp mp) := by
  have h1 := static_split w room S M (directionalArgs sel K cfg sp mp) cfg
  have h2 := static_split w room' S' M' (directionalArgs sel' K cfg sp mp) cfg
  have e1 : ({ directionalArgs sel K cfg sp mp with config := some (unfiltered cfg) } : SimArgs)
    = directionalArgs sel K (unfiltered cfg) sp mp := rfl
  have e2 : ({ directionalArgs sel' K cfg sp mp with config := some (unfiltered cfg) } : SimArgs)
    = directionalArgs sel' K (unfiltered cfg) sp mp := rfl
  have e3 : ({ directionalArgs sel K cfg sp mp with config := some cfg } : SimArgs) = directionalArgs sel K cfg sp mp := rfl
  have e4 : ({ directionalArgs sel' K cfg sp mp with config := some cfg } : SimArgs) = directionalArgs sel' K cfg sp mp := rfl
  rw [e1, e3] at h1
  rw [e2, e4] at h2
  rw [h1, h2, h, hfs]

theorem rir_neg {d : ℕ} (S : Setup d) (A : Finset (Fin d → ℤ)) (gs gm : (Fin d → ℝ) → ℝ) (x y : Fin d → ℝ) (k : ℕ) :
    rir S A gs (fun v => -gm v) x y k = -rir S A gs gm x y k := by
  unfold rir
  rw [← Finset.sum_neg_distrib]
  refine Finset.sum_congr rfl fun n _ => ?_
  ring

end SymmetricDirectional

/-- **C147, mirroring.** With or without the filter: mirroring the walls, the positions and the directions along an axis
changes nothing. -/
theorem C147_mirror {d nS nM : ℕ} (hd : d = 2 ∨ d = 3) (hS : 0 < nS) (hM : 0 < nM)
    (w : World) (L lo hi : Fin d → ℝ) (fs c : ℝ) (hfs : 0 < fs) (hc : 0 < c)
    (sel : Selection d) (K : ℕ) (hK : 0 < K) (cfg : Config) (hcfg : cfg.validate = .ok ())
    (src us : Fin nS → Fin d → ℝ) (mic um : Fin nM → Fin d → ℝ)
    (ps pm : Pattern) (sp mp : String) (hps : sp.toLower ∈ ps.names) (hpm : mp.toLower ∈ pm.names)
    (hus : ∀ s, 1e-8 ≤ Real.sqrt (∑ i, us s i ^ 2)) (hum : ∀ m, 1e-8 ≤ Real.sqrt (∑ i, um m i ^ 2))
    (hne : ∀ s m, ∀ n ∈ sel.images, image L (src s) n ≠ mic m) (i : Fin d) :
    simulateRir w (boxRoom L (Function.update lo i (hi i)) (Function.update hi i (lo i)) fs c)
        (orientedPoints (fun s => Function.update (src s) i (L i - src s i)) fun s => Function.update (us s) i (-us s i))
        (orientedPoints (fun m => Function.update (mic m) i (L i - mic m i)) fun m => Function.update (um m) i (-um m i))
        (directionalArgs sel K cfg sp mp)
      = simulateRir w (boxRoom L lo hi fs c) (orientedPoints src us) (orientedPoints mic um)
        (directionalArgs sel K cfg sp mp) :=
  SymmetricDirectional.lift rfl (C12_mirror_directional hd hS hM w L lo hi fs c hfs hc sel K hK (unfiltered cfg)
    ((unfiltered_validate cfg).trans hcfg) rfl src us mic um ps pm sp mp hps hpm hus hum hne i)

/-- **C147, renaming the axes.** With or without the filter: renaming the axes of the room and of all positions and
directions changes nothing. -/
theorem C147_axes {d nS nM : ℕ} (hd : d = 2 ∨ d = 3) (hS : 0 < nS) (hM : 0 < nM)
    (w : World) (L lo hi : Fin d → ℝ) (fs c : ℝ) (hfs : 0 < fs) (hc : 0 < c)
    (sel : Selection d) (K : ℕ) (hK : 0 < K) (cfg : Config) (hcfg : cfg.validate = .ok ())
    (src us : Fin nS → Fin d → ℝ) (mic um : Fin nM → Fin d → ℝ)
    (ps pm : Pattern) (sp mp : String) (hps : sp.toLower ∈ ps.names) (hpm : mp.toLower ∈ pm.names)
    (hus : ∀ s, 1e-8 ≤ Real.sqrt (∑ i, us s i ^ 2)) (hum : ∀ m, 1e-8 ≤ Real.sqrt (∑ i, um m i ^ 2))
    (hne : ∀ s m, ∀ n ∈ sel.images, image L (src s) n ≠ mic m) (σ : Equiv.Perm (Fin d)) :
    simulateRir w (boxRoom (L ∘ σ) (lo ∘ σ) (hi ∘ σ) fs c)
        (orientedPoints (renamed σ src) (renamed σ us)) (orientedPoints (renamed σ mic) (renamed σ um))
        (directionalArgs (sel.renamed σ) K cfg sp mp)
      = simulateRir w (boxRoom L lo hi fs c) (orientedPoints src us) (orientedPoints mic um)
        (directionalArgs sel K cfg sp mp) :=
  SymmetricDirectional.lift rfl (C74_axes_directional hd hS hM w L lo hi fs c hfs hc sel K hK (unfiltered cfg)
    ((unfiltered_validate cfg).trans hcfg) rfl src us mic um ps pm sp mp hps hpm hus hum hne σ)

/-- **C147, moving scenes.** Both also hold for moving devices that keep their directions. -/
theorem C147_moving {d T nS nM : ℕ} (hT : 0 < T) (hd : d = 2 ∨ d = 3) (hS : 0 < nS) (hM : 0 < nM)
    (w : World) (L lo hi : Fin d → ℝ) (fs c : ℝ) (hfs : 0 < fs) (hc : 0 < c)
    (sel : Selection d) (K : ℕ) (hK : 0 < K) (cfg : Config) (hcfg : cfg.validate = .ok ())
    (src : Fin T → Fin nS → Fin d → ℝ) (us : Fin nS → Fin d → ℝ) (mic : Fin T → Fin nM → Fin d → ℝ) (um : Fin nM → Fin d → ℝ)
    (ps pm : Pattern) (sp mp : String) (hps : sp.toLower ∈ ps.names) (hpm : mp.toLower ∈ pm.names)
    (hus : ∀ s, 1e-8 ≤ Real.sqrt (∑ i, us s i ^ 2)) (hum : ∀ m, 1e-8 ≤ Real.sqrt (∑ i, um m i ^ 2))
    (hne : ∀ t s m, ∀ n ∈ sel.images, image L (src t s) n ≠ mic t m) (R : Tensor ℝ) :
    (∀ i, simulateDynamicRir w (boxRoom L (Function.update lo i (hi i)) (Function.update hi i (lo i)) fs c)
        (tensor3 fun t s => Function.update (src t s) i (L i - src t s i))
        (tensor3 fun t m => Function.update (mic t m) i (L i - mic t m i))
        (turnedArgs sel K cfg sp mp (fun s => Function.update (us s) i (-us s i)) fun m => Function.update (um m) i (-um m i))
          = .ok R ↔
      simulateDynamicRir w (boxRoom L lo hi fs c) (tensor3 src) (tensor3 mic) (turnedArgs sel K cfg sp mp us um) = .ok R) ∧
    ∀ σ : Equiv.Perm (Fin d), simulateDynamicRir w (boxRoom (L ∘ σ) (lo ∘ σ) (hi ∘ σ) fs c)
        (tensor3 fun t => renamed σ (src t)) (tensor3 fun t => renamed σ (mic t))
        (turnedArgs (sel.renamed σ) K cfg sp mp (renamed σ us) (renamed σ um)) = .ok R ↔
      simulateDynamicRir w (boxRoom L lo hi fs c) (tensor3 src) (tensor3 mic) (turnedArgs sel K cfg sp mp us um) = .ok R :=
  ⟨fun i => MovingSymmetry.same hT w _ _ L L rfl rfl hfs hfs _ _ _ _ _ _ (fun t =>
      C147_mirror hd hS hM w L lo hi fs c hfs hc sel K hK cfg hcfg (src t) us (mic t) um ps pm sp mp hps hpm hus hum (hne t) i) R,
    fun σ => MovingSymmetry.same hT w _ _ (L ∘ σ) L rfl rfl hfs hfs _ _ _ _ _ _ (fun t =>
      C147_axes hd hS hM w L lo hi fs c hfs hc sel K hK cfg hcfg (src t) us (mic t) um ps pm sp mp hps hpm hus hum (hne t) σ) R⟩

/-- **C147, symmetric rooms.** If two opposite walls are equal and all sources are half way between them and face along
them, then mirroring positions and directions of the microphones changes nothing. -/
theorem C147_plane {d nS nM : ℕ} (hd : d = 2 ∨ d = 3) (hS : 0 < nS) (hM : 0 < nM)
    (w : World) (L lo hi : Fin d → ℝ) (fs c : ℝ) (hfs : 0 < fs) (hc : 0 < c)
    (sel : Selection d) (K : ℕ) (hK : 0 < K) (cfg : Config) (hcfg : cfg.validate = .ok ())
    (src us : Fin nS → Fin d → ℝ) (mic um : Fin nM → Fin d → ℝ)
    (ps pm : Pattern) (sp mp : String) (hps : sp.toLower ∈ ps.names) (hpm : mp.toLower ∈ pm.names)
    (hus : ∀ s, 1e-8 ≤ Real.sqrt (∑ i, us s i ^ 2)) (hum : ∀ m, 1e-8 ≤ Real.sqrt (∑ i, um m i ^ 2))
    (hne : ∀ s m, ∀ n ∈ sel.images, image L (src s) n ≠ mic m) (i : Fin d) (hwall : lo i = hi i)
    (hsrc : ∀ s, src s i = L i / 2 ∧ us s i = 0) :
    simulateRir w (boxRoom L lo hi fs c) (orientedPoints src us)
        (orientedPoints (fun m => Function.update (mic m) i (L i - mic m i)) fun m => Function.update (um m) i (-um m i))
        (directionalArgs sel K cfg sp mp)
      = simulateRir w (boxRoom L lo hi fs c) (orientedPoints src us) (orientedPoints mic um)
        (directionalArgs sel K cfg sp mp) := by
  have h := C147_mirror hd hS hM w L lo hi fs c hfs hc sel K hK cfg hcfg src us mic um ps pm sp mp hps hpm hus hum hne i
  have e : (fun s => Function.update (src s) i (L i - src s i)) = src :=
    funext fun s => SymmetricRoom.middle L (src s) i (hsrc s).1
  have e' : (fun s => Function.update (us s) i (-us s i)) = us := funext fun s => by
    rw [(hsrc s).2, neg_zero, ← (hsrc s).2, Function.update_eq_self]
  rwa [(SymmetricRoom.update_same lo hi i hwall).1, (SymmetricRoom.update_same lo hi i hwall).2, e, e'] at h

/-- **C147, the null of a figure-8.** In such a room a figure-8 microphone half way between the two walls that faces one of
them hears nothing at all, neither directly nor from the walls. -/
theorem C147_null {d nS nM : ℕ} (hd : d = 2 ∨ d = 3) (hS : 0 < nS) (hM : 0 < nM)
    (w : World) (L lo hi : Fin d → ℝ) (fs c : ℝ) (hfs : 0 < fs) (hc : 0 < c)
    (sel : Selection d) (K : ℕ) (hK : 0 < K) (cfg : Config) (hcfg : cfg.validate = .ok ())
    {G : (Fin K → ℝ) →ₗ[ℝ] (Fin K → ℝ)} (hG : Post w fs cfg G)
    (src us : Fin nS → Fin d → ℝ) (mic : Fin nM → Fin d → ℝ)
    (ps : Pattern) (sp mb : String) (hps : sp.toLower ∈ ps.names) (hmb : mb.toLower ∈ Pattern.bidirectional.names)
    (hus : ∀ s, 1e-8 ≤ Real.sqrt (∑ i, us s i ^ 2))
    (hne : ∀ s m, ∀ n ∈ sel.images, image L (src s) n ≠ mic m) (i : Fin d) (hwall : lo i = hi i)
    (hsrc : ∀ s, src s i = L i / 2 ∧ us s i = 0) (hmic : ∀ m, mic m i = L i / 2) :
    simulateRir w (boxRoom L lo hi fs c) (orientedPoints src us) (orientedPoints mic fun _ => axisDir i)
        (directionalArgs sel K cfg sp mb) = .ok (tensor3 fun (_ : Fin nS) (_ : Fin nM) (_ : Fin K) => 0) := by
  rw [FirstOrder.post_directional hd hS hM w L lo hi fs c hfs hc sel K hK cfg hcfg hG src us mic (fun _ => axisDir i) ps
    .bidirectional sp mb hps hmb hus (fun _ => FirstOrder.axis_long i) hne]
  have hzero : ∀ s m k, rir (setupFor w cfg L lo hi fs c) sel.images (ps.towards (us s))
      (Pattern.bidirectional.towards (axisDir i)) (src s) (mic m) k = 0 := by
    intro s m k
    have hu : MirrorDirectional.flip i (us s) = us s := by
      unfold MirrorDirectional.flip
      rw [(hsrc s).2, neg_zero, ← (hsrc s).2, Function.update_eq_self]
    have h1 := MirrorDirectional.rir_mirror_gains (setupFor w cfg L lo hi fs c) sel.images (selection_signInvariant sel) i
      (ps.towards (us s)) (fun v => -Pattern.bidirectional.towards (axisDir i) v) (ps.towards (us s))
      (Pattern.bidirectional.towards (axisDir i))
      (fun v => by
        show ps.gain (cosAngle _ _) = ps.gain (cosAngle _ _)
        conv_lhs => rw [← hu]
        rw [MirrorDirectional.cosAngle_flip])
      (fun v => by
        show cosAngle (MirrorDirectional.flip i v) (axisDir i) = -cosAngle v (axisDir i)
        unfold cosAngle
        rw [FirstOrder.axis_dot, FirstOrder.axis_dot, MirrorDirectional.sq_flip]
        unfold MirrorDirectional.flip
        rw [Function.update_self, neg_div]) (src s) (mic m) k
    rw [SymmetricDirectional.rir_neg] at h1
    have e1 : mirrorPoint (setupFor w cfg L lo hi fs c).L i (src s) = src s := SymmetricRoom.middle L (src s) i (hsrc s).1
    have e2 : mirrorPoint (setupFor w cfg L lo hi fs c).L i (mic m) = mic m := SymmetricRoom.middle L (mic m) i (hmic m)
    have e3 : ({ setupFor w cfg L lo hi fs c with
        lo := Function.update (setupFor w cfg L lo hi fs c).lo i ((setupFor w cfg L lo hi fs c).hi i),
        hi := Function.update (setupFor w cfg L lo hi fs c).hi i ((setupFor w cfg L lo hi fs c).lo i) } : Setup d) =
        setupFor w cfg L lo hi fs c := by
      have h := SymmetricRoom.update_same lo hi i hwall
      show ({ setupFor w cfg L lo hi fs c with lo := Function.update lo i (hi i), hi := Function.update hi i (lo i) } :
        Setup d) = _
      rw [h.1, h.2]
      rfl
    rw [e1, e2, e3] at h1
    linarith
  have hz : ∀ s m, (fun k : Fin K => rir (setupFor w cfg L lo hi fs c) sel.images (ps.towards (us s))
      (Pattern.bidirectional.towards (axisDir i)) (src s) (mic m) k) = 0 := fun s m => funext fun k => hzero s m k
  simp only [hz, map_zero]
  rfl

/-- A room of 4 m by 5 m with equal walls on the first axis and up to three reflections: a figure-8 microphone on the middle
line that faces a wall hears nothing of a loudspeaker on the middle line that faces it. -/
example (w : World) :
    simulateRir w (boxRoom ![4, 5] ![0.9, 0.8] ![0.9, 0.6] 16000 343) (orientedPoints ![![2, 2]] ![![0, 1]])
      (orientedPoints ![![2, 4]] fun _ => axisDir 0)
      (directionalArgs (d := 2) (.order 3) 1000 { rirHpfEnable := false } "cardioid" "bidirectional")
      = .ok (tensor3 fun (_ : Fin 1) (_ : Fin 1) (_ : Fin 1000) => 0) := by
  have low : ∀ s : String, s.toList.map Char.toLower = s.toList → s.toLower = s := by
    intro s h
    apply String.toList_inj.mp
    rw [String.toLower, String.toList_map, h]
  have hc : "cardioid".toLower ∈ Pattern.cardioid.names := by
    rw [low _ (by decide)]
    decide
  have hb : "bidirectional".toLower ∈ Pattern.bidirectional.names := by
    rw [low _ (by decide)]
    decide
  refine C147_null (Or.inl rfl) (by norm_num) (by norm_num) w ![4, 5] ![0.9, 0.8] ![0.9, 0.6] 16000 343 (by norm_num)
    (by norm_num) (.order 3) 1000 (by norm_num) { rirHpfEnable := false } plainConfig_valid (.off rfl) ![![2, 2]] ![![0, 1]]
    ![![2, 4]] .cardioid "cardioid" "bidirectional" hc hb (by intro s; fin_cases s; simp [Fin.sum_univ_two]; norm_num) ?_ 0
    rfl (by intro s; fin_cases s; constructor <;> norm_num) (by intro m; fin_cases m; norm_num)
  intro s m n _ h
  have h1 := congrFun h 1
  fin_cases s
  fin_cases m
  rw [image_apply] at h1
  simp at h1
  split_ifs at h1
  · have h2 : ((n 1 * 5 + 2 : ℤ) : ℝ) = (4 : ℤ) := by push_cast; linarith
    have h3 : n 1 * 5 + 2 = 4 := by exact_mod_cast h2
    omega
  · have h2 : ((n 1 * 5 + 3 : ℤ) : ℝ) = (4 : ℤ) := by push_cast; linarith
    have h3 : n 1 * 5 + 3 = 4 := by exact_mod_cast h2
    omega

end Torchrir.Props
