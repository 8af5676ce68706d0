import Verif.Props.Symmetry
import Verif.Props.Invariance

/-!
# C12: the mirrored room with directional devices
-/

namespace Torchrir.Props

open Torchrir.Model Torchrir.Spec Torchrir.Lemmas

namespace MirrorDirectional

/-- One coordinate with the other sign. -/
def flip {d : ℕ} (i : Fin d) (v : Fin d → ℝ) : Fin d → ℝ := Function.update v i (-v i)

theorem sum_flip {d : ℕ} (i : Fin d) (v u : Fin d → ℝ) : (∑ j, flip i v j * flip i u j) = ∑ j, v j * u j := by
  refine Finset.sum_congr rfl fun j _ => ?_
  unfold flip
  by_cases h : j = i
  · subst h
    simp
  · rw [Function.update_of_ne h, Function.update_of_ne h]

theorem sq_flip {d : ℕ} (i : Fin d) (v : Fin d → ℝ) : (∑ j, flip i v j ^ 2) = ∑ j, v j ^ 2 := by
  have := sum_flip i v v
  simpa only [← sq] using this

theorem cosAngle_flip {d : ℕ} (i : Fin d) (v u : Fin d → ℝ) : cosAngle (flip i v) (flip i u) = cosAngle v u := by
  unfold cosAngle
  rw [sum_flip, sq_flip, sq_flip]

/-- The way from an image to the microphone in the mirrored room. -/
theorem way_mirror {d : ℕ} (L : Fin d → ℝ) (i : Fin d) (x y : Fin d → ℝ) (n : Fin d → ℤ) :
    mirrorPoint L i y - image L (mirrorPoint L i x) n = flip i (y - image L x (Function.update n i (-n i))) := by
  funext j
  unfold flip mirrorPoint
  rw [Pi.sub_apply, image_apply]
  by_cases h : j = i
  · subst h
    rw [Function.update_self, Function.update_self, Function.update_self, Pi.sub_apply, image_apply,
      Function.update_self]
    by_cases he : n j % 2 = 0
    · rw [if_pos he, if_pos (by omega)]; push_cast; ring
    · rw [if_neg he, if_neg (by omega)]; push_cast; ring
  · rw [Function.update_of_ne h, Function.update_of_ne h, Function.update_of_ne h, Pi.sub_apply, image_apply,
      Function.update_of_ne h]

theorem neg_flip {d : ℕ} (i : Fin d) (v : Fin d → ℝ) : -flip i v = flip i (-v) := by
  funext j
  unfold flip
  by_cases h : j = i
  · subst h
    simp
  · simp [Function.update_of_ne h]

theorem wallGain_mirror {d : ℕ} (lo hi : Fin d → ℝ) (i : Fin d) (n : Fin d → ℤ) :
    wallGain (Function.update lo i (hi i)) (Function.update hi i (lo i)) n =
      wallGain lo hi (Function.update n i (-n i)) := by
  unfold wallGain
  refine Finset.prod_congr rfl fun j _ => ?_
  by_cases h : j = i
  · subst h
    simp only [Function.update_self]
    rw [← absorbed_neg (hi j) (lo j) (n j)]
  · simp only [Function.update_of_ne h]

theorem dist_way {d : ℕ} (x y : Fin d → ℝ) : Spec.dist x y = Real.sqrt (∑ j, (x - y) j ^ 2) := rfl

theorem rir_mirror_gains {d : ℕ} (S : Setup d) (A : Finset (Fin d → ℤ)) (hA : SignInvariant A) (i : Fin d)
    (gs gm gs' gm' : (Fin d → ℝ) → ℝ) (hgs : ∀ v, gs' (flip i v) = gs v) (hgm : ∀ v, gm' (flip i v) = gm v)
    (x y : Fin d → ℝ) (k : ℕ) :
    rir { S with lo := Function.update S.lo i (S.hi i), hi := Function.update S.hi i (S.lo i) } A
      gs' gm' (mirrorPoint S.L i x) (mirrorPoint S.L i y) k = rir S A gs gm x y k := by
  have habs : ∀ n : Fin d → ℤ, ∀ j, |Function.update n i (-n i) j| = |n j| := by
    intro n j
    by_cases h : j = i
    · subst h; simp
    · rw [Function.update_of_ne h]
  have hinv : ∀ n : Fin d → ℤ,
      Function.update (Function.update n i (-n i)) i (-(Function.update n i (-n i)) i) = n := by
    intro n
    simp
  unfold rir
  refine Finset.sum_bij' (fun n _ => Function.update n i (-n i))
    (fun n _ => Function.update n i (-n i)) ?_ ?_ ?_ ?_ ?_
  · intro n hn; exact hA n hn _ (habs n)
  · intro n hn; exact hA n hn _ (habs n)
  · intro n _; exact hinv n
  · intro n _; exact hinv n
  · intro n _
    have hw := way_mirror S.L i x y n
    have hw' : image S.L (mirrorPoint S.L i x) n - mirrorPoint S.L i y =
        flip i (image S.L x (Function.update n i (-n i)) - y) := by
      rw [← neg_sub, hw, neg_flip, neg_sub]
    have hd : pathLength (mirrorPoint S.L i y) (image S.L (mirrorPoint S.L i x) n)
        = pathLength y (image S.L x (Function.update n i (-n i))) := by
      unfold pathLength
      rw [dist_way, dist_way, hw, sq_flip]
    dsimp only
    rw [wallGain_mirror, hd, hw, hw', hgs, hgm]

end MirrorDirectional

/-- **C12, directional devices.** If the device axes are mirrored as well, that is if their coordinate `i` changes sign,
the result for directional devices is unchanged too. -/
theorem C12_mirror_directional {d nS nM : ℕ} (hd : d = 2 ∨ d = 3) (hS : 0 < nS) (hM : 0 < nM)
    (w : World) (L lo hi : Fin d → ℝ) (fs c : ℝ) (hfs : 0 < fs) (hc : 0 < c)
    (sel : Selection d) (K : ℕ) (hK : 0 < K)
    (cfg : Config) (hcfg : cfg.validate = .ok ()) (hoff : cfg.rirHpfEnable = false)
    (src us : Fin nS → Fin d → ℝ) (mic um : Fin nM → Fin d → ℝ)
    (ps pm : Pattern) (sp mp : String) (hps : sp.toLower ∈ ps.names) (hpm : mp.toLower ∈ pm.names)
    (hus : ∀ s, 1e-8 ≤ Real.sqrt (∑ i, us s i ^ 2))
    (hum : ∀ m, 1e-8 ≤ Real.sqrt (∑ i, um m i ^ 2))
    (hne : ∀ s m, ∀ n ∈ sel.images, image L (src s) n ≠ mic m) (i : Fin d) :
    simulateRir w (boxRoom L (Function.update lo i (hi i)) (Function.update hi i (lo i)) fs c)
        (orientedPoints (fun s => Function.update (src s) i (L i - src s i))
          fun s => Function.update (us s) i (-us s i))
        (orientedPoints (fun m => Function.update (mic m) i (L i - mic m i))
          fun m => Function.update (um m) i (-um m i))
        (directionalArgs sel K cfg sp mp)
      = simulateRir w (boxRoom L lo hi fs c) (orientedPoints src us) (orientedPoints mic um)
        (directionalArgs sel K cfg sp mp) := by
  rw [C05_static_rir_formula_directional hd hS hM w L lo hi fs c hfs hc sel K hK cfg hcfg hoff
      src us mic um ps pm sp mp hps hpm hus hum hne,
    C05_static_rir_formula_directional hd hS hM w L _ _ fs c hfs hc sel K hK cfg hcfg hoff
      _ _ _ _ ps pm sp mp hps hpm
      (fun s => by rw [show (∑ j, (fun s => Function.update (us s) i (-us s i)) s j ^ 2) = _ from
        MirrorDirectional.sq_flip i (us s)]; exact hus s)
      (fun m => by rw [show (∑ j, (fun m => Function.update (um m) i (-um m i)) m j ^ 2) = _ from
        MirrorDirectional.sq_flip i (um m)]; exact hum m) ?_]
  · congr 2
    funext s m k
    refine MirrorDirectional.rir_mirror_gains (setupFor w cfg L lo hi fs c) _ (selection_signInvariant sel) i _ _ _ _
      (fun v => ?_) (fun v => ?_) _ _ _
    · exact congrArg ps.gain (MirrorDirectional.cosAngle_flip i v (us s))
    · exact congrArg pm.gain (MirrorDirectional.cosAngle_flip i v (um m))
  · intro s m n hn h2
    refine hne s m (Function.update n i (-n i)) (selection_signInvariant sel n hn _ fun j => ?_) ?_
    · by_cases h : j = i
      · subst h; simp
      · rw [Function.update_of_ne h]
    · have hw := MirrorDirectional.way_mirror L i (src s) (mic m) n
      rw [show image L (mirrorPoint L i (src s)) n = mirrorPoint L i (mic m) from h2, sub_self] at hw
      funext j
      have h3 := congrFun hw j
      unfold MirrorDirectional.flip at h3
      by_cases h : j = i
      · subst h
        rw [Function.update_self] at h3
        simp only [Pi.sub_apply, Pi.zero_apply] at h3
        linarith
      · rw [Function.update_of_ne h] at h3
        simp only [Pi.sub_apply, Pi.zero_apply] at h3
        linarith

/-- A cardioid source that faces right at 1 m, and one that faces left at 3 m, in a 4 m wide room. -/
example (w : World) :
    simulateRir w (boxRoom ![4, 5] ![0.7, 0.8] ![0.9, 0.6] 16000 343)
      (orientedPoints ![![3, 2]] ![![-1, 0]]) (orientedPoints ![![1, 4]] ![![0, 1]])
      (directionalArgs (d := 2) (.order 0) 1000 { rirHpfEnable := false } "cardioid" "cardioid")
    = simulateRir w (boxRoom ![4, 5] ![0.9, 0.8] ![0.7, 0.6] 16000 343)
      (orientedPoints ![![1, 2]] ![![1, 0]]) (orientedPoints ![![3, 4]] ![![0, 1]])
      (directionalArgs (d := 2) (.order 0) 1000 { rirHpfEnable := false } "cardioid" "cardioid") := by
  have hl : "cardioid".toLower ∈ Pattern.cardioid.names := by
    have : "cardioid".toLower = "cardioid" := by
      apply String.toList_inj.mp
      simp [String.toLower, String.toList_map]
    rw [this]
    decide
  have h := C12_mirror_directional (Or.inl rfl) (by norm_num) (by norm_num) w ![4, 5]
    ![0.9, 0.8] ![0.7, 0.6] 16000 343 (by norm_num) (by norm_num) (.order 0) 1000 (by norm_num) _
    plainConfig_valid rfl ![![1, 2]] ![![1, 0]] ![![3, 4]] ![![0, 1]] .cardioid .cardioid "cardioid" "cardioid"
    hl hl (by intro s; fin_cases s; simp [Fin.sum_univ_two]; norm_num)
    (by intro s; fin_cases s; simp [Fin.sum_univ_two]; norm_num) (by
      intro s m n hn
      have hn0 : n = 0 := by
        have h1 := (mem_orderSet n).mp hn
        simp only [Fin.sum_univ_two, Nat.cast_zero] at h1
        have h2 := abs_nonneg (n 0)
        have h3 := abs_nonneg (n 1)
        funext i
        fin_cases i
        · exact abs_eq_zero.mp (by show |n 0| = 0; omega)
        · exact abs_eq_zero.mp (by show |n 1| = 0; omega)
      fin_cases s; fin_cases m
      rw [hn0, image_zero]
      intro h
      have := congrFun h 0
      simp at this) 0
  rw [← h]
  have e1 : Function.update ![0.9, 0.8] 0 (![0.7, 0.6] 0) = (![0.7, 0.8] : Fin 2 → ℝ) := by
    funext i; fin_cases i <;> rfl
  have e2 : Function.update ![0.7, 0.6] 0 (![0.9, 0.8] 0) = (![0.9, 0.6] : Fin 2 → ℝ) := by
    funext i; fin_cases i <;> rfl
  have e3 : (fun s => Function.update (![![1, 2]] s) 0 (![4, 5] 0 - ![![1, 2]] s 0))
      = (![![3, 2]] : Fin 1 → Fin 2 → ℝ) := by
    funext s i; fin_cases s; fin_cases i <;> simp; norm_num
  have e4 : (fun s => Function.update (![![3, 4]] s) 0 (![4, 5] 0 - ![![3, 4]] s 0))
      = (![![1, 4]] : Fin 1 → Fin 2 → ℝ) := by
    funext s i; fin_cases s; fin_cases i <;> simp; norm_num
  have e5 : (fun s => Function.update (![![1, 0]] s) 0 (-![![1, 0]] s 0))
      = (![![-1, 0]] : Fin 1 → Fin 2 → ℝ) := by
    funext s i; fin_cases s; fin_cases i <;> simp
  have e6 : (fun s => Function.update (![![0, 1]] s) 0 (-![![0, 1]] s 0))
      = (![![0, 1]] : Fin 1 → Fin 2 → ℝ) := by
    funext s i; fin_cases s; fin_cases i <;> simp
  rw [e1, e2, e3, e4, e5, e6]

end Torchrir.Props
