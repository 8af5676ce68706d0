import Verif.Model.Cache
import Verif.Lemmas.Ism

/-!
# C19: the caches are transparent
-/

namespace Torchrir.Props

open Torchrir.Model Torchrir.Lemmas

/-- Every entry is what would be computed for its key. -/
structure Caches.Good (B : Backend) (σ : Caches) : Prop where
  lut : ∀ fdl gran dev dt t, σ.lut (fdl, gran, dev, dt) = some t → t = B.lut fdl gran dev dt
  grid : ∀ fdl dev dt t, σ.grid (fdl, dev, dt) = some t → t = B.grid fdl dev dt
  offsets : ∀ fdl dev t, σ.offsets (fdl, dev) = some t → t = B.offsets fdl dev
  window : ∀ fdl dev dt t, σ.window (fdl, dev, dt) = some t → t = B.window fdl dev dt
  compiled : ∀ dev dt fdl gran ul ch t, σ.compiled (dev, dt, fdl, gran, ul, ch) = some t →
    t = ⟨fdl, gran, ul, ch⟩

/-- From good caches the stateful computation gives the stateless result and leaves good caches. -/
def Refines (B : Backend) {α : Type} (x : CacheM α) (e : Except String α) : Prop :=
  ∀ σ, Caches.Good B σ → (x σ).1 = e ∧ Caches.Good B (x σ).2

theorem refines_lift (B : Backend) {α : Type} (e : Except String α) :
    Refines B (CacheM.lift e) e := fun _ h => ⟨rfl, h⟩

theorem refines_bind {B : Backend} {α β : Type} {x : CacheM α} {e : Except String α}
    {f : α → CacheM β} {g : α → Except String β} (hx : Refines B x e)
    (hf : ∀ a, e = .ok a → Refines B (f a) (g a)) : Refines B (x.bind f) (e >>= g) := by
  intro σ hσ
  obtain ⟨h1, h2⟩ := hx σ hσ
  unfold CacheM.bind
  generalize hxs : x σ = p at *
  obtain ⟨r, σ'⟩ := p
  simp only at h1 h2
  subst h1
  cases r with
  | error e => exact ⟨rfl, h2⟩
  | ok a => exact hf a rfl σ' h2

theorem refines_grid (B : Backend) (fdl : ℕ) (dev : Device) (dt : DType) :
    Refines B (getFdlGrid B fdl dev dt) (.ok (B.grid fdl dev.str dt)) := by
  intro σ h
  unfold getFdlGrid
  simp only
  cases hc : σ.grid (fdl, dev.str, dt) with
  | some t => exact ⟨congrArg Except.ok (h.grid _ _ _ _ hc), h⟩
  | none =>
    refine ⟨rfl, h.lut, ?_, h.offsets, h.window, h.compiled⟩
    intro f d ty t ht
    simp only [Function.update_apply] at ht
    split at ht
    · rename_i he
      simp only [Prod.mk.injEq] at he
      obtain ⟨rfl, rfl, rfl⟩ := he
      exact (Option.some.inj ht).symm
    · exact h.grid _ _ _ _ ht

theorem refines_offsets (B : Backend) (fdl : ℕ) (dev : Device) :
    Refines B (getFdlOffsets B fdl dev) (.ok (B.offsets fdl dev.str)) := by
  intro σ h
  unfold getFdlOffsets
  simp only
  cases hc : σ.offsets (fdl, dev.str) with
  | some t => exact ⟨congrArg Except.ok (h.offsets _ _ _ hc), h⟩
  | none =>
    refine ⟨rfl, h.lut, h.grid, ?_, h.window, h.compiled⟩
    intro f d t ht
    simp only [Function.update_apply] at ht
    split at ht
    · rename_i he
      simp only [Prod.mk.injEq] at he
      obtain ⟨rfl, rfl⟩ := he
      exact (Option.some.inj ht).symm
    · exact h.offsets _ _ _ ht

theorem refines_window (B : Backend) (fdl : ℕ) (dev : Device) (dt : DType) :
    Refines B (getFdlWindow B fdl dev dt) (.ok (B.window fdl dev.str dt)) := by
  intro σ h
  unfold getFdlWindow
  simp only
  cases hc : σ.window (fdl, dev.str, dt) with
  | some t => exact ⟨congrArg Except.ok (h.window _ _ _ _ hc), h⟩
  | none =>
    refine ⟨rfl, h.lut, h.grid, h.offsets, ?_, h.compiled⟩
    intro f d ty t ht
    simp only [Function.update_apply] at ht
    split at ht
    · rename_i he
      simp only [Prod.mk.injEq] at he
      obtain ⟨rfl, rfl, rfl⟩ := he
      exact (Option.some.inj ht).symm
    · exact h.window _ _ _ _ ht

theorem refines_lut (B : Backend) (fdl gran : ℕ) (dev : Device) (dt : DType) :
    Refines B (getSincLut B fdl gran dev dt) (.ok (B.lut fdl gran dev.str dt)) := by
  intro σ h
  unfold getSincLut
  simp only
  cases hc : σ.lut (fdl, gran, dev.str, dt) with
  | some t => exact ⟨congrArg Except.ok (h.lut _ _ _ _ _ hc), h⟩
  | none =>
    refine ⟨rfl, ?_, h.grid, h.offsets, h.window, h.compiled⟩
    intro f g d ty t ht
    simp only [Function.update_apply] at ht
    split at ht
    · rename_i he
      simp only [Prod.mk.injEq] at he
      obtain ⟨rfl, rfl, rfl, rfl⟩ := he
      exact (Option.some.inj ht).symm
    · exact h.lut _ _ _ _ _ ht

theorem refines_fn (B : Backend) (cfg : Config) (dev : Device) (dt : DType) :
    Refines B (getAccumulateFn cfg dev dt) (.ok ⟨cfg.fracDelayLength.toNat,
      cfg.sincLutGranularity.toNat, cfg.useLut && dev.type ≠ .mps, cfg.accumulateChunkSize.toNat⟩) := by
  intro σ h
  unfold getAccumulateFn
  simp only
  split
  · exact ⟨rfl, h⟩
  · split
    · rename_i t hc
      exact ⟨congrArg Except.ok (h.compiled _ _ _ _ _ _ _ hc), h⟩
    · refine ⟨rfl, h.lut, h.grid, h.offsets, h.window, ?_⟩
      intro d ty f g u c t ht
      simp only [Function.update_apply] at ht
      split at ht
      · rename_i he
        simp only [Prod.mk.injEq] at he
        obtain ⟨rfl, rfl, rfl, rfl, rfl, rfl⟩ := he
        exact (Option.some.inj ht).symm
      · exact h.compiled _ _ _ _ _ _ _ ht

theorem refines_lutIf (B : Backend) (c : AccumConsts) (dev : Device) (dt : DType) :
    Refines B (getLutIf B c dev dt)
      (.ok (if c.useLut then B.lut c.fdl c.gran dev.str dt else [])) := by
  unfold getLutIf
  split
  · exact refines_lut _ _ _ _ _
  · exact refines_lift _ _

theorem refines_accumulate (B : Backend) (cfg : Config) (dev : Device) (dt : DType)
    (nSm nsample : ℕ) (buf : List ℝ) (s a : List (List ℝ)) :
    Refines B (accumulateCached B cfg dev dt nSm nsample buf s a)
      (accumulateUncached B cfg dev dt nSm nsample buf s a) := by
  have key : Refines B (accumulateCached B cfg dev dt nSm nsample buf s a)
      (raiseIf (nSm = 0) "RuntimeError: cannot reshape tensor of 0 elements" >>= fun _ =>
        accumulateUncached B cfg dev dt nSm nsample buf s a) := by
    unfold accumulateCached
    refine refines_bind (e := .ok _) (g := fun _ => _) (refines_fn B cfg dev dt) ?_
    rintro c hc
    have hc := (Except.ok.inj hc).symm
    subst hc
    refine refines_bind (refines_lift B _) fun _ _ => ?_
    unfold accumulateUncached
    refine refines_bind (e := .ok _) (g := fun _ => _) (refines_grid B _ dev dt) fun x hx => ?_
    rw [← Except.ok.inj hx]
    refine refines_bind (e := .ok _) (g := fun _ => _) (refines_offsets B _ dev) fun x hx => ?_
    rw [← Except.ok.inj hx]
    refine refines_bind (e := .ok _) (g := fun _ => _) (refines_window B _ dev dt) fun x hx => ?_
    rw [← Except.ok.inj hx]
    refine refines_bind (e := .ok _) (g := fun _ => _) (refines_lutIf B _ dev dt) fun x hx => ?_
    rw [← Except.ok.inj hx]
    exact refines_lift _ _
  have e : (raiseIf (nSm = 0) "RuntimeError: cannot reshape tensor of 0 elements" >>= fun _ =>
        accumulateUncached B cfg dev dt nSm nsample buf s a)
      = accumulateUncached B cfg dev dt nSm nsample buf s a := by
    by_cases h : nSm = 0
    · subst h; rfl
    · rw [raiseIf_neg h, ok_bind]
  rwa [e] at key

theorem refines_loop {B : Backend} {step : List ℝ → ℕ → CacheM (List ℝ)}
    {step' : List ℝ → ℕ → Except String (List ℝ)} (h : ∀ b i, Refines B (step b i) (step' b i)) :
    ∀ (is : List ℕ) (buf : List ℝ), Refines B (Ctx.cached.loop step is buf) (Ctx.pure.loop step' is buf)
  | [], _ => refines_lift _ _
  | i :: is, buf => refines_bind (h buf i) fun b _ => refines_loop h is b

theorem loop_pure (step : List ℝ → ℕ → Except String (List ℝ)) :
    ∀ (is : List ℕ) (buf : List ℝ), Ctx.pure.loop step is buf = is.foldlM step buf
  | [], buf => rfl
  | i :: is, buf => by
    rw [List.foldlM_cons]
    show step buf i >>= _ = _
    congr 1
    funext b
    exact loop_pure step is b

/-- The result of a call when every table is computed afresh. -/
noncomputable def freshResult (B : Backend) : Call → Except String (Tensor ℝ)
  | .static w dev dt room s m a =>
    simulateRirIn .pure (fun cfg => accumulateUncached B cfg dev dt) w room s m a
  | .dynamic w dev dt room s m a =>
    simulateDynamicRirIn .pure (fun cfg => accumulateUncached B cfg dev dt) w room s m a

theorem refines_call (B : Backend) (c : Call) : Refines B (c.run B) (freshResult B c) := by
  cases c with
  | static w dev dt room s m a =>
    unfold Call.run freshResult simulateRirIn
    refine refines_bind (refines_lift B _) fun j _ => ?_
    refine refines_bind (refines_loop (fun b i => ?_) _ _) fun flat _ => refines_lift B _
    exact refines_bind (refines_lift B _) fun ch _ => refines_accumulate B _ _ _ _ _ _ _ _
  | dynamic w dev dt room s m a =>
    unfold Call.run freshResult simulateDynamicRirIn
    refine refines_bind (refines_lift B _) fun j _ => ?_
    refine refines_bind (refines_loop (fun b i => ?_) _ _) fun flat _ => refines_lift B _
    exact refines_bind (refines_lift B _) fun ch _ => refines_accumulate B _ _ _ _ _ _ _ _

theorem good_empty (B : Backend) : Caches.Good B .empty := by
  constructor <;> intros <;> simp [Caches.empty] at *

theorem good_after (B : Backend) (history : List Call) : Caches.Good B (cachesAfter B history) := by
  unfold cachesAfter
  suffices ∀ (h : List Call) (σ : Caches), Caches.Good B σ →
      Caches.Good B (h.foldl (fun σ c => (c.run B σ).2) σ) from this history _ (good_empty B)
  intro h
  induction h with
  | nil => intro σ hσ; exact hσ
  | cons c h ih => intro σ hσ; exact ih _ (refines_call B c σ hσ).2

/-- **C19.** The outcome of a call (result or error) does not depend on the calls made earlier in
the process: it is the same after any two histories, for any rounding behaviour `B` of the
devices and dtypes. -/
theorem C19_result_independent_of_history (B : Backend) (h₁ h₂ : List Call) (c : Call) :
    (c.run B (cachesAfter B h₁)).1 = (c.run B (cachesAfter B h₂)).1 := by
  rw [(refines_call B c _ (good_after B h₁)).1, (refines_call B c _ (good_after B h₂)).1]

theorem accumulateImpl_lut_unused (g : List ℝ) (o : List ℤ) (wd l l' : List ℝ) (fdl gran ch nSm n : ℕ)
    (buf : List ℝ) (s a : List (List ℝ)) :
    accumulateImpl ⟨g, o, wd, l⟩ fdl gran false ch nSm n buf s a
      = accumulateImpl ⟨g, o, wd, l'⟩ fdl gran false ch nSm n buf s a := rfl

theorem uncached_exact (w : World) (dev : Device) (dt : DType) (h : w.device = dev.type) (cfg : Config)
    (nSm n : ℕ) (buf : List ℝ) (s a : List (List ℝ)) :
    accumulateUncached .exact cfg dev dt nSm n buf s a
      = accumulateRirBatch cfg w.device nSm n buf s a := by
  unfold accumulateUncached accumulateRirBatch freshTables Backend.exact
  rw [h]
  simp only
  cases hb : (cfg.useLut && decide (dev.type ≠ .mps))
  · simp only [Bool.false_eq_true, if_false]
    exact accumulateImpl_lut_unused _ _ _ _ _ _ _ _ _ _ _ _ _
  · simp

/-- **C19.** With exact arithmetic the stateful call computes what `simulateRir` /
`simulateDynamicRir` of the model (about which all other theorems speak) compute. -/
theorem C19_cached_call_is_the_plain_call (history : List Call) (w : World) (dev : Device)
    (dt : DType) (hdev : w.device = dev.type) (room : Room) (a : SimArgs) :
    (∀ s m, ((Call.static w dev dt room s m a).run .exact (cachesAfter .exact history)).1
      = simulateRir w room s m a) ∧
    (∀ s m, ((Call.dynamic w dev dt room s m a).run .exact (cachesAfter .exact history)).1
      = simulateDynamicRir w room s m a) := by
  constructor
  · intro s m
    rw [(refines_call .exact _ _ (good_after .exact history)).1]
    unfold freshResult simulateRirIn
    simp only [loop_pure, uncached_exact w dev dt hdev]
    unfold staticJob simulateRir Ctx.pure
    simp only [bind_assoc]
    rfl
  · intro s m
    rw [(refines_call .exact _ _ (good_after .exact history)).1]
    unfold freshResult simulateDynamicRirIn
    simp only [loop_pure, uncached_exact w dev dt hdev]
    unfold dynamicJob simulateDynamicRir Ctx.pure
    simp only [bind_assoc]
    rfl

/-- A second call with another granularity, on another device and in another precision. -/
example (B : Backend) (w : World) (room : Room) (s m : Entity) (a : SimArgs) (c : Call) :
    let first := Call.static w ⟨.cuda, "cuda:0"⟩ "float32" room s m
      { a with config := some { sincLutGranularity := 40, useCompile := true } }
    let second := Call.static w ⟨.cpu, "cpu"⟩ "float64" room s m
      { a with config := some { sincLutGranularity := 20 } }
    (second.run B (cachesAfter B [first, c])).1 = (second.run B .empty).1 :=
  C19_result_independent_of_history B [_, c] [] _

end Torchrir.Props
