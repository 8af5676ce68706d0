import Verif.Spec.Config
import Verif.Props.Room
import Verif.Lemmas.Ism

/-! # Configurations: C40 -/

namespace Torchrir.Props

open Torchrir.Model Torchrir.Spec Torchrir.Lemmas

theorem some_positive {o : Option Flt} (h : o ≠ some .nan) :
    (¬ ∃ f, o = some f ∧ f.leZero) ↔ ∀ f, o = some f → Positive f := by
  constructor
  · intro h1 f hf
    exact (not_leZero (by rintro rfl; exact h hf)).mp fun h2 => h1 ⟨f, hf, h2⟩
  · rintro h1 ⟨f, hf, h2⟩
    exact (not_leZero (by rintro rfl; exact h hf)).mpr (h1 f hf) h2

/-- **C40 (exact acceptance).** Apart from NaN, `validate` accepts exactly the acceptable
configurations. -/
theorem C40_validate_iff_partial (c : ConfigF) (hn : ConfigF.NoNan c) :
    c.validate = .ok () ↔ AcceptableConfig c := by
  unfold ConfigF.validate
  simp only [raiseIf_bind_ok, raiseIf_ok]
  rw [some_positive hn.1, some_positive hn.2.1, not_leZero hn.2.2]
  simp only [not_exists, not_and, not_le, not_lt]
  constructor
  · rintro ⟨h1, h2, h3, h4, h5, h6, h7, h8, h9, h10⟩
    exact ⟨h1, h2, h3, h4, ⟨by omega, Int.odd_iff.mpr (by omega)⟩, h6, h7, h8, h9, h10⟩
  · rintro ⟨h1, h2, h3, h4, ⟨h5, h5'⟩, h6, h7, h8, h9, h10⟩
    exact ⟨h1, h2, h3, h4, by have := Int.odd_iff.mp h5'; omega, h6, h7, h8, h9, h10⟩

/-- **C40 fails for NaN.** A NaN sampling rate is accepted. -/
theorem C40_nan_fails : ∃ c : ConfigF, c.validate = .ok () ∧ ¬ AcceptableConfig c := by
  refine ⟨{ fs := some .nan }, ?_, fun h => ?_⟩
  · unfold ConfigF.validate
    simp only [raiseIf_bind_ok, raiseIf_ok]
    simp [Flt.leZero]
  · rcases h.fs .nan rfl with h | ⟨x, -, h⟩ <;> cases h

theorem replace_ok (c c' : ConfigF) (u : ConfigUpdate) :
    c.replace u = .ok c' ↔ c' = c.merge u ∧ c'.validate = .ok () := by
  unfold ConfigF.replace
  rw [bind_eq_ok]
  constructor
  · rintro ⟨_, h1, h2⟩
    have := Except.ok.inj h2
    subst this
    exact ⟨rfl, h1⟩
  · rintro ⟨rfl, h⟩
    exact ⟨(), h, rfl⟩

theorem replaces_inv (P : ConfigF → Prop) (Q : ConfigUpdate → Prop)
    (step : ∀ c c' u, P c → Q u → c.replace u = .ok c' → P c') :
    ∀ (us : List ConfigUpdate) (c c' : ConfigF), P c → (∀ u ∈ us, Q u) →
      us.foldlM ConfigF.replace c = .ok c' → P c'
  | [], c, c', h, _, e => by cases e; exact h
  | u :: us, c, c', h, hu, e => by
    rw [List.foldlM_cons, bind_eq_ok] at e
    obtain ⟨d, h1, h2⟩ := e
    exact replaces_inv P Q step us d c' (step c d u h (hu u (by simp)) h1)
      (fun v hv => hu v (by simp [hv])) h2

/-- **C40 (histories).** Whatever sequence of `replace` calls leads from an accepted configuration to
another one, `validate` accepts that one as well. -/
theorem C40_replaced_stays_accepted (c c' : ConfigF) (us : List ConfigUpdate)
    (hc : c.validate = .ok ()) (h : us.foldlM ConfigF.replace c = .ok c') : c'.validate = .ok () :=
  replaces_inv (fun c => c.validate = .ok ()) (fun _ => True)
    (fun c c' u _ _ h => ((replace_ok c c' u).mp h).2) us c c' hc (by simp) h

/-- **C40 (histories, meaning).** As long as no NaN is passed, every configuration reached by `replace`
calls from an accepted one is acceptable. -/
theorem C40_replaced_stays_acceptable_partial (c c' : ConfigF) (us : List ConfigUpdate)
    (hn : ConfigF.NoNan c) (hu : ∀ u ∈ us, ConfigUpdate.NoNan u) (hc : c.validate = .ok ())
    (h : us.foldlM ConfigF.replace c = .ok c') : AcceptableConfig c' := by
  have hn' : ConfigF.NoNan c' := by
    refine replaces_inv ConfigF.NoNan ConfigUpdate.NoNan (fun c c' u hc hu h => ?_) us c c' hn hu h
    obtain ⟨rfl, -⟩ := (replace_ok c c' u).mp h
    obtain ⟨a1, a2, a3⟩ := hc
    obtain ⟨b1, b2, b3⟩ := hu
    refine ⟨?_, ?_, ?_⟩
    · unfold ConfigF.merge
      cases h : u.fs with
      | none => exact a1
      | some x => intro e; rw [h, show x = some .nan from e] at b1; exact b1 rfl
    · unfold ConfigF.merge
      cases h : u.tmax with
      | none => exact a2
      | some x => intro e; rw [h, show x = some .nan from e] at b2; exact b2 rfl
    · unfold ConfigF.merge
      cases h : u.rirHpfFc with
      | none => exact a3
      | some x => intro e; rw [h, show x = .nan from e] at b3; exact b3 rfl
  exact (C40_validate_iff_partial c' hn').mp (C40_replaced_stays_accepted c c' us hc h)

/-- **C40 (replace fails exactly on unacceptable results).** -/
theorem C40_replace_iff_partial (c : ConfigF) (u : ConfigUpdate)
    (hn : ConfigF.NoNan (c.merge u)) :
    (∃ c', c.replace u = .ok c') ↔ AcceptableConfig (c.merge u) := by
  rw [← C40_validate_iff_partial _ hn]
  constructor
  · rintro ⟨c', h⟩
    obtain ⟨rfl, h⟩ := (replace_ok _ _ _).mp h
    exact h
  · exact fun h => ⟨_, (replace_ok _ _ _).mpr ⟨rfl, h⟩⟩

/-- The default configuration is accepted, and the simulation model sees the same verdicts. -/
theorem C40_default_accepted : defaultConfigF = .ok {} ∧ AcceptableConfig {} := by
  have hv : ConfigF.validate {} = .ok () := by
    rw [C40_validate_iff_partial _ ⟨by simp, by simp, by simp⟩]
    exact ⟨by simp, by simp, by simp, by simp, ⟨by norm_num, ⟨40, by norm_num⟩⟩, by norm_num,
      by norm_num, by norm_num, Or.inr ⟨10, by norm_num, rfl⟩, by simp⟩
  refine ⟨?_, (C40_validate_iff_partial _ ⟨by simp, by simp, by simp⟩).mp hv⟩
  unfold defaultConfigF
  dsimp only
  rw [hv, ok_bind]
  rfl

/-- For finite floats the two models of `validate` agree. -/
theorem C40_models_agree (c : ConfigF) (h1 : ∀ f, c.fs = some f → f.isFinite)
    (h2 : ∀ t, c.tmax = some t → t.isFinite) (h3 : c.rirHpfFc.isFinite) :
    c.validate = .ok () ↔ c.toConfig.validate = .ok () := by
  have fl : ∀ f : Flt, f.isFinite → (f.leZero ↔ f.toReal ≤ 0) := by
    intro f hf
    cases f <;> simp [Flt.isFinite, Flt.leZero, Flt.toReal] at *
  unfold ConfigF.validate Config.validate ConfigF.toConfig
  simp only [raiseIf_bind_ok, raiseIf_ok]
  have e1 : (∃ f, c.fs = some f ∧ f.leZero) ↔ ∃ f, c.fs.map Flt.toReal = some f ∧ f ≤ 0 := by
    cases h : c.fs with
    | none => simp
    | some f => simp [fl f (h1 f h)]
  have e2 : (∃ f, c.tmax = some f ∧ f.leZero) ↔ ∃ f, c.tmax.map Flt.toReal = some f ∧ f ≤ 0 := by
    cases h : c.tmax with
    | none => simp
    | some f => simp [fl f (h2 f h)]
  rw [e1, e2, fl _ h3]

/-- An even kernel length is refused at the second of two updates. -/
example : ¬ ∃ c, [({ maxOrder := some (some 4) } : ConfigUpdate), { fracDelayLength := some 80 }].foldlM
    ConfigF.replace {} = .ok c := by
  rintro ⟨c, h⟩
  have hN : ConfigF.NoNan {} := ⟨by simp, by simp, by simp⟩
  have := C40_replaced_stays_acceptable_partial {} c _ hN (by
    intro u hu
    simp only [List.mem_cons, List.not_mem_nil, or_false] at hu
    rcases hu with rfl | rfl <;> exact ⟨by simp, by simp, by simp⟩)
    ((C40_validate_iff_partial _ hN).mpr C40_default_accepted.2) h
  rw [List.foldlM_cons, bind_eq_ok] at h
  obtain ⟨c1, h1, h⟩ := h
  rw [List.foldlM_cons, bind_eq_ok] at h
  obtain ⟨c2, h2, h⟩ := h
  cases h
  obtain ⟨rfl, -⟩ := (replace_ok _ _ _).mp h2
  have h80 : Odd (80 : ℤ) := this.kernel.2
  exact absurd h80 (by decide)

end Torchrir.Props
