import Verif.Spec.Exact
import Verif.Props.Config

/-! # Exact acceptance of rooms and configurations, NaN and integer types included: C35, C36, C40 -/

namespace Torchrir.Props

open Torchrir.Model Torchrir.Spec Torchrir.Lemmas

theorem nanAsOne_leZero (f : Flt) : (nanAsOne f).leZero ↔ f.leZero := by
  cases f <;> simp [nanAsOne, Flt.leZero]

theorem nanAsOne_ne (f : Flt) : nanAsOne f ≠ .nan := by cases f <;> simp [nanAsOne]

theorem map_leZero (o : Option Flt) :
    (∃ f, o.map nanAsOne = some f ∧ f.leZero) ↔ ∃ f, o = some f ∧ f.leZero := by
  cases o <;> simp [nanAsOne_leZero]

theorem map_nanAsOne_ne (o : Option Flt) : o.map nanAsOne ≠ some .nan := by
  cases o with
  | none => simp
  | some f => simpa using nanAsOne_ne f

/-! ## C40 -/

/-- **C40, exactly.** For every configuration, also with NaN: `validate` accepts it exactly if it is
acceptable once NaN counts as a positive number. -/
theorem C40_accepts_exactly (c : ConfigF) :
    c.validate = .ok () ↔ AcceptableConfig (configAsCompared c) := by
  have hn : ConfigF.NoNan (configAsCompared c) :=
    ⟨map_nanAsOne_ne _, map_nanAsOne_ne _, nanAsOne_ne _⟩
  rw [← C40_validate_iff_partial _ hn]
  unfold ConfigF.validate configAsCompared
  simp only [raiseIf_bind_ok, raiseIf_ok, map_leZero, nanAsOne_leZero]

theorem replaced_iff {α : Type} {old new : α} {given : Option α} :
    Replaced old given new ↔ new = given.getD old := by
  cases given <;> simp [Replaced]

theorem isReplaced_iff (c c' : ConfigF) (u : ConfigUpdate) : IsReplaced c u c' ↔ c' = c.merge u := by
  constructor
  · intro h
    cases c'
    simp only [ConfigF.merge, ConfigF.mk.injEq]
    exact ⟨replaced_iff.mp h.fs, replaced_iff.mp h.maxOrder, replaced_iff.mp h.tmax, replaced_iff.mp h.directivity,
      replaced_iff.mp h.device, replaced_iff.mp h.seed, replaced_iff.mp h.useLut, replaced_iff.mp h.mixedPrecision,
      replaced_iff.mp h.fracDelayLength, replaced_iff.mp h.sincLutGranularity, replaced_iff.mp h.imageChunkSize,
      replaced_iff.mp h.accumulateChunkSize, replaced_iff.mp h.useCompile, replaced_iff.mp h.rirHpfEnable,
      replaced_iff.mp h.rirHpfFc, replaced_iff.mp h.rirHpfKwargs⟩
  · rintro rfl
    constructor <;> exact replaced_iff.mpr rfl

/-- **C40, replace, exactly.** `replace` succeeds exactly if the configuration with the given fields replaced is
acceptable once NaN counts as a positive number, and then returns it: every given field has its new value, every other
field is kept. -/
theorem C40_replace_exactly (c c' : ConfigF) (u : ConfigUpdate) :
    c.replace u = .ok c' ↔ IsReplaced c u c' ∧ AcceptableConfig (configAsCompared c') := by
  rw [replace_ok, isReplaced_iff, C40_accepts_exactly]

/-- A new cut-off keeps the seed. -/
example (c' : ConfigF) (h : ConfigF.replace { seed := some 3 } { rirHpfFc := some (.fin 20) } = .ok c') :
    c'.seed = some 3 ∧ c'.rirHpfFc = .fin 20 :=
  ⟨(((C40_replace_exactly _ _ _).mp h).1.seed).2 rfl, (((C40_replace_exactly _ _ _).mp h).1.rirHpfFc).1 _ rfl⟩

/-- A NaN duration passes, a NaN duration with an even kernel does not. -/
example : ConfigF.validate { tmax := some .nan } = .ok () ∧
    ConfigF.validate { tmax := some .nan, fracDelayLength := 80 } ≠ .ok () := by
  rw [C40_accepts_exactly, ne_eq, C40_accepts_exactly]
  constructor
  · refine ⟨by simp [configAsCompared], by simp [configAsCompared], fun t ht => ?_, by simp [configAsCompared],
      ⟨by norm_num [configAsCompared], ⟨40, by norm_num [configAsCompared]⟩⟩, by norm_num [configAsCompared],
      by norm_num [configAsCompared], by norm_num [configAsCompared], Or.inr ⟨10, by norm_num, rfl⟩,
      by simp [configAsCompared]⟩
    obtain rfl : Flt.fin 1 = t := by simpa [configAsCompared, nanAsOne] using ht
    exact Or.inr ⟨1, by norm_num, rfl⟩
  · intro h
    have := h.kernel.2
    rw [Int.odd_iff] at this
    norm_num [configAsCompared] at this

/-! ## C35 -/

/-- **C35, exactly.** For all arguments: the constructor succeeds exactly if the arguments describe a
physical room once NaN counts as a positive number and the coefficients are converted to the type of
the size. -/
theorem C35_accepts_exactly (conv : Flt → ℤ) (a : RoomObj) (hwf : RoomObj.WF a) :
    (∃ r, roomNew conv a = .ok r) ↔ Physical (roomAsCompared conv a) := by
  have key : SizeOk a ↔ SizeOk { roomAsCompared conv a with size := ⟨.floating, a.size.tensor⟩ } := by
    unfold SizeOk roomAsCompared
    dsimp only
    rw [nanAsOne_leZero, nanAsOne_leZero, map_leZero, Option.isSome_map, Option.isSome_map]
  have hwf' : RoomObj.WF { roomAsCompared conv a with size := ⟨.floating, a.size.tensor⟩ } := by
    refine ⟨hwf.size, fun b hb => ?_⟩
    obtain ⟨b', hb', rfl⟩ := Option.map_eq_some_iff.mp hb
    have := hwf.beta b' hb'
    unfold Tensor.WF at this ⊢
    rw [(castTo_data_length conv _ b').1, this]
    exact (castTo_data_length conv _ b').2.symm
  have ho : Ordinary { roomAsCompared conv a with size := ⟨.floating, a.size.tensor⟩ } :=
    ⟨rfl, nanAsOne_ne _, nanAsOne_ne _, map_nanAsOne_ne _⟩
  have hphys : Physical { roomAsCompared conv a with size := ⟨.floating, a.size.tensor⟩ } ↔
      Physical (roomAsCompared conv a) :=
    ⟨fun ⟨h1, h2, h3, h4, h5, h6⟩ => ⟨h1, h2, h3, h4, h5, h6⟩,
      fun ⟨h1, h2, h3, h4, h5, h6⟩ => ⟨h1, h2, h3, h4, h5, h6⟩⟩
  rw [← hphys, ← C35_accepts_iff_physical_partial conv _ hwf' ho]
  simp only [roomNew_ok, ← key, exists_and_left, and_congr_right_iff]
  intro _
  unfold storeBeta roomAsCompared
  cases a.beta with
  | none => exact ⟨fun _ => ⟨_, rfl⟩, fun _ => ⟨_, rfl⟩⟩
  | some b =>
    have e : ∀ x, (castTo conv NumType.floating x).tensor = x.tensor := fun _ => rfl
    constructor
    · rintro ⟨r, h⟩
      obtain ⟨b', hb, -⟩ := (bind_eq_ok _ _ _).mp h
      obtain ⟨rfl, h1, h2⟩ := (validateRoomBeta_ok _ _ _ _).mp hb
      dsimp only [Option.map_some]
      rw [(validateRoomBeta_ok conv ⟨.floating, a.size.tensor⟩ (castTo conv a.size.dtype b) _).mpr
        ⟨rfl, h1, h2⟩]
      exact ⟨_, rfl⟩
    · rintro ⟨r, h⟩
      obtain ⟨b', hb, -⟩ := (bind_eq_ok _ _ _).mp h
      obtain ⟨rfl, h1, h2⟩ := (validateRoomBeta_ok _ _ _ _).mp hb
      dsimp only
      rw [(validateRoomBeta_ok conv a.size b _).mpr ⟨rfl, h1, h2⟩]
      exact ⟨_, rfl⟩

/-- A room with an integer size, a NaN speed of sound and coefficients of 1.5. -/
noncomputable def strangeRoom : RoomObj where
  size := isize3
  fs := .fin 16000
  c := .nan
  beta := some ⟨.floating, ⟨[6], List.replicate 6 (.fin (3 / 2))⟩⟩

/-- It is accepted. -/
example (conv : Flt → ℤ) : ∃ r, roomNew conv strangeRoom = .ok r := by
  rw [C35_accepts_exactly conv _ ⟨by simp [strangeRoom, isize3, Tensor.WF],
    by simp [strangeRoom, Tensor.WF]⟩]
  refine ⟨⟨3, Or.inr rfl, rfl, fun x => size3_ok, ?_⟩, Or.inr ⟨16000, by norm_num, rfl⟩,
    Or.inr ⟨1, by norm_num, rfl⟩, Or.inr rfl, by simp [roomAsCompared, strangeRoom], ?_⟩
  · intro b hb
    obtain rfl := Option.some.inj hb
    simp [castTo, strangeRoom, isize3]
  · intro b hb x hx
    obtain rfl := Option.some.inj hb
    simp only [castTo, strangeRoom, isize3, List.map_replicate, toInt64, trunc_three_halves] at hx
    rw [List.eq_of_mem_replicate hx]
    exact ⟨1, by norm_num, le_refl _, by norm_num⟩

/-! ## C36 -/

/-- **C36, exactly.** In an accepted room with an integer size and finite coefficients every stored
coefficient is 0 or 1: 1 for the given values from 1 up to but excluding 2, and 0 for those between
-1 and 1; others are not accepted. -/
theorem C36_integer_size_exactly (conv : Flt → ℤ) (a r : RoomObj) (hi : a.size.dtype = .int64)
    (beta : List ℝ) (b : NumTensor) (hb : a.beta = some b) (hbeta : b.tensor.data = beta.map Flt.fin)
    (h : roomNew conv a = .ok r) :
    r.beta.map (·.tensor.data) = some (beta.map fun v => .fin (if v < 1 then 0 else 1)) ∧
      ∀ v ∈ beta, -1 < v ∧ v < 2 := by
  obtain ⟨rfl, h2⟩ := roomNew_eq h
  have h3 := (h2 b hb).2
  rw [hi] at h3
  have hd : (castTo conv .int64 b).tensor.data = beta.map fun v => Flt.fin (trunc v) := by
    simp only [castTo, hbeta, List.map_map]
    rfl
  rw [hd] at h3
  have key : ∀ v ∈ beta, ((trunc v : ℝ) = if v < 1 then 0 else 1) ∧ -1 < v ∧ v < 2 := by
    intro v hv
    obtain ⟨w, hw0, hw1, hw⟩ := h3 _ (List.mem_map.mpr ⟨v, hv, rfl⟩)
    have hw := Flt.fin.inj hw
    rw [← hw] at hw0 hw1
    have i0 : 0 ≤ trunc v := by exact_mod_cast hw0
    have i1 : trunc v ≤ 1 := by exact_mod_cast hw1
    unfold trunc at i0 i1 ⊢
    split_ifs at i0 i1 ⊢ with g0 g1 g1
    · rw [Int.floor_eq_zero_iff.mpr ⟨g0, g1⟩]
      exact ⟨by simp, by linarith, by linarith⟩
    · have : ⌊v⌋ = 1 := le_antisymm i1 (Int.le_floor.mpr (by push_cast; linarith))
      rw [this]
      have := (Int.floor_eq_iff.mp this).2
      exact ⟨by simp, by linarith, by norm_num at this; linarith⟩
    · have hle : ⌈v⌉ ≤ 0 := Int.ceil_le.mpr (by push_cast; linarith)
      have : ⌈v⌉ = 0 := le_antisymm hle i0
      rw [this]
      have := (Int.ceil_eq_iff.mp this).1
      exact ⟨by simp, by norm_num at this; linarith, by linarith⟩
    · exact absurd (show v < 0 from not_le.mp g0) (by linarith)
  refine ⟨?_, fun v hv => (key v hv).2⟩
  rw [hb]
  simp only [Option.map_some, storedBeta, hi, hd]
  congr 1
  apply List.map_congr_left
  intro v hv
  rw [(key v hv).1]

/-- The coefficients of 1.5 are stored as ones. -/
example (conv : Flt → ℤ) (r : RoomObj) (h : roomNew conv strangeRoom = .ok r) :
    r.beta.map (·.tensor.data) = some (List.replicate 6 (.fin 1)) := by
  rw [(C36_integer_size_exactly conv _ r rfl (List.replicate 6 (3 / 2)) _ rfl
    (by simp) h).1, List.map_replicate, if_neg (by norm_num)]

end Torchrir.Props
