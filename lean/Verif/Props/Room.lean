import Verif.Spec.Room
import Verif.Lemmas.Ism

/-!
# C35, C36: rooms
-/

namespace Torchrir.Props

open Torchrir.Model Torchrir.Spec Torchrir.Lemmas

/-! ## C35 -/

theorem not_leZero {f : Flt} (h : f ≠ .nan) : ¬ f.leZero ↔ Positive f := by
  cases f <;> simp [Flt.leZero, Positive] at *

theorem finite_positive (l : List Flt) :
    ((∀ x ∈ l, x.isFinite) ∧ ¬ ∃ x ∈ l, x.leZero) ↔ ∀ x ∈ l, ∃ v : ℝ, 0 < v ∧ x = .fin v := by
  constructor
  · rintro ⟨h1, h2⟩ x hx
    have hf := h1 x hx
    have hp : ¬ x.leZero := fun h => h2 ⟨x, hx, h⟩
    cases x <;> simp [Flt.isFinite, Flt.leZero] at hf hp
    exact ⟨_, hp, rfl⟩
  · intro h
    refine ⟨fun x hx => ?_, fun ⟨x, hx, hz⟩ => ?_⟩
    · obtain ⟨v, _, rfl⟩ := h x hx; trivial
    · obtain ⟨v, hv, rfl⟩ := h x hx
      exact absurd hv (not_lt.mpr hz)

theorem finite_unit (l : List Flt) :
    ((∀ x ∈ l, x.isFinite) ∧ ¬ ((∃ x ∈ l, x.ltZero) ∨ ∃ x ∈ l, x.gtOne)) ↔
      ∀ x ∈ l, ∃ v : ℝ, 0 ≤ v ∧ v ≤ 1 ∧ x = .fin v := by
  constructor
  · rintro ⟨h1, h2⟩ x hx
    have hf := h1 x hx
    have hp : ¬ x.ltZero := fun h => h2 (Or.inl ⟨x, hx, h⟩)
    have hq : ¬ x.gtOne := fun h => h2 (Or.inr ⟨x, hx, h⟩)
    cases x <;> simp [Flt.isFinite, Flt.ltZero, Flt.gtOne] at hf hp hq
    exact ⟨_, hp, hq, rfl⟩
  · intro h
    refine ⟨fun x hx => ?_, ?_⟩
    · obtain ⟨v, _, _, rfl⟩ := h x hx; trivial
    · rintro (⟨x, hx, hz⟩ | ⟨x, hx, hz⟩)
      · obtain ⟨v, hv, _, rfl⟩ := h x hx; exact absurd hv (not_le.mpr hz)
      · obtain ⟨v, _, hv, rfl⟩ := h x hx; exact absurd hv (not_le.mpr hz)

/-- The flattened coefficients in the dtype of the size. -/
noncomputable def storedBeta (conv : Flt → ℤ) (size beta : NumTensor) : NumTensor :=
  ⟨(castTo conv size.dtype beta).dtype, ⟨[(castTo conv size.dtype beta).tensor.numel],
    (castTo conv size.dtype beta).tensor.data⟩⟩

theorem validateRoomBeta_ok (conv : Flt → ℤ) (size beta b : NumTensor) :
    validateRoomBeta conv size beta = .ok b ↔ b = storedBeta conv size beta ∧
      (castTo conv size.dtype beta).tensor.numel = (if size.tensor.numel = 2 then 4 else 6) ∧
      ∀ x ∈ (castTo conv size.dtype beta).tensor.data, ∃ v : ℝ, 0 ≤ v ∧ v ≤ 1 ∧ x = .fin v := by
  unfold validateRoomBeta
  dsimp only
  rw [raiseIf_bind_ok, raiseIf_bind_ok, raiseIf_bind_ok, ← finite_unit]
  simp only [Tensor.numel, List.prod_singleton, ne_eq, not_not, pure, Except.pure, Except.ok.injEq]
  constructor
  · rintro ⟨h1, h2, h3, rfl⟩; exact ⟨rfl, h1, h2, h3⟩
  · rintro ⟨rfl, h1, h2, h3⟩; exact ⟨h1, h2, h3, rfl⟩

/-- Everything the constructor checks before the coefficients. -/
def SizeOk (r : RoomObj) : Prop :=
  (r.size.tensor.ndim = 1 ∧ (r.size.tensor.numel = 2 ∨ r.size.tensor.numel = 3)) ∧
  (∀ x ∈ r.size.tensor.data, ∃ v : ℝ, 0 < v ∧ x = .fin v) ∧ ¬ r.fs.leZero ∧ ¬ r.c.leZero ∧
  ¬ (r.beta.isSome ∧ r.t60.isSome) ∧ ¬ ∃ t, r.t60 = some t ∧ t.leZero

theorem roomNew_ok (conv : Flt → ℤ) (a r : RoomObj) :
    roomNew conv a = .ok r ↔ SizeOk a ∧ storeBeta conv a = .ok r := by
  unfold roomNew ensureDimT SizeOk
  rw [raiseIf_bind_ok, raiseIf_bind_ok, raiseIf_bind_ok, raiseIf_bind_ok, raiseIf_bind_ok,
    raiseIf_bind_ok, raiseIf_bind_ok, ← finite_positive, not_or, not_not, not_not, not_not]
  tauto

/-- What the constructor stores. -/
theorem roomNew_eq {conv : Flt → ℤ} {a r : RoomObj} (h : roomNew conv a = .ok r) :
    r = { a with beta := a.beta.map (storedBeta conv a.size) } ∧ ∀ b, a.beta = some b →
      (castTo conv a.size.dtype b).tensor.numel = (if a.size.tensor.numel = 2 then 4 else 6) ∧
      ∀ x ∈ (castTo conv a.size.dtype b).tensor.data, ∃ v : ℝ, 0 ≤ v ∧ v ≤ 1 ∧ x = .fin v := by
  have h2 := ((roomNew_ok _ _ _).mp h).2
  unfold storeBeta at h2
  obtain ⟨size, fs, c, beta, t60⟩ := a
  cases beta with
  | none =>
    have := Except.ok.inj h2
    subst this
    exact ⟨rfl, by simp⟩
  | some b =>
    obtain ⟨b', hb, h2⟩ := (bind_eq_ok _ _ _).mp h2
    have := Except.ok.inj h2
    subst this
    obtain ⟨rfl, h3, h4⟩ := (validateRoomBeta_ok _ _ _ _).mp hb
    refine ⟨rfl, ?_⟩
    intro b'' hb''
    cases hb''
    exact ⟨h3, h4⟩

theorem roomNew_of {conv : Flt → ℤ} {a : RoomObj} (h : SizeOk a) (b : NumTensor) (hb : a.beta = some b)
    (h1 : (castTo conv a.size.dtype b).tensor.numel = (if a.size.tensor.numel = 2 then 4 else 6))
    (h2 : ∀ x ∈ (castTo conv a.size.dtype b).tensor.data, ∃ v : ℝ, 0 ≤ v ∧ v ≤ 1 ∧ x = .fin v) :
    roomNew conv a = .ok { a with beta := some (storedBeta conv a.size b) } := by
  refine (roomNew_ok _ _ _).mpr ⟨h, ?_⟩
  unfold storeBeta
  rw [hb]
  simp only
  rw [(validateRoomBeta_ok _ _ _ _).mpr ⟨rfl, h1, h2⟩]
  rfl

theorem castTo_floating (conv : Flt → ℤ) (t : NumTensor) :
    (castTo conv .floating t).tensor = t.tensor := rfl

theorem castTo_data_length (conv : Flt → ℤ) (dt : NumType) (t : NumTensor) :
    (castTo conv dt t).tensor.data.length = t.tensor.data.length ∧
      (castTo conv dt t).tensor.numel = t.tensor.numel := by
  cases dt <;> simp [castTo, Tensor.numel]

theorem sizeOk_iff {r : RoomObj} (ho : Ordinary r) : SizeOk r ↔
    (∃ d, (d = 2 ∨ d = 3) ∧ r.size.tensor.shape = [d]) ∧
    (∀ x ∈ r.size.tensor.data, ∃ v : ℝ, 0 < v ∧ x = .fin v) ∧ Positive r.fs ∧ Positive r.c ∧
    (r.beta = none ∨ r.t60 = none) ∧ ∀ t, r.t60 = some t → Positive t := by
  unfold SizeOk
  rw [not_leZero ho.fs, not_leZero ho.c]
  have e1 : (r.size.tensor.ndim = 1 ∧ (r.size.tensor.numel = 2 ∨ r.size.tensor.numel = 3)) ↔
      ∃ d, (d = 2 ∨ d = 3) ∧ r.size.tensor.shape = [d] := by
    unfold Tensor.ndim Tensor.numel
    rcases r.size.tensor.shape with _ | ⟨d, _ | ⟨e, s⟩⟩ <;> simp
  have e2 : (¬ (r.beta.isSome ∧ r.t60.isSome)) ↔ (r.beta = none ∨ r.t60 = none) := by
    cases r.beta <;> cases r.t60 <;> simp
  have e3 : (¬ ∃ t, r.t60 = some t ∧ t.leZero) ↔ ∀ t, r.t60 = some t → Positive t := by
    constructor
    · intro h t ht
      rw [← not_leZero (fun h => ho.t60 (h ▸ ht))]
      exact fun h' => h ⟨t, ht, h'⟩
    · rintro h ⟨t, ht, h'⟩
      have := h t ht
      rw [← not_leZero (fun h => ho.t60 (h ▸ ht))] at this
      exact this h'
  rw [e1, e2, e3]

/-- **C35, acceptance.** For a floating point size and scalars that are not NaN, the constructor
succeeds exactly for physical rooms.  (Missing: NaN scalars and integer sizes, where the claim is
false, see `C35_nan_fails` and `C35_integer_size_fails`.) -/
theorem C35_accepts_iff_physical_partial (conv : Flt → ℤ) (a : RoomObj) (hwf : RoomObj.WF a)
    (ho : Ordinary a) : (∃ r, roomNew conv a = .ok r) ↔ Physical a := by
  constructor
  · rintro ⟨r, h⟩
    have h1 := ((roomNew_ok _ _ _).mp h).1
    obtain ⟨⟨d, hd, hsh⟩, hpos, hfs, hc, h1, ht⟩ := (sizeOk_iff ho).mp h1
    obtain ⟨-, hb⟩ := roomNew_eq h
    rw [ho.dtype] at hb
    have hn : a.size.tensor.numel = d := by simp [Tensor.numel, hsh]
    refine ⟨⟨d, hd, hsh, hpos, fun b hbb => ?_⟩, hfs, hc, h1, ht, fun b hbb => (hb b hbb).2⟩
    have := (hb b hbb).1
    rw [castTo_floating, hn] at this
    rw [hwf.beta b hbb]
    unfold Tensor.numel at this
    rw [this]
    rcases hd with rfl | rfl <;> rfl
  · intro hp
    obtain ⟨d, hd, hsh, hpos, hbl⟩ := hp.size
    have h1 : SizeOk a := (sizeOk_iff ho).mpr ⟨⟨d, hd, hsh⟩, hpos, hp.fs, hp.c, hp.one, hp.t60⟩
    have hn : a.size.tensor.numel = d := by simp [Tensor.numel, hsh]
    simp only [roomNew_ok, h1, true_and]
    unfold storeBeta
    cases hb : a.beta with
    | none => exact ⟨_, rfl⟩
    | some b =>
      have : validateRoomBeta conv a.size b = .ok (storedBeta conv a.size b) := by
        rw [validateRoomBeta_ok]
        refine ⟨rfl, ?_, ?_⟩
        · rw [ho.dtype, castTo_floating, hn]
          have := hbl b hb
          rw [hwf.beta b hb] at this
          unfold Tensor.numel
          rw [this]
          rcases hd with rfl | rfl <;> rfl
        · rw [ho.dtype, castTo_floating]
          exact hp.beta b hb
      simp only [this]
      exact ⟨_, rfl⟩

theorem storedBeta_wf (conv : Flt → ℤ) (size b : NumTensor) (h : b.tensor.WF) :
    (storedBeta conv size b).tensor.WF := by
  unfold storedBeta Tensor.WF
  simp only [List.prod_singleton]
  rw [(castTo_data_length conv _ b).1, (castTo_data_length conv _ b).2]
  exact h

/-- An accepted room has the same size, rate, speed and time as requested. -/
theorem roomNew_wf {conv : Flt → ℤ} {a r : RoomObj} (hwf : RoomObj.WF a) (h : roomNew conv a = .ok r) :
    RoomObj.WF r := by
  obtain ⟨rfl, -⟩ := roomNew_eq h
  refine ⟨hwf.size, fun b hb => ?_⟩
  simp only [Option.map_eq_some_iff] at hb
  obtain ⟨b', hb', rfl⟩ := hb
  exact storedBeta_wf _ _ _ (hwf.beta b' hb')

theorem roomNew_physical {conv : Flt → ℤ} {a r : RoomObj} (hwf : RoomObj.WF a)
    (h : roomNew conv a = .ok r) (ho : Ordinary r) : Physical r := by
  have hr := (roomNew_eq h).1
  have ho' : Ordinary a := by
    subst hr
    exact ⟨ho.dtype, ho.fs, ho.c, ho.t60⟩
  have hp := (C35_accepts_iff_physical_partial conv a hwf ho').mp ⟨r, h⟩
  have hd : ∀ b, (storedBeta conv a.size b).tensor.data = b.tensor.data := by
    intro b
    unfold storedBeta
    rw [ho'.dtype]
    rfl
  subst hr
  obtain ⟨d, hd', hsh, hpos, hbl⟩ := hp.size
  refine ⟨⟨d, hd', hsh, hpos, ?_⟩, hp.fs, hp.c, ?_, hp.t60, ?_⟩
  · intro b hb
    simp only [Option.map_eq_some_iff] at hb
    obtain ⟨b', hb', rfl⟩ := hb
    rw [hd]
    exact hbl b' hb'
  · simpa using hp.one
  · intro b hb
    simp only [Option.map_eq_some_iff] at hb
    obtain ⟨b', hb', rfl⟩ := hb
    rw [hd]
    exact hp.beta b' hb'

theorem builtRoom_wf {conv : Flt → ℤ} {r : RoomObj} (h : BuiltRoom conv r) : RoomObj.WF r := by
  induction h with
  | new a r wf h => exact roomNew_wf wf h
  | replaced r r' u hs hb _ h ih =>
    refine roomNew_wf ⟨?_, ?_⟩ h
    · cases hu : u.size with
      | none => simpa using ih.size
      | some s => simpa using hs s hu
    · intro b hbb
      cases hu : u.beta with
      | none => rw [hu] at hbb; exact ih.beta b (by simpa using hbb)
      | some b' => rw [hu] at hbb; simp only [Option.getD_some] at hbb; exact hb b (by rw [hu, hbb])

/-- **C35, replace.** Every room obtained by the constructor and any sequence of `replace` calls is
physical (same exceptions as above). -/
theorem C35_built_rooms_physical_partial (conv : Flt → ℤ) (r : RoomObj) (h : BuiltRoom conv r)
    (ho : Ordinary r) : Physical r := by
  cases h with
  | new a r wf h => exact roomNew_physical wf h ho
  | replaced r₀ r u hs hb hr h =>
    refine roomNew_physical ⟨?_, ?_⟩ h ho
    · have ih := builtRoom_wf hr
      cases hu : u.size with
      | none => simpa using ih.size
      | some s => simpa using hs s hu
    · have ih := builtRoom_wf hr
      intro b hbb
      cases hu : u.beta with
      | none => rw [hu] at hbb; exact ih.beta b (by simpa using hbb)
      | some b' => rw [hu] at hbb; simp only [Option.getD_some] at hbb; exact hb b (by rw [hu, hbb])

/-- Size of a concrete room. -/
noncomputable def size3 : NumTensor := ⟨.floating, ⟨[3], [.fin 6, .fin 4, .fin 3]⟩⟩

theorem size3_ok {x : Flt} (hx : x ∈ size3.tensor.data) : ∃ v : ℝ, 0 < v ∧ x = .fin v := by
  simp only [size3, List.mem_cons, List.not_mem_nil, or_false] at hx
  rcases hx with rfl | rfl | rfl <;> exact ⟨_, by norm_num, rfl⟩

/-- An infinite speed of sound is accepted, a zero one is not. -/
example (conv : Flt → ℤ) :
    (∃ r, roomNew conv { size := size3, fs := .fin 16000, c := .posInf, t60 := some (.fin 0.3) } = .ok r) ∧
    ¬ ∃ r, roomNew conv { size := size3, fs := .fin 16000, c := .fin 0 } = .ok r := by
  rw [C35_accepts_iff_physical_partial _ _ ⟨by simp [size3, Tensor.WF], by simp⟩
      ⟨rfl, by simp, by simp, by simp⟩,
    C35_accepts_iff_physical_partial _ _ ⟨by simp [size3, Tensor.WF], by simp⟩
      ⟨rfl, by simp, by simp, by simp⟩]
  constructor
  · refine ⟨⟨3, Or.inr rfl, rfl, fun x => size3_ok, by simp⟩, Or.inr ⟨16000, by norm_num, rfl⟩,
      Or.inl rfl, Or.inl rfl, ?_, by simp⟩
    intro t ht
    cases ht
    exact Or.inr ⟨0.3, by norm_num, rfl⟩
  · rintro ⟨-, -, h | ⟨x, hx, h⟩, -⟩
    · cases h
    · cases h
      exact lt_irrefl _ hx

/-- **C35 fails for NaN.** A room whose sampling rate is NaN is accepted although NaN is not
positive. -/
theorem C35_nan_fails (conv : Flt → ℤ) :
    ∃ a, RoomObj.WF a ∧ (∃ r, roomNew conv a = .ok r) ∧ ¬ Physical a := by
  refine ⟨{ size := size3, fs := .nan }, ⟨by simp [size3, Tensor.WF], by simp⟩, ⟨_,
    (roomNew_ok _ _ _).mpr ⟨⟨by simp [size3, Tensor.ndim, Tensor.numel], fun x => size3_ok,
      by simp [Flt.leZero], by simp [Flt.leZero], by simp, by simp⟩, rfl⟩⟩, fun h => ?_⟩
  rcases h.fs with h | ⟨x, _, h⟩ <;> cases h

/-- An integer size. -/
noncomputable def isize3 : NumTensor := ⟨.int64, ⟨[3], [.fin 6, .fin 4, .fin 3]⟩⟩

theorem trunc_three_halves : trunc (3 / 2) = 1 := by
  unfold trunc
  rw [if_pos (by norm_num), Int.floor_eq_iff]
  norm_num

/-- **C35 fails for integer sizes.** Coefficients of 1.5 are accepted when the size is an integer
tensor. -/
theorem C35_integer_size_fails (conv : Flt → ℤ) :
    ∃ a, RoomObj.WF a ∧ (∃ r, roomNew conv a = .ok r) ∧ ¬ Physical a := by
  refine ⟨{ size := isize3, fs := .fin 16000, beta := some ⟨.floating, ⟨[6], List.replicate 6 (.fin (3 / 2))⟩⟩ },
    ⟨by simp [isize3, Tensor.WF], by simp [Tensor.WF]⟩, ?_, fun h => ?_⟩
  · refine ⟨_, roomNew_of ⟨by simp [isize3, Tensor.ndim, Tensor.numel], fun x => size3_ok,
      by simp [Flt.leZero], by simp [Flt.leZero], by simp, by simp⟩ _ rfl ?_ ?_⟩
    · simp [castTo, isize3, Tensor.numel]
    · intro x hx
      simp only [castTo, isize3, List.map_replicate, toInt64, trunc_three_halves] at hx
      rw [List.eq_of_mem_replicate hx]
      exact ⟨1, by norm_num, le_refl _, by norm_num⟩
  · obtain ⟨v, -, h1, h2⟩ := h.beta _ rfl (.fin (3 / 2)) (by simp)
    cases h2
    norm_num at h1

/-- **C35, replace.** A replaced room has the given values and, where none is given, those of the old
room; `t60=None` and `beta=None` can be given. (For integer sizes see C36.) -/
theorem C35_replace_fields (conv : Flt → ℤ) (r r' : RoomObj) (u : RoomUpdate) (h : roomReplace conv r u = .ok r') :
    (∀ v, u.size = some v → r'.size = v) ∧ (u.size = none → r'.size = r.size) ∧
    (∀ v, u.fs = some v → r'.fs = v) ∧ (u.fs = none → r'.fs = r.fs) ∧
    (∀ v, u.c = some v → r'.c = v) ∧ (u.c = none → r'.c = r.c) ∧
    (∀ v, u.t60 = some v → r'.t60 = v) ∧ (u.t60 = none → r'.t60 = r.t60) ∧
    (r'.size.dtype = .floating →
      (∀ v, u.beta = some v → r'.beta.map (·.tensor.data) = v.map (·.tensor.data)) ∧
      (u.beta = none → r'.beta.map (·.tensor.data) = r.beta.map (·.tensor.data))) := by
  obtain ⟨rfl, -⟩ := roomNew_eq h
  refine ⟨?_, ?_, ?_, ?_, ?_, ?_, ?_, ?_, fun hf => ?_⟩
  any_goals (intros; simp [*])
  have key : ∀ o : Option NumTensor, (o.map (storedBeta conv (u.size.getD r.size))).map (·.tensor.data)
      = o.map (·.tensor.data) := by
    intro o
    rw [Option.map_map]
    congr 1
    funext b
    simp only [Function.comp, storedBeta]
    rw [show (u.size.getD r.size).dtype = .floating from hf]
    rfl
  refine ⟨fun v hv => ?_, fun hv => ?_⟩
  · simp only [hv, Option.getD_some]
    rw [← key v, Option.map_map]
  · simp only [hv, Option.getD_none]
    rw [← key r.beta, Option.map_map]

example (conv : Flt → ℤ) : ∃ r', roomReplace conv { size := size3, fs := .fin 16000, t60 := some (.fin 0.3) }
    { t60 := some (some (.fin 0.5)) } = .ok r' ∧ r'.t60 = some (.fin 0.5) ∧ r'.fs = .fin 16000 := by
  obtain ⟨r', h⟩ : ∃ r', roomReplace conv { size := size3, fs := .fin 16000, t60 := some (.fin 0.3) }
      { t60 := some (some (.fin 0.5)) } = .ok r' :=
    ⟨_, (roomNew_ok _ _ _).mpr ⟨⟨by simp [size3, Tensor.ndim, Tensor.numel], fun x => size3_ok,
      by simp [Flt.leZero], by simp [Flt.leZero], by simp, by simp [Flt.leZero]; norm_num⟩, rfl⟩⟩
  obtain ⟨-, -, -, h4, -, -, h7, -⟩ := C35_replace_fields conv _ _ _ h
  exact ⟨r', h, h7 _ rfl, h4 rfl⟩

/-! ## C36 -/

/-- **C36, floating point sizes.** The stored coefficients are the given ones. -/
theorem C36_beta_kept_partial (conv : Flt → ℤ) (a r : RoomObj) (hf : a.size.dtype = .floating)
    (h : roomNew conv a = .ok r) :
    r.beta.map (·.tensor.data) = a.beta.map (·.tensor.data) := by
  obtain ⟨rfl, -⟩ := roomNew_eq h
  simp only [Option.map_map]
  congr 1
  funext b
  unfold storedBeta
  simp only [Function.comp]
  rw [hf]
  rfl

/-- A room with coefficients 0.9. -/
noncomputable def room09 : RoomObj :=
  { size := size3, fs := .fin 16000, beta := some ⟨.floating, ⟨[6], List.replicate 6 (.fin 0.9)⟩⟩ }

example (conv : Flt → ℤ) : ∃ r, roomNew conv room09 = .ok r ∧
    r.beta.map (·.tensor.data) = some (List.replicate 6 (.fin 0.9)) := by
  have hp : Physical room09 := by
    refine ⟨⟨3, Or.inr rfl, rfl, fun x => size3_ok, ?_⟩, Or.inr ⟨16000, by norm_num, rfl⟩,
      Or.inr ⟨343, by norm_num, rfl⟩, Or.inr rfl, by simp [room09], ?_⟩
    · intro b hb; cases hb; simp
    · intro b hb x hx
      cases hb
      rw [List.eq_of_mem_replicate hx]
      exact ⟨0.9, by norm_num, by norm_num, rfl⟩
  obtain ⟨r, hr⟩ := (C35_accepts_iff_physical_partial conv _
    ⟨by simp [room09, size3, Tensor.WF], by simp [room09, Tensor.WF]⟩
    ⟨rfl, by simp [room09], by simp [room09], by simp [room09]⟩).mpr hp
  exact ⟨r, hr, C36_beta_kept_partial conv _ r rfl hr⟩

/-- **C36, floating point dtype.** With an explicit floating point dtype `Room.shoebox` stores the given
coefficients, also for a list of integers as the size. -/
theorem C36_shoebox_dtype (conv : Flt → ℤ) (size : List PyNum) (fs c : Flt) (beta : List PyNum) (r : RoomObj)
    (h : shoebox conv size fs c (some beta) none (some .floating) = .ok r) :
    r.beta.map (·.tensor.data) = some (beta.map fun x => match x with | .int z => .fin z | .float f => f) := by
  unfold shoebox at h
  obtain ⟨_, -, h⟩ := (bind_eq_ok _ _ _).mp h
  have := C36_beta_kept_partial conv _ r rfl h
  rw [this]
  rfl

/-- The size is a list of integers. -/
example (conv : Flt → ℤ) : ∃ r, shoebox conv [.int 6, .int 4] (.fin 16000) (.fin 343)
      (some (List.replicate 4 (.float (.fin 0.5)))) none (some .floating) = .ok r ∧
    r.beta.map (·.tensor.data) = some (List.replicate 4 (.fin 0.5)) := by
  obtain ⟨r, h⟩ : ∃ r, shoebox conv [.int 6, .int 4] (.fin 16000) (.fin 343)
      (some (List.replicate 4 (.float (.fin 0.5)))) none (some .floating) = .ok r := by
    unfold shoebox
    dsimp only
    have e1 : ensureDimT (asTensorList conv [.int 6, .int 4] (some .floating)).tensor = .ok () := by
      unfold ensureDimT
      rw [raiseIf_ok]
      simp [asTensorList, castTo, Tensor.ndim, Tensor.numel]
    rw [e1, ok_bind]
    refine ⟨_, roomNew_of ⟨?_, ?_, by simp [Flt.leZero], by simp [Flt.leZero], by simp, by simp⟩ _ rfl ?_ ?_⟩
    · simp [asTensorList, castTo, Tensor.ndim, Tensor.numel]
    · simp [asTensorList, castTo]
    · simp [asTensorList, castTo, Tensor.numel]
    · intro x hx
      have : x = .fin 0.5 := by simpa [asTensorList, castTo] using hx
      exact ⟨0.5, by norm_num, by norm_num, this⟩
  exact ⟨r, h, by rw [C36_shoebox_dtype conv _ _ _ _ r h, List.map_replicate]⟩

theorem trunc_unit {x : ℝ} (h0 : 0 ≤ x) (h1 : x < 1) : trunc x = 0 := by
  unfold trunc
  rw [if_pos h0, Int.floor_eq_iff]
  norm_num
  exact ⟨h0, h1⟩

/-- **C36 fails for integer sizes.** `Room.shoebox` with a list of integers as the size accepts any
coefficients in `[0, 1)` and stores zeros. -/
theorem C36_integer_size_fails (conv : Flt → ℤ) {d : ℕ} (hd : d = 2 ∨ d = 3) (size : Fin d → ℤ)
    (hsize : ∀ i, 0 < size i) (beta : Fin (2 * d) → ℝ) (hb : ∀ k, 0 ≤ beta k ∧ beta k < 1) :
    ∃ r, shoebox conv (List.ofFn fun i => .int (size i)) (.fin 16000)
        (beta := some (List.ofFn fun k => .float (.fin (beta k)))) = .ok r ∧
      r.beta.map (·.tensor.data) = some (List.replicate (2 * d) (.fin 0)) := by
  have hd0 : 0 < d := by omega
  have hs : asTensorList conv (List.ofFn fun i => PyNum.int (size i)) none
      = ⟨.int64, ⟨[d], List.ofFn fun i => .fin (size i)⟩⟩ := by
    unfold asTensorList
    rw [if_pos]
    · simp only [Option.getD_none, castTo, List.length_ofFn, List.map_ofFn]
      congr 3
      funext i
      simp only [Function.comp, toInt64, trunc]
      have : (0 : ℝ) ≤ size i := by exact_mod_cast (hsize i).le
      rw [if_pos this, Int.floor_intCast]
    · refine ⟨?_, ?_⟩
      · simp [List.all_eq_true, List.mem_ofFn']
      · intro h
        have := congrArg List.length h
        simp at this
        omega
  have hbt : asTensorList conv (List.ofFn fun k => PyNum.float (.fin (beta k))) none
      = ⟨.floating, ⟨[2 * d], List.ofFn fun k => .fin (beta k)⟩⟩ := by
    unfold asTensorList
    rw [if_neg]
    · simp only [Option.getD_none, castTo, List.length_ofFn, List.map_ofFn]
      rfl
    · rintro ⟨h, -⟩
      rw [List.all_eq_true] at h
      have := h (.float (.fin (beta ⟨0, by omega⟩))) ((List.mem_ofFn' _ _).mpr ⟨_, rfl⟩)
      simp at this
  unfold shoebox
  simp only [Option.map_some, hs, hbt]
  have e1 : ensureDimT ⟨[d], List.ofFn fun i => Flt.fin (size i)⟩ = .ok () := by
    unfold ensureDimT
    rw [raiseIf_ok]
    rcases hd with rfl | rfl <;> simp [Tensor.ndim, Tensor.numel]
  rw [e1, ok_bind]
  have hz : (castTo conv .int64 ⟨.floating, ⟨[2 * d], List.ofFn fun k => .fin (beta k)⟩⟩).tensor.data
      = List.replicate (2 * d) (.fin 0) := by
    simp only [castTo, List.map_ofFn]
    rw [← List.ofFn_const]
    congr 1
    funext k
    simp [toInt64, trunc_unit (hb k).1 (hb k).2]
  refine ⟨_, roomNew_of ⟨?_, ?_, by simp [Flt.leZero], by simp [Flt.leZero], by simp,
    by simp⟩ _ rfl ?_ ?_, ?_⟩
  rotate_left 2
  · rcases hd with rfl | rfl <;> simp [castTo, Tensor.numel]
  · rw [hz]
    intro x hx
    rw [List.eq_of_mem_replicate hx]
    exact ⟨0, le_refl _, by norm_num, rfl⟩
  · simp only [Option.map_some, storedBeta]
    rw [hz]
  · rcases hd with rfl | rfl <;> simp [Tensor.ndim, Tensor.numel]
  · intro x hx
    obtain ⟨i, rfl⟩ := (List.mem_ofFn' _ _).mp hx
    exact ⟨_, by exact_mod_cast hsize i, rfl⟩

/-- `Room.shoebox([6, 4, 3], fs=16000, beta=[0.9] * 6)` has fully absorbing walls. -/
example (conv : Flt → ℤ) : ∃ r, shoebox conv (List.ofFn fun i : Fin 3 => .int (![6, 4, 3] i))
    (.fin 16000) (beta := some (List.ofFn fun _ : Fin (2 * 3) => .float (.fin 0.9))) = .ok r ∧
    r.beta.map (·.tensor.data) = some (List.replicate (2 * 3) (.fin 0)) :=
  C36_integer_size_fails conv (Or.inr rfl) _ (by intro i; fin_cases i <;> simp) _
    (by intro k; norm_num)

end Torchrir.Props
