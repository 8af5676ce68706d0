import Verif.Model.Device
import Verif.Lemmas.Ism

/-! # Devices: C41 -/

namespace Torchrir.Props

open Torchrir.Model Torchrir.Lemmas

/-- The backend can be used. -/
def Available (t : Torch) (b : String) : Prop :=
  b = "cuda" ∧ t.cudaAvailable = true ∨ b = "mps" ∧ t.mpsAvailable = true ∨ b = "cpu"

/-- `torch.device(s)` returns a device whose type is the part of `s` before the colon. -/
def ParsesTypes (t : Torch) : Prop :=
  ∀ s d, t.parse s = .ok d → s = d.type ∨ ∃ rest, s.toList = d.type.toList ++ ':' :: rest

theorem toLower_toList (s : String) : s.toLower.toList = s.toList.map Char.toLower := by
  simp [String.toLower, String.toList_map]

theorem toLower_eq {s r : String} (h : s.toList.map Char.toLower = r.toList) : s.toLower = r := by
  apply String.toList_inj.mp
  rw [toLower_toList, h]

/-- **C41 (fallback).** A requested CUDA or MPS backend that is not available becomes the CPU. -/
theorem C41_fallback_partial (t : Torch) (s : String) (prefer : List String) :
    (t.cudaAvailable = false → "cuda".toList <+: s.toLower.toList →
      resolveDevice t (.str s) prefer = .ok ⟨"cpu", none⟩) ∧
    (t.mpsAvailable = false → s.toLower = "mps" →
      resolveDevice t (.str s) prefer = .ok ⟨"cpu", none⟩) := by
  constructor
  · intro ha hs
    unfold resolveDevice resolveDeviceStr
    dsimp only
    rw [if_neg, if_pos hs, ha]
    · rfl
    · intro h
      rw [h] at hs
      exact absurd hs (by decide)
  · intro ha hs
    unfold resolveDevice resolveDeviceStr
    dsimp only
    rw [hs, if_neg (by decide), if_neg (by decide), if_pos rfl, ha]
    rfl

example (t : Torch) (h : t.cudaAvailable = false) :
    resolveDevice t (.str "CUDA:1") = .ok ⟨"cpu", none⟩ :=
  (C41_fallback_partial t "CUDA:1" _).1 h
    (by rw [toLower_toList]; decide)

theorem firstAvailable_spec (t : Torch) : ∀ prefer : List String,
    (∃ pre b post, prefer = pre ++ b :: post ∧ Available t b ∧ (∀ x ∈ pre, ¬ Available t x) ∧
      firstAvailable t prefer = ⟨b, none⟩) ∨
    (∀ x ∈ prefer, ¬ Available t x) ∧ firstAvailable t prefer = ⟨"cpu", none⟩
  | [] => Or.inr ⟨by simp, rfl⟩
  | b :: rest => by
    unfold firstAvailable
    by_cases hb : Available t b
    · refine Or.inl ⟨[], b, rest, rfl, hb, by simp, ?_⟩
      rcases hb with ⟨rfl, h⟩ | ⟨rfl, h⟩ | rfl
      · rw [if_pos ⟨rfl, h⟩]
      · rw [if_neg (by simp), if_pos ⟨rfl, h⟩]
      · rw [if_neg (by simp), if_neg (by simp), if_pos rfl]
    · have h1 : ¬ (b = "cuda" ∧ t.cudaAvailable = true) := fun h => hb (Or.inl h)
      have h2 : ¬ (b = "mps" ∧ t.mpsAvailable = true) := fun h => hb (Or.inr (Or.inl h))
      have h3 : ¬ b = "cpu" := fun h => hb (Or.inr (Or.inr h))
      rw [if_neg h1, if_neg h2, if_neg h3]
      rcases firstAvailable_spec t rest with ⟨pre, c, post, e, hc, hp, hf⟩ | ⟨hn, hf⟩
      · refine Or.inl ⟨b :: pre, c, post, by rw [e]; rfl, hc, ?_, hf⟩
        intro x hx
        rcases List.mem_cons.mp hx with rfl | hx
        · exact hb
        · exact hp x hx
      · refine Or.inr ⟨?_, hf⟩
        intro x hx
        rcases List.mem_cons.mp hx with rfl | hx
        · exact hb
        · exact hn x hx

/-- **C41 (auto).** `"auto"`, in any case, gives the first available backend of the preference list,
and the CPU when none is available. -/
theorem C41_auto_first_available (t : Torch) (s : String) (hs : s.toLower = "auto")
    (prefer : List String) :
    (∃ pre b post, prefer = pre ++ b :: post ∧ Available t b ∧ (∀ x ∈ pre, ¬ Available t x) ∧
      resolveDevice t (.str s) prefer = .ok ⟨b, none⟩) ∨
    (∀ x ∈ prefer, ¬ Available t x) ∧ resolveDevice t (.str s) prefer = .ok ⟨"cpu", none⟩ := by
  have e : resolveDevice t (.str s) prefer = .ok (firstAvailable t prefer) := by
    unfold resolveDevice resolveDeviceStr
    dsimp only
    rw [if_pos hs]
  rw [e]
  rcases firstAvailable_spec t prefer with ⟨pre, c, post, e, hc, hp, hf⟩ | ⟨hn, hf⟩
  · exact Or.inl ⟨pre, c, post, e, hc, hp, by rw [hf]⟩
  · exact Or.inr ⟨hn, by rw [hf]⟩

/-- Without CUDA, MPS comes next. -/
example (t : Torch) (h1 : t.cudaAvailable = false) (h2 : t.mpsAvailable = true) :
    resolveDevice t (.str "auto") = .ok ⟨"mps", none⟩ := by
  rcases C41_auto_first_available t "auto" (toLower_eq (by decide)) defaultPrefer with
    ⟨pre, b, post, e, hb, hp, hr⟩ | ⟨hn, -⟩
  · rw [hr]
    unfold defaultPrefer at e
    match pre, e with
    | [], e =>
      simp only [List.nil_append, List.cons.injEq] at e
      rw [← e.1] at hb
      rcases hb with ⟨-, hb⟩ | ⟨hb, -⟩ | hb
      · rw [h1] at hb; cases hb
      · exact absurd hb (by decide)
      · exact absurd hb (by decide)
    | [a], e =>
      simp only [List.singleton_append, List.cons.injEq] at e
      rw [← e.2.1]
    | a :: c :: pre, e =>
      simp only [List.cons_append, List.cons.injEq] at e
      exact absurd (Or.inr (Or.inl ⟨e.2.1.symm, h2⟩)) (hp c (by simp))
  · exact absurd (Or.inr (Or.inl ⟨rfl, h2⟩)) (hn "mps" (by simp [defaultPrefer]))

/-- **C41 (pass-through).** Device objects are returned as they are, and nothing means CPU. -/
theorem C41_explicit_device (t : Torch) (d : TorchDevice) (prefer : List String) :
    resolveDevice t (.device d) prefer = .ok d ∧
      resolveDevice t .none prefer = .ok ⟨"cpu", none⟩ := ⟨rfl, rfl⟩

/-- **C41 (never an unavailable backend).** A device string that does not start with `mps:` never
resolves to an unavailable backend. -/
theorem C41_never_unavailable_partial (t : Torch) (ht : ParsesTypes t) (s : String)
    (hs : ¬ "mps:".toList <+: s.toLower.toList) (prefer : List String) (d : TorchDevice)
    (h : resolveDevice t (.str s) prefer = .ok d) :
    (d.type = "cuda" → t.cudaAvailable = true) ∧ (d.type = "mps" → t.mpsAvailable = true) := by
  have lower := toLower_toList s
  have parsed : ∀ (b : String), b.toList.map Char.toLower = b.toList → t.parse s = .ok d →
      d.type = b → s.toLower = b ∨ (b.toList ++ [':']) <+: s.toLower.toList := by
    intro b hb hp hd
    rcases ht s d hp with e | ⟨rest, e⟩
    · left
      apply String.toList_inj.mp
      rw [lower, e, hd, hb]
    · right
      rw [lower, e, hd, List.map_append, hb, List.map_cons]
      exact ⟨rest.map Char.toLower, by simp⟩
  have hcuda : t.parse s = .ok d → d.type = "cuda" → "cuda".toList <+: s.toLower.toList := by
    intro hp hd
    rcases parsed "cuda" (by decide) hp hd with e | e
    · rw [e]
    · exact (List.prefix_append _ _).trans e
  have hmps : t.parse s = .ok d → d.type = "mps" → s.toLower = "mps" := by
    intro hp hd
    rcases parsed "mps" (by decide) hp hd with e | e
    · exact e
    · exact absurd e hs
  unfold resolveDevice resolveDeviceStr at h
  dsimp only at h
  split_ifs at h with h1 h2 h3 h4 h5 h6
  · have h := Except.ok.inj h
    rw [← h]
    rcases firstAvailable_spec t prefer with ⟨pre, c, post, e, hc, hp, hf⟩ | ⟨hn, hf⟩
    · rw [hf]
      refine ⟨fun e => ?_, fun e => ?_⟩
      · rcases hc with ⟨-, h⟩ | ⟨h, -⟩ | h
        · exact h
        · rw [show c = "cuda" from e] at h; exact absurd h (by decide)
        · rw [show c = "cuda" from e] at h; exact absurd h (by decide)
      · rcases hc with ⟨h, -⟩ | ⟨-, h⟩ | h
        · rw [show c = "mps" from e] at h; exact absurd h (by decide)
        · exact h
        · rw [show c = "mps" from e] at h; exact absurd h (by decide)
    · rw [hf]
      exact ⟨by simp, by simp⟩
  · refine ⟨fun _ => h3, fun e => ?_⟩
    rw [hmps h e] at h2
    exact absurd h2 (by decide)
  · cases h; exact ⟨by simp, by simp⟩
  · cases h; exact ⟨by simp, fun _ => h5⟩
  · cases h; exact ⟨by simp, by simp⟩
  · cases h; exact ⟨by simp, by simp⟩
  · exact ⟨fun e => absurd (hcuda h e) h2, fun e => absurd (hmps h e) h4⟩

/-- **C41 fails for `"mps:0"`.** Wherever MPS is not available, an MPS device with an index is still
handed to torch and returned. -/
theorem C41_indexed_mps_fails (t : Torch) (hmps : t.mpsAvailable = false)
    (hparse : t.parse "mps:0" = .ok ⟨"mps", some 0⟩) (prefer : List String) :
    ∃ d, resolveDevice t (.str "mps:0") prefer = .ok d ∧
      ¬ (d.type = "mps" → t.mpsAvailable = true) := by
  have e : "mps:0".toLower = "mps:0" := toLower_eq (by decide)
  refine ⟨⟨"mps", some 0⟩, ?_, by simp [hmps]⟩
  unfold resolveDevice resolveDeviceStr
  dsimp only
  rw [e, if_neg (by decide), if_neg (by decide), if_neg (by decide), if_neg (by decide), hparse]

/-- The first tensor among the values. -/
def firstTensor : List SpecValue → Option (TorchDevice × String)
  | [] => none
  | .tensor d y :: _ => some (d, y)
  | .other :: rest => firstTensor rest

theorem scanValues_full (d : TorchDevice) (y : String) :
    ∀ vs, scanValues vs (some d, some y) = (some d, some y)
  | [] => rfl
  | .tensor _ _ :: vs => scanValues_full d y vs
  | .other :: vs => scanValues_full d y vs

theorem scanValues_first : ∀ vs : List SpecValue,
    scanValues vs (none, none) = ((firstTensor vs).map Prod.fst, (firstTensor vs).map Prod.snd)
  | [] => rfl
  | .tensor d y :: vs => scanValues_full d y vs
  | .other :: vs => scanValues_first vs

/-- **C41 (inference).** Without an override, device and dtype are those of the first tensor among the
arguments, or CPU and float32; an explicit dtype always wins; an explicit device other than `"auto"`
is resolved as by `resolve_device`, and `"auto"` only matters when there is no tensor. -/
theorem C41_inferred (t : Torch) (pre post : List SpecValue) (hpre : ∀ v ∈ pre, v = .other)
    (d : TorchDevice) (y : String) (dtype : Option String) :
    inferDeviceDtype t (pre ++ .tensor d y :: post) .none dtype = .ok (d, dtype.getD y) ∧
    (∀ s : String, s.toLower = "auto" →
      inferDeviceDtype t (pre ++ .tensor d y :: post) (.str s) dtype = .ok (d, dtype.getD y)) ∧
    (∀ (arg : DeviceArg) (d' : TorchDevice), arg ≠ .none → (∀ s, arg = .str s → s.toLower ≠ "auto") →
      resolveDevice t arg = .ok d' →
      inferDeviceDtype t (pre ++ .tensor d y :: post) arg dtype = .ok (d', dtype.getD y)) ∧
    inferDeviceDtype t pre .none dtype = .ok (⟨"cpu", none⟩, dtype.getD "float32") ∧
    ∀ s : String, s.toLower = "auto" → ∀ d', resolveDevice t (.str "auto") = .ok d' →
      inferDeviceDtype t pre (.str s) dtype = .ok (d', dtype.getD "float32") := by
  have f1 : ∀ pre : List SpecValue, (∀ v ∈ pre, v = .other) →
      firstTensor (pre ++ .tensor d y :: post) = some (d, y) := by
    intro pre
    induction pre with
    | nil => intro; rfl
    | cons v vs ih =>
      intro h
      rw [h v (by simp)]
      exact ih fun v hv => h v (by simp [hv])
  have f2 : ∀ pre : List SpecValue, (∀ v ∈ pre, v = .other) → firstTensor pre = none := by
    intro pre
    induction pre with
    | nil => intro; rfl
    | cons v vs ih =>
      intro h
      rw [h v (by simp)]
      exact ih fun v hv => h v (by simp [hv])
  have g1 := scanValues_first (pre ++ .tensor d y :: post)
  have g2 := scanValues_first pre
  rw [f1 pre hpre] at g1
  rw [f2 pre hpre] at g2
  unfold inferDeviceDtype deviceSpecResolve
  rw [g1, g2]
  refine ⟨rfl, fun s hs => ?_, fun arg d' h1 h2 h3 => ?_, rfl, fun s hs d' h => ?_⟩
  · unfold specDevice
    dsimp only
    rw [if_pos hs]
    rfl
  · unfold specDevice
    cases arg with
    | none => exact absurd rfl h1
    | device d => dsimp only; rw [h3]; rfl
    | str s => dsimp only; rw [if_neg (h2 s rfl), h3]; rfl
  · unfold specDevice
    dsimp only
    rw [if_pos hs]
    unfold defaultPrefer at *
    show (resolveDevice t (.str "auto") ["cuda", "mps", "cpu"] >>= _) = _
    rw [h]
    rfl

/-- The list before the tensor does not matter, the tensor's dtype gives way to an override. -/
example (t : Torch) : inferDeviceDtype t [.other, .tensor ⟨"cuda", some 1⟩ "float64", .tensor ⟨"cpu", none⟩ "int64"]
    .none (some "float32") = .ok (⟨"cuda", some 1⟩, "float32") :=
  (C41_inferred t [.other] [.tensor ⟨"cpu", none⟩ "int64"] (by simp) ⟨"cuda", some 1⟩ "float64"
    (some "float32")).1

end Torchrir.Props
