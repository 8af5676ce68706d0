import Verif.Model.Audio
import Verif.Props.Device
import Verif.Props.BuilderScene

/-!
# Audio files and backends (C63 to C65, C72)
-/

namespace Torchrir.Props

open Torchrir.Model Torchrir.Lemmas

/-! ## C63, C64, C72 -/

/-- The tensor `audio` holds `C` channels of `T` samples, `x c t` being sample `t` of channel `c`: one channel
as a vector, up to eight channels as channels by samples, more than eight samples as samples by
channels. -/
inductive Layout : Tensor ℝ → ℕ → ℕ → (ℕ → ℕ → ℝ) → Prop
  | mono (T : ℕ) (data : List ℝ) (hlen : data.length = T) : Layout ⟨[T], data⟩ 1 T fun _ t => data.getD t 0
  | channelsFirst (C T : ℕ) (data : List ℝ) (hlen : data.length = C * T) (hC : C ≤ 8) :
      Layout ⟨[C, T], data⟩ C T fun c t => data.getD (c * T + t) 0
  | framesFirst (C T : ℕ) (data : List ℝ) (hlen : data.length = T * C) (hT : 8 < T) :
      Layout ⟨[T, C], data⟩ C T fun c t => data.getD (t * C + c) 0

theorem transposeData_getD (M T : ℕ) (data : List ℝ) {t m : ℕ} (ht : t < T) (hm : m < M) :
    (transposeData M T data).getD (t * M + m) 0 = data.getD (m * T + t) 0 :=
  transpose2_entry M T data ht hm

/-- What is written for a tensor and the same tensor times a factor. -/
theorem write_layout {audio : Tensor ℝ} {C T : ℕ} {x : ℕ → ℕ → ℝ} (h : Layout audio C T x) (hC : 1 ≤ C) :
    ∃ f, sfWrite (framesFirst audio) = .ok f ∧ f.channels = C ∧ f.frames = T ∧
      ∀ t c, t < T → c < C → f.at t c = x c t := by
  cases h with
  | mono T data hlen =>
    exact ⟨_, rfl, rfl, rfl, fun t c ht hc => by
      obtain rfl : c = 0 := by omega
      simp [AudioFile.at, framesFirst]⟩
  | channelsFirst C T data hlen hC8 =>
    refine ⟨⟨C, T, transposeData C T data⟩, ?_, rfl, rfl, fun t c ht hc => transposeData_getD C T data ht hc⟩
    unfold framesFirst
    simp only
    rw [if_pos hC8]
    unfold sfWrite
    simp only
    rw [if_neg (by omega)]
  | framesFirst C T data hlen hT =>
    refine ⟨⟨C, T, data⟩, ?_, rfl, rfl, fun t c ht hc => rfl⟩
    unfold framesFirst
    simp only
    rw [if_neg (by omega)]
    unfold sfWrite
    simp only
    rw [if_neg (by omega)]

/-- The values of a layout are those of the tensor. -/
theorem layout_values {audio : Tensor ℝ} {C T : ℕ} {x : ℕ → ℕ → ℝ} (h : Layout audio C T x) (v : ℝ) :
    v ∈ audio.data ↔ ∃ c t, c < C ∧ t < T ∧ x c t = v := by
  have key : ∀ (a b : ℕ) (data : List ℝ), data.length = a * b →
      (v ∈ data ↔ ∃ i j, i < a ∧ j < b ∧ data.getD (i * b + j) 0 = v) := by
    intro a b data hlen
    rw [List.mem_iff_getElem]
    constructor
    · rintro ⟨k, hk, rfl⟩
      have hb : 0 < b := by
        rcases Nat.eq_zero_or_pos b with rfl | hb
        · omega
        · exact hb
      refine ⟨k / b, k % b, ?_, Nat.mod_lt _ hb, ?_⟩
      · rw [Nat.div_lt_iff_lt_mul hb]
        omega
      · rw [Nat.div_add_mod' k b, List.getD_eq_getElem _ _ hk]
    · rintro ⟨i, j, hi, hj, rfl⟩
      have hk : i * b + j < data.length := by
        rw [hlen]
        have : (i + 1) * b ≤ a * b := Nat.mul_le_mul_right b hi
        rw [Nat.succ_mul] at this
        omega
      exact ⟨_, hk, (List.getD_eq_getElem _ _ hk).symm⟩
  cases h with
  | mono T data hlen =>
    dsimp only
    rw [key 1 T data (by omega)]
    constructor
    · rintro ⟨i, j, hi, hj, he⟩
      obtain rfl : i = 0 := by omega
      exact ⟨0, j, by omega, hj, by simpa using he⟩
    · rintro ⟨i, j, hi, hj, he⟩
      exact ⟨0, j, by omega, hj, by simpa using he⟩
  | channelsFirst C T data hlen hC8 => exact key C T data hlen
  | framesFirst C T data hlen hT =>
    dsimp only
    rw [key T C data hlen]
    constructor
    · rintro ⟨i, j, hi, hj, he⟩
      exact ⟨j, i, hj, hi, he⟩
    · rintro ⟨i, j, hi, hj, he⟩
      exact ⟨j, i, hj, hi, he⟩

/-- Scaling a tensor. -/
theorem layout_map {audio : Tensor ℝ} {C T : ℕ} {x : ℕ → ℕ → ℝ} (h : Layout audio C T x) (f : ℝ → ℝ)
    (h0 : f 0 = 0) : Layout ⟨audio.shape, audio.data.map f⟩ C T fun c t => f (x c t) := by
  have hg : ∀ (data : List ℝ) (k : ℕ), (data.map f).getD k 0 = f (data.getD k 0) := by
    intro data k
    by_cases hk : k < data.length
    · rw [List.getD_eq_getElem _ _ (by simpa using hk), List.getD_eq_getElem _ _ hk, List.getElem_map]
    · rw [List.getD_eq_default _ _ (by simpa using hk), List.getD_eq_default _ _ (by omega), h0]
  cases h with
  | mono T data hlen =>
    have := Layout.mono T (data.map f) (by simpa using hlen)
    simpa only [hg] using this
  | channelsFirst C T data hlen hC8 =>
    have := Layout.channelsFirst C T (data.map f) (by simpa using hlen) hC8
    simpa only [hg] using this
  | framesFirst C T data hlen hT =>
    have := Layout.framesFirst C T (data.map f) (by simpa using hlen) hT
    simpa only [hg] using this

/-- `peakOf` is the largest magnitude. -/
theorem peakOf_spec (data : List ℝ) : 0 ≤ peakOf data ∧ (∀ v ∈ data, |v| ≤ peakOf data) ∧
    (0 < peakOf data → ∃ v ∈ data, |v| = peakOf data) ∧ (peakOf data = 0 ↔ ∀ v ∈ data, v = 0) := by
  obtain ⟨h1, h2, h3⟩ := foldl_max_bound (data.map (|·|)) 0
  have hmem : ∀ (l : List ℝ) (a : ℝ), l.foldl max a = a ∨ l.foldl max a ∈ l := by
    intro l
    induction l with
    | nil => exact fun a => .inl rfl
    | cons x l ih =>
      intro a
      rw [List.foldl_cons]
      rcases ih (max a x) with h | h
      · rw [h]
        rcases max_choice a x with hm | hm
        · exact .inl hm
        · right
          rw [hm]
          exact List.mem_cons_self
      · exact .inr (List.mem_cons_of_mem _ h)
  have h2' : ∀ v ∈ data, |v| ≤ peakOf data := fun v hv => h2 _ (List.mem_map_of_mem hv)
  refine ⟨h1, h2', fun hpos => ?_, fun h0 v hv => ?_, fun hall => ?_⟩
  · rcases hmem (data.map (|·|)) 0 with h | h
    · unfold peakOf at hpos
      rw [h] at hpos
      exact absurd hpos (lt_irrefl _)
    · obtain ⟨v, hv, he⟩ := List.mem_map.mp h
      exact ⟨v, hv, he⟩
  · have := h2' v hv
    rw [h0] at this
    exact abs_eq_zero.mp (le_antisymm this (abs_nonneg v))
  · refine le_antisymm (h3 0 le_rfl fun v hv => ?_) h1
    obtain ⟨w, hw, rfl⟩ := List.mem_map.mp hv
    rw [hall w hw, abs_zero]

/-- **C63.** Saving with `normalize=True` and a positive peak writes the input times one non-negative factor:
unchanged if it is silent, and otherwise with largest magnitude exactly `peak`. -/
theorem C63_normalized (audio : Tensor ℝ) (C T : ℕ) (x : ℕ → ℕ → ℝ) (h : Layout audio C T x) (hC : 1 ≤ C)
    (peak : ℝ) (hp : 0 < peak) :
    ∃ f g, saveAudio audio true peak = .ok f ∧ f.channels = C ∧ f.frames = T ∧ 0 ≤ g ∧
      (∀ t c, t < T → c < C → f.at t c = g * x c t) ∧
      ((∀ t c, t < T → c < C → x c t = 0) → g = 1) ∧
      ((∃ t c, t < T ∧ c < C ∧ x c t ≠ 0) →
        (∀ t c, t < T → c < C → |f.at t c| ≤ peak) ∧ ∃ t c, t < T ∧ c < C ∧ |f.at t c| = peak) := by
  obtain ⟨p0, p1, p2, p3⟩ := peakOf_spec audio.data
  by_cases hs : 0 < peakOf audio.data
  · have hl := layout_map h (fun v => v / peakOf audio.data * peak) (by simp)
    obtain ⟨f, hf, f1, f2, f3⟩ := write_layout hl hC
    refine ⟨f, peak / peakOf audio.data, ?_, f1, f2, by positivity, fun t c ht hc => ?_, fun hz => ?_, fun _ => ⟨?_, ?_⟩⟩
    · unfold saveAudio normalizePeak
      rw [if_pos rfl, if_neg (not_le.mpr hp), if_pos hs, ok_bind]
      exact hf
    · rw [f3 t c ht hc]
      ring
    · exfalso
      have : peakOf audio.data = 0 := p3.mpr fun v hv => by
        obtain ⟨c, t, hc, ht, rfl⟩ := (layout_values h v).mp hv
        exact hz t c ht hc
      linarith
    · intro t c ht hc
      rw [f3 t c ht hc, abs_mul, abs_div, abs_of_pos hs, abs_of_pos hp]
      have := p1 _ ((layout_values h (x c t)).mpr ⟨c, t, hc, ht, rfl⟩)
      rw [← le_div_iff₀ hp, div_self hp.ne']
      exact (div_le_one hs).mpr this
    · obtain ⟨v, hv, he⟩ := p2 hs
      obtain ⟨c, t, hc, ht, rfl⟩ := (layout_values h v).mp hv
      refine ⟨t, c, ht, hc, ?_⟩
      rw [f3 t c ht hc, abs_mul, abs_div, he, abs_of_pos hs, abs_of_pos hp, div_self hs.ne', one_mul]
  · obtain ⟨f, hf, f1, f2, f3⟩ := write_layout h hC
    refine ⟨f, 1, ?_, f1, f2, zero_le_one, fun t c ht hc => by rw [f3 t c ht hc, one_mul], fun _ => rfl, ?_⟩
    · unfold saveAudio normalizePeak
      rw [if_pos rfl, if_neg (not_le.mpr hp), if_neg hs, ok_bind]
      exact hf
    · rintro ⟨t, c, ht, hc, hne⟩
      exact absurd (p3.mp (le_antisymm (not_lt.mp hs) p0) _ ((layout_values h (x c t)).mpr ⟨c, t, hc, ht, rfl⟩)) hne

/-- **C63.** Saving with `normalize=False` writes the values as they are, whatever the peak. -/
theorem C63_not_normalized (audio : Tensor ℝ) (C T : ℕ) (x : ℕ → ℕ → ℝ) (h : Layout audio C T x) (hC : 1 ≤ C)
    (peak : ℝ) :
    ∃ f, saveAudio audio false peak = .ok f ∧ f.channels = C ∧ f.frames = T ∧
      ∀ t c, t < T → c < C → f.at t c = x c t := by
  obtain ⟨f, hf, h'⟩ := write_layout h hC
  exact ⟨f, hf, h'⟩

/-- **C63.** A peak that is not positive is rejected if it is to be used, and nothing is written. -/
theorem C63_bad_peak (audio : Tensor ℝ) (peak : ℝ) (hp : peak ≤ 0) : ∃ e, saveAudio audio true peak = .error e := by
  unfold saveAudio normalizePeak
  rw [if_pos rfl, if_pos hp]
  exact ⟨_, rfl⟩

example : ∃ f, saveAudio ⟨[2, 3], [1, -2, 0, 0.5, 0, 1]⟩ true 0.5 = .ok f ∧ f.channels = 2 ∧ f.frames = 3 ∧
    ∃ t c, t < 3 ∧ c < 2 ∧ |f.at t c| = 0.5 := by
  obtain ⟨f, g, h1, h2, h3, -, -, -, h4⟩ := C63_normalized _ _ _ _
    (.channelsFirst 2 3 [1, -2, 0, 0.5, 0, 1] rfl (by norm_num)) (by norm_num) 0.5 (by norm_num)
  exact ⟨f, h1, h2, h3, (h4 ⟨0, 0, by norm_num, by norm_num, by norm_num⟩).2⟩

/-- **C64.** One to eight channels of any number of samples are written as that many channels and frames. Missing:
more channels, see below. -/
theorem C64_few_channels_partial (C T : ℕ) (data : List ℝ) (hlen : data.length = C * T) (h1 : 1 ≤ C) (h8 : C ≤ 8)
    (normalize : Bool) (peak : ℝ) (hp : 0 < peak) :
    ∃ f, saveAudio ⟨[C, T], data⟩ normalize peak = .ok f ∧ f.channels = C ∧ f.frames = T := by
  cases normalize with
  | true =>
    obtain ⟨f, g, h, h2, h3, -⟩ := C63_normalized _ _ _ _ (.channelsFirst C T data hlen h8) h1 peak hp
    exact ⟨f, h, h2, h3⟩
  | false =>
    obtain ⟨f, h, h2, h3, -⟩ := C63_not_normalized _ _ _ _ (.channelsFirst C T data hlen h8) h1 peak
    exact ⟨f, h, h2, h3⟩

/-- **C64 fails for nine channels and more.** The channels are written as frames and the samples as channels. -/
theorem C64_many_channels_fails (C T : ℕ) (data : List ℝ) (hlen : data.length = C * T) (hC : 9 ≤ C) (hT : 1 ≤ T) :
    ∃ f, saveAudio ⟨[C, T], data⟩ = .ok f ∧ f.channels = T ∧ f.frames = C := by
  obtain ⟨f, g, h, h2, h3, -⟩ := C63_normalized _ _ _ _ (.framesFirst T C data hlen (by omega)) hT 1 one_pos
  exact ⟨f, h, h2, h3⟩

/-- **C64, exactly.** Any number of channels and samples, with and without normalisation: the file has the
channels of the tensor exactly if there are at most eight, or as many as samples. -/
theorem C64_exactly (C T : ℕ) (data : List ℝ) (hlen : data.length = C * T) (hC : 1 ≤ C) (hT : 1 ≤ T)
    (normalize : Bool) (peak : ℝ) (hp : 0 < peak) :
    ∃ f, saveAudio ⟨[C, T], data⟩ normalize peak = .ok f ∧
      ((f.channels = C ∧ f.frames = T) ↔ C ≤ 8 ∨ C = T) ∧
      (¬ C ≤ 8 → f.channels = T ∧ f.frames = C) := by
  by_cases h8 : C ≤ 8
  · obtain ⟨f, h, h1, h2⟩ := C64_few_channels_partial C T data hlen hC h8 normalize peak hp
    exact ⟨f, h, ⟨fun _ => .inl h8, fun _ => ⟨h1, h2⟩⟩, fun hn => absurd h8 hn⟩
  · have key : ∃ f, saveAudio ⟨[C, T], data⟩ normalize peak = .ok f ∧ f.channels = T ∧ f.frames = C := by
      cases normalize with
      | true =>
        obtain ⟨f, g, h, h2, h3, -⟩ := C63_normalized _ _ _ _ (.framesFirst T C data hlen (by omega)) hT peak hp
        exact ⟨f, h, h2, h3⟩
      | false =>
        obtain ⟨f, h, h2, h3, -⟩ := C63_not_normalized _ _ _ _ (.framesFirst T C data hlen (by omega)) hT peak
        exact ⟨f, h, h2, h3⟩
    obtain ⟨f, h, h1, h2⟩ := key
    refine ⟨f, h, ⟨fun hf => .inr (hf.1.symm.trans h1), fun hf => ?_⟩, fun _ => ⟨h1, h2⟩⟩
    obtain rfl := hf.resolve_left h8
    exact ⟨h1, h2⟩

/-- **C72.** Loading a file that was saved with `normalize=False` gives the first channel, sample by sample, up
to what the file format does to a sample. -/
theorem C72_round_trip (audio : Tensor ℝ) (C T : ℕ) (x : ℕ → ℕ → ℝ) (h : Layout audio C T x) (hC : 1 ≤ C)
    (codec : ℝ → ℝ) (peak : ℝ) :
    ∃ f, saveAudio audio false peak = .ok f ∧ loadAudio codec f = (List.range T).map fun t => codec (x 0 t) := by
  obtain ⟨f, hf, h1, h2, h3⟩ := C63_not_normalized audio C T x h hC peak
  refine ⟨f, hf, ?_⟩
  unfold loadAudio
  rw [h2]
  refine List.map_congr_left fun t ht => ?_
  rw [h3 t 0 (List.mem_range.mp ht) (by omega)]

example : ∃ f, saveAudio ⟨[2, 3], [1, 2, 3, 4, 5, 6]⟩ false = .ok f ∧ loadAudio id f = [1, 2, 3] := by
  obtain ⟨f, h1, h2⟩ := C72_round_trip _ _ _ _ (.channelsFirst 2 3 [1, 2, 3, 4, 5, 6] rfl (by norm_num)) (by norm_num)
    id 1
  refine ⟨f, h1, ?_⟩
  rw [h2]
  simp [List.range_succ]

/-! ## C65 -/

/-- A registry in which the default is one of the backends. -/
def Registry.Valid {B : Type} (r : Registry B) : Prop := r.default ∈ r.backends.map Prod.fst

/-- The registry after a sequence of calls of `set_audio_backend`. -/
def afterCalls {B : Type} (r : Registry B) (names : List String) : Registry B :=
  names.foldl (fun r n => (r.set n).1) r

theorem afterCalls_backends {B : Type} : ∀ (names : List String) (r : Registry B),
    (afterCalls r names).backends = r.backends
  | [], r => rfl
  | n :: names, r => by
    unfold afterCalls
    rw [List.foldl_cons]
    refine (afterCalls_backends names (r.set n).1).trans ?_
    unfold Registry.set
    split_ifs <;> rfl

/-- The last of the names that is a backend, or else the default. -/
def lastKnown (known : List String) (default : String) (names : List String) : String :=
  (names.filter (· ∈ known)).getLast?.getD default

theorem afterCalls_default {B : Type} : ∀ (names : List String) (r : Registry B),
    (afterCalls r names).default = lastKnown (r.backends.map Prod.fst) r.default names
  | [], r => rfl
  | n :: names, r => by
    have ih := afterCalls_default names (r.set n).1
    unfold afterCalls at ih ⊢
    rw [List.foldl_cons, ih]
    unfold Registry.set lastKnown
    rw [List.filter_cons]
    by_cases h : n ∈ r.backends.map Prod.fst
    · rw [if_pos h, if_pos (decide_eq_true h), List.getLast?_cons]
      rfl
    · rw [if_neg h, if_neg (by simpa using h)]

/-- **C65.** After any sequence of calls of `set_audio_backend` the current backend is one of the backends that
are listed: the last one that was set successfully, or the initial one. -/
theorem C65_current_backend {B : Type} (r : Registry B) (hr : Registry.Valid r) (names : List String) :
    (afterCalls r names).default ∈ (afterCalls r names).list ∧
      (afterCalls r names).list = r.list ∧
      (afterCalls r names).default = lastKnown r.list r.default names := by
  have hl : (afterCalls r names).list = r.list := by
    unfold Registry.list
    rw [afterCalls_backends]
  have hmem : ∀ n, n ∈ r.list ↔ n ∈ r.backends.map Prod.fst := fun n => by
    unfold Registry.list
    exact (List.mergeSort_perm _ _).mem_iff
  have hlast : (afterCalls r names).default = lastKnown r.list r.default names := by
    rw [afterCalls_default]
    unfold lastKnown
    congr 2
    refine List.filter_congr fun n _ => ?_
    simp only [hmem]
  refine ⟨?_, hl, hlast⟩
  rw [hl, hlast]
  unfold lastKnown
  cases hg : (names.filter (· ∈ r.list)).getLast? with
  | none => exact (hmem _).mpr hr
  | some n =>
    have := List.mem_of_getLast? hg
    simpa using (List.mem_filter.mp this).2

/-- **C65.** A call that fails changes nothing, and calls fail exactly for names that are not listed. -/
theorem C65_failing_call {B : Type} (r : Registry B) (name : String) :
    ((∃ e, (r.set name).2 = .error e) ↔ name ∉ r.list) ∧ ((∃ e, (r.set name).2 = .error e) → (r.set name).1 = r) := by
  have hmem : name ∈ r.list ↔ name ∈ r.backends.map Prod.fst := by
    unfold Registry.list
    exact (List.mergeSort_perm _ _).mem_iff
  rw [hmem]
  unfold Registry.set
  split_ifs with h
  · simp [h]
  · simp [h]

theorem lookup_mem {B : Type} (l : List (String × B)) (n : String) (h : n ∈ l.map Prod.fst) :
    ∃ b, l.lookup n = some b := by
  induction l with
  | nil => cases h
  | cons p l ih =>
    obtain ⟨k, b⟩ := p
    rw [List.lookup_cons]
    by_cases hk : n = k
    · subst hk
      exact ⟨b, by simp⟩
    · rw [show (n == k) = false by simpa using hk]
      refine ih ?_
      simpa [hk] using h

theorem lookup_some_mem {B : Type} (l : List (String × B)) (n : String) (b : B) (h : l.lookup n = some b) :
    n ∈ l.map Prod.fst := by
  induction l with
  | nil => cases h
  | cons p l ih =>
    obtain ⟨k, c⟩ := p
    rw [List.lookup_cons] at h
    by_cases hk : n = k
    · subst hk
      simp
    · rw [show (n == k) = false by simpa using hk] at h
      exact List.mem_cons_of_mem _ (ih h)

/-- **C65.** Without a backend argument the functions use the backend that is registered under the name of the
current one; with an argument, the one registered under that name, if there is one. -/
theorem C65_used_backend {B : Type} (r : Registry B) (hr : Registry.Valid r) (names : List String) :
    (∃ b, r.backends.lookup (lastKnown r.list r.default names) = some b ∧
      (afterCalls r names).any none = .ok b ∧ (afterCalls r names).any (some "") = .ok b) ∧
    (∀ n, n ≠ "" → ∀ b, (afterCalls r names).any (some n) = .ok b ↔ r.backends.lookup n = some b) := by
  obtain ⟨h1, h2, h3⟩ := C65_current_backend r hr names
  have hb := afterCalls_backends names r
  constructor
  · rw [h2, h3] at h1
    have h1' : lastKnown r.list r.default names ∈ r.backends.map Prod.fst := by
      unfold Registry.list at h1 ⊢
      exact (List.mergeSort_perm _ _).mem_iff.mp h1
    obtain ⟨b, hb'⟩ := lookup_mem _ _ h1'
    refine ⟨b, hb', ?_, ?_⟩
    · unfold Registry.any Registry.resolve
      simp only [Option.getD_none, if_true, hb, h3, hb']
    · unfold Registry.any Registry.resolve
      simp only [Option.getD_some, if_true, hb, h3, hb']
  · intro n hn b
    unfold Registry.any Registry.resolve
    simp only [Option.getD_some, if_neg hn, hb]
    cases hl : r.backends.lookup n with
    | none => simp
    | some b' => simp

/-- The text is `wav` or `wave` in any case. -/
def IsWav (s : List Char) : Prop := s.map Char.toLower = "wav".toList ∨ s.map Char.toLower = "wave".toList

/-- The file name ends in `.wav` or `.wave` and something comes before. -/
def NamedWav (name : String) : Prop := ∃ stem ext, stem ≠ [] ∧ name.toList = stem ++ '.' :: ext ∧ IsWav ext

theorem isWav_no_dot {ext : List Char} (h : IsWav ext) : '.' ∉ ext ∧ ext ≠ [] := by
  constructor
  · intro hm
    have hm' : '.' ∈ ext.map Char.toLower := List.mem_map.mpr ⟨'.', hm, by decide⟩
    rcases h with h | h <;> rw [h] at hm' <;> revert hm' <;> decide
  · rintro rfl
    rcases h with h | h <;> simp at h

theorem takeWhile_ext {stem ext : List Char} (h : '.' ∉ ext) :
    ((stem ++ '.' :: ext).reverse.takeWhile (· ≠ '.')).reverse = ext := by
  have : (stem ++ '.' :: ext).reverse = ext.reverse ++ '.' :: stem.reverse := by simp
  rw [this, List.takeWhile_append_of_pos]
  · simp
  · intro c hc
    have : c ∈ ext := List.mem_reverse.mp hc
    simp only [ne_eq, decide_eq_true_eq]
    rintro rfl
    exact h this

/-- The last dot of a name. -/
theorem last_dot {name : List Char} (h : '.' ∈ name) : ∃ a b, name = a ++ '.' :: b ∧ '.' ∉ b := by
  induction name with
  | nil => cases h
  | cons c l ih =>
    by_cases hl : '.' ∈ l
    · obtain ⟨a, b, e, hb⟩ := ih hl
      exact ⟨c :: a, b, by rw [e]; rfl, hb⟩
    · obtain rfl : '.' = c := (List.mem_cons.mp h).resolve_right hl
      exact ⟨[], l, rfl, hl⟩

/-- What `path.suffix` is. -/
theorem suffixOf_eq (stem ext : List Char) (hd : '.' ∉ ext) :
    suffixOf (stem ++ '.' :: ext) = if stem ≠ [] ∧ ext ≠ [] then '.' :: ext else [] := by
  unfold suffixOf
  dsimp only
  rw [takeWhile_ext hd]
  have : (stem ++ '.' :: ext).length - ext.length - 1 = stem.length := by
    simp only [List.length_append, List.length_cons]
    omega
  rw [this]
  refine if_congr ?_ rfl rfl
  simp [List.length_pos_iff]

/-- The format that is inferred from a name is wav exactly for the names that end so. -/
theorem inferred_wav (name : String) :
    (String.ofList ((suffixOf name.toList).dropWhile (· = '.'))).toLower = "wav" ∨
      (String.ofList ((suffixOf name.toList).dropWhile (· = '.'))).toLower = "wave" ↔ NamedWav name := by
  have conv : ∀ l : List Char, ((String.ofList l).toLower = "wav" ∨ (String.ofList l).toLower = "wave") ↔ IsWav l := by
    intro l
    unfold IsWav
    rw [← String.toList_inj, ← String.toList_inj, toLower_toList, String.toList_ofList]
  rw [conv]
  have dropDot : ∀ ext : List Char, '.' ∉ ext → ext ≠ [] → ('.' :: ext).dropWhile (· = '.') = ext := by
    intro ext hd hne
    cases ext with
    | nil => exact absurd rfl hne
    | cons c l =>
      have : c ≠ '.' := fun h => hd (by rw [h]; exact List.mem_cons_self)
      simp [List.dropWhile_cons, this]
  constructor
  · intro h
    by_cases hm : '.' ∈ name.toList
    · obtain ⟨a, b, e, hb⟩ := last_dot hm
      rw [e, suffixOf_eq a b hb] at h
      split_ifs at h with hc
      · rw [dropDot b hb hc.2] at h
        exact ⟨a, b, hc.1, e, h⟩
      · exact absurd rfl (isWav_no_dot h).2
    · unfold suffixOf at h
      dsimp only at h
      rw [if_neg (fun h => hm h.1)] at h
      exact absurd rfl (isWav_no_dot h).2
  · rintro ⟨a, b, ha, e, hw⟩
    obtain ⟨hb, hne⟩ := isWav_no_dot hw
    rw [e, suffixOf_eq a b hb, if_pos ⟨ha, hne⟩, dropDot b hb hne]
    exact hw

/-- **C65.** The wav functions accept a call exactly if the format that is given is `wav` or `wave`, or none is
given and the file name ends so; they then use the backend that the other functions use. -/
theorem C65_wav_only {B : Type} (r : Registry B) (name : String) (backend format : Option String) (b : B) :
    r.wav name backend format = .ok b ↔
      ((∃ s, format = some s ∧ s ≠ "" ∧ IsWav s.toList) ∨ ((format = none ∨ format = some "") ∧ NamedWav name)) ∧
        r.any backend = .ok b := by
  have conv : ∀ s : String, (s.toLower = "wav" ∨ s.toLower = "wave") ↔ IsWav s.toList := by
    intro s
    unfold IsWav
    rw [← String.toList_inj, ← String.toList_inj, toLower_toList]
  have key : ∀ s : String, ((do
      let fmt ← (if s.toLower = "" then .error "Audio format could not be inferred from the path."
        else .ok s.toLower : Except String String)
      raiseIf (fmt ≠ "wav" ∧ fmt ≠ "wave") "a wav file is expected"
      r.resolve backend) = Except.ok b) ↔ (s.toLower = "wav" ∨ s.toLower = "wave") ∧ r.any backend = .ok b := by
    intro s
    by_cases h0 : s.toLower = ""
    · rw [if_pos h0, h0]
      constructor
      · intro h
        cases h
      · rintro ⟨h | h, -⟩ <;> exact absurd h (by decide)
    · rw [if_neg h0, ok_bind]
      by_cases hw : s.toLower = "wav" ∨ s.toLower = "wave"
      · rw [raiseIf_neg (by tauto), ok_bind]
        exact ⟨fun h => ⟨hw, h⟩, fun h => h.2⟩
      · constructor
        · intro h
          rw [raiseIf_bind_ok] at h
          exact absurd h.1 (by tauto)
        · exact fun h => absurd h.1 hw
  unfold Registry.wav normalizeFormat
  dsimp only
  rw [key]
  refine and_congr_left' ?_
  cases format with
  | none =>
    rw [Option.getD_none, if_pos rfl, inferred_wav]
    simp
  | some s =>
    rw [Option.getD_some]
    by_cases hs : s = ""
    · rw [if_pos hs, inferred_wav, hs]
      simp
    · rw [if_neg hs, conv]
      simp [hs]

/-- **C65, files.** `load` and `save` of `torchrir.io.audio` accept exactly the file names that end in `.wav` or
`.wave` in any case. -/
theorem C65_wav_files (name : String) : wavSuffix name = true ↔ NamedWav name := by
  have conv : ∀ l : List Char, (String.ofList l).toLower = ".wav" ∨ (String.ofList l).toLower = ".wave" ↔
      l.map Char.toLower = ".wav".toList ∨ l.map Char.toLower = ".wave".toList := by
    intro l
    rw [← String.toList_inj, ← String.toList_inj, toLower_toList, String.toList_ofList]
  have dot : ∀ ext : List Char, (('.' :: ext).map Char.toLower = ".wav".toList ∨
      ('.' :: ext).map Char.toLower = ".wave".toList) ↔ IsWav ext := by
    intro ext
    unfold IsWav
    rw [List.map_cons, show Char.toLower '.' = '.' by decide,
      show ".wav".toList = '.' :: "wav".toList by decide, show ".wave".toList = '.' :: "wave".toList by decide,
      List.cons.injEq, List.cons.injEq]
    simp
  unfold wavSuffix
  dsimp only
  rw [decide_eq_true_iff, conv]
  have no : ¬ (([] : List Char).map Char.toLower = ".wav".toList ∨
      ([] : List Char).map Char.toLower = ".wave".toList) := by decide
  constructor
  · intro h
    by_cases hm : '.' ∈ name.toList
    · obtain ⟨a, b, e, hb⟩ := last_dot hm
      rw [e, suffixOf_eq a b hb] at h
      split_ifs at h with hc
      · exact ⟨a, b, hc.1, e, (dot b).mp h⟩
      · exact absurd h no
    · unfold suffixOf at h
      dsimp only at h
      rw [if_neg (fun h => hm h.1)] at h
      exact absurd h no
  · rintro ⟨a, b, ha, e, hw⟩
    obtain ⟨hb, hne⟩ := isWav_no_dot hw
    rw [e, suffixOf_eq a b hb, if_pos ⟨ha, hne⟩]
    exact (dot b).mpr hw

example : wavSuffix "take.1.WAVE" = true :=
  (C65_wav_files _).mpr ⟨"take.1".toList, "WAVE".toList, by decide, by decide, .inr (by decide)⟩

/-- A registry with the real backend and another one. -/
def sampleRegistry : Registry ℕ := ⟨[("soundfile", 1), ("other", 2)], "soundfile"⟩

example : (afterCalls sampleRegistry ["other", "nothing"]).any none = .ok 2 ∧
    sampleRegistry.wav "a.b.WaV" none none = .ok 1 ∧ ∀ b, sampleRegistry.wav ".wav" none none ≠ .ok b := by
  refine ⟨rfl, (C65_wav_only _ _ _ _ _).mpr ⟨.inr ⟨.inl rfl, "a.b".toList, "WaV".toList, by decide, by decide,
    .inl (by decide)⟩, rfl⟩, fun b h => ?_⟩
  rcases (C65_wav_only _ _ _ _ _).mp h with ⟨⟨s, hs, -⟩ | ⟨-, stem, ext, h1, h2, h3⟩, -⟩
  · cases hs
  · cases stem with
    | nil => exact h1 rfl
    | cons c l =>
      have h2' : "wav".toList = l ++ '.' :: ext := (List.cons.inj h2).2
      have : '.' ∈ "wav".toList := by
        rw [h2']
        simp
      revert this
      decide

end Torchrir.Props
