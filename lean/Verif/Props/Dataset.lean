import Verif.Model.Dataset
import Verif.Lemmas.Lists
import Verif.Lemmas.Inverse
import Mathlib.Data.List.Forall2
import Mathlib.Tactic.NormNum

/-! # Batches (C55) and datasets as sequences (C56) -/

namespace Torchrir.Props

open Torchrir.Model Torchrir.Lemmas

/-- The audio of an item is one-dimensional: all dimensions but the last have size 1. -/
def OneDim {μ : Type} (it : Item μ) : Prop :=
  it.audio.data.length = it.audio.numel ∧ ∀ k ∈ it.audio.shape.dropLast, k = 1

/-- `b` is the batch of the items: for every item, in order, a row that begins with its audio and is filled
up with `pad` to the length of the longest one. -/
structure IsBatch {μ : Type} (items : List (Item μ)) (pad : ℝ) (keep : Bool) (b : Batch μ) : Prop where
  rows : ∃ n, b.audio = items.map (fun it => it.audio.data ++ List.replicate (n - it.audio.data.length) pad) ∧
    (∀ it ∈ items, it.audio.data.length ≤ n) ∧ ∃ it ∈ items, it.audio.data.length = n
  lengths : b.lengths = items.map (fun it => it.audio.data.length)
  rate : ∀ it ∈ items, it.sampleRate = b.sampleRate
  ids : b.utteranceIds = items.map (·.utteranceId)
  texts : b.texts = items.map (·.text)
  speakers : b.speakers = items.map (·.speaker)
  metadata : b.metadata = if keep then some (items.map (·.metadata)) else none

theorem le_foldl_max (l : List ℕ) : ∀ a, a ≤ l.foldl max a ∧ (∀ x ∈ l, x ≤ l.foldl max a) ∧
    (l.foldl max a = a ∨ l.foldl max a ∈ l) := by
  induction l with
  | nil => exact fun a => ⟨le_rfl, fun x hx => (nomatch hx), Or.inl rfl⟩
  | cons x l ih =>
    intro a
    obtain ⟨h1, h2, h3⟩ := ih (max a x)
    refine ⟨le_trans (le_max_left _ _) h1, fun y hy => ?_, ?_⟩
    · rcases List.mem_cons.mp hy with rfl | hy
      · exact le_trans (le_max_right _ _) h1
      · exact h2 y hy
    · rw [List.foldl_cons]
      rcases h3 with h3 | h3
      · rcases le_total a x with h | h
        · right
          rw [h3, max_eq_right h]
          exact List.mem_cons_self
        · left
          rw [h3, max_eq_left h]
      · exact Or.inr (List.mem_cons_of_mem _ h3)

theorem castVec_same {t t' : NumType} (h : t = .floating ∨ t' = t) {v : Vec}
    (hv : t' = .int64 → ∀ x ∈ v, ∃ z : ℤ, x = z) : castVec t v = v := by
  cases t with
  | floating => rfl
  | int64 =>
    have ht : t' = .int64 := h.resolve_left (by simp)
    unfold castVec
    conv_rhs => rw [← List.map_id v]
    refine List.map_congr_left fun x hx => ?_
    obtain ⟨z, rfl⟩ := hv ht x hx
    unfold trunc
    simp

/-- The values of an item are values of its dtype. -/
def Typed (t : NumType) (v : List ℝ) : Prop := t = .int64 → ∀ x ∈ v, ∃ z : ℤ, x = z

theorem any_rate {μ : Type} {first : Item μ} {rest : List (Item μ)} :
    ¬ rest.any (·.sampleRate != first.sampleRate) = true ↔
      ∀ it ∈ first :: rest, it.sampleRate = first.sampleRate := by
  simp

theorem assignPrefix_ok {type : NumType} {row : List ℝ} {value : Tensor ℝ} :
    (∃ y, assignPrefix type row value = .ok y) ↔ ∀ k ∈ value.shape.dropLast, k = 1 := by
  unfold assignPrefix
  split_ifs with h
  · simpa using h
  · simpa using h

/-- **C55 (acceptance).** Collation succeeds exactly for the non-empty batches of one-dimensional items
with one sampling rate. -/
theorem C55_accepted {μ : Type} (items : List (Item μ)) (pad : ℝ) (keep : Bool) :
    (∃ b, collate items pad keep = .ok b) ↔
      items ≠ [] ∧ (∀ it ∈ items, ∀ it' ∈ items, it.sampleRate = it'.sampleRate) ∧
        ∀ it ∈ items, ∀ k ∈ it.audio.shape.dropLast, k = 1 := by
  cases items with
  | nil => simp [collate]
  | cons first rest =>
    simp only [collate]
    by_cases hr : rest.any (·.sampleRate != first.sampleRate)
    · rw [if_pos hr]
      constructor
      · rintro ⟨b, hb⟩
        cases hb
      · rintro ⟨-, h, -⟩
        exact absurd hr (any_rate.mpr fun it hit => h it hit first List.mem_cons_self)
    · rw [if_neg hr]
      have hall := any_rate.mp hr
      constructor
      · rintro ⟨b, hb⟩
        rw [bind_eq_ok] at hb
        obtain ⟨rows, hrows, -⟩ := hb
        exact ⟨by simp, fun it hit it' hit' => (hall it hit).trans (hall it' hit').symm,
          fun it hit => assignPrefix_ok.mp (mapM_ok_mem hrows it hit)⟩
      · rintro ⟨-, -, hd⟩
        have h := fun it hit => assignPrefix_ok (type := first.type)
          (row := List.replicate (((first :: rest).map (·.audio.numel)).foldl max 0)
            ((castVec first.type [pad]).getD 0 0)) |>.mpr (hd it hit)
        choose! g hg using h
        rw [mapM_ok (l := first :: rest) hg]
        exact ⟨_, rfl⟩

/-- **C55 (what is returned)**, for items that all have the dtype of the first one, or any dtype if the
first one is floating. -/
theorem C55_batch_partial {μ : Type} (items : List (Item μ)) (pad : ℝ) (keep : Bool)
    (hnumel : ∀ it ∈ items, it.audio.data.length = it.audio.numel)
    (htyped : ∀ it ∈ items, Typed it.type it.audio.data)
    (htype : ∀ it ∈ items, ∀ first ∈ items.head?, first.type = .floating ∨ it.type = first.type)
    (hpad : ∀ first ∈ items.head?, Typed first.type [pad]) (b : Batch μ)
    (h : collate items pad keep = .ok b) : IsBatch items pad keep b := by
  have hacc := (C55_accepted items pad keep).mp ⟨b, h⟩
  cases items with
  | nil => cases h
  | cons first rest =>
    have hdim := hacc.2.2
    simp only [collate] at h
    rw [if_neg (any_rate.mpr fun it hit => hacc.2.1 it hit first List.mem_cons_self)] at h
    rw [bind_eq_ok] at h
    obtain ⟨rows, hrows, h⟩ := h
    have hp : (castVec first.type [pad]).getD 0 0 = pad := by
      rw [castVec_same (Or.inr rfl) (hpad first (by simp))]
      rfl
    rw [hp] at hrows
    set n := ((first :: rest).map (·.audio.numel)).foldl max 0 with hn
    have hg : ∀ it ∈ first :: rest, assignPrefix first.type (List.replicate n pad) it.audio =
        .ok (it.audio.data ++ List.replicate (n - it.audio.data.length) pad) := by
      intro it hit
      unfold assignPrefix
      rw [if_pos (List.all_eq_true.mpr fun k hk => by simpa using hdim it hit k hk),
        castVec_same (htype it hit first (by simp)) (htyped it hit), List.drop_replicate, hnumel it hit]
    rw [mapM_ok hg] at hrows
    cases hrows
    cases h
    have hmax := le_foldl_max ((first :: rest).map (·.audio.numel)) 0
    rw [← hn] at hmax
    refine ⟨⟨n, rfl, fun it hit => ?_, ?_⟩, List.map_congr_left fun it hit => (hnumel it hit).symm,
      fun it hit => hacc.2.1 it hit first List.mem_cons_self, rfl, rfl, rfl, rfl⟩
    · rw [hnumel it hit]
      exact hmax.2.1 _ (List.mem_map_of_mem hit)
    · rcases hmax.2.2 with h0 | hmem
      · refine ⟨first, List.mem_cons_self, ?_⟩
        have := hmax.2.1 first.audio.numel (List.mem_map_of_mem (f := fun x : Item μ => x.audio.numel) List.mem_cons_self)
        rw [hnumel first List.mem_cons_self]
        omega
      · obtain ⟨it, hit, he⟩ := List.mem_map.mp hmem
        exact ⟨it, hit, (hnumel it hit).trans he⟩

/-- **C55 fails for mixed dtypes.** After an integer item the audio of a floating one is truncated. -/
theorem C55_mixed_dtypes_fails :
    ∃ b : Batch Unit, collate [⟨.int64, ⟨[1], [3]⟩, 8000, "a", none, none, none⟩,
      ⟨.floating, ⟨[1], [1 / 2]⟩, 8000, "b", none, none, none⟩] 0 false = .ok b ∧ b.audio = [[3], [0]] := by
  have h2 : trunc (2⁻¹ : ℝ) = 0 := by
    unfold trunc
    norm_num
  have h3 : trunc (3 : ℝ) = 3 := by
    unfold trunc
    norm_num
  refine ⟨⟨[[3], [0]], [1, 1], 8000, ["a", "b"], [none, none], [none, none], none⟩, ?_, ?_⟩
  · simp [collate, assignPrefix, Tensor.numel, castVec, h2, h3]
    rfl
  · rfl

-- two items of different lengths
example : collate [(⟨.floating, ⟨[1], [3]⟩, 8000, "a", none, none, none⟩ : Item Unit),
    ⟨.floating, ⟨[1, 2], [1, 2]⟩, 8000, "b", some "x", none, none⟩] 7 false =
      .ok ⟨[[3, 7], [1, 2]], [1, 2], 8000, ["a", "b"], [none, some "x"], [none, none], none⟩ := by
  simp [collate, assignPrefix, Tensor.numel, castVec]
  rfl

/-! ## C56 -/

/-- The sentence a Python index denotes: `0 … n - 1` from the start, `-n … -1` from the end. -/
def Denotes (sentences : List Sentence) (z : ℤ) (s : Sentence) : Prop :=
  ∃ k : ℕ, sentences[k]? = some s ∧ (z = k ∨ z = (k : ℤ) - sentences.length)

theorem pyGet_ok {α : Type} {l : List α} {z : ℤ} {x : α} :
    pyGet l z = .ok x ↔ ∃ k : ℕ, l[k]? = some x ∧ (z = k ∨ z = (k : ℤ) - l.length) := by
  unfold pyGet
  constructor
  · intro h
    dsimp only at h
    split_ifs at h with h1 h2
    · cases hk : l[(z + l.length).toNat]? with
      | none =>
        rw [hk] at h
        cases h
      | some y =>
        rw [hk] at h
        cases h
        exact ⟨_, hk, Or.inr (by omega)⟩
    · cases hk : l[z.toNat]? with
      | none =>
        rw [hk] at h
        cases h
      | some y =>
        rw [hk] at h
        cases h
        exact ⟨_, hk, Or.inl (by omega)⟩
  · rintro ⟨k, hk, rfl | rfl⟩
    · dsimp only
      rw [if_neg (by omega), if_neg (by omega), Int.toNat_natCast, hk]
    · obtain ⟨hlt, -⟩ := List.getElem?_eq_some_iff.mp hk
      dsimp only
      rw [if_pos (show (k : ℤ) - l.length < 0 by omega), if_neg (by omega)]
      have : ((k : ℤ) - l.length + l.length).toNat = k := by omega
      rw [this, hk]

theorem pyGet_error {α : Type} {l : List α} {z : ℤ} (h : z < -(l.length : ℤ) ∨ (l.length : ℤ) ≤ z) :
    pyGet l z = .error "list index out of range" := by
  unfold pyGet
  dsimp only
  split_ifs with h1 h2
  · rfl
  · omega
  · rw [List.getElem?_eq_none (by omega)]

theorem after_cached {W : Type} (f : Files W) (d : DatasetObj) (s : List Sentence) (hd : d.cache = some s)
    (h : List (W × DatasetUse)) : h.foldl (DatasetObj.after f) d = d := by
  induction h with
  | nil => rfl
  | cons u h ih =>
    obtain ⟨w, u⟩ := u
    have : d.after f (w, u) = d := by
      rcases u with _ | (z | _)
      · simp [DatasetObj.after, datasetLen, getSentences, hd]
      · simp [DatasetObj.after, datasetGet, getSentences, hd]
      · rfl
    rw [List.foldl_cons, this, ih]

/-- The sentence list is the one found at the first use that could list the sentences. -/
theorem first_listing {W : Type} (f : Files W) (d : DatasetObj) (hd : d.cache = none) (w : W)
    (s : List Sentence) (hs : f.available w = .ok s) (z : ℤ) :
    (d.after f (w, .len)).cache = some s ∧ (d.after f (w, .get (.int z))).cache = some s := by
  simp [DatasetObj.after, datasetLen, datasetGet, getSentences, hd, hs]

/-- **C56.** Once the sentences have been listed (with the files in the state `w₀`), then after any further
uses with the files in any states: the length is the number of sentences found then; an index gives
the item of the sentence that it denotes in the list found then; every other index raises. -/
theorem C56_snapshot_partial {W μ : Type} (f : Files W) (speaker : Option String) (w₀ : W)
    (s : List Sentence) (hs : f.available w₀ = .ok s) (u : DatasetUse) (hu : u ≠ .get .other)
    (history : List (W × DatasetUse)) (w : W) :
    let d := ((w₀, u) :: history).foldl (DatasetObj.after f) ⟨none, speaker⟩
    (datasetLen f w d).2 = .ok s.length ∧
    (∀ z sentence, Denotes s z sentence →
      (datasetGet (μ := μ) f w d (.int z)).2 = (f.audio w sentence.utteranceId).map fun a =>
        ⟨.floating, a.1, a.2, sentence.utteranceId, sentence.text, speaker, none⟩) ∧
    (∀ z : ℤ, z < -(s.length : ℤ) ∨ (s.length : ℤ) ≤ z →
      (datasetGet (μ := μ) f w d (.int z)).2 = .error "list index out of range") ∧
    (datasetGet (μ := μ) f w d .other).2 = .error "Index must be int" := by
  have h1 : DatasetObj.after f ⟨none, speaker⟩ (w₀, u) = ⟨some s, speaker⟩ := by
    rcases u with _ | (z | _)
    · simp [DatasetObj.after, datasetLen, getSentences, hs]
    · simp [DatasetObj.after, datasetGet, getSentences, hs]
    · exact absurd rfl hu
  simp only [List.foldl_cons]
  rw [h1, after_cached f _ s rfl]
  refine ⟨rfl, fun z sentence hz => ?_, fun z hz => ?_, rfl⟩
  · have := pyGet_ok.mpr hz
    simp only [datasetGet, getSentences, Except.bind, this]
    rfl
  · simp only [datasetGet, getSentences, Except.bind, pyGet_error hz]

/-- **C56 (indices).** `i` and `i - len` denote the same item. -/
theorem C56_negative_index {W μ : Type} (f : Files W) (w : W) (d : DatasetObj) (s : List Sentence)
    (hd : d.cache = some s) (i : ℕ) (hi : i < s.length) :
    datasetGet (μ := μ) f w d (.int i) = datasetGet f w d (.int ((i : ℤ) - s.length)) := by
  have h1 : pyGet s (i : ℤ) = .ok s[i] := pyGet_ok.mpr ⟨i, List.getElem?_eq_getElem hi, Or.inl rfl⟩
  have h2 : pyGet s ((i : ℤ) - s.length) = .ok s[i] :=
    pyGet_ok.mpr ⟨i, List.getElem?_eq_getElem hi, Or.inr rfl⟩
  simp only [datasetGet, getSentences, hd, Except.bind, h1, h2]

/-- **C56 fails for the audio.** The audio of an item is read again at every use: after a change of the
files the same index gives another item. -/
theorem C56_audio_fails :
    ∃ (f : Files Bool) (d : DatasetObj), d = DatasetObj.after f {} (false, .len) ∧
      ∃ a b : Item Unit, (datasetGet f false d (.int 0)).2 = .ok a ∧ (datasetGet f true d (.int 0)).2 = .ok b ∧
        a.audio.data ≠ b.audio.data := by
  refine ⟨⟨fun _ => .ok [⟨"u", none⟩], fun w _ => .ok (⟨[1], [if w then 1 else 0]⟩, 8000)⟩, _, rfl,
    _, _, rfl, rfl, ?_⟩
  simp

-- a listing with two sentences, and the last one by a negative index, after the files are gone
example : let f : Files Bool := ⟨fun w => if w then .error "gone" else .ok [⟨"u", none⟩, ⟨"v", some "t"⟩],
      fun _ _ => .ok (⟨[1], [2]⟩, 8000)⟩
    (datasetGet (μ := Unit) f true (DatasetObj.after f {} (false, .len)) (.int (-1))).2 =
      .ok ⟨.floating, ⟨[1], [2]⟩, 8000, "v", some "t", none, none⟩ := by
  rfl

end Torchrir.Props
