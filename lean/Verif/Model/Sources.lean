import Verif.Model.Room

/-!
# Loading fixed-length source signals

Model of `choose_speakers` and `load_dataset_sources` in `src/torchrir/datasets/utils.py` (13-100) and
of `_load_fixed_length_signal` in `dynamic_cmu_arctic.py` (375-404). The random generator is adversarial:
`shuffle k` is what the `k`-th call of `rng.shuffle` does, `sample` what `rng.sample` returns. A loop that
may not end takes a number of steps and returns `none` while it is still running. Simplified: audio is
a list of samples (the loaders return one-dimensional tensors); `duration_s * fs` is exact.
-/

namespace Torchrir.Model

/-- The variables of the loops: the shuffled sentences, the index into them, the number of calls of
`shuffle` so far, the identifiers and the audio collected so far, and the number of samples in it. -/
structure Gather (ι : Type) where
  order : List ι
  idx : ℕ
  shuffles : ℕ
  ids : List ι
  chunks : List (List ℝ)
  total : ℕ

/-- `if idx >= len(sentences): rng.shuffle(sentences); idx = 0` (utils.py 76-78,
dynamic_cmu_arctic.py 393-395). -/
def Gather.refill {ι : Type} (shuffle : ℕ → List ι → List ι) (s : Gather ι) : Gather ι :=
  if s.order.length ≤ s.idx then
    { s with order := shuffle s.shuffles s.order, idx := 0, shuffles := s.shuffles + 1 }
  else s

/-- The loops `while …: sentence = sentences[idx]; …` (utils.py 75-91, dynamic_cmu_arctic.py 392-401).
`go r total` is the loop condition, `load r u` loads an utterance and checks its sampling rate; `r` is
what the loop knows about the sampling rate. -/
def gatherLoop {ι ρ : Type} (shuffle : ℕ → List ι → List ι) (go : ρ → ℕ → Bool)
    (load : ρ → ι → Except String (List ℝ × ρ)) :
    ℕ → ρ → Gather ι → Option (Except String (ρ × Gather ι))
  | 0, r, s => if go r s.total then none else some (.ok (r, s))
  | fuel + 1, r, s =>
    if go r s.total then
      match (s.refill shuffle).order[(s.refill shuffle).idx]? with
      | none => some (.error "list index out of range")
      | some u =>
        match load r u with
        | .error e => some (.error e)
        | .ok (a, r') =>
          gatherLoop shuffle go load fuel r'
            { s.refill shuffle with
              idx := (s.refill shuffle).idx + 1
              ids := s.ids ++ [u]
              chunks := s.chunks ++ [a]
              total := s.total + a.length }
    else some (.ok (r, s))

/-- `x[:n]` for an integer `n`. -/
def sliceTo (n : ℤ) (x : List ℝ) : List ℝ :=
  if 0 ≤ n then x.take n.toNat else x.take (x.length - (-n).toNat)

/-- The sentences of a speaker and what `load_audio` gives for them: samples and sampling rate. -/
structure SpeakerData (ι : Type) where
  sentences : List ι
  audio : ι → Except String (List ℝ × ℕ)

/-- Once the first utterance is loaded, the common sampling rate and the target length are known. -/
abbrev RateState := Option (ℕ × ℤ)

/-- `while target_samples is None or total < target_samples` (utils.py 75). -/
def wants (r : RateState) (total : ℕ) : Bool :=
  match r with
  | none => true
  | some (_, target) => decide ((total : ℤ) < target)

/-- Loading one utterance and checking its sampling rate (utils.py 81-88). -/
noncomputable def loadChecked {ι : Type} (d : SpeakerData ι) (duration : ℝ) (r : RateState) (u : ι) :
    Except String (List ℝ × RateState) :=
  match d.audio u with
  | .error e => .error e
  | .ok (a, rate) =>
    match r with
    | none => .ok (a, some (rate, trunc (duration * rate)))
    | some (fs, target) =>
      if rate ≠ fs then .error "sample rate mismatch" else .ok (a, some (fs, target))

/-- `torch.cat(segments, dim=0)[:target_samples]` (utils.py 93). -/
def catSlice (r : RateState) (chunks : List (List ℝ)) : Except String (List ℝ) :=
  if chunks = [] then .error "torch.cat(): expected a non-empty list of Tensors"
  else match r with
    | none => .ok chunks.flatten
    | some (_, target) => .ok (sliceTo target chunks.flatten)

/-- The body of the loop over the speakers (utils.py 62-95): one row, the identifiers used, what is
known about the rate, and the number of calls of `shuffle`. -/
noncomputable def loadSpeaker {ι : Type} (shuffle : ℕ → List ι → List ι) (duration : ℝ) (fuel : ℕ)
    (d : SpeakerData ι) (r : RateState) (k : ℕ) :
    Option (Except String (List ℝ × List ι × RateState × ℕ)) :=
  if d.sentences = [] then some (.error "no sentences found for speaker")
  else
    (gatherLoop shuffle wants (loadChecked d duration) fuel r
      ⟨shuffle k d.sentences, 0, k + 1, [], [], 0⟩).map fun out =>
      match out with
      | .error e => .error e
      | .ok (r', s) => (catSlice r' s.chunks).map fun row => (row, s.ids, r', s.shuffles)

/-- The loop over the speakers (utils.py 62-95). -/
noncomputable def loadSpeakers {ι σ : Type} (shuffle : ℕ → List ι → List ι) (duration : ℝ) (fuel : ℕ)
    (data : σ → SpeakerData ι) :
    List σ → RateState → ℕ → Option (Except String (List (List ℝ) × List (σ × List ι) × RateState))
  | [], r, _ => some (.ok ([], [], r))
  | spk :: rest, r, k =>
    match loadSpeaker shuffle duration fuel (data spk) r k with
    | none => none
    | some (.error e) => some (.error e)
    | some (.ok (row, ids, r', k')) =>
      match loadSpeakers shuffle duration fuel data rest r' k' with
      | none => none
      | some (.error e) => some (.error e)
      | some (.ok (rows, info, r'')) => some (.ok (row :: rows, (spk, ids) :: info, r''))

/-- `choose_speakers` (utils.py 13-29). -/
def chooseSpeakers {σ : Type} (sample : List σ → ℕ → List σ) (speakers : List σ) (numSources : ℤ) :
    Except String (List σ) :=
  if speakers = [] then .error "no speakers available"
  else if (speakers.length : ℤ) < numSources then .error "num_sources must be <= number of speakers"
  else if numSources < 0 then .error "Sample larger than population or is negative"
  else .ok (sample speakers numSources.toNat)

/-- `torch.stack(signals, dim=0)` and the last check (utils.py 97-100). -/
def stackRows {β : Type} (rows : List (List ℝ)) (info : β) (r : RateState) :
    Except String (List (List ℝ) × ℕ × β) :=
  match rows with
  | [] => .error "stack expects a non-empty TensorList"
  | row :: _ =>
    if ∃ x ∈ rows, x.length ≠ row.length then .error "stack expects each tensor to be equal size"
    else match r with
      | none => .error "no audio loaded from dataset sources"
      | some (fs, _) => .ok (rows, fs, info)

/-- `load_dataset_sources` (utils.py 32-100). -/
noncomputable def loadDatasetSources {ι σ : Type} (sample : List σ → ℕ → List σ)
    (shuffle : ℕ → List ι → List ι) (speakers : List σ) (data : σ → SpeakerData ι) (numSources : ℤ)
    (duration : ℝ) (fuel : ℕ) : Option (Except String (List (List ℝ) × ℕ × List (σ × List ι))) :=
  match chooseSpeakers sample speakers numSources with
  | .error e => some (.error e)
  | .ok chosen =>
    (loadSpeakers shuffle duration fuel data chosen none 0).map fun out =>
      match out with
      | .error e => .error e
      | .ok (rows, info, r) => stackRows rows info r

/-- `_load_fixed_length_signal` (dynamic_cmu_arctic.py 375-404); the sampling rate is not looked at. -/
def loadFixedLength {ι : Type} (shuffle : ℕ → List ι → List ι) (sentences : List ι)
    (audio : ι → Except String (List ℝ)) (target : ℤ) (fuel : ℕ) :
    Option (Except String (List ℝ × List ι)) :=
  if sentences = [] then some (.error "No sentences available in selected speaker dataset")
  else
    (gatherLoop shuffle (fun (_ : Unit) total => decide ((total : ℤ) < target))
      (fun _ u => (audio u).map fun a => (a, ())) fuel () ⟨shuffle 0 sentences, 0, 1, [], [], 0⟩).map
      fun out =>
        match out with
        | .error e => .error e
        | .ok (_, s) =>
          if s.chunks = [] then .error "torch.cat(): expected a non-empty list of Tensors"
          else .ok (sliceTo target s.chunks.flatten, s.ids)

end Torchrir.Model
