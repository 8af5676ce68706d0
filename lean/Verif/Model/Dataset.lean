import Verif.Model.Arrays

/-!
# Datasets as sequences, and batches

Model of `src/torchrir/datasets/base.py` (21-75) and `collate.py` (15-90).
-/

namespace Torchrir.Model

/-- A `DatasetItem` (base.py 21-29). The audio tensor has a dtype; `metadata` is what
`getattr(item, "metadata", None)` gives (collate.py 80). -/
structure Item (μ : Type) where
  type : NumType := .floating
  audio : Tensor ℝ
  sampleRate : ℕ
  utteranceId : String
  text : Option String := none
  speaker : Option String := none
  metadata : Option μ := none

/-- A `CollateBatch` (collate.py 14-34). -/
structure Batch (μ : Type) where
  audio : List (List ℝ)
  lengths : List ℕ
  sampleRate : ℕ
  utteranceIds : List String
  texts : List (Option String)
  speakers : List (Option String)
  metadata : Option (List (Option μ))

/-- `row[: value.numel()] = value`: leading dimensions of size 1 are dropped, any other second dimension is
an error; the values are converted to the dtype of the row (collate.py 71). -/
noncomputable def assignPrefix (type : NumType) (row : List ℝ) (value : Tensor ℝ) :
    Except String (List ℝ) :=
  if value.shape.dropLast.all (· == 1) then .ok (castVec type value.data ++ row.drop value.numel)
  else .error "expand: the number of sizes provided must be greater or equal to the number of dimensions"

/-- `collate_dataset_items` (collate.py 37-90). `torch.full` converts `pad_value` to the dtype too. -/
noncomputable def collate {μ : Type} (items : List (Item μ)) (pad : ℝ := 0) (keepMetadata : Bool := false) :
    Except String (Batch μ) :=
  match items with
  | [] => .error "collate_dataset_items received an empty batch"
  | first :: rest =>
    if rest.any (·.sampleRate != first.sampleRate) then
      .error "sample_rate must be consistent within a batch"
    else do
      let lengths := (first :: rest).map (·.audio.numel)
      let maxLen := lengths.foldl max 0
      let rows ← (first :: rest).mapM fun it =>
        assignPrefix first.type (List.replicate maxLen ((castVec first.type [pad]).getD 0 0)) it.audio
      return {
        audio := rows
        lengths := lengths
        sampleRate := first.sampleRate
        utteranceIds := (first :: rest).map (·.utteranceId)
        texts := (first :: rest).map (·.text)
        speakers := (first :: rest).map (·.speaker)
        metadata := if keepMetadata then some ((first :: rest).map (·.metadata)) else none }

/-! ## `BaseDataset` -/

/-- A sentence: identifier and `getattr(sentence, "text", None)`. -/
structure Sentence where
  utteranceId : String
  text : Option String

/-- What the subclass reads from the files, in the state `W` they are in: the sentences with audio
(`available_sentences`) and the audio of an utterance (`load_audio`). -/
structure Files (W : Type) where
  available : W → Except String (List Sentence)
  audio : W → String → Except String (Tensor ℝ × ℕ)

/-- An index: a Python `int` (of which `bool` is a subclass) or anything else. -/
inductive PyIndex where
  | int (z : ℤ)
  | other

/-- `sentences[idx]` for a Python list. -/
def pyGet {α : Type} (l : List α) (z : ℤ) : Except String α :=
  let k := if z < 0 then z + l.length else z
  if k < 0 then .error "list index out of range"
  else match l[k.toNat]? with
    | none => .error "list index out of range"
    | some x => .ok x

/-- A dataset object: `_sentences_cache` and `speaker` (base.py 35, 63). -/
structure DatasetObj where
  cache : Option (List Sentence) := none
  speaker : Option String := none

/-- `_get_sentences` (base.py 72-75): the object afterwards and the sentences. -/
def getSentences {W : Type} (f : Files W) (w : W) (d : DatasetObj) :
    DatasetObj × Except String (List Sentence) :=
  match d.cache with
  | some s => (d, .ok s)
  | none =>
    match f.available w with
    | .error e => (d, .error e)
    | .ok s => ({ d with cache := some s }, .ok s)

/-- `__len__` (base.py 53-54). -/
def datasetLen {W : Type} (f : Files W) (w : W) (d : DatasetObj) : DatasetObj × Except String ℕ :=
  let r := getSentences f w d
  (r.1, r.2.map List.length)

/-- The item made of a sentence (base.py 61-70). -/
def loadItem {W μ : Type} (f : Files W) (w : W) (speaker : Option String) (s : Sentence) :
    Except String (Item μ) :=
  (f.audio w s.utteranceId).map fun a =>
    { audio := a.1, sampleRate := a.2, utteranceId := s.utteranceId, text := s.text, speaker := speaker }

/-- `__getitem__` (base.py 56-70). -/
def datasetGet {W μ : Type} (f : Files W) (w : W) (d : DatasetObj) (idx : PyIndex) :
    DatasetObj × Except String (Item μ) :=
  match idx with
  | .other => (d, .error "Index must be int")
  | .int z =>
    let r := getSentences f w d
    (r.1, r.2.bind fun s => (pyGet s z).bind (loadItem f w d.speaker))

/-- One use of the object. -/
inductive DatasetUse where
  | len
  | get (idx : PyIndex)

/-- The object after a use, in the state of the files at that moment. -/
def DatasetObj.after {W : Type} (f : Files W) (d : DatasetObj) : W × DatasetUse → DatasetObj
  | (w, .len) => (datasetLen f w d).1
  | (w, .get i) => (datasetGet (μ := Unit) f w d i).1

end Torchrir.Model
