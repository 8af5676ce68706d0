import Verif.Model.Ism

/-!
# Attribution files

Model of `save_attribution_file` in `src/torchrir/io/outputs.py`.
-/

namespace Torchrir.Model

/-- A value of the attribution mapping: `None`, or anything else as `str` shows it. -/
inductive AttrValue where
  | none
  | shown (s : String)

/-- `str(value)`. -/
def AttrValue.str : AttrValue → String
  | .none => "None"
  | .shown s => s

/-- The argument `dataset_attribution`: something with a mapping of fields (a mapping, an object with
`to_dict`, a dataclass), or something else (outputs.py 118-132). -/
inductive Attribution where
  | fields (info : List (String × AttrValue))
  | other

/-- The fields that must be there (outputs.py 133-139). -/
def requiredFields : List String := ["dataset", "source", "license_name", "license_url", "required_attribution"]

/-- `_coerce_attribution_mapping` (outputs.py 118-143). -/
def coerceAttribution : Attribution → Except String (List (String × AttrValue))
  | .other => .error "dataset_attribution must be a mapping, dataclass, or expose to_dict()."
  | .fields info =>
    if requiredFields.all fun k => (info.lookup k).isSome then .ok info
    else .error "dataset_attribution missing required keys"

/-- `info[key]` as text. -/
def fieldText (info : List (String × AttrValue)) (key : String) : String :=
  ((info.lookup key).getD .none).str

/-- `lines.append(f"Subset: {subset}")` (outputs.py 59-61). -/
def subsetLines (info : List (String × AttrValue)) : List String :=
  match info.lookup "subset" with
  | some (.shown s) => ["Subset: " ++ s]
  | _ => []

/-- The lines of the file (outputs.py 48-73). -/
def attributionLines (info : List (String × AttrValue)) (modifications : List String) : List String :=
  ["TorchRIR Dataset Attribution", "", "This directory contains derived audio generated with TorchRIR.", "",
    "Dataset: " ++ fieldText info "dataset",
    "Source: " ++ fieldText info "source",
    "License: " ++ fieldText info "license_name",
    "License URL: " ++ fieldText info "license_url",
    "Required attribution: " ++ fieldText info "required_attribution"] ++
  subsetLines info ++
  ["", "Modifications applied in this output:"] ++ modifications.map ("- " ++ ·) ++
  ["", "When redistributing these derived files, keep this attribution file",
    "and include the upstream dataset license terms.", "", "See repository notice: THIRD_PARTY_DATASETS.md"]

/-- `save_attribution_file` (outputs.py 36-78): the content of the file, if it is written. `old` is what was
there before. -/
def saveAttribution (a : Attribution) (modifications : List String) (old : Option String) :
    Option String × Except String Unit :=
  match coerceAttribution a with
  | .error e => (old, .error e)
  | .ok info => (some ("\n".intercalate (attributionLines info modifications) ++ "\n"), .ok ())

/-! ## Supported datasets -/

/-- `attribution_for(dataset, subset).to_dict()` (datasets/attribution.py 27-56). Simplified: `lower` is
ASCII. -/
def attributionFor (dataset : String) (subset : Option String) : Except String (List (String × AttrValue)) :=
  if dataset.toLower = "cmu_arctic" then
    .ok [("dataset_key", .shown "cmu_arctic"), ("dataset", .shown "CMU ARCTIC"),
      ("source", .shown "http://www.festvox.org/cmu_arctic/"),
      ("license_name", .shown "Permissive (attribution required; see upstream COPYING)"),
      ("license_url", .shown "http://www.festvox.org/cmu_arctic/"),
      ("required_attribution",
        .shown "Carnegie Mellon University, Language Technologies Institute (CMU ARCTIC)"),
      ("attribution_required", .shown "True"), ("subset", .none)]
  else if dataset.toLower = "librispeech" then
    .ok [("dataset_key", .shown "librispeech"), ("dataset", .shown "LibriSpeech (SLR12)"),
      ("source", .shown "https://www.openslr.org/12"),
      ("license_name", .shown "Creative Commons Attribution 4.0 International (CC BY 4.0)"),
      ("license_url", .shown "https://creativecommons.org/licenses/by/4.0/"),
      ("required_attribution",
        .shown "Vassil Panayotov, Guoguo Chen, Daniel Povey, and Sanjeev Khudanpur (LibriSpeech, 2015)"),
      ("attribution_required", .shown "True"), ("subset", subset.elim .none .shown)]
  else .error "unsupported dataset"

/-- `default_modification_notes` (datasets/attribution.py 59-75). -/
def modificationNotes (dynamic : Bool) : List String :=
  ["Utterances are concatenated and trimmed to a fixed duration per source.",
    if dynamic then "Dynamic room impulse responses are simulated with ISM over trajectories."
    else "Static room impulse responses are simulated with ISM at fixed geometry.",
    "Outputs are derived mixtures and per-source convolved references."]

end Torchrir.Model
