import Verif.Model.Metadata
import Verif.Model.Ism

/-!
# The metadata file

Model of `_to_serializable`, of the whole dictionary of `build_metadata` and of `save_metadata_json`
(`src/torchrir/io/metadata.py` 28-148, 209-220). The text of a JSON document is left out: a file is a tree of JSON
values, or a text that ends too early. Keys that are floats and tensors of booleans are left out.
-/

namespace Torchrir.Model

/-- A key of a Python dictionary; `other` for keys of any other type. -/
inductive PyKey where
  | str (s : String)
  | int (z : ℤ)
  | bool (b : Bool)
  | none
  | other (type : String)

/-- A Python value; `other` for objects of any other type. -/
inductive PyVal where
  | none
  | bool (b : Bool)
  | num (x : PyNum)
  | str (s : String)
  | tensor (t : Tensor PyNum)
  | path (p : String)
  | dict (entries : List (PyKey × PyVal))
  | list (items : List PyVal)
  | tuple (items : List PyVal)
  | other (type : String)

/-- `tensor.tolist()` for a shape and the elements. -/
def nestList : List ℕ → List PyNum → PyVal
  | [], d => match d with
    | x :: _ => .num x
    | [] => .none
  | n :: rest, d => .list ((groups n rest.prod d).map (nestList rest))

mutual
/-- `_to_serializable` (metadata.py 209-220). -/
def toSerializable : PyVal → PyVal
  | .none => .none
  | .bool b => .bool b
  | .num x => .num x
  | .str s => .str s
  | .tensor t => nestList t.shape t.data
  | .path p => .str p
  | .dict entries => .dict (toSerializableEntries entries)
  | .list items => .list (toSerializableItems items)
  | .tuple items => .list (toSerializableItems items)
  | .other type => .other type

/-- The comprehension over a list or tuple (metadata.py 219). -/
def toSerializableItems : List PyVal → List PyVal
  | [] => []
  | v :: rest => toSerializable v :: toSerializableItems rest

/-- The comprehension over a dictionary (metadata.py 217). -/
def toSerializableEntries : List (PyKey × PyVal) → List (PyKey × PyVal)
  | [] => []
  | (k, v) :: rest => (k, toSerializable v) :: toSerializableEntries rest
end

/-- A JSON value as `json` writes it: integers and floats are distinguished, `NaN` and `Infinity` are allowed. -/
inductive Json where
  | null
  | bool (b : Bool)
  | num (x : PyNum)
  | str (s : String)
  | arr (items : List Json)
  | obj (entries : List (String × Json))

/-- How `json` writes a key. -/
def PyKey.text : PyKey → Except String String
  | .str s => .ok s
  | .int z => .ok (toString z)
  | .bool b => .ok (if b then "true" else "false")
  | .none => .ok "null"
  | .other type => .error ("TypeError: keys must be str, int, float, bool or None, not " ++ type)

mutual
/-- `json.dump(value, f)` (metadata.py 148). -/
def toJson : PyVal → Except String Json
  | .none => .ok .null
  | .bool b => .ok (.bool b)
  | .num x => .ok (.num x)
  | .str s => .ok (.str s)
  | .tensor _ => .error "TypeError: Object of type Tensor is not JSON serializable"
  | .path _ => .error "TypeError: Object of type PosixPath is not JSON serializable"
  | .dict entries => (toJsonEntries entries).map .obj
  | .list items => (toJsonItems items).map .arr
  | .tuple items => (toJsonItems items).map .arr
  | .other type => .error ("TypeError: Object of type " ++ type ++ " is not JSON serializable")

/-- The items of a list. -/
def toJsonItems : List PyVal → Except String (List Json)
  | [] => .ok []
  | v :: rest => do
    let j ← toJson v
    let js ← toJsonItems rest
    return j :: js

/-- The entries of a dictionary. -/
def toJsonEntries : List (PyKey × PyVal) → Except String (List (String × Json))
  | [] => .ok []
  | (k, v) :: rest => do
    let s ← k.text
    let j ← toJson v
    let js ← toJsonEntries rest
    return (s, j) :: js
end

/-- `d[key] = value`. -/
def setEntry (key : String) (value : PyVal) : List (PyKey × PyVal) → List (PyKey × PyVal)
  | [] => [(.str key, value)]
  | (k, v) :: rest =>
    match k with
    | .str s => if s = key then (k, value) :: rest else (k, v) :: setEntry key value rest
    | _ => (k, v) :: setEntry key value rest

mutual
/-- `json.load`. -/
def fromJson : Json → PyVal
  | .null => .none
  | .bool b => .bool b
  | .num x => .num x
  | .str s => .str s
  | .arr items => .list (fromJsonItems items)
  | .obj entries => .dict (fromJsonEntries [] entries)

/-- The items of an array. -/
def fromJsonItems : List Json → List PyVal
  | [] => []
  | j :: rest => fromJson j :: fromJsonItems rest

/-- The members of an object, one after the other; of members with the same name the last one counts. -/
def fromJsonEntries (found : List (PyKey × PyVal)) : List (String × Json) → List (PyKey × PyVal)
  | [] => found
  | (s, j) :: rest => fromJsonEntries (setEntry s (fromJson j) found) rest
end

/-- A text file: a JSON document, or one that ends too early. -/
inductive JsonFile where
  | whole (j : Json)
  | cut

/-- `save_metadata_json` (metadata.py 138-148). The file is emptied before the first character is written, and what was
written before an exception stays. -/
def saveMetadataJson (disk : String → Option JsonFile) (path : String) (value : PyVal) :
    (String → Option JsonFile) × Except String Unit :=
  match toJson value with
  | .ok j => (Function.update disk path (some (.whole j)), .ok ())
  | .error e => (Function.update disk path (some .cut), .error e)

/-- `json.load(open(path))`. -/
def loadJson (disk : String → Option JsonFile) (path : String) : Except String PyVal :=
  match disk path with
  | some (.whole j) => .ok (fromJson j)
  | some .cut => .error "JSONDecodeError"
  | none => .error "FileNotFoundError"

/-- A Python float. -/
def floatVal (x : ℝ) : PyVal := .num (.float (.fin x))

/-- A tensor of floats. -/
def tensorVal (t : Tensor ℝ) : PyVal := .tensor ⟨t.shape, t.data.map fun x => .float (.fin x)⟩

/-- A value that may be `None`. -/
def optionVal {α : Type} (f : α → PyVal) : Option α → PyVal
  | some x => f x
  | none => .none

/-- `tolist()` of a vector. -/
def vecVal (v : List ℝ) : PyVal := .list (v.map floatVal)

/-- `tolist()` of a matrix. -/
def matVal (m : List (List ℝ)) : PyVal := .list (m.map vecVal)

/-- `tolist()` of a tensor with three axes. -/
def cubeVal (m : List (List (List ℝ))) : PyVal := .list (m.map matVal)

/-- The part of the dictionary that is always there (metadata.py 96-127); the values that are computed are those of
`buildMetadata`. -/
def metadataEntries (room : Room) (sources mics : Entity) (m : Metadata) : List (PyKey × PyVal) :=
  [(.str "room", .dict [(.str "size", vecVal room.size), (.str "c", floatVal room.c), (.str "beta", optionVal vecVal room.beta),
      (.str "t60", optionVal floatVal room.t60), (.str "fs", floatVal room.fs)]),
    (.str "sources", .dict [(.str "positions", toSerializable (tensorVal sources.positions)),
      (.str "orientation", toSerializable (optionVal tensorVal sources.orientation))]),
    (.str "mics", .dict [(.str "positions", toSerializable (tensorVal mics.positions)),
      (.str "orientation", toSerializable (optionVal tensorVal mics.orientation))]),
    (.str "trajectories", .dict [(.str "sources", optionVal cubeVal m.sourceTraj), (.str "mics", optionVal cubeVal m.micTraj)]),
    (.str "array", .dict [(.str "geometry", .str m.geometry), (.str "positions", toSerializable (tensorVal mics.positions)),
      (.str "orientation", toSerializable (optionVal tensorVal mics.orientation)),
      (.str "center", match m.center with
        | some v => vecVal v
        | none => .list (List.replicate (mics.positions.shape.getD 1 0) (.num (.float .nan)))),
      (.str "normal", .none), (.str "spacing", optionVal floatVal m.spacing)]),
    (.str "time_axis", .dict [(.str "fs", floatVal m.fs), (.str "nsample", .num (.int m.nsample)), (.str "t", vecVal m.time)]),
    (.str "doa", .dict [(.str "frame", .str "world"), (.str "unit", .str "radians"), (.str "azimuth", cubeVal m.azimuth),
      (.str "elevation", cubeVal m.elevation)]),
    (.str "timestamps", toSerializable (optionVal tensorVal m.timestamps)),
    (.str "rirs_shape", .list (m.rirsShape.map fun n => .num (.int n))),
    (.str "dynamic", .bool m.dynamic)]

/-- The entries for `source_info` and `extra` (metadata.py 129-132). -/
def metadataExtras (sourceInfo : PyVal) (extra : List (PyKey × PyVal)) : List (PyKey × PyVal) :=
  (match sourceInfo with
    | .none => []
    | v => [(.str "source_info", toSerializable v)]) ++
  (match extra with
    | [] => []
    | e => [(.str "extra", toSerializable (.dict e))])

/-- `build_metadata` (metadata.py 28-135): the dictionary. Without `extra` the list is empty. -/
noncomputable def metadataDocument (room : Room) (sources mics : Entity) (micType : NumType) (rirsShape : List ℕ)
    (srcTraj micTraj : Option (Tensor ℝ) := none) (timestamps : Option (Tensor ℝ) := none) (signalLen : Option ℤ := none)
    (sourceInfo : PyVal := .none) (extra : List (PyKey × PyVal) := []) : Except String PyVal := do
  let m ← buildMetadata room.size.length room.fs sources.positions mics.positions micType rirsShape srcTraj micTraj timestamps
    signalLen
  return .dict (metadataEntries room sources mics m ++ metadataExtras sourceInfo extra)

end Torchrir.Model
