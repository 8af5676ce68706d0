import Verif.Model.Cli
import Verif.Spec.JsonText

/-!
# Configuration files of the command line program as text

Model of `_load_config` and `_dump_config` of `examples/cli.py` on files of text, and of `main` with them. JSON is read by
`Spec.ReadsAs` and written by `dumpText`; YAML is a parameter.

Simplified: a disk has configuration files only, and they can be opened and decoded; what a scenario writes is left out.
A mapping inside a configuration is a number (`Val.other`), and how it is read and written is a parameter. A lone
surrogate in a string of a configuration becomes the character 0, which is in the name of no setting.
-/

namespace Torchrir.Model

open Torchrir.Spec (JVal ReadsAs)

/-- PyYAML: the document of a text, and the text of a configuration with the exception if writing stops. -/
structure YamlLib where
  load : List Char → Except String Doc
  dump : List (String × Val) → Written

/-- What reading and writing depends on. -/
structure ConfigIO where
  /-- `repr` of a finite float -/
  repr : ℝ → List Char
  /-- the float of a decimal number -/
  fl : ℝ → ℝ
  /-- mappings inside a configuration -/
  code : List (PyText × JVal) → ℕ
  object : ℕ → PyVal
  /-- PyYAML, if it is installed -/
  yaml : Option YamlLib

/-- The files and their texts. -/
abbrev TextDisk := String → Option (List Char)

/-- A string that was read. -/
def textOf (t : PyText) : String := String.ofList (t.map Char.ofNat)

variable (io : ConfigIO)

mutual
/-- A value that `json.load` returns. -/
def Val.ofJVal : JVal → Val
  | .null => .none
  | .bool b => .bool b
  | .num (.int z) => .int z
  | .num (.float x) => .float x
  | .str s => .str (textOf s)
  | .arr items => .list (Val.ofItems items)
  | .obj members => .other (io.code members)

/-- The items of an array. -/
def Val.ofItems : List JVal → List Val
  | [] => []
  | j :: rest => Val.ofJVal j :: Val.ofItems rest
end

mutual
/-- A value that `json.dump` is given. -/
def Val.toPy : Val → PyVal
  | .none => .none
  | .bool b => .bool b
  | .int z => .num (.int z)
  | .float x => .num (.float x)
  | .str s => .str s
  | .path p => .path p
  | .list l => .list (Val.toItems l)
  | .other n => io.object n

/-- The items of a list. -/
def Val.toItems : List Val → List PyVal
  | [] => []
  | v :: rest => Val.toPy v :: Val.toItems rest
end

/-- `d[key] = value`. -/
def putVal (key : String) (v : Val) : List (String × Val) → List (String × Val)
  | [] => [(key, v)]
  | e :: rest => if e.1 = key then (key, v) :: rest else e :: putVal key v rest

/-- The dictionary of the members of an object. -/
def dictOf (members : List (PyText × JVal)) : List (String × Val) :=
  members.foldl (fun d m => putVal (textOf m.1) (Val.ofJVal io m.2) d) []

open Classical in
/-- `json.load`. -/
noncomputable def jsonLoads (fl : ℝ → ℝ) (text : List Char) : Except String JVal :=
  if h : ∃ j, ReadsAs fl text j then .ok h.choose else .error "JSONDecodeError"

/-- `isinstance(data, dict)` (cli.py 66). -/
def jsonDoc : JVal → Doc
  | .obj members => .mapping (dictOf io members)
  | _ => .other

/-- The document of a file (cli.py 56-65): PyYAML is imported before the file is opened. -/
noncomputable def readDoc (disk : TextDisk) (path : String) : Except String Doc :=
  if isYaml path then
    match io.yaml with
    | none => .error "PyYAML is required for YAML configs"
    | some lib =>
      match disk path with
      | none => .error "FileNotFoundError"
      | some text => lib.load text
  else
    match disk path with
    | none => .error "FileNotFoundError"
    | some text => (jsonLoads io.fl text).map (jsonDoc io)

/-- The dictionary that is written. -/
def configDict (config : List (String × Val)) : PyVal := .dict (config.map fun e => (.str e.1, Val.toPy io e.2))

/-- A file gets a new text. -/
def TextDisk.put (disk : TextDisk) (path : String) (text : List Char) : TextDisk :=
  fun q => if q = path then some text else disk q

/-- `_dump_config` (cli.py 71-82): the disk and the exception. The file is emptied when it is opened, so what is written
before an exception stays. -/
def dumpConfig (disk : TextDisk) (path : String) (config : List (String × Val)) : TextDisk × Option String :=
  if isYaml path then
    match io.yaml with
    | none => (disk, some "PyYAML is required for YAML configs")
    | some lib => (disk.put path (lib.dump config).1, (lib.dump config).2)
  else (disk.put path (dumpText io.repr (configDict io config)).1, (dumpText io.repr (configDict io config)).2)

/-- `main` (cli.py 594-619) on a disk of texts: the disk afterwards, the events and the outcome. -/
noncomputable def cliText (cv : Conversions) (disk : TextDisk) (given : List Given) :
    TextDisk × List CliEvent × Except String Unit :=
  match readArgs cv (readDoc io disk) given with
  | .error e => (disk, [], .error e)
  | .ok ns =>
    match prepareRun cv ns with
    | .error e => (disk, [], .error e)
    | .ok _ =>
      match attr ns "config_out" with
      | .none => (disk, runMode ns)
      | .path p =>
        match serializeArgs cv ns with
        | .error e => (disk, [], .error e)
        | .ok config =>
          match dumpConfig io disk p config with
          | (disk, some e) => (disk, [], .error e)
          | (disk, none) => (disk, .wrote p config :: (runMode ns).1, (runMode ns).2)
      | _ => (disk, [], .error "object has no attribute 'parent'")

end Torchrir.Model
