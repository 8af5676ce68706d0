import Verif.Model.Ism

/-!
# Devices and dtypes

Model of `src/torchrir/util/device.py`.
-/

namespace Torchrir.Model

/-- `torch.device`. -/
structure TorchDevice where
  type : String
  index : Option ℕ := none
deriving DecidableEq

/-- What torch reports and how it parses device strings. -/
structure Torch where
  cudaAvailable : Bool
  mpsAvailable : Bool
  parse : String → Except String TorchDevice

/-- A device argument. -/
inductive DeviceArg where
  | none
  | device (d : TorchDevice)
  | str (s : String)

/-- The loop over the preferred backends (device.py 31-38). -/
def firstAvailable (t : Torch) : List String → TorchDevice
  | [] => ⟨"cpu", .none⟩
  | b :: rest =>
    if b = "cuda" ∧ t.cudaAvailable then ⟨"cuda", .none⟩
    else if b = "mps" ∧ t.mpsAvailable then ⟨"mps", .none⟩
    else if b = "cpu" then ⟨"cpu", .none⟩
    else firstAvailable t rest

/-- The default order of preference (device.py 15). -/
def defaultPrefer : List String := ["cuda", "mps", "cpu"]

/-- `resolve_device` for a string (device.py 30-55). -/
def resolveDeviceStr (t : Torch) (s : String) (prefer : List String) : Except String TorchDevice :=
  let dev := s.toLower
  if dev = "auto" then .ok (firstAvailable t prefer)
  else if "cuda".toList <+: dev.toList then
    if t.cudaAvailable then t.parse s else .ok ⟨"cpu", .none⟩
  else if dev = "mps" then
    if t.mpsAvailable then .ok ⟨"mps", .none⟩ else .ok ⟨"cpu", .none⟩
  else if dev = "cpu" then .ok ⟨"cpu", .none⟩
  else t.parse s

/-- `resolve_device` (device.py 12-55). -/
def resolveDevice (t : Torch) (d : DeviceArg) (prefer : List String := defaultPrefer) :
    Except String TorchDevice :=
  match d with
  | .none => .ok ⟨"cpu", .none⟩
  | .device d => .ok d
  | .str s => resolveDeviceStr t s prefer

/-- A value passed to `DeviceSpec.resolve`: a tensor (its device and dtype) or anything else. -/
inductive SpecValue where
  | tensor (device : TorchDevice) (dtype : String)
  | other

/-- The loop over the values (device.py 75-82). -/
def scanValues : List SpecValue → Option TorchDevice × Option String → Option TorchDevice × Option String
  | [], acc => acc
  | .tensor d y :: rest, (a, b) => scanValues rest (a.orElse fun _ => some d, b.orElse fun _ => some y)
  | .other :: rest, acc => scanValues rest acc

/-- The device part of `DeviceSpec.resolve` (device.py 84-89). -/
def specDevice (t : Torch) (device : DeviceArg) (prefer : List String) (found : Option TorchDevice) :
    Except String TorchDevice :=
  match device with
  | .str s =>
    if s.toLower = "auto" then
      match found with
      | some d => .ok d
      | none => resolveDevice t (.str "auto") prefer
    else resolveDevice t (.str s) prefer
  | .none => .ok (found.getD ⟨"cpu", .none⟩)
  | .device d => resolveDevice t (.device d) prefer

/-- `DeviceSpec.resolve` (device.py 73-95). -/
def deviceSpecResolve (t : Torch) (device : DeviceArg) (dtype : Option String) (prefer : List String)
    (values : List SpecValue) : Except String (TorchDevice × String) := do
  let (foundDev, foundTy) := scanValues values (none, none)
  let d ← specDevice t device prefer foundDev
  return (d, dtype.getD (foundTy.getD "float32"))

/-- `infer_device_dtype` (device.py 98-105). -/
def inferDeviceDtype (t : Torch) (values : List SpecValue) (device : DeviceArg) (dtype : Option String) :
    Except String (TorchDevice × String) :=
  deviceSpecResolve t device dtype defaultPrefer values

end Torchrir.Model
