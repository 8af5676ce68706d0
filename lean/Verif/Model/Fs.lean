import Verif.Model.Tensor

/-!
# Programs that act on the disk

The file-system calls used by `src/torchrir/datasets/_archive.py`, `cmu_arctic.py` and
`librispeech.py`, written so that every intermediate state of the disk is visible: a program returns
the states it passed through, the last state and its result. A process that is killed leaves the disk
in one of these states.

A path on disk is the list of its components from the root `/`; the disk maps paths to nodes.
Simplified: no symbolic links on the disk, no permissions, time stamps or full disks; special files
(devices, pipes) count as files. Data in Python's write buffer is not lost on an orderly close, and a
file grows byte by byte, so that every prefix that a killed process can leave behind occurs as a state.
-/

namespace Torchrir.Model

/-- A normalized absolute path. -/
abbrev DiskPath := List String

/-- The content of a file. -/
abbrev Bytes := List UInt8

/-- What a path can hold. -/
inductive Node where
  | dir
  | file (content : Bytes)
deriving DecidableEq

/-- A file system. -/
abbrev Disk := DiskPath → Option Node

/-- The disk with one path replaced. -/
def Disk.put (fs : Disk) (p : DiskPath) (n : Option Node) : Disk := fun q => if q = p then n else fs q

/-- Exceptions by class: `OSError` (with `URLError` and `IOError`), `tarfile.ReadError`, `EOFError`,
`ValueError` and any other subclass of `Exception`. -/
inductive Exc where
  | os (msg : String)
  | read (msg : String)
  | eof (msg : String)
  | value (msg : String)
  | other (msg : String)
deriving DecidableEq

/-- The disk together with the number of requests sent so far. -/
structure Machine where
  disk : Disk
  requests : ℕ

/-- What a program did: the states it passed through, the last one, and its result. -/
structure Run (α : Type) where
  trace : List Machine
  last : Machine
  result : Except Exc α

/-- A program. -/
def Prog (α : Type) : Type := Machine → Run α

namespace Prog

/-- Return a value. -/
def pure {α : Type} (a : α) : Prog α := fun m => ⟨[], m, .ok a⟩

/-- Raise an exception. -/
def throw {α : Type} (e : Exc) : Prog α := fun m => ⟨[], m, .error e⟩

/-- Run one program after the other. -/
def bind {α β : Type} (p : Prog α) (f : α → Prog β) : Prog β := fun m =>
  match (p m).result with
  | .error e => ⟨(p m).trace, (p m).last, .error e⟩
  | .ok a => ⟨(p m).trace ++ (f a (p m).last).trace, (f a (p m).last).last, (f a (p m).last).result⟩

instance : Monad Prog where
  pure := Prog.pure
  bind := Prog.bind

/-- `try: p except …: h`, where `h` raises again what it does not handle. -/
def catchWith {α : Type} (p : Prog α) (h : Exc → Prog α) : Prog α := fun m =>
  match (p m).result with
  | .ok a => ⟨(p m).trace, (p m).last, .ok a⟩
  | .error e => ⟨(p m).trace ++ (h e (p m).last).trace, (h e (p m).last).last, (h e (p m).last).result⟩

/-- Run a program if a condition on the current state holds. -/
def whenState (c : Machine → Bool) (p : Prog Unit) : Prog Unit := fun m =>
  if c m then p m else ⟨[], m, .ok ()⟩

/-- Read something from the current state. -/
def look {α : Type} (f : Machine → Except Exc α) : Prog α := fun m => ⟨[], m, f m⟩

/-- Change one path on the disk. -/
def set (p : DiskPath) (n : Option Node) : Prog Unit := fun m =>
  ⟨[⟨m.disk.put p n, m.requests⟩], ⟨m.disk.put p n, m.requests⟩, .ok ()⟩

end Prog

/-- One step of path resolution: `.` stays, `..` goes up (and stays at the top). -/
def stepPath (cur : DiskPath) (seg : String) : DiskPath :=
  if seg = "." then cur else if seg = ".." then cur.dropLast else cur ++ [seg]

/-- `Path.resolve()` of an absolute path, without symbolic links on disk. -/
def resolve (segs : List String) : DiskPath := segs.foldl stepPath []

/-- The kernel's path lookup: every component but the last must be an existing directory. -/
def lookup (fs : Disk) : DiskPath → List String → Option DiskPath
  | cur, [] => some cur
  | cur, seg :: rest => if fs cur = some .dir then lookup fs (stepPath cur seg) rest else none

/-- The node at a path that is not normalized. -/
def nodeAt (fs : Disk) (segs : List String) : Option Node := (lookup fs [] segs).bind fs

/-- `os.path.exists`. -/
def pathExists (segs : List String) (m : Machine) : Bool := (nodeAt m.disk segs).isSome

/-- `os.mkdir` where an existing directory is fine. -/
def mkdirOk (segs : List String) : Prog Unit := fun m =>
  match lookup m.disk [] segs with
  | none => Prog.throw (.os "No such file or directory") m
  | some p =>
    match m.disk p with
    | none => Prog.set p (some .dir) m
    | some .dir => Prog.pure () m
    | some (.file _) => Prog.throw (.os "File exists") m

/-- `os.makedirs(path, exist_ok=True)` on the reversed components: first the parent if it does not
exist, then the directory itself unless the last component is `.`. -/
def makedirs : List String → Prog Unit
  | [] => Prog.pure ()
  | seg :: parent =>
    Prog.bind (Prog.whenState (fun m => !pathExists parent.reverse m) (makedirs parent)) fun _ =>
      if seg = "." then Prog.pure () else mkdirOk (parent.reverse ++ [seg])

/-- `open(path, "wb")`: the file is created or emptied. -/
def openWrite (segs : List String) : Prog DiskPath := fun m =>
  match lookup m.disk [] segs with
  | none => Prog.throw (.os "No such file or directory") m
  | some p =>
    match m.disk p with
    | some .dir => Prog.throw (.os "Is a directory") m
    | _ => Prog.bind (Prog.set p (some (.file []))) (fun _ => Prog.pure p) m

/-- Write to an open file whose content so far is `old`, byte by byte. -/
def appendBytes (p : DiskPath) : Bytes → Bytes → Prog Unit
  | _, [] => Prog.pure ()
  | old, b :: rest =>
    Prog.bind (Prog.set p (some (.file (old ++ [b])))) fun _ => appendBytes p (old ++ [b]) rest

/-- `path.unlink()`. -/
def unlink (segs : List String) : Prog Unit := fun m =>
  match lookup m.disk [] segs with
  | none => Prog.throw (.os "No such file or directory") m
  | some p =>
    match m.disk p with
    | some (.file _) => Prog.set p none m
    | some .dir => Prog.throw (.os "Is a directory") m
    | none => Prog.throw (.os "No such file or directory") m

/-- `src.replace(dst)`: the rename is one atomic step. -/
def replaceFile (src dst : List String) : Prog Unit := fun m =>
  match lookup m.disk [] src, lookup m.disk [] dst with
  | some s, some d =>
    match m.disk s, m.disk d with
    | some (.file c), some .dir => Prog.throw (.os "Is a directory") m
    | some (.file c), _ =>
      ⟨[⟨(m.disk.put d (some (.file c))).put s none, m.requests⟩],
        ⟨(m.disk.put d (some (.file c))).put s none, m.requests⟩, .ok ()⟩
    | _, _ => Prog.throw (.os "No such file or directory") m
  | _, _ => Prog.throw (.os "No such file or directory") m

/-- Read a whole file. -/
def readFile (segs : List String) : Prog Bytes := Prog.look fun m =>
  match nodeAt m.disk segs with
  | some (.file c) => .ok c
  | _ => .error (.os "No such file or directory")

end Torchrir.Model
