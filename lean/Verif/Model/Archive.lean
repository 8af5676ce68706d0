import Verif.Model.Fs

/-!
# Archive extraction

Model of `src/torchrir/datasets/_archive.py` and of what `tarfile.extractall` (Python 3.11, no filter)
does to the disk. Simplified: an empty component or trailing slash in a member name is dropped.
-/

namespace Torchrir.Model

/-- What an archive member is. -/
inductive MemberKind where
  | regular (content : Bytes)
  | directory
  | symlink
  | hardlink

/-- `tarfile.TarInfo`: whether the name starts with `/`, the components of the name, the kind. -/
structure Member where
  absolute : Bool
  segments : List String
  kind : MemberKind

/-- `member.issym() or member.islnk()` (_archive.py 14). -/
def Member.isLink (m : Member) : Bool :=
  match m.kind with
  | .symlink => true
  | .hardlink => true
  | _ => false

/-- `root / name` and `os.path.join(root, name)`, not normalized. -/
def joined (root : DiskPath) (m : Member) : List String :=
  if m.absolute then m.segments else root ++ m.segments

/-- The creation of the member itself (`TarFile.makefile`, `TarFile.makedir`). -/
def createMember (segs : List String) (m : Member) : Prog Unit :=
  match m.kind with
  | .regular content => Prog.bind (openWrite segs) fun p => appendBytes p [] content
  | .directory => mkdirOk segs
  | _ => Prog.throw (.value "links are rejected before")

/-- `TarFile._extract_member`: missing parent directories first, then the member. -/
def extractMember (root : DiskPath) (m : Member) : Prog Unit :=
  Prog.bind (Prog.whenState (fun s => !pathExists (joined root m).dropLast s)
    (makedirs (joined root m).dropLast.reverse)) fun _ =>
  createMember (joined root m) m

/-- `tar.extractall(root)`: members in order, stopping at the first error. -/
def extractAll (root : DiskPath) : List Member → Prog Unit
  | [] => Prog.pure ()
  | m :: rest => Prog.bind (extractMember root m) fun _ => extractAll root rest

/-- `os.path.commonpath([str(root), str(target)]) == str(root)` for absolute paths (_archive.py 18). -/
def underRoot (root target : DiskPath) : Bool := root.isPrefixOf target

/-- The checks of `safe_extractall` (_archive.py 13-19). -/
def checkMembers (root : DiskPath) : List Member → Except Exc Unit
  | [] => .ok ()
  | m :: rest =>
    if m.isLink then .error (.value "archive contains links, which are not allowed")
    else if underRoot root (resolve (joined root m)) = false then
      .error (.value "unsafe archive member path")
    else checkMembers root rest

/-- `safe_extractall` (_archive.py 10-21); `root` is the resolved destination. -/
def safeExtractAll (root : DiskPath) (members : List Member) : Prog Unit :=
  Prog.bind (Prog.look fun _ => checkMembers root members) fun _ => extractAll root members

end Torchrir.Model
