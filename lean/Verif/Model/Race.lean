import Verif.Model.Threads
import Verif.Model.Download

/-!
# Several processes that download

`_stream_download` and `_download` (`datasets/cmu_arctic.py` 161-194, `librispeech.py` 159-192) as programs that take
turns with other processes on the same disk, one system call at a time. Unlike in `Verif.Model.Fs`, a file and its name
are different things here: a process that has opened a file writes to that file, even if its name was removed or given
to another file in the meantime.

Simplified: the directories exist; `response.read` takes no action on the disk; a chunk is written by one call.
-/

namespace Torchrir.Model

/-- A disk: which file a name stands for, what is in the files, and the number of files that ever existed. -/
structure NamedFiles where
  names : DiskPath → Option ℕ
  content : ℕ → Bytes
  count : ℕ

/-- What is found under a name. -/
def NamedFiles.read (s : NamedFiles) (p : DiskPath) : Option Bytes := (s.names p).map s.content

/-- The content of a file after bytes were written at a position; a gap is filled with zeros. -/
def writeAt (old : Bytes) (pos : ℕ) (new : Bytes) : Bytes :=
  old.take pos ++ List.replicate (pos - old.length) 0 ++ new ++ old.drop (pos + new.length)

/-- `path.unlink()`. -/
def NamedFiles.unlink (s : NamedFiles) (p : DiskPath) : NamedFiles := { s with names := Function.update s.names p none }

/-- `path.open("wb")`: an existing file is emptied, otherwise there is a new one. -/
def NamedFiles.openWrite (s : NamedFiles) (p : DiskPath) : NamedFiles :=
  match s.names p with
  | some h => { s with content := Function.update s.content h [] }
  | none => ⟨Function.update s.names p (some s.count), Function.update s.content s.count [], s.count + 1⟩

/-- The file that `path.open("wb")` gives. -/
def NamedFiles.handle (s : NamedFiles) (p : DiskPath) : ℕ := (s.names p).getD s.count

/-- `f.write(chunk)` at the position the process has reached. -/
def NamedFiles.write (s : NamedFiles) (h pos : ℕ) (chunk : Bytes) : NamedFiles :=
  { s with content := Function.update s.content h (writeAt (s.content h) pos chunk) }

/-- `a.replace(b)`. -/
def NamedFiles.replace (s : NamedFiles) (a b : DiskPath) : NamedFiles :=
  { s with names := Function.update (Function.update s.names b (s.names a)) a none }

/-- What a request gives: an exception of `urlopen`, or `response.length` and the results of `response.read`. -/
abbrev Fetch := Except String (Option ℕ × List (Except String Bytes))

/-- `if path.exists(): path.unlink()`, then the rest (cmu_arctic.py 168-169, 178-179). -/
def unlinkIfProc {α : Type} (p : DiskPath) (next : Proc NamedFiles α) : Proc NamedFiles α :=
  .look fun s =>
    if (s.names p).isSome then
      .act (fun s => s.unlink p) fun s =>
        if (s.names p).isSome then next else .done (.error "FileNotFoundError")
    else next

/-- `tmp_path.replace(dest)` (cmu_arctic.py 194). -/
def replaceProc (a b : DiskPath) : Proc NamedFiles Unit :=
  .act (fun s => if (s.names a).isSome then s.replace a b else s) fun s =>
    if (s.names a).isSome then .done (.ok ()) else .done (.error "FileNotFoundError")

/-- The loop over the chunks, the check of the length and the renaming (cmu_arctic.py 186-194). -/
def copyProc (part dest : DiskPath) (length : Option ℕ) (h : ℕ) : ℕ → List (Except String Bytes) → Proc NamedFiles Unit
  | _, .error e :: _ => .done (.error e)
  | pos, .ok (b :: c) :: rest =>
    .store (fun s => s.write h pos (b :: c)) (copyProc part dest length h (pos + (b :: c).length) rest)
  | pos, .ok [] :: _ =>
    if 0 < length.getD 0 ∧ pos ≠ length.getD 0 then .done (.error "incomplete download") else replaceProc part dest
  | pos, [] =>
    if 0 < length.getD 0 ∧ pos ≠ length.getD 0 then .done (.error "incomplete download") else replaceProc part dest

/-- `_stream_download(url, dest)` (cmu_arctic.py 175-194, librispeech.py 173-192). -/
def streamProc (part dest : DiskPath) (f : Fetch) : Proc NamedFiles Unit :=
  unlinkIfProc part <|
    match f with
    | .error e => .done (.error e)
    | .ok (length, reads) =>
      .act (fun s => s.openWrite part) fun s => copyProc part dest length (s.handle part) 0 reads

/-- `try: p except Exception: …`. -/
def Proc.catchWith {S α : Type} : Proc S α → (String → Proc S α) → Proc S α
  | .done (.ok a), _ => .done (.ok a)
  | .done (.error e), f => f e
  | .act upd next, f => .act upd fun s => (next s).catchWith f

/-- `_download(url, dest, retries)` (cmu_arctic.py 161-172, librispeech.py 159-170); `k` more attempts follow the one
that is made, `fetch` gives the answers to the requests of this process. -/
def downloadProc (part dest : DiskPath) (fetch : ℕ → Fetch) : ℕ → ℕ → Proc NamedFiles Unit
  | n, 0 => (streamProc part dest (fetch n)).catchWith fun e => unlinkIfProc dest (.done (.error e))
  | n, k + 1 => (streamProc part dest (fetch n)).catchWith fun _ => unlinkIfProc dest (downloadProc part dest fetch (n + 1) k)

/-- Processes that each download one archive: its directory, its name, and what the network gives to the process. -/
def downloads (s : NamedFiles) (jobs : List (DiskPath × String × (ℕ → Fetch))) : Threads NamedFiles Unit :=
  ⟨s, fun i => match jobs[i]? with
    | some (base, name, fetch) => downloadProc (partPath base name) (base ++ [name]) fetch 0 1
    | none => .done (.error "no job")⟩

end Torchrir.Model
