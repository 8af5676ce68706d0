import Verif.Model.Archive

/-!
# Downloading and extracting a dataset

Model of `_stream_download`, `_download` and `_download_and_extract` in
`src/torchrir/datasets/cmu_arctic.py` (104-124, 161-194) and `librispeech.py` (132-152, 159-192),
which are the same program with other paths. The network is a function from the number of the request
to what happens to it; the archive format is a function `untar` from the bytes of an archive to its
members or the exception that `tarfile.open` or `getmembers` raises. Simplified: the progress log is
left out; `getmembers` reads the whole archive before anything is extracted.
-/

namespace Torchrir.Model

/-- A response: the body that the server means to send, the value of `response.length`, and what the
successive calls of `response.read` give (after the last one: end of the stream). -/
structure Response where
  full : Bytes
  length : Option ℕ
  reads : List (Except Exc Bytes)

/-- What happens to the `n`-th request: an exception of `urlopen` or a response. -/
abbrev Network := ℕ → Except Exc Response

/-- `urllib.request.urlopen(url)` (cmu_arctic.py 181, librispeech.py 179). -/
def urlopen (net : Network) : Prog Response := fun m =>
  ⟨[⟨m.disk, m.requests + 1⟩], ⟨m.disk, m.requests + 1⟩, net m.requests⟩

/-- The loop `while True: chunk = response.read(…)` (cmu_arctic.py 186-191); `old` is what was written
so far; the result is everything that was written, so that its length is `downloaded`. -/
def readLoop (p : DiskPath) : Bytes → List (Except Exc Bytes) → Prog Bytes
  | old, [] => Prog.pure old
  | _, .error e :: _ => Prog.throw e
  | old, .ok [] :: _ => Prog.pure old
  | old, .ok (b :: c) :: rest =>
    Prog.bind (appendBytes p old (b :: c)) fun _ => readLoop p (old ++ b :: c) rest

/-- The name of the temporary file: `dest.with_suffix(dest.suffix + ".part")`, where `dest` is
`base / name` (cmu_arctic.py 177, librispeech.py 175). -/
def partPath (base : DiskPath) (name : String) : DiskPath := base ++ [name ++ ".part"]

/-- `if total > 0 and downloaded != total: raise IOError` (cmu_arctic.py 182, 192-193). -/
def checkLength (total : Option ℕ) (downloaded : ℕ) : Prog Unit :=
  if 0 < total.getD 0 ∧ downloaded ≠ total.getD 0 then Prog.throw (.os "incomplete download")
  else Prog.pure ()

/-- `_stream_download(url, dest)` (cmu_arctic.py 175-194, librispeech.py 173-192). -/
def streamDownload (net : Network) (base : DiskPath) (name : String) : Prog Unit :=
  Prog.bind (Prog.whenState (pathExists (partPath base name)) (unlink (partPath base name))) fun _ =>
  Prog.bind (urlopen net) fun response =>
  Prog.bind (openWrite (partPath base name)) fun p =>
  Prog.bind (readLoop p [] response.reads) fun body =>
  Prog.bind (checkLength response.length body.length) fun _ =>
  replaceFile (partPath base name) (base ++ [name])

/-- `_download(url, dest, retries)` with the number of attempts still to come after this one
(cmu_arctic.py 161-172, librispeech.py 159-170). -/
def downloadLoop (net : Network) (base : DiskPath) (name : String) : ℕ → Prog Unit
  | 0 => Prog.catchWith (streamDownload net base name) fun e =>
      Prog.bind (Prog.whenState (pathExists (base ++ [name])) (unlink (base ++ [name]))) fun _ =>
        Prog.throw e
  | k + 1 => Prog.catchWith (streamDownload net base name) fun _ =>
      Prog.bind (Prog.whenState (pathExists (base ++ [name])) (unlink (base ++ [name]))) fun _ =>
        downloadLoop net base name k

/-- `_download(url, dest)` with the default `retries=1`. -/
def download (net : Network) (base : DiskPath) (name : String) : Prog Unit := downloadLoop net base name 1

/-- Where a dataset keeps its files: `base` is where archives are stored and unpacked, `name` the
archive's file name, `dataset` the directory whose existence counts as "extracted". -/
structure Layout where
  base : DiskPath
  name : String
  dataset : List String

/-- `CmuArcticDataset.__init__` (cmu_arctic.py 79-83). -/
def cmuLayout (root : DiskPath) (speaker : String) : Layout where
  base := root ++ ["ARCTIC"]
  name := "cmu_us_" ++ speaker ++ "_arctic.tar.bz2"
  dataset := root ++ ["ARCTIC"] ++ ["cmu_us_" ++ speaker ++ "_arctic"]

/-- `LibriSpeechDataset.__init__` (librispeech.py 71-76). -/
def libriLayout (root : DiskPath) (subset : String) : Layout where
  base := root
  name := subset ++ ".tar.gz"
  dataset := root ++ ["LibriSpeech", subset]

/-- `with tarfile.open(archive_path) as tar: safe_extractall(tar, base)`. -/
def openAndExtract (untar : Bytes → Except Exc (List Member)) (L : Layout) : Prog Unit :=
  Prog.bind (readFile (L.base ++ [L.name])) fun body =>
  Prog.bind (Prog.look fun _ => untar body) fun members =>
  safeExtractAll L.base members

/-- The exceptions listed in `except (tarfile.ReadError, EOFError, OSError)`. -/
def Exc.isBadArchive : Exc → Bool
  | .os _ => true
  | .read _ => true
  | .eof _ => true
  | _ => false

/-- The second half of `_download_and_extract` (cmu_arctic.py 115-124, librispeech.py 143-152). -/
def extractOrRepair (untar : Bytes → Except Exc (List Member)) (net : Network) (L : Layout) : Prog Unit :=
  Prog.catchWith (openAndExtract untar L) fun e =>
    if e.isBadArchive = true then
      Prog.bind (Prog.whenState (pathExists (L.base ++ [L.name])) (unlink (L.base ++ [L.name]))) fun _ =>
      Prog.bind (download net L.base L.name) fun _ =>
      openAndExtract untar L
    else Prog.throw e

/-- `_download_and_extract` (cmu_arctic.py 104-124, librispeech.py 132-152). -/
def downloadAndExtract (untar : Bytes → Except Exc (List Member)) (net : Network) (L : Layout) :
    Prog Unit :=
  Prog.bind (makedirs L.base.reverse) fun _ =>
  Prog.bind (Prog.whenState (fun m => !pathExists (L.base ++ [L.name]) m)
    (download net L.base L.name)) fun _ =>
  Prog.whenState (fun m => !pathExists L.dataset m) (extractOrRepair untar net L)

/-- `__init__` with `download=True`: download and extract, then the check that the dataset is there
(cmu_arctic.py 85-92, librispeech.py 79-86). -/
def constructDataset (untar : Bytes → Except Exc (List Member)) (net : Network) (L : Layout) :
    Prog Unit :=
  Prog.bind (downloadAndExtract untar net L) fun _ =>
  Prog.look fun m => if pathExists L.dataset m then .ok ()
    else .error (.os "dataset not found; run with download=True")

end Torchrir.Model
