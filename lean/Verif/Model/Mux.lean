import Verif.Model.Fs

/-!
# Adding the mixture to a rendered video

`_add_stereo_audio_to_mp4` of `src/torchrir/viz/animation.py` (lines 301-376) as a program on the
disk. `soundfile` and `ffmpeg` are parameters that may do anything a file encoder and an external
program can do to their own output file: refuse, stop in the middle, or finish. Simplified: log
messages are left out; `ffmpeg` writes to no file but the one named as its output.
-/

namespace Torchrir.Model

/-- `PurePath.stem` of a last component: the part before the last dot, unless this dot is the first
or the last character. -/
def stemChars (name : List Char) : List Char :=
  let ext := name.reverse.takeWhile (· ≠ '.')
  let rest := name.reverse.dropWhile (· ≠ '.')
  if ext.length = 0 ∨ rest.length ≤ 1 then name else rest.tail.reverse

/-- `video_path.with_name(video_path.stem + suffix)` (animation.py 341-342). -/
def besideVideo (dir : DiskPath) (name suffix : String) : DiskPath :=
  dir ++ [String.ofList (stemChars name.toList) ++ suffix]

/-- `tmp_audio` (animation.py 341). -/
def tmpAudio (dir : DiskPath) (name : String) : DiskPath := besideVideo dir name "_tmp_audio.wav"

/-- `tmp_video` (animation.py 342). -/
def tmpVideo (dir : DiskPath) (name : String) : DiskPath := besideVideo dir name "_tmp_mux.mp4"

/-- What `sf.read(path, always_2d=True)` returns: frames of equally many channels, and the rate. -/
structure Wave where
  channels : ℕ
  frames : List (List ℝ)
  rate : ℕ

/-- `np.repeat(frames[:, :1], 2, axis=1)` (animation.py 328). -/
def repeatFirst (frame : List ℝ) : List ℝ := (frame.take 1).flatMap fun x => List.replicate 2 x

/-- `stereo`, none when there is no channel (animation.py 319-339). Negative requests count as
unavailable, hence the integers. -/
def stereoTrack (w : Wave) (req : ℤ × ℤ) : Option (List (List ℝ)) :=
  if w.channels = 0 then none
  else if w.channels = 1 then some (w.frames.map repeatFirst)
  else if req.1 < 0 ∨ req.2 < 0 ∨ (w.channels : ℤ) ≤ req.1 ∨ (w.channels : ℤ) ≤ req.2 then
    some (w.frames.map (List.take 2))
  else some (w.frames.map fun f => [f.getD req.1.toNat 0, f.getD req.2.toNat 0])

/-- What writing a file can come to. -/
inductive WriteOutcome where
  | refuses (e : Exc)
  | breaks (written : ℕ) (e : Exc)
  | completes

/-- What a run of `ffmpeg` can come to: the content it leaves in its output file (none: it never
opened it) and whether `subprocess.run` raised, or reported a return code of zero. -/
structure FfmpegRun where
  written : Option Bytes
  status : Except Exc Bool

/-- The outside of the function: the decoder and encoder of `soundfile`, and `ffmpeg`, which sees the
contents of its two inputs. -/
structure MuxWorld where
  decode : Bytes → Except Exc Wave
  encode : List (List ℝ) → ℕ → Bytes
  saving : WriteOutcome
  ffmpegInstalled : Bool
  ffmpeg : Option Bytes → Option Bytes → FfmpegRun

/-- `sf.write` (animation.py 343). -/
def saveFile (segs : List String) (content : Bytes) : WriteOutcome → Prog Unit
  | .refuses e => Prog.throw e
  | .completes => Prog.bind (openWrite segs) fun p => appendBytes p [] content
  | .breaks k e => Prog.bind (openWrite segs) fun p =>
      Prog.bind (appendBytes p [] (content.take k)) fun _ => Prog.throw e

/-- The content of a file, if there is one. -/
def contentAt (segs : List String) (m : Machine) : Option Bytes :=
  match nodeAt m.disk segs with
  | some (.file c) => some c
  | _ => none

/-- The exit of `subprocess.run` (animation.py 362). -/
def exitOf : Except Exc Bool → Prog Bool
  | .ok b => Prog.pure b
  | .error e => Prog.throw e

/-- `subprocess.run(cmd)`: true for return code zero. A failure to open the output makes `ffmpeg`
fail (animation.py 345-362). -/
def runFfmpeg (out : List String) (r : FfmpegRun) : Prog Bool :=
  match r.written with
  | none => exitOf r.status
  | some c => Prog.bind
      (Prog.catchWith (Prog.bind (openWrite out) fun p => Prog.bind (appendBytes p [] c) fun _ =>
        Prog.pure true) fun _ => Prog.pure false)
      fun opened => if opened then exitOf r.status else Prog.pure false

/-- The part after the conversion to stereo (animation.py 341-376). -/
def muxTrack (w : MuxWorld) (dir : DiskPath) (name : String) (track : List (List ℝ)) (rate : ℕ) :
    Prog Unit :=
  Prog.bind (saveFile (tmpAudio dir name) (w.encode track rate) w.saving) fun _ =>
  Prog.bind (Prog.look fun m => .ok (w.ffmpeg (contentAt (dir ++ [name]) m)
    (contentAt (tmpAudio dir name) m))) fun r =>
  Prog.bind (runFfmpeg (tmpVideo dir name) r) fun done =>
  Prog.bind (if done then replaceFile (tmpVideo dir name) (dir ++ [name]) else Prog.pure ()) fun _ =>
  Prog.bind (Prog.whenState (pathExists (tmpAudio dir name)) (unlink (tmpAudio dir name))) fun _ =>
  Prog.whenState (pathExists (tmpVideo dir name)) (unlink (tmpVideo dir name))

/-- The part after the mixture has been decoded (animation.py 319-376). -/
def muxWave (w : MuxWorld) (dir : DiskPath) (name : String) (req : ℤ × ℤ) (wave : Wave) : Prog Unit :=
  match stereoTrack wave req with
  | none => Prog.pure ()
  | some track => muxTrack w dir name track wave.rate

/-- `_add_stereo_audio_to_mp4` (animation.py 301-376). -/
def addStereoAudio (w : MuxWorld) (dir : DiskPath) (name : String) (mixture : DiskPath) (req : ℤ × ℤ) :
    Prog Unit :=
  Prog.whenState (fun m => pathExists (dir ++ [name]) m && pathExists mixture m && w.ffmpegInstalled)
    (Prog.bind (readFile mixture) fun bytes =>
      Prog.bind (Prog.look fun _ => w.decode bytes) fun wave => muxWave w dir name req wave)

end Torchrir.Model
