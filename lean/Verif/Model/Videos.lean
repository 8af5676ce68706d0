import Verif.Model.Frames
import Verif.Model.Mux

/-!
# Saving the videos of a scene

`animate_scene_mp4` and `save_scene_videos` as programs on the disk: the frames of `Model/Frames.lean` are encoded and
written, and the sound of `Model/Mux.lean` is added. The encoder and what it comes to are parameters. Simplified: the
log is the list of names reported as saved and the exception reported by a warning.
-/

namespace Torchrir.Model

/-- The outside of `save_scene_videos`, for each file name: the encoder of the frames, what writing the video comes
to, and the world in which sound is added. -/
structure VideoWorld where
  encode : List Frame → ℤ → Bytes
  saving : String → WriteOutcome
  mux : String → MuxWorld

/-- An exception of the drawing code. -/
def drawn {α : Type} : Except String α → Except Exc α
  | .ok a => .ok a
  | .error e => .error (.other e)

/-- The sound of a video, for the default channels (animation.py 131-136). -/
def addSound (w : VideoWorld) (dir : DiskPath) (name : String) (mixture : Option DiskPath) (muxAudio : Bool) :
    Prog Unit :=
  match mixture with
  | none => Prog.pure ()
  | some mix => if muxAudio then addStereoAudio (w.mux name) dir name mix (0, 1) else Prog.pure ()

/-- `animate_scene_mp4` (animation.py 76-137); `shown` is the outcome of `_build_scene_animation`. -/
def animateMp4 (w : VideoWorld) (dir : DiskPath) (name : String) (shown : Except String (List Frame × ℤ))
    (mixture : Option DiskPath) (muxAudio : Bool) : Prog Unit :=
  Prog.bind (makedirs dir.reverse) fun _ =>
  Prog.bind (Prog.look fun _ => drawn shown) fun f =>
  Prog.bind (saveFile (dir ++ [name]) (w.encode f.1 f.2) (w.saving name)) fun _ =>
  addSound w dir name mixture muxAudio

/-- Videos made one after the other inside one `try: … except Exception: logger.warning(…)`: the names reported as
saved, and the exception of the warning (viz/io.py 216-258). What comes after a video raises nothing itself, so that
catching the exceptions of each video is the same. -/
def reportEach : List (String × Prog Unit) → Prog (List String × Option Exc)
  | [] => Prog.pure ([], none)
  | (name, p) :: rest => Prog.catchWith
      (Prog.bind p fun _ => Prog.bind (reportEach rest) fun r => Prog.pure (name :: r.1, r.2))
      fun e => Prog.pure ([], some e)

/-- `save_scene_videos` (viz/io.py 192-258). -/
noncomputable def saveSceneVideos (w : VideoWorld) (dir : DiskPath) (room sources mics : Tensor ℝ)
    (srcTraj micTraj : Option (Tensor ℝ)) (signalLen : ℕ) (fs : ℝ) (fps : Option ℝ := none) (save3d : Bool := true)
    (mixture : Option DiskPath := none) (muxAudio : Bool := true) (annotate : Bool := true) :
    Prog (List String × Option Exc) :=
  reportEach (
    [("room_layout_2d.mp4", animateMp4 w dir "room_layout_2d.mp4"
      (animateScene room sources mics srcTraj micTraj 1 fps (some signalLen) (some fs) none true false annotate)
      mixture muxAudio)] ++
    (if room.numel = 3 ∧ save3d then
      [("room_layout_3d.mp4", animateMp4 w dir "room_layout_3d.mp4"
        (animateScene room sources mics srcTraj micTraj 1 fps (some signalLen) (some fs) none false true annotate)
        mixture muxAudio)]
      else []))

end Torchrir.Model
