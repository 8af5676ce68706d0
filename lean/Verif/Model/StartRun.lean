import Verif.Model.GettingStarted
import Verif.Model.BuilderRun

/-!
# Whole runs of the getting-started example

Model of `examples/getting_started.py` as the sequence of files it leaves in its folder, on top of
`Model/GettingStarted`, which computes the scenes and the audio. Simplified: `put` says which file raises an exception
when it is written, and such a file is not left; the spectrogram is not computed; axes, colours, printing and the device
are left out.
-/

namespace Torchrir.Model

/-- A file of the script. -/
inductive StartFile where
  /-- Audio with its sampling rate. -/
  | sound (audio : AudioFile) (rate : ℕ)
  /-- The layout of a standing scene with its title. -/
  | layout (marks : List Mark) (title : String)
  /-- The layout of a moving scene. -/
  | animation (movie : Movie)
  /-- The curve of a signal over the time in seconds, above its spectrogram at the given rate. -/
  | pair (times samples : List ℝ) (rate : ℕ) (title : String)

/-- Saving one file. -/
def startPut (put : String → StartFile → Except String Unit) (name : String) (file : StartFile) :
    Logged (String × StartFile) Unit := do
  Logged.quiet (put name file)
  Logged.leave [(name, file)]

/-- `save_wav` (getting_started.py 127-129, 207-209; io/audio.py). -/
noncomputable def startWav (put : String → StartFile → Except String Unit) (name : String) (x : Tensor ℝ) (fs : ℕ) :
    Logged (String × StartFile) Unit := do
  let f ← Logged.quiet (saveAudio x)
  startPut put name (.sound f fs)

/-- `save_waveform_spectrogram_pair` (getting_started.py 19-45). -/
noncomputable def startPair (put : String → StartFile → Except String Unit) (name : String) (x : Tensor ℝ) (fs : ℕ)
    (title : String) : Logged (String × StartFile) Unit :=
  startPut put name (.pair ((List.range x.data.length).map fun k : ℕ => (k : ℝ) / fs) x.data fs title)

/-- One half of the script once its scene is there (getting_started.py 109-166, 187-247): simulation, three audio files,
the layout, four plots. -/
noncomputable def startHalfRun (put : String → StartFile → Except String Unit) (w : World) (room : Room)
    (signals : Tensor ℝ) (fs : ℕ) (pre title : String) (sc : CliScene) (layout : Logged (String × StartFile) Unit) :
    Logged (String × StartFile) Unit := do
  let ry ← Logged.quiet (renderScene w room startArgs signals sc)
  startWav put (pre ++ "_original_src01.wav") (signalOf signals 0) fs
  startWav put (pre ++ "_original_src02.wav") (signalOf signals 1) fs
  startWav put (pre ++ "_convolved.wav") ry.2 fs
  layout
  startPair put (pre ++ "_original_src01_pair.png") (signalOf signals 0) fs (title ++ " original source 1")
  startPair put (pre ++ "_original_src02_pair.png") (signalOf signals 1) fs (title ++ " original source 2")
  startPair put (pre ++ "_convolved_mic1_pair.png") (signalOf ry.2 0) fs (title ++ " convolved mic 1")
  startPair put (pre ++ "_convolved_mic2_pair.png") (signalOf ry.2 1) fs (title ++ " convolved mic 2")

/-- The layout of the standing scene (getting_started.py 132-139). -/
def startLayout (put : String → StartFile → Except String Unit) (room : Room) (sc : CliScene) :
    Logged (String × StartFile) Unit := do
  let marks ← Logged.quiet (plotStatic (sliceLast 2 ⟨[room.size.length], room.size⟩)
    (sliceLast 2 (pointsTensor sc.sources)) (sliceLast 2 (pointsTensor sc.mics)))
  startPut put "layout_static.png" (.layout marks "Static layout (top view)")

/-- The layout of the moving scene (getting_started.py 212-221). -/
noncomputable def startAnimation (put : String → StartFile → Except String Unit) (room : Room) (signals : Tensor ℝ)
    (fs : ℕ) (sc : CliScene) : Logged (String × StartFile) Unit := do
  let movie ← Logged.quiet (renderMovie "layout_dynamic.gif" (animateScene ⟨[room.size.length], room.size⟩
    (pointsTensor sc.sources) (pointsTensor sc.mics) (sc.trajs.map fun t => trajTensor t.1)
    (sc.trajs.map fun t => trajTensor t.2) (signalLen := some (signals.shape.getD 1 0)) (fs := some (fs : ℝ))))
  startPut put "layout_dynamic.gif" (.animation movie)

/-- The whole script (getting_started.py 48-247); `loaded` is what `load_dataset_sources` returns for two sources of ten
seconds, and `k` values of the generator were drawn for it. -/
noncomputable def startRun {ι : Type} (put : String → StartFile → Except String Unit) (conv : Flt → ℤ) (w : World)
    (r : ℕ → ℝ) (k : ℕ) (loaded : Except String (LoadedSources ι)) : Logged (String × StartFile) Unit := do
  let l ← Logged.quiet loaded
  let room ← Logged.quiet (cliRoom conv startArgs l.2.1)
  let sc ← Logged.quiet (startStatic (startCenter r k))
  startHalfRun put w room (pointsTensor l.1) l.2.1 "static" "Static" sc (startLayout put room sc)
  let sc' ← Logged.quiet (startDynamic sc)
  startHalfRun put w room (pointsTensor l.1) l.2.1 "dynamic" "Dynamic" sc'
    (startAnimation put room (pointsTensor l.1) l.2.1 sc')

end Torchrir.Model
