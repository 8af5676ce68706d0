# Formal model of torchrir: design

## 1. Trusted base

* **Lean's kernel** (Lean 4.33.0) and Mathlib's definitions (real and complex numbers, finite sums, floor, `arg`).
* **Axioms.** Every theorem in `MANIFEST.json` depends on at most `propext`, `Classical.choice` and `Quot.sound`.
  These are Lean's standard axioms; Mathlib's real numbers need all three. Only `propext` and `Quot.sound`:
  C48 (all), `C49_unannounced_truncation`, `C51_*`, `C68_missing_field`. Only `propext`: `C33_pair_of_names`,
  `C01_negative_order_rejected`, `C02_wrong_length_rejected`, `C50_crash_during_extraction_fails`.
  No axiom is added; there is no `sorry`, `admit`, `native_decide` or `bv_decide`.
* **The model.** The correspondence between `/repo` and `lean/Verif/Model/` is by reading. Every definition cites the
  file and lines it models and says where it simplifies.
* **The specifications** in `lean/Verif/Spec/` and the few definitions that stand directly above a theorem in
  `lean/Verif/Props/`. They are short and do not use the model's helpers.

## 2. Layout

* `Verif/Model/*.lean`  the model, function by function.
* `Verif/Spec/*.lean`   specifications that are shared by several theorems.
* `Verif/Lemmas/*.lean` helper lemmas.
* `Verif/Props/*.lean`  the theorems, named after the property (`C24_...`), with an `example` of a concrete case
  beside them.

Naming: `..._partial` means that a hypothesis restricts the property, the comment says which part is missing;
`..._fails` proves that the property is false of the code in the remaining part, with a witness or for a whole
family of inputs. A property with such a theorem has status `partial`, unless
its statement already excludes the case (C88, C90, C95). `..._exactly` describes the behaviour on all
inputs, the ones outside the property included (`Props/Exact*.lean`).

## 3. Modelling conventions

| Code | Model |
|---|---|
| floating point values | real numbers, exact arithmetic; C102, C104, C105, C126 and C127 are about rounding. Overflow is outside. Where the code produces NaN from ordinary input (0/0), the model has an explicit error or `none` |
| NaN and infinite arguments | type `Flt` (a real, NaN, +inf, -inf) in `Room`, `Source`, `MicrophoneArray`, scenes and `SimulationConfig`, because the checks there are about such values |
| integer dtypes | `NumType`: where code casts to the dtype of an integer tensor, the model truncates (`castTo`, `trunc`) |
| tensors | shape plus row-major data (`Tensor`), lists where only the values matter |
| exceptions | `Except String α`; theorems do not depend on the message, except in C109, which tells one error from others |
| `for` and chunk loops | recursion over the same range with the same step |
| `while` loops that may not end | fuel and `Option`; `none` for every fuel means "does not return" |
| `scatter_add_` | list update at an index; an index out of range is an error |
| `torch.fft.rfft/irfft` | the half-spectrum transform written out over the complex numbers |
| `torch.atan2` | `Complex.arg`; in floating point -0.0 as `y` gives -pi, which the reals do not have |
| module level caches | explicit state that is passed through the calls |
| threads, processes | programs that take turns, one atomic action on the shared state at a time, in any order (`Proc`, `Threads`) |
| random generators | an arbitrary stream; theorems quantify over it (bounds on the values only where `torch.rand`, `numpy` guarantee them). C117 takes the values as independent random variables, uniform on `[0, 1]` |
| scipy, matplotlib, ffmpeg, soundfile codec | parameters |
| file system, network | a machine with files, a clock of requests and an adversarial server. A program is a function to a result and the list of all states it went through; a crash leaves any of these states |

Not modelled anywhere: floating point rounding outside the simulation, the convolvers, the positions, the levels and the Sabine estimates (C102, C104, C105, C126, C127, C144, C145), autograd, `torch.compile` (a compiled function is the function),
GPU kernels, the coefficients of the high pass filter (scipy), rendering by matplotlib, WAV encoders, `repr` of floats,
the text of YAML.

## 4. Coverage

| Source (`/repo/src/torchrir`) | Model | Not modelled |
|---|---|---|
| `sim/ism/images.py` | Images | |
| `sim/ism/contributions.py` | Contrib, OneSource | |
| `sim/ism/accumulate.py` | Accumulate, Cache, Threads | `torch.compile` |
| `sim/ism/api.py`, `validate.py`, `prepare.py`, `helpers.py` | Ism; integer dtypes: Dtypes | device transfers |
| `sim/ism/diffuse.py`, `hpf.py` | Ism, Scipy | filter coefficients |
| `sim/directivity.py`, `util/orientation.py` | Directivity, Orientation | |
| `sim/simulators.py`, `models/scene.py`, `models/results.py` | Scene | |
| `models/room.py`, `util/tensor.py` | Room | `extend_size` (only called with three entries, which it returns) |
| `config.py` | Config, ConfigUpdate | |
| `util/acoustics.py` | Acoustics, SabineFloat | |
| `util/device.py` | Device, Warnings | `torch.device` parsing is a parameter |
| `signal/*.py` | Signal, SignalFloat | |
| `geometry/*.py` | Arrays, Sampling, GeometryFloat | |
| `datasets/_archive.py` | Fs, Archive | symbolic links, permissions |
| `datasets/cmu_arctic.py`, `librispeech.py` | Download, Opening, Race, Transcript, Corpus | the logging; symbolic links |
| `datasets/base.py`, `collate.py`, `utils.py` | Dataset, Sources, Threads | |
| `datasets/dynamic_cmu_arctic.py` | Sources, Builder, LevelFloat, BuilderCli, BuilderRun | progress output, the text box itself |
| `__init__.py`, `io/audio.py`, `io/__init__.py` | Audio, LevelFloat, SoundFile (`soundfile` is a parameter), Warnings | stack levels of warnings |
| `io/metadata.py` | Metadata, Document, JsonText | `repr` of floats in the JSON document |
| `io/outputs.py` | Outputs, ScriptRun, Document, JsonText | |
| `logging.py` | Logging, LogTree | date formats, fields of records other than level, name and message |
| `viz/animation.py`, `viz/utils.py` | Animation, Mux, Frames, Videos | rendering, video and audio encoding |
| `viz/scene.py`, `viz/io.py` | Plot, Frames, Videos, Axes | labels of the axes, markers, rendering |
| `datasets/attribution.py` | Outputs | |
| `examples/cli.py`, `util/cli.py` | CliScene, Cli, ConfigText, Argv, CliRun | yaml, windows of `--show` |
| `examples/static.py`, `examples/dynamic_src.py`, `examples/dynamic_mic.py` | Scripts, ScriptRun, Opening, ScriptCli, Argv, ScriptPlots | windows of `--show` |
| `examples/getting_started.py` | GettingStarted, StartRun | the spectrograms, axes, printing |
| `examples/benchmark_device.py` | Benchmark, BenchCli | text of the messages, synchronisation of the GPU |
| `examples/build_dynamic_dataset.py` | DynDataset, DatasetRun, Opening, ScriptCli, Argv, DatasetArgs, ScriptPlots | — |
| `experimental/*.py` | Warnings | |

## 5. How the properties are proved

**Image source method (C01 to C21).** The index set is characterised by membership and absence of duplicates.
Image positions and coefficients are compared with iterated mirroring by induction on the number of reflections.
The chunked loops of `simulate_rir` and `simulate_dynamic_rir` are refined to one double sum over images and
kernel taps (`Lemmas/Accumulate`, `Lemmas/Ism`); `Lemmas/Inverse` shows that every accepted call is of the shape
of the closed form, so that the theorems speak about all accepted calls. Symmetry, reciprocity, linearity and the
static limit are then facts about the sum. The sinc table has an explicit error bound. The caches carry the
invariant that an entry equals the freshly computed value.

**Signals (C22 to C29, C93).** The half-spectrum transform is inverted by hand, which gives the convolution theorem;
the loop, the batched and the hop variants are refined to `mixVarying`, a sum in which signal sample `j` passes
through the response of the step that is current at `j`.

**Acoustics, orientation, directivity (C30 to C34).** Real algebra and case analysis on shapes.

**Rooms, scenes, configuration, devices (C35 to C41).** Decision logic, stated as equivalences between acceptance
and a readable condition; accepted scenes simulate.

**Geometry (C42 to C47).** Vector algebra; the tables of the spherical arrays are checked for all entries.

**Archives and downloads (C48 to C54, C87, C91).** Hoare triples over disk programs whose invariant holds in every state
that the program goes through, which covers crashes at any point.

**Corpora on disk (C99, C100).** A directory is the list of everything below it. The layout of a corpus is a predicate on such
lists; the theorems relate listing, path construction and transcript parsing for all lists that satisfy it.

**Datasets and builder (C55 to C62).** The builder is modelled from argument checks to mixture, with arbitrary
random streams and an arbitrary loader.

**Input and output, logging, animation (C63 to C72).** Call histories by induction over the list of calls; the
exact condition for the agreement of the two time grids (C67) is number theory.

**Invariance (C73 to C77, C92, C94).** Consequences of the closed forms of C05, C13 and C23 for scaling, renamed axes,
increasing order and whole pipelines. They are stated about pairs of API calls.

**Plots, videos, attribution (C78 to C84).** A plot or a frame is the list of what is put on the axes. Adding sound to a video is a
disk program with crash points; the behaviour of `ffmpeg` and of the codecs is arbitrary within `SoundWorld`.

**High-pass filter (C85, C86).** The closed forms of C05 to C21 and C73 to C77 are for the filter switched off, while the
default configuration has it on. C85 reduces every filtered call to the unfiltered one, for an arbitrary filter.
`Model/Scipy` is a reference model of `scipy.signal.sosfiltfilt` written from its documentation; only C86 uses it.

**Command line (C88).** The three scenarios of `examples/cli.py` are composed from the models of sampling, arrays, rooms,
simulation and convolution; the theorems follow from C13, C23, C24, C42, C45, C46, C47 and C85.

**Dynamic dataset script (C90).** `examples/build_dynamic_dataset.py` is composed in the same way from sampling, arrays,
trajectories, simulation, convolution and `save_audio`, with one generator per scene. A generator is what its `k`-th
operation returns, so the order of the draws is part of the model. The loop returns the scenes finished before an exception.

**Rounded additions (C102).** `Model/Rounded.lean` repeats the accumulation with an arbitrary addition and an arbitrary order
for each `scatter_add_`. Every sample is then a left fold of that addition over a rearrangement of the list of contributions to
it (`StaticPlan.evalWith`); with the standard model `|add x y - (x + y)| <= u |x + y|` the usual induction bounds the error.
Only the additions are rounded: the contributions themselves remain real numbers.

**Floating point (C104, C105).** `Model/Floating.lean` rounds every elementary operation of the simulation, from the
image positions to the accumulation. `Floats` holds the machine: rounding `fl`, torch's norm, power, product, sum, cosine,
sine and sinc, the Hann window, the sinc table, and the order of scattered additions; `Accurate p ε F` (`Spec/Floating.lean`) is what is assumed
of it. That torch's functions meet it is trusted. Exponents are unbounded (no overflow, no underflow, no NaN); positions,
sizes and wall coefficients are taken as the numbers the dtype holds; diffuse tail and high-pass filter remain exact.
`C105_exact` ties the model to the one of the other properties on all inputs.

**Files of a dynamic dataset (C103).** `Model/DatasetRun.lean` repeats the script of C90 in the `Writing` monad of C101, with
attribution, references, mixture and metadata of every scene. `load g` is the outcome of `load_dataset_sources` for the
generator `g`; the theorems assume that it is one of `Model/Sources.lean`.

**Files of the example scripts (C101).** A run is the list of files written so far and an outcome (`Model/ScriptRun.lean`), so
that an exception keeps the files before it. The order is proved compositionally; finished runs are reduced to C53, C66,
C84 and C95.

**Example scripts (C95).** `examples/static.py`, `dynamic_src.py` and `dynamic_mic.py` reuse the models of C88 and C90. Where
they agree with the command line program this is proved as an equation of the two models.

**Options and configurations (C89).** The parser is a table of options; `C89_options` shows that the table means what the
specification says, one constructor per kind of option. Precedence is an induction over the command line. The round trip
rests on `str(Path(str(Path(s)))) = str(Path(s))`, proved for POSIX paths.

**Configuration files as text (C129).** `Model/ConfigText.lean` is the program of C89 on a disk of texts: JSON is read by the reader and written by the writer of C128. `C129_repeat` composes `C89_repeat` with `C128_round_trip`; the entries are written in the order of `_serialize_args` and their names differ, so the dictionary that is read has the same entries in the same order.

**The command line as it is typed (C130).** `Model/Argv.lean` is `_parse_optional`, `_get_option_tuples` and the loop of `_parse_known_args` of the standard library. `Spec/Argv.lean` says what words mean (`TypedAs`) without following the algorithm: which words name an option, which can be arguments, and how options are put together. `classify_option` and `classify_value` show that the parser's classification of a word is that of the specification; `C130_exactly` is an induction on the words in one direction and on the meaning in the other.

**A dataset from its metadata (C131).** `datasetArgs` is `_serialize_args`. `Typing` in `Spec/DatasetArgs.lean` writes such a dictionary as a command line from the names of the entries alone; it knows nothing of the parser except that numbers are read as they are typed. `C131_rebuild` joins C130 (what words mean), C119 (what options mean) and the fact that the script uses `--dataset-dir` only through the directory it stands for; `C131_file` rests on C116.

**The benchmark from the command line (C132).** `Model/BenchCli.lean` is the parser of the script; `BenchMeans` says what a command line means from C130's `TypedAs` and one rule for each option.

**Pictures of the scripts (C133).** `Model/ScriptPlots.lean` adds `--plot` to the scripts: a run is a list of events, files and pictures, in their order. `savePlots` keeps what was saved before an exception; C133_saved relates it to `renderScenePlots`. `dataOf` (Spec) forgets the pictures, and `Shot` lists the kinds of pictures. That drawing uses no random numbers and changes no tensor is read off the code. Files that a failing writer of matplotlib leaves half done are not modelled.

**Runs of the command line program (C134).** `Model/CliRun.lean` is `_run_static`, `_run_dynamic_src` and `_run_dynamic_mic` from the attribution to the metadata, with the events of C133. They have the same steps and are one function `cliRun`. `cliOutput` reads the settings out of the namespace of C89; it is `none` for settings of kinds that only a configuration file can contain (a float for the number of sources, say) and for numbers that are not finite. The output directory is where the files go and is not modelled further.

**Runs of the dataset builder (C135).** `Model/BuilderRun.lean` is `build_dynamic_cmu_arctic_dataset` with the files it leaves. `Logged` is a computation with the events before its exception. `sceneRun` is one turn of the loop over the scenes: `buildScene` of C58, then the files. The layouts are `saveLayoutImages` and `saveVideos` of C79 to C83 and the metadata is `buildMetadata` of C63 with the extra dictionary. Whether `sf.write` raises is a parameter of the sound and the rate.

**Run of the getting-started example (C136).** `Model/StartRun.lean` is the script with the files it leaves, as a `Logged` computation; scenes and audio are those of C97. `put` says for every file whether saving it raises. A pair plot is its curve: the times and the samples; the spectrogram below it is not computed.

**Axes (C137).** `Model/Axes.lean` adds to the marks of C79–C82 the limits of the axes, titles, text boxes and colours. matplotlib keeps limits that were set explicitly, so they do not depend on the marks.

**What is printed (C150).** `Model/LogTree.lean` has the loggers of a process, the search of `logging.Manager._fixupParents` for ancestors (with `name.rfind(".", 0, i - 1)`), effective levels, propagation, the handler of last resort and formats made of text and the three fields of the default format. Spec: `InTree` (names of the package), `levelText`, `logLine` and `FormatPiece` (formats as sequences of pieces).

**Loudness (C149).** Bounds from the closed forms of C05, C23, C24 and C27. The kernel length as bound of the sum of the kernel is crude; the convolution bound is sharp. No new code is modelled.

**The free field (C148).** From the closed forms of C05, where only the image of order 0 is left. No new code is modelled.

**Symmetries with directional devices (C147).** C12 and C74 for directional devices, carried through the filter (C85) and through C13. No new code is modelled. The null of a figure-8 is exact in real arithmetic; in floating point a residue of rounding remains.

**First-order devices in motion (C146).** From the closed form of C05 for directional devices, the linearity of the filter (C92), and C13 step by step. No new code is modelled.

**Sabine estimates in floating point (C145).** `Model/SabineFloat.lean` rounds Python numbers to 53 bits and tensor elements to `p` bits. Relative errors are counted in roundings; long times use that between `1 - 2⁻ᵖ` and 1 there is no number with `p` bits. The order of summation of `torch.sum` is left open (`SumsUp`).

**Levels in floating point (C144).** Rounding to nearest is monotone and does not pass a floating-point number, so the quotient by the largest magnitude stays within 1 and the product with the peak within the peak. The errors are counted in roundings (`roundings`, Spec/GeometryFloat).

**Symmetric rooms (C143).** From C12 and C74 when the transformed room is the room itself; several axes by induction.

**Warnings (C142).** `Model/Warnings.lean` models every call of `warnings.warn`. Code is a function on a process (the world and the warnings noted) that returns or raises; the filters of Python are a parameter that decides for every warning, knowing the earlier ones, whether it is noted or raised.

**Laws of the Sabine estimates (C141).** Identities between different calls of `util/acoustics.py`, directly on the model; the limit of tall rooms uses Mathlib's filters.

**Convolution over time (C140).** Consequences of the closed forms of C23 and C24 that relate different calls: blocks, delays, dependence on the past, and the reduction of trajectory mode to static convolution of the pieces of the signal (`Spec/OverTime.lean`). No new code is modelled.

**Convolution in floating point (C126).** `Model/SignalFloat.lean` rounds every addition, product and clock of the convolvers; the transforms are parameters with an accuracy relative to the sum of magnitudes (`AccurateSignals`), which is what an FFT in floating point has. The order in which the sources of a step are added on a GPU is left open. Times are `float32` on MPS and `float64` elsewhere, Python floats are doubles.

**The text of JSON (C128).** `Model/JsonText.lean` writes a value as `json.dump(value, f, indent=2)` does, piece by piece, so that what was written before an exception is known. `Spec/JsonText.lean` is a reader made from the grammar of JSON, with a bound on the number of nested steps that `ReadsAs` quantifies away. `repr` of a finite float is a parameter with the property that the reader finds the same double.

**Positions in floating point (C127).** `Model/GeometryFloat.lean` rounds every operation of the sampling functions, of clamping and of trajectories: `rng.uniform` in double precision, storage and tensor operations with `p` bits. A quotient of a tensor and a Python number may take two roundings (CUDA multiplies with the rounded reciprocal), a norm four.

**Truncation (C125).** The images are counted by a recurrence in the dimension; the contribution of one order is bounded by its number of images, and the bounds are summable.

**Mirror rooms (C122).** The images of the half room are split by their index modulo 4 and matched one by one with the images of the two sources in the whole room; the two sets differ only in images that arrive after the last sample.

**Videos on the disk (C121).** Each video is a program on the disk with the rules of C78; the invariant says which paths may differ from the disk before, and is composed over the videos.

**Runs that share scenes (C120).** Files are traced back through the steps of a run to the generator they come from.

**Command lines of the scripts (C119).** The parsers are tables as in C89. `Spec.Reads` runs through the options and changes
one field per option; the settings of the model are compared with it by induction from the end of the command line.

## 6. Where the code does not do what the property says

Each of these is a theorem (`..._fails`) or a hypothesis that a `_partial` theorem names.

* C11: directivity and orientation of image sources are not mirrored; reciprocity holds for the direct path, and
  with reflections for devices parallel to the reflecting walls.
* C27, C28: hop mode drops the signal beyond `T * hop`, ignores further sources with 2-D responses and returns zeros
  for a negative hop; timestamps are not checked for order or range (C111: on the
  CPU with responses of at least three samples bad ones raise all the same; on a GPU, or with shorter responses, parts of
  the signal may be played twice).
* C34: `"Omni"` and `"omnidirectional"` are names of the pattern but need orientations, unlike `"omni"`.
* C35, C40: NaN is accepted for room dimensions and configuration values.
* C35, C36: with integer room sizes wall coefficients are truncated to integers.
* C37: scenes without sources are accepted but do not simulate.
* C39: `ISMSimulator` does not forward orientations to dynamic simulation, directional dynamic scenes raise.
* C41: `resolve_device("mps:0")` has no fallback.
* C42 to C47: integer centres, degenerate directions and normals, a single trajectory step, margins of more than half
  a side, unusable height ranges.
* C48: a member such as `../x/../root/f` passes the check and creates a directory outside the target.
* C50: a crash during extraction leaves a partial tree that is taken for complete; a truncated download is accepted
  if the server does not announce the length.
* C88: in a room lower than 1 m the command line program can place a talker outside; a moving talker can come
  arbitrarily close to the ears.
* C100: items of a whole LibriSpeech subset name no speaker; `list_speakers` of CMU ARCTIC names speakers that are not on disk.
* C103: recordings that are not at 16 kHz are mixed with responses for 16 kHz, saved with their own rate, and described
  with 16 kHz.
* C96: `--log-level basic_format` (or `_styles`) finds an attribute of `logging` that is not a level; the program ends
  with an error.
* C121: when adding sound to the first video of a scene raises, the second video is never rendered.
* C120: datasets with neighbouring seeds contain the same recordings: scene `i + 1` for one seed is scene `i` for the next.
* C118: with `download=True` a dataset whose archive was deleted is downloaded again although it is there;
  `build_dynamic_dataset.py` downloads without `--download`; the scripts open, and fetch, the speaker `bdl` in any case.
* C116: `save_metadata_json` empties the file before it knows whether the values can be written.
* C115: two processes that download the same archive write to the same `.part` file.
* C114: a thread that was overtaken in `_get_sentences` replaces sentences that are in use.
* C112: `save_wav` with a format argument writes the format of the file name; `save_audio_data` scales by default; the
  attribute `_torchrir_subtype` is never seen.
* C109: integer sources raise or yield zeros; the tail of a room with integer size and a reverberation time fades as if the
  walls absorbed everything.
* C127: rounding to single precision can put a sampled position inside the margin; the last position of `linear_trajectory` is calculated as start plus displacement, so it can differ from the end and even be outside the room.
* C126: without timestamps a step that should begin at a whole number of samples may begin one sample early, in double precision.
* C110: the tail takes its level from the single sample before it.
* C108: a microphone at the place of a source or of an image makes the response NaN for patterns that compute with the cosine.
* C107: the benchmark script divides by zero without repetitions, accepts a negative number, and finds an unknown device after the work on the CPU.
* C106: `_compute_image_contributions`, which nothing calls, broadcasts a direction for each microphone along the images.
* C105: a half-omni device that sees the other one at a right angle may hear it at full strength, in every precision.
* C104: a delay of a whole number of samples may be rounded below it, and the window then starts one sample early; with a
  kernel of one tap the sound is lost from its sample, in every precision.
* C102: a device that reorders the additions of a call is not bitwise independent of the chunk sizes.
* C101: a directory that is used again keeps references of the earlier run.
* C90: in the dataset script a zigzag of two steps raises, long microphone lines near a wall collapse, nine or more
  microphones are saved as frames, and saved references do not add up to the saved mixture.
* C95: in the example scripts, too, a walking source can come close to the microphones, and nine or more microphones are
  saved as frames.
* C87: an archive whose reading raises anything but `ReadError`, `EOFError` or `OSError` is never replaced.
* C53, C54: a non-positive duration, empty audio or no sources make the loader loop forever or fail.
* C55, C56: an integer first item truncates the others; audio is read again on every access.
* C60 to C62: vertical margins that leave no height; the mixture may exceed full scale; an existing dataset is
  removed before all arguments are checked.
* C64: nine and more channels are written as frames.
* C66, C67: given timestamps are copied unchecked; integer microphone positions raise; the reported timestamps do not
  reproduce the segmentation for any signal longer than the number of steps.
* C69 to C71: the handler keeps its first level; `torchrirfoo` counts as inside the package; the last step of a
  trajectory may not be shown.
* C78: when saving the temporary track or running `ffmpeg` raises, temporary files stay beside the video.
* C80: a group that rests away from its given positions is drawn with a path; a path may stop before the last position.
* C86: with the filter on, a response may start before the direct sound and its samples depend on `nsample`.

## 7. Testing the theorems

`seeded/LOG.jsonl` lists edits of the model that imitate realistic bugs, each with the theorems that no longer
prove. An edit that breaks an English claim but no theorem is answered by a stronger theorem.
