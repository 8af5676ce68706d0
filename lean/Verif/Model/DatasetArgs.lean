import Verif.Model.Argv
import Verif.Model.Document

/-!
# The copy of the arguments in the metadata of a dynamic dataset

Model of `_serialize_args` of `examples/build_dynamic_dataset.py`, and of its `main` on the words of a command line.
-/

namespace Torchrir.Model

/-- `_serialize_args` (build_dynamic_dataset.py 73-93). `args.dataset_dir` is the directory that is used (296). -/
def datasetArgs (st : ScriptSettings) : PyVal :=
  .dict
    [(.str "dataset", .str st.dataset),
     (.str "dataset_dir", .str st.dataRoot),
     (.str "subset", .str st.subset),
     (.str "download", .bool st.download),
     (.str "num_scenes", .num (.int st.numScenes)),
     (.str "num_sources", .num (.int st.numSources)),
     (.str "num_moving_sources", .num (.int st.numMoving)),
     (.str "num_mics", .num (.int st.numMics)),
     (.str "duration", .num (.float st.duration)),
     (.str "seed", .num (.int st.seed)),
     (.str "room", .list (st.room.map fun x => .num (.float x))),
     (.str "steps", .num (.int st.steps)),
     (.str "order", .num (.int st.order)),
     (.str "tmax", .num (.float st.tmax)),
     (.str "device", .str st.device),
     (.str "out_dir", .str st.outDir),
     (.str "plot", .bool st.plot),
     (.str "log_level", .str st.level)]

/-- `extra` of the metadata of a scene (build_dynamic_dataset.py 448-459): the arguments come last. -/
def datasetExtra (others : List (PyKey × PyVal)) (st : ScriptSettings) : List (PyKey × PyVal) :=
  others ++ [(.str "args", datasetArgs st)]

/-- `main` of a script on the words of its command line. -/
noncomputable def scriptMainArgv {ι : Type} (cv : Conversions) (conv : Flt → ℤ) (t : Torch) (w : TorchDevice → World)
    (gen : ℤ → Gen) (load : LoadCall → Gen → Except String (LoadedSources ι × ℕ)) (p : Program) (argv : List String) :
    Option (Writing ι Unit) :=
  match typedArgs (scriptParser p) argv with
  | .error e => some ⟨[], .error e⟩
  | .ok given => scriptMain cv conv t w gen load p given

end Torchrir.Model
