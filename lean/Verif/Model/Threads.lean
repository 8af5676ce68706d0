import Verif.Model.Cache
import Verif.Model.Dataset

/-!
# Several threads

Programs that share a state and take turns: a program is a sequence of atomic actions on the shared state, between
which other threads may act. What one thread computes without touching the shared state is not an action.

Two parts of the library keep state that threads can share: the dictionaries of `sim/ism/accumulate.py` (12-17) and
the attribute `_sentences_cache` of a dataset (`datasets/base.py` 35, 72-75). Atomic are the look-up `d.get(key)`, the
assignment `d[key] = value`, reading an attribute and assigning it, as CPython guarantees. The tensors in the
dictionaries are never written to after they are stored.
-/

namespace Torchrir.Model

/-- A program on a shared state: finished, or about to take an atomic action, which leaves `upd s` of the state `s` it
finds and goes on with `next s`. -/
inductive Proc (S α : Type) where
  | done (result : Except String α)
  | act (upd : S → S) (next : S → Proc S α)

namespace Proc

variable {S α β : Type}

/-- A computation without action. -/
def lift (x : Except String α) : Proc S α := .done x

/-- Look at the state. -/
def look (next : S → Proc S α) : Proc S α := .act id next

/-- Change the state. -/
def store (upd : S → S) (next : Proc S α) : Proc S α := .act upd fun _ => next

/-- One after the other; an exception ends the program. -/
def bind : Proc S α → (α → Proc S β) → Proc S β
  | .done (.ok a), f => f a
  | .done (.error e), _ => .done (.error e)
  | .act upd next, f => .act upd fun s => (next s).bind f

/-- What the program does when it runs alone: its result and the state afterwards. -/
def alone : Proc S α → S → Except String α × S
  | .done r, s => (r, s)
  | .act upd next, s => (next s).alone (upd s)

end Proc

/-- Threads and the state they share. -/
structure Threads (S α : Type) where
  state : S
  progs : ℕ → Proc S α

/-- Thread `i` takes its next action; if it has finished, nothing happens. -/
def Threads.step {S α : Type} (t : Threads S α) (i : ℕ) : Threads S α :=
  match t.progs i with
  | .done _ => t
  | .act upd next => ⟨upd t.state, Function.update t.progs i (next t.state)⟩

/-- The threads take turns in the given order. -/
def Threads.run {S α : Type} (t : Threads S α) (order : List ℕ) : Threads S α := order.foldl Threads.step t

/-- The result of thread `i`, once it has finished. -/
def Threads.result {S α : Type} (t : Threads S α) (i : ℕ) : Option (Except String α) :=
  match t.progs i with
  | .done r => some r
  | .act _ _ => none

/-! ## The dictionaries of `accumulate.py` -/

/-- `_get_fdl_grid` (accumulate.py 127-133). -/
def gridProc (B : Backend) (fdl : ℕ) (dev : Device) (dtype : DType) : Proc Caches (List ℝ) :=
  .look fun σ =>
    match σ.grid (fdl, dev.str, dtype) with
    | some t => .done (.ok t)
    | none =>
      .store (fun σ => { σ with grid := Function.update σ.grid (fdl, dev.str, dtype) (some (B.grid fdl dev.str dtype)) })
        (.done (.ok (B.grid fdl dev.str dtype)))

/-- `_get_fdl_offsets` (accumulate.py 136-143). -/
def offsetsProc (B : Backend) (fdl : ℕ) (dev : Device) : Proc Caches (List ℤ) :=
  .look fun σ =>
    match σ.offsets (fdl, dev.str) with
    | some t => .done (.ok t)
    | none =>
      .store (fun σ => { σ with offsets := Function.update σ.offsets (fdl, dev.str) (some (B.offsets fdl dev.str)) })
        (.done (.ok (B.offsets fdl dev.str)))

/-- `_get_fdl_window` (accumulate.py 146-152). -/
def windowProc (B : Backend) (fdl : ℕ) (dev : Device) (dtype : DType) : Proc Caches (List ℝ) :=
  .look fun σ =>
    match σ.window (fdl, dev.str, dtype) with
    | some t => .done (.ok t)
    | none =>
      .store (fun σ => { σ with window := Function.update σ.window (fdl, dev.str, dtype) (some (B.window fdl dev.str dtype)) })
        (.done (.ok (B.window fdl dev.str dtype)))

/-- `_get_sinc_lut` (accumulate.py 155-168). -/
def lutProc (B : Backend) (fdl gran : ℕ) (dev : Device) (dtype : DType) : Proc Caches (List ℝ) :=
  .look fun σ =>
    match σ.lut (fdl, gran, dev.str, dtype) with
    | some t => .done (.ok t)
    | none =>
      .store (fun σ => { σ with lut := Function.update σ.lut (fdl, gran, dev.str, dtype) (some (B.lut fdl gran dev.str dtype)) })
        (.done (.ok (B.lut fdl gran dev.str dtype)))

/-- `_get_accumulate_fn` (accumulate.py 97-124): the constants of the function it returns. -/
def accumulateFnProc (cfg : Config) (dev : Device) (dtype : DType) : Proc Caches AccumConsts :=
  let c : AccumConsts :=
    { fdl := cfg.fracDelayLength.toNat, gran := cfg.sincLutGranularity.toNat
      useLut := cfg.useLut && dev.type ≠ .mps, chunkSize := cfg.accumulateChunkSize.toNat }
  let key := (dev.str, dtype, c.fdl, c.gran, c.useLut, c.chunkSize)
  if (dev.type ≠ .cuda ∧ dev.type ≠ .mps) ∨ cfg.useCompile = false then .done (.ok c)
  else .look fun σ =>
    match σ.compiled key with
    | some k => .done (.ok k)
    | none => .store (fun σ => { σ with compiled := Function.update σ.compiled key (some c) }) (.done (.ok c))

/-- The table used when `use_lut` is set; otherwise none is fetched (accumulate.py 54-55). -/
def lutIfProc (B : Backend) (c : AccumConsts) (dev : Device) (dtype : DType) : Proc Caches (List ℝ) :=
  if c.useLut then lutProc B c.fdl c.gran dev dtype else .lift (.ok [])

/-- `_accumulate_rir_batch` (accumulate.py 20-94). -/
noncomputable def accumulateProc (B : Backend) (cfg : Config) (dev : Device) (dtype : DType)
    (nSm nsample : ℕ) (rirFlat : List ℝ) (sample amplitude : List (List ℝ)) : Proc Caches (List ℝ) :=
  (accumulateFnProc cfg dev dtype).bind fun c =>
  (Proc.lift (raiseIf (nSm = 0) "RuntimeError: cannot reshape tensor of 0 elements")).bind fun _ =>
  (gridProc B c.fdl dev dtype).bind fun grid =>
  (offsetsProc B c.fdl dev).bind fun offsets =>
  (windowProc B c.fdl dev dtype).bind fun window =>
  (lutIfProc B c dev dtype).bind fun lut =>
  .lift (accumulateImpl ⟨grid, offsets, window, lut⟩ c.fdl c.gran c.useLut c.chunkSize nSm nsample
    rirFlat sample amplitude)

/-- Computations that take turns with other threads. -/
def Ctx.threads : Ctx (Proc Caches) := ⟨Proc.bind, Proc.lift⟩

/-- A simulation call (api.py 33-133, 136-238) as a thread runs it. -/
noncomputable def Call.proc (B : Backend) : Call → Proc Caches (Tensor ℝ)
  | .static w dev dtype room s m a =>
    simulateRirIn .threads (fun cfg => accumulateProc B cfg dev dtype) w room s m a
  | .dynamic w dev dtype room s m a =>
    simulateDynamicRirIn .threads (fun cfg => accumulateProc B cfg dev dtype) w room s m a

/-- A process that makes the given calls, each in its own thread; threads without a call have nothing to do. -/
noncomputable def callThreads (B : Backend) (calls : List Call) : Threads Caches (Tensor ℝ) :=
  ⟨.empty, fun i => match calls[i]? with
    | some c => c.proc B
    | none => .done (.error "no call")⟩

/-! ## The sentences of a dataset -/

/-- What threads that use one dataset object share: its `_sentences_cache`, and the files. -/
structure SharedDataset (W : Type) where
  files : W
  cache : Option (List Sentence) := none

/-- `_get_sentences` (base.py 72-75) and what the caller does with the list: read the attribute; if it is `None`, list
the sentences and assign them; read the attribute again. Simplified: listing the sentences is one action. -/
def sentencesProc {W α : Type} (f : Files W) (use : List Sentence → Proc (SharedDataset W) α) :
    Proc (SharedDataset W) α :=
  let again : Proc (SharedDataset W) α := .look fun s =>
    match s.cache with
    | some l => use l
    | none => .done (.error "TypeError: object of type 'NoneType' has no len()")
  .look fun s =>
    match s.cache with
    | some _ => again
    | none => .look fun s =>
      match f.available s.files with
      | .error e => .done (.error e)
      | .ok l => .store (fun s => { s with cache := some l }) again

/-- `__getitem__` with an integer index (base.py 56-70). -/
def itemProc {W : Type} (f : Files W) (speaker : Option String) (idx : ℤ) : Proc (SharedDataset W) (Item Unit) :=
  sentencesProc f fun l =>
    match pyGet l idx with
    | .error e => .done (.error e)
    | .ok sentence => .look fun s => .done (loadItem f s.files speaker sentence)

/-- What a thread may do: read an item, or (another program) change the files. -/
inductive DatasetTask (W : Type) where
  | item (idx : ℤ)
  | change (g : W → W)

/-- The program of a thread. -/
def DatasetTask.proc {W : Type} (f : Files W) (speaker : Option String) : DatasetTask W → Proc (SharedDataset W) (Item Unit)
  | .item idx => itemProc f speaker idx
  | .change g => .store (fun s => { s with files := g s.files }) (.done (.error "no item"))

/-- Threads that use one dataset object. -/
def datasetThreads {W : Type} (f : Files W) (speaker : Option String) (s : SharedDataset W) (tasks : List (DatasetTask W)) :
    Threads (SharedDataset W) (Item Unit) :=
  ⟨s, fun i => match tasks[i]? with
    | some t => t.proc f speaker
    | none => .done (.error "no task")⟩

end Torchrir.Model
