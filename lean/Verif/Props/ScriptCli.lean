import Verif.Props.Cli
import Verif.Props.ScriptRun
import Verif.Spec.ScriptCli

/-!
# C119: the command lines of the example scripts
-/

namespace Torchrir.Props

open Torchrir.Model Torchrir.Lemmas
open Torchrir.Spec

namespace ScriptCli

/-- The default of a destination, also for options that a script does not have. -/
noncomputable def dflt (p : Program) (key : String) : Val :=
  match (scriptParser p).find? (·.dest = key) with
  | some o => o.default
  | none =>
    if key = "dataset" then .str "cmu_arctic" else if key = "subset" then .str "" else if key = "num_scenes" then .int 1
    else if key = "num_moving_sources" then .int 1 else if key = "steps" then .int 16
    else if key = "show" then .bool false else .none

/-- The values and the settings say the same. -/
structure Agrees (F : String → Val) (st : ScriptSettings) : Prop where
  dataset : asText (F "dataset") = .ok st.dataset
  datasetDir : asOptionalPath (F "dataset_dir") = .ok st.datasetDir
  subset : asText (F "subset") = .ok st.subset
  download : asBool (F "download") = .ok st.download
  numScenes : asInt (F "num_scenes") = .ok st.numScenes
  numSources : asInt (F "num_sources") = .ok st.numSources
  numMics : asInt (F "num_mics") = .ok st.numMics
  numMoving : asInt (F "num_moving_sources") = .ok st.numMoving
  duration : asFloat (F "duration") = .ok st.duration
  seed : asInt (F "seed") = .ok st.seed
  room : asFloats (F "room") = .ok st.room
  steps : asInt (F "steps") = .ok st.steps
  order : asInt (F "order") = .ok st.order
  tmax : asFloat (F "tmax") = .ok st.tmax
  device : asText (F "device") = .ok st.device
  outDir : asPath (F "out_dir") = .ok st.outDir
  plot : asBool (F "plot") = .ok st.plot
  shown : asBool (F "show") = .ok st.shown
  level : asText (F "log_level") = .ok st.level

theorem Agrees.unique {F : String → Val} {a b : ScriptSettings} (ha : Agrees F a) (hb : Agrees F b) : a = b := by
  obtain ⟨a1, a2, a3, a4, a5, a6, a7, a8, a9, a10, a11, a12, a13, a14, a15, a16, a17, a18, a19⟩ := ha
  obtain ⟨b1, b2, b3, b4, b5, b6, b7, b8, b9, b10, b11, b12, b13, b14, b15, b16, b17, b18, b19⟩ := hb
  rw [b1] at a1; rw [b2] at a2; rw [b3] at a3; rw [b4] at a4; rw [b5] at a5; rw [b6] at a6; rw [b7] at a7
  rw [b8] at a8; rw [b9] at a9; rw [b10] at a10; rw [b11] at a11; rw [b12] at a12; rw [b13] at a13; rw [b14] at a14
  rw [b15] at a15; rw [b16] at a16; rw [b17] at a17; rw [b18] at a18; rw [b19] at a19
  obtain ⟨⟩ := a
  obtain ⟨⟩ := b
  simp only [Except.ok.injEq] at *
  simp [*]

theorem settingsOf_iff (opts : List Opt) (ns : List (String × Val)) (F : String → Val)
    (h1 : F "dataset" = attrOr opts ns "dataset" (.str "cmu_arctic"))
    (h2 : F "dataset_dir" = attr ns "dataset_dir")
    (h3 : F "subset" = attrOr opts ns "subset" (.str ""))
    (h4 : F "download" = attr ns "download")
    (h5 : F "num_scenes" = attrOr opts ns "num_scenes" (.int 1))
    (h6 : F "num_sources" = attr ns "num_sources")
    (h7 : F "num_mics" = attr ns "num_mics")
    (h8 : F "num_moving_sources" = attrOr opts ns "num_moving_sources" (.int 1))
    (h9 : F "duration" = attr ns "duration")
    (h10 : F "seed" = attr ns "seed")
    (h11 : F "room" = attr ns "room")
    (h12 : F "steps" = attrOr opts ns "steps" (.int 16))
    (h13 : F "order" = attr ns "order")
    (h14 : F "tmax" = attr ns "tmax")
    (h15 : F "device" = attr ns "device")
    (h16 : F "out_dir" = attr ns "out_dir")
    (h17 : F "plot" = attr ns "plot")
    (h18 : F "show" = attrOr opts ns "show" (.bool false))
    (h19 : F "log_level" = attr ns "log_level") (st : ScriptSettings) :
    settingsOf opts ns = .ok st ↔ Agrees F st := by
  unfold settingsOf
  rw [← h1, ← h2, ← h3, ← h4, ← h5, ← h6, ← h7, ← h8, ← h9, ← h10, ← h11, ← h12, ← h13, ← h14, ← h15, ← h16, ← h17, ← h18,
    ← h19]
  constructor
  · intro h
    obtain ⟨a1, e1, h⟩ := (bind_eq_ok _ _ _).mp h
    obtain ⟨a2, e2, h⟩ := (bind_eq_ok _ _ _).mp h
    obtain ⟨a3, e3, h⟩ := (bind_eq_ok _ _ _).mp h
    obtain ⟨a4, e4, h⟩ := (bind_eq_ok _ _ _).mp h
    obtain ⟨a5, e5, h⟩ := (bind_eq_ok _ _ _).mp h
    obtain ⟨a6, e6, h⟩ := (bind_eq_ok _ _ _).mp h
    obtain ⟨a7, e7, h⟩ := (bind_eq_ok _ _ _).mp h
    obtain ⟨a8, e8, h⟩ := (bind_eq_ok _ _ _).mp h
    obtain ⟨a9, e9, h⟩ := (bind_eq_ok _ _ _).mp h
    obtain ⟨a10, e10, h⟩ := (bind_eq_ok _ _ _).mp h
    obtain ⟨a11, e11, h⟩ := (bind_eq_ok _ _ _).mp h
    obtain ⟨a12, e12, h⟩ := (bind_eq_ok _ _ _).mp h
    obtain ⟨a13, e13, h⟩ := (bind_eq_ok _ _ _).mp h
    obtain ⟨a14, e14, h⟩ := (bind_eq_ok _ _ _).mp h
    obtain ⟨a15, e15, h⟩ := (bind_eq_ok _ _ _).mp h
    obtain ⟨a16, e16, h⟩ := (bind_eq_ok _ _ _).mp h
    obtain ⟨a17, e17, h⟩ := (bind_eq_ok _ _ _).mp h
    obtain ⟨a18, e18, h⟩ := (bind_eq_ok _ _ _).mp h
    obtain ⟨a19, e19, h⟩ := (bind_eq_ok _ _ _).mp h
    cases h
    exact ⟨e1, e2, e3, e4, e5, e6, e7, e8, e9, e10, e11, e12, e13, e14, e15, e16, e17, e18, e19⟩
  · rintro ⟨e1, e2, e3, e4, e5, e6, e7, e8, e9, e10, e11, e12, e13, e14, e15, e16, e17, e18, e19⟩
    rw [e1, ok_bind, e2, ok_bind, e3, ok_bind, e4, ok_bind, e5, ok_bind, e6, ok_bind, e7, ok_bind, e8, ok_bind, e9,
      ok_bind, e10, ok_bind, e11, ok_bind, e12, ok_bind, e13, ok_bind, e14, ok_bind, e15, ok_bind, e16, ok_bind, e17,
      ok_bind, e18, ok_bind, e19, ok_bind]
    rfl

/-- The value at a destination after some options. -/
noncomputable def valueOf (p : Program) (stored : List (String × Val)) (key : String) : Val :=
  (lastStored stored key).getD (dflt p key)

theorem lastStored_snoc (l : List (String × Val)) (x : String × Val) (key : String) :
    lastStored (l ++ [x]) key = if key = x.1 then some x.2 else lastStored l key := by
  unfold lastStored
  rw [List.reverse_append]
  obtain ⟨k, v⟩ := x
  by_cases h : key = k
  · simp [h]
  · have : (key == k) = false := by simpa using h
    simp [h, List.lookup_cons, this]

theorem valueOf_snoc (p : Program) (l : List (String × Val)) (x : String × Val) :
    valueOf p (l ++ [x]) = Function.update (valueOf p l) x.1 x.2 := by
  funext key
  unfold valueOf
  rw [lastStored_snoc, Function.update_apply]
  split_ifs <;> rfl

theorem script_mem (p : Program) (o : Opt) : o ∈ scriptParser p ↔
    o ∈ dataOptions p ∨ o ∈ [(⟨"--num-sources", "num_sources", .store .int none, .int 2⟩ : Opt),
      ⟨"--num-mics", "num_mics", .store .int none, .int 2⟩] ∨ o ∈ movingOptions p ∨
    o ∈ [(⟨"--duration", "duration", .store .float none, .float (.fin (durationDefault p))⟩ : Opt),
      ⟨"--seed", "seed", .store .int none, .int 0⟩,
      ⟨"--room", "room", .storeMany .float, .list [.float (.fin 6), .float (.fin 4), .float (.fin 3)]⟩] ∨
    o ∈ stepsOptions p ∨
    o ∈ [(⟨"--order", "order", .store .int none, .int (orderDefault p)⟩ : Opt),
      ⟨"--tmax", "tmax", .store .float none, .float (.fin 0.4)⟩,
      ⟨"--device", "device", .store .str none, .str "cpu"⟩] ∨
    o ∈ outputOptions p ∨ o ∈ [(⟨"--log-level", "log_level", .store .str none, .str "INFO"⟩ : Opt)] := by
  unfold scriptParser
  simp only [List.mem_append, or_assoc]

/-- Every option is found by its flag. -/
theorem script_find (p : Program) (o : Opt) (h : o ∈ scriptParser p) :
    (scriptParser p).find? (·.flag = o.flag) = some o := by
  rcases p with ⟨_ | _ | _⟩ | _ <;>
  · simp only [scriptParser, dataOptions, movingOptions, stepsOptions, outputOptions, outputArgs, List.cons_append,
      List.nil_append, Bool.false_eq_true, if_false, if_true, List.mem_cons, List.append_nil] at h ⊢
    repeat (rcases h with rfl | h; · simp)
    simp at h

theorem defaults_typed (cv : Conversions) (p : Program) (o : Opt) (h : o ∈ scriptParser p) :
    defaultValue cv o = .ok o.default := by
  rcases p with ⟨_ | _ | _⟩ | _ <;>
  · simp only [scriptParser, dataOptions, movingOptions, stepsOptions, outputOptions, outputArgs, List.cons_append,
      List.nil_append, Bool.false_eq_true, if_false, if_true, List.mem_cons, List.append_nil] at h ⊢
    repeat (rcases h with rfl | h; · rfl)
    simp at h

theorem script_store (cv : Conversions) {p : Program} {o : Opt} (h : o ∈ scriptParser p) (args : List String) (v : Val)
    (hv : storedValue cv o args = .ok v) : storeGiven cv (scriptParser p) ⟨o.flag, args⟩ = .ok (o.dest, v) := by
  unfold storeGiven
  dsimp only
  rw [script_find p o h]
  dsimp only
  rw [hv]
  rfl

theorem script_stored {cv : Conversions} {p : Program} {g : Given} {x : String × Val}
    (h : storeGiven cv (scriptParser p) g = .ok x) :
    ∃ o ∈ scriptParser p, o.flag = g.flag ∧ x.1 = o.dest ∧ storedValue cv o g.args = .ok x.2 := by
  unfold storeGiven at h
  cases hf : (scriptParser p).find? (·.flag = g.flag) with
  | none =>
    rw [hf] at h
    cases h
  | some o =>
    rw [hf] at h
    dsimp only at h
    obtain ⟨v, hv, h⟩ := (bind_eq_ok _ _ _).mp h
    cases h
    exact ⟨o, List.mem_of_find?_eq_some hf, by simpa using List.find?_some hf, rfl, hv⟩

/-- The namespace after the options. -/
theorem parse_ok {cv : Conversions} {p : Program} {given : List Given} {stored : List (String × Val)}
    (h : given.mapM (storeGiven cv (scriptParser p)) = .ok stored) :
    ∃ ns, parseArgs cv (scriptParser p) [] given = .ok ns ∧
      ∀ key, (∃ o ∈ scriptParser p, o.dest = key) → attr ns key = valueOf p stored key := by
  obtain ⟨ns, hns⟩ := mapM_succeeds (f := destValue cv stored) (l := scriptParser p) fun o ho => by
    unfold destValue
    cases lastStored stored o.dest with
    | some v => exact ⟨_, rfl⟩
    | none =>
      rw [defaults_typed cv p o ho]
      exact ⟨_, rfl⟩
  refine ⟨ns ++ [], ?_, ?_⟩
  · unfold parseArgs
    rw [h, ok_bind, hns, ok_bind]
    rfl
  · rintro key ⟨o, ho, rfl⟩
    cases hf : (scriptParser p).find? (·.dest = o.dest) with
    | none =>
      have := List.find?_eq_none.mp hf o ho
      simp at this
    | some o' =>
      obtain ⟨v, h1, h2⟩ := lookup_mapM (fun o x => destValue_key) [] hns hf
      have hm := List.mem_of_find?_eq_some hf
      have hd : o'.dest = o.dest := by simpa using List.find?_some hf
      unfold attr
      rw [h2, Option.getD_some]
      unfold valueOf dflt
      rw [hf]
      dsimp only
      unfold destValue at h1
      rw [hd] at h1
      cases hl : lastStored stored o.dest with
      | some w =>
        rw [hl] at h1
        cases h1
        rfl
      | none =>
        rw [hl, defaults_typed cv p o' hm] at h1
        cases h1
        rfl

theorem stored_dest {cv : Conversions} {p : Program} : ∀ {given : List Given} {stored : List (String × Val)},
    given.mapM (storeGiven cv (scriptParser p)) = .ok stored → ∀ key, (¬ ∃ o ∈ scriptParser p, o.dest = key) →
    lastStored stored key = none
  | [], stored, h, key, _ => by
    cases h
    rfl
  | g :: given, stored, h, key, hk => by
    rw [List.mapM_cons, bind_eq_ok] at h
    obtain ⟨x, hx, h⟩ := h
    obtain ⟨rest, hrest, h⟩ := (bind_eq_ok _ _ _).mp h
    cases h
    rw [lastStored_cons, stored_dest hrest key hk]
    obtain ⟨o, ho, -, hd, -⟩ := script_stored hx
    have : key ≠ x.1 := by
      rintro rfl
      exact hk ⟨o, ho, hd.symm⟩
    simp [this]

theorem attrOr_eq {cv : Conversions} {p : Program} {given : List Given} {stored ns : List (String × Val)}
    (h : given.mapM (storeGiven cv (scriptParser p)) = .ok stored)
    (hns : ∀ key, (∃ o ∈ scriptParser p, o.dest = key) → attr ns key = valueOf p stored key) (key : String) (v : Val)
    (hv : (scriptParser p).find? (·.dest = key) = none → dflt p key = v) :
    valueOf p stored key = attrOr (scriptParser p) ns key v := by
  unfold attrOr
  by_cases hk : ∃ o ∈ scriptParser p, o.dest = key
  · rw [if_pos (by simpa using hk), hns key hk]
  · rw [if_neg (by simpa using hk)]
    unfold valueOf
    rw [stored_dest h key hk, Option.getD_none, hv]
    rw [List.find?_eq_none]
    intro o ho
    simpa using fun e => hk ⟨o, ho, e⟩

theorem has_common (p : Program) : ∀ key ∈ ["dataset_dir", "download", "num_sources", "num_mics", "duration", "seed",
    "room", "order", "tmax", "device", "out_dir", "plot", "log_level"], ∃ o ∈ scriptParser p, o.dest = key := by
  intro key hk
  simp only [List.mem_cons, List.not_mem_nil, or_false] at hk
  have hdest : key ∈ (scriptParser p).map (·.dest) := by
    rcases p with ⟨_ | _ | _⟩ | _ <;>
    · simp only [scriptParser, dataOptions, movingOptions, stepsOptions, outputOptions, outputArgs, List.cons_append,
        List.nil_append, Bool.false_eq_true, if_false, if_true, List.append_nil, List.map_cons, List.map_nil]
      rcases hk with rfl | rfl | rfl | rfl | rfl | rfl | rfl | rfl | rfl | rfl | rfl | rfl | rfl <;> simp
  obtain ⟨o, ho, rfl⟩ := List.mem_map.mp hdest
  exact ⟨o, ho, rfl⟩

theorem settings_iff {cv : Conversions} {p : Program} {given : List Given} {stored : List (String × Val)}
    (h : given.mapM (storeGiven cv (scriptParser p)) = .ok stored) (st : ScriptSettings) :
    scriptSettings cv p given = .ok st ↔ Agrees (valueOf p stored) st := by
  obtain ⟨ns, h1, h2⟩ := parse_ok h
  have hc : ∀ key ∈ ["dataset_dir", "download", "num_sources", "num_mics", "duration", "seed", "room", "order", "tmax",
      "device", "out_dir", "plot", "log_level"], valueOf p stored key = attr ns key :=
    fun key hk => (h2 key (has_common p key hk)).symm
  have ho := fun key v hv => attrOr_eq h h2 key v hv
  unfold scriptSettings
  rw [h1, ok_bind]
  refine settingsOf_iff _ _ _ (ho _ _ ?_) (hc _ (by simp)) (ho _ _ ?_) (hc _ (by simp)) (ho _ _ ?_) (hc _ (by simp))
    (hc _ (by simp)) (ho _ _ ?_) (hc _ (by simp)) (hc _ (by simp)) (hc _ (by simp)) (ho _ _ ?_) (hc _ (by simp))
    (hc _ (by simp)) (hc _ (by simp)) (hc _ (by simp)) (hc _ (by simp)) (ho _ _ ?_) (hc _ (by simp)) st <;>
  · intro hn
    unfold dflt
    rw [hn]
    simp

/-! ## One more option -/

section
variable {F : String → Val} {st : ScriptSettings} (h : Agrees F st)
include h

theorem agrees_dataset (s : String) : Agrees (Function.update F "dataset" (.str s)) { st with dataset := s } := by
  obtain ⟨a1, a2, a3, a4, a5, a6, a7, a8, a9, a10, a11, a12, a13, a14, a15, a16, a17, a18, a19⟩ := h
  constructor <;> simp only [Function.update_apply] <;> first | assumption | rfl

theorem agrees_datasetDir (s : String) :
    Agrees (Function.update F "dataset_dir" (.path s)) { st with datasetDir := some s } := by
  obtain ⟨a1, a2, a3, a4, a5, a6, a7, a8, a9, a10, a11, a12, a13, a14, a15, a16, a17, a18, a19⟩ := h
  constructor <;> simp only [Function.update_apply] <;> first | assumption | rfl

theorem agrees_subset (s : String) : Agrees (Function.update F "subset" (.str s)) { st with subset := s } := by
  obtain ⟨a1, a2, a3, a4, a5, a6, a7, a8, a9, a10, a11, a12, a13, a14, a15, a16, a17, a18, a19⟩ := h
  constructor <;> simp only [Function.update_apply] <;> first | assumption | rfl

theorem agrees_download (b : Bool) : Agrees (Function.update F "download" (.bool b)) { st with download := b } := by
  obtain ⟨a1, a2, a3, a4, a5, a6, a7, a8, a9, a10, a11, a12, a13, a14, a15, a16, a17, a18, a19⟩ := h
  constructor <;> simp only [Function.update_apply] <;> first | assumption | rfl

theorem agrees_numScenes (z : ℤ) : Agrees (Function.update F "num_scenes" (.int z)) { st with numScenes := z } := by
  obtain ⟨a1, a2, a3, a4, a5, a6, a7, a8, a9, a10, a11, a12, a13, a14, a15, a16, a17, a18, a19⟩ := h
  constructor <;> simp only [Function.update_apply] <;> first | assumption | rfl

theorem agrees_numSources (z : ℤ) : Agrees (Function.update F "num_sources" (.int z)) { st with numSources := z } := by
  obtain ⟨a1, a2, a3, a4, a5, a6, a7, a8, a9, a10, a11, a12, a13, a14, a15, a16, a17, a18, a19⟩ := h
  constructor <;> simp only [Function.update_apply] <;> first | assumption | rfl

theorem agrees_numMics (z : ℤ) : Agrees (Function.update F "num_mics" (.int z)) { st with numMics := z } := by
  obtain ⟨a1, a2, a3, a4, a5, a6, a7, a8, a9, a10, a11, a12, a13, a14, a15, a16, a17, a18, a19⟩ := h
  constructor <;> simp only [Function.update_apply] <;> first | assumption | rfl

theorem agrees_numMoving (z : ℤ) :
    Agrees (Function.update F "num_moving_sources" (.int z)) { st with numMoving := z } := by
  obtain ⟨a1, a2, a3, a4, a5, a6, a7, a8, a9, a10, a11, a12, a13, a14, a15, a16, a17, a18, a19⟩ := h
  constructor <;> simp only [Function.update_apply] <;> first | assumption | rfl

theorem agrees_duration (x : Flt) : Agrees (Function.update F "duration" (.float x)) { st with duration := x } := by
  obtain ⟨a1, a2, a3, a4, a5, a6, a7, a8, a9, a10, a11, a12, a13, a14, a15, a16, a17, a18, a19⟩ := h
  constructor <;> simp only [Function.update_apply] <;> first | assumption | rfl

theorem agrees_seed (z : ℤ) : Agrees (Function.update F "seed" (.int z)) { st with seed := z } := by
  obtain ⟨a1, a2, a3, a4, a5, a6, a7, a8, a9, a10, a11, a12, a13, a14, a15, a16, a17, a18, a19⟩ := h
  constructor <;> simp only [Function.update_apply] <;> first | assumption | rfl

theorem agrees_room (xs : List Flt) :
    Agrees (Function.update F "room" (.list (xs.map .float))) { st with room := xs } := by
  have hx : asFloats (.list (xs.map .float)) = .ok xs := by
    show (xs.map Val.float).mapM asFloat = _
    induction xs with
    | nil => rfl
    | cons x xs ih =>
      rw [List.map_cons, List.mapM_cons, ih]
      rfl
  obtain ⟨a1, a2, a3, a4, a5, a6, a7, a8, a9, a10, a11, a12, a13, a14, a15, a16, a17, a18, a19⟩ := h
  constructor <;> simp only [Function.update_apply] <;> assumption

theorem agrees_steps (z : ℤ) : Agrees (Function.update F "steps" (.int z)) { st with steps := z } := by
  obtain ⟨a1, a2, a3, a4, a5, a6, a7, a8, a9, a10, a11, a12, a13, a14, a15, a16, a17, a18, a19⟩ := h
  constructor <;> simp only [Function.update_apply] <;> first | assumption | rfl

theorem agrees_order (z : ℤ) : Agrees (Function.update F "order" (.int z)) { st with order := z } := by
  obtain ⟨a1, a2, a3, a4, a5, a6, a7, a8, a9, a10, a11, a12, a13, a14, a15, a16, a17, a18, a19⟩ := h
  constructor <;> simp only [Function.update_apply] <;> first | assumption | rfl

theorem agrees_tmax (x : Flt) : Agrees (Function.update F "tmax" (.float x)) { st with tmax := x } := by
  obtain ⟨a1, a2, a3, a4, a5, a6, a7, a8, a9, a10, a11, a12, a13, a14, a15, a16, a17, a18, a19⟩ := h
  constructor <;> simp only [Function.update_apply] <;> first | assumption | rfl

theorem agrees_device (s : String) : Agrees (Function.update F "device" (.str s)) { st with device := s } := by
  obtain ⟨a1, a2, a3, a4, a5, a6, a7, a8, a9, a10, a11, a12, a13, a14, a15, a16, a17, a18, a19⟩ := h
  constructor <;> simp only [Function.update_apply] <;> first | assumption | rfl

theorem agrees_outDir (s : String) : Agrees (Function.update F "out_dir" (.path s)) { st with outDir := s } := by
  obtain ⟨a1, a2, a3, a4, a5, a6, a7, a8, a9, a10, a11, a12, a13, a14, a15, a16, a17, a18, a19⟩ := h
  constructor <;> simp only [Function.update_apply] <;> first | assumption | rfl

theorem agrees_plot (b : Bool) : Agrees (Function.update F "plot" (.bool b)) { st with plot := b } := by
  obtain ⟨a1, a2, a3, a4, a5, a6, a7, a8, a9, a10, a11, a12, a13, a14, a15, a16, a17, a18, a19⟩ := h
  constructor <;> simp only [Function.update_apply] <;> first | assumption | rfl

theorem agrees_shown (b : Bool) : Agrees (Function.update F "show" (.bool b)) { st with shown := b } := by
  obtain ⟨a1, a2, a3, a4, a5, a6, a7, a8, a9, a10, a11, a12, a13, a14, a15, a16, a17, a18, a19⟩ := h
  constructor <;> simp only [Function.update_apply] <;> first | assumption | rfl

theorem agrees_level (s : String) : Agrees (Function.update F "log_level" (.str s)) { st with level := s } := by
  obtain ⟨a1, a2, a3, a4, a5, a6, a7, a8, a9, a10, a11, a12, a13, a14, a15, a16, a17, a18, a19⟩ := h
  constructor <;> simp only [Function.update_apply] <;> first | assumption | rfl

end

theorem mem_of (p : Program) (o : Opt) (h : o ∈ dataOptions p ∨ o ∈ movingOptions p ∨ o ∈ stepsOptions p ∨
    o ∈ outputOptions p) : o ∈ scriptParser p := by
  rw [script_mem]
  rcases h with h | h | h | h <;> simp [h]

/-- What an option of the parser stores is what it means. -/
theorem store_sets {cv : Conversions} {p : Program} {g : Given} {x : String × Val}
    (h : storeGiven cv (scriptParser p) g = .ok x) (F : String → Val) (st : ScriptSettings) (hF : Agrees F st) :
    ∃ st', Sets cv p g st st' ∧ Agrees (Function.update F x.1 x.2) st' := by
  obtain ⟨o, ho, hfl, hd, hv⟩ := script_stored h
  obtain ⟨flag, args⟩ := g
  obtain ⟨dest, v⟩ := x
  dsimp only at hfl hd hv ⊢
  subst hfl hd
  have hint : ∀ {flag dest : String} {d v : Val}, storedValue cv ⟨flag, dest, .store .int none, d⟩ args = .ok v →
      ∃ s z, args = [s] ∧ cv.int s = some z ∧ v = .int z := by
    intro flag dest d v hv
    obtain ⟨s, rfl, hc, -⟩ := (storedValue_store _ _ _ _ _ _ _ _).mp hv
    obtain ⟨z, hz, rfl⟩ := (convert_int _ _ _).mp hc
    exact ⟨s, z, rfl, hz, rfl⟩
  have hfloat : ∀ {flag dest : String} {d v : Val}, storedValue cv ⟨flag, dest, .store .float none, d⟩ args = .ok v →
      ∃ s x, args = [s] ∧ cv.float s = some x ∧ v = .float x := by
    intro flag dest d v hv
    obtain ⟨s, rfl, hc, -⟩ := (storedValue_store _ _ _ _ _ _ _ _).mp hv
    obtain ⟨z, hz, rfl⟩ := (convert_float _ _ _).mp hc
    exact ⟨s, z, rfl, hz, rfl⟩
  have htext : ∀ {flag dest : String} {ch : Option (List String)} {d v : Val},
      storedValue cv ⟨flag, dest, .store .str ch, d⟩ args = .ok v → ∃ s, args = [s] ∧ v = .str s ∧ ∀ l ∈ ch, s ∈ l := by
    intro flag dest ch d v hv
    obtain ⟨s, rfl, hc, hl⟩ := (storedValue_store _ _ _ _ _ _ _ _).mp hv
    cases hc
    exact ⟨s, rfl, rfl, hl⟩
  have hpath : ∀ {flag dest : String} {d v : Val}, storedValue cv ⟨flag, dest, .store .path none, d⟩ args = .ok v →
      ∃ s, args = [s] ∧ v = .path (pathText s) := by
    intro flag dest d v hv
    obtain ⟨s, rfl, hc, -⟩ := (storedValue_store _ _ _ _ _ _ _ _).mp hv
    cases hc
    exact ⟨s, rfl, rfl⟩
  have hconst : ∀ {flag dest : String} {b : Bool} {d v : Val},
      storedValue cv ⟨flag, dest, .storeConst b, d⟩ args = .ok v → args = [] ∧ v = .bool b :=
    fun hv => (storedValue_const _ _ _ _ _ _ _).mp hv
  rw [script_mem] at ho
  rcases ho with ho | ho | ho | ho | ho | ho | ho | ho
  · rcases p with sc | _
    · simp only [dataOptions, List.mem_cons, List.not_mem_nil, or_false] at ho
      rcases ho with rfl | rfl | rfl
      · obtain ⟨s, rfl, rfl⟩ := hpath hv
        exact ⟨_, .datasetDir _ _ s, agrees_datasetDir hF _⟩
      · obtain ⟨rfl, rfl⟩ := hconst hv
        exact ⟨_, .download _ _, agrees_download hF _⟩
      · obtain ⟨rfl, rfl⟩ := hconst hv
        exact ⟨_, .noDownload _ _, agrees_download hF _⟩
    · simp only [dataOptions, List.mem_cons, List.not_mem_nil, or_false] at ho
      rcases ho with rfl | rfl | rfl | rfl | rfl
      · obtain ⟨s, rfl, rfl, hl⟩ := htext hv
        exact ⟨_, .dataset _ s (by simpa using hl), agrees_dataset hF _⟩
      · obtain ⟨s, rfl, rfl⟩ := hpath hv
        exact ⟨_, .datasetDir _ _ s, agrees_datasetDir hF _⟩
      · obtain ⟨s, rfl, rfl, -⟩ := htext hv
        exact ⟨_, .subset _ s, agrees_subset hF _⟩
      · obtain ⟨rfl, rfl⟩ := hconst hv
        exact ⟨_, .download _ _, agrees_download hF _⟩
      · obtain ⟨s, z, rfl, hz, rfl⟩ := hint hv
        exact ⟨_, .numScenes _ s z hz, agrees_numScenes hF _⟩
  · simp only [List.mem_cons, List.not_mem_nil, or_false] at ho
    rcases ho with rfl | rfl
    · obtain ⟨s, z, rfl, hz, rfl⟩ := hint hv
      exact ⟨_, .numSources _ _ s z hz, agrees_numSources hF _⟩
    · obtain ⟨s, z, rfl, hz, rfl⟩ := hint hv
      exact ⟨_, .numMics _ _ s z hz, agrees_numMics hF _⟩
  · rcases p with ⟨_ | _ | _⟩ | _
    · cases ho
    · obtain rfl := List.mem_singleton.mp ho
      obtain ⟨s, z, rfl, hz, rfl⟩ := hint hv
      exact ⟨_, .numMoving _ _ s z (.inl rfl) hz, agrees_numMoving hF _⟩
    · cases ho
    · obtain rfl := List.mem_singleton.mp ho
      obtain ⟨s, z, rfl, hz, rfl⟩ := hint hv
      exact ⟨_, .numMoving _ _ s z (.inr rfl) hz, agrees_numMoving hF _⟩
  · simp only [List.mem_cons, List.not_mem_nil, or_false] at ho
    rcases ho with rfl | rfl | rfl
    · obtain ⟨s, z, rfl, hz, rfl⟩ := hfloat hv
      exact ⟨_, .duration _ _ s z hz, agrees_duration hF _⟩
    · obtain ⟨s, z, rfl, hz, rfl⟩ := hint hv
      exact ⟨_, .seed _ _ s z hz, agrees_seed hF _⟩
    · obtain ⟨s, ss, vs, rfl, hvs, rfl⟩ := (storedValue_many _ _ _ _ _ _ _).mp hv
      obtain ⟨xs, hxs, rfl⟩ := (mapM_convert_float _ _ _).mp hvs
      exact ⟨_, .room _ _ s ss xs hxs, agrees_room hF _⟩
  · rcases p with ⟨_ | _ | _⟩ | _
    · cases ho
    all_goals
      obtain rfl := List.mem_singleton.mp ho
      obtain ⟨s, z, rfl, hz, rfl⟩ := hint hv
      exact ⟨_, .steps _ _ s z (by simp) hz, agrees_steps hF _⟩
  · simp only [List.mem_cons, List.not_mem_nil, or_false] at ho
    rcases ho with rfl | rfl | rfl
    · obtain ⟨s, z, rfl, hz, rfl⟩ := hint hv
      exact ⟨_, .order _ _ s z hz, agrees_order hF _⟩
    · obtain ⟨s, z, rfl, hz, rfl⟩ := hfloat hv
      exact ⟨_, .tmax _ _ s z hz, agrees_tmax hF _⟩
    · obtain ⟨s, rfl, rfl, -⟩ := htext hv
      exact ⟨_, .device _ _ s, agrees_device hF _⟩
  · rcases p with sc | _
    · simp only [outputOptions, outputArgs, List.cons_append, List.nil_append, Bool.false_eq_true, if_false, if_true,
        List.append_nil, List.mem_cons, List.not_mem_nil, or_false] at ho
      rcases ho with rfl | rfl | rfl
      · obtain ⟨s, rfl, rfl⟩ := hpath hv
        exact ⟨_, .outDir _ _ s, agrees_outDir hF _⟩
      · obtain ⟨rfl, rfl⟩ := hconst hv
        exact ⟨_, .plot _ _, agrees_plot hF _⟩
      · obtain ⟨rfl, rfl⟩ := hconst hv
        exact ⟨_, .shown _ _, agrees_shown hF _⟩
    · simp only [outputOptions, outputArgs, List.cons_append, List.nil_append, Bool.false_eq_true, if_false, if_true,
        List.append_nil, List.mem_cons, List.not_mem_nil, or_false] at ho
      rcases ho with rfl | rfl
      · obtain ⟨s, rfl, rfl⟩ := hpath hv
        exact ⟨_, .outDir _ _ s, agrees_outDir hF _⟩
      · obtain ⟨rfl, rfl⟩ := hconst hv
        exact ⟨_, .plot _ _, agrees_plot hF _⟩
  · obtain rfl := List.mem_singleton.mp ho
    obtain ⟨s, rfl, rfl, -⟩ := htext hv
    exact ⟨_, .level _ _ s, agrees_level hF _⟩

/-- An option that means something is stored. -/
theorem sets_store {cv : Conversions} {p : Program} {g : Given} {st st' : ScriptSettings} (h : Sets cv p g st st') :
    ∃ x, storeGiven cv (scriptParser p) g = .ok x := by
  have hint : ∀ {flag dest s : String} {d : Val} {z : ℤ}, cv.int s = some z →
      (⟨flag, dest, .store .int none, d⟩ : Opt) ∈ scriptParser p → ∃ x, storeGiven cv (scriptParser p) ⟨flag, [s]⟩ = .ok x :=
    fun hz hm => ⟨_, script_store cv hm [_] _ ((storedValue_store _ _ _ _ _ _ _ _).mpr
      ⟨_, rfl, (convert_int _ _ _).mpr ⟨_, hz, rfl⟩, by simp⟩)⟩
  have hfloat : ∀ {flag dest s : String} {d : Val} {x : Flt}, cv.float s = some x →
      (⟨flag, dest, .store .float none, d⟩ : Opt) ∈ scriptParser p →
      ∃ x, storeGiven cv (scriptParser p) ⟨flag, [s]⟩ = .ok x :=
    fun hz hm => ⟨_, script_store cv hm [_] _ ((storedValue_store _ _ _ _ _ _ _ _).mpr
      ⟨_, rfl, (convert_float _ _ _).mpr ⟨_, hz, rfl⟩, by simp⟩)⟩
  have htext : ∀ {flag dest s : String} {ch : Option (List String)} {d : Val}, (∀ l ∈ ch, s ∈ l) →
      (⟨flag, dest, .store .str ch, d⟩ : Opt) ∈ scriptParser p → ∃ x, storeGiven cv (scriptParser p) ⟨flag, [s]⟩ = .ok x :=
    fun hl hm => ⟨_, script_store cv hm [_] _ ((storedValue_store _ _ _ _ _ _ _ _).mpr ⟨_, rfl, rfl, hl⟩)⟩
  have hpath : ∀ {flag dest s : String} {d : Val}, (⟨flag, dest, .store .path none, d⟩ : Opt) ∈ scriptParser p →
      ∃ x, storeGiven cv (scriptParser p) ⟨flag, [s]⟩ = .ok x :=
    fun hm => ⟨_, script_store cv hm [_] _ ((storedValue_store _ _ _ _ _ _ _ _).mpr ⟨_, rfl, rfl, by simp⟩)⟩
  have hconst : ∀ {flag dest : String} {b : Bool} {d : Val}, (⟨flag, dest, .storeConst b, d⟩ : Opt) ∈ scriptParser p →
      ∃ x, storeGiven cv (scriptParser p) ⟨flag, []⟩ = .ok x :=
    fun hm => ⟨_, script_store cv hm [] _ ((storedValue_const _ _ _ _ _ _ _).mpr ⟨rfl, rfl⟩)⟩
  cases h with
  | datasetDir _ _ s =>
    rcases p with sc | _
    · exact hpath (d := mkPath "datasets/cmu_arctic") (dest := "dataset_dir") (mem_of _ _ (.inl (by simp [dataOptions])))
    · exact hpath (d := .none) (dest := "dataset_dir") (mem_of _ _ (.inl (by simp [dataOptions])))
  | download _ _ =>
    rcases p with sc | _
    · exact hconst (d := .bool true) (dest := "download") (b := true) (mem_of _ _ (.inl (by simp [dataOptions])))
    · exact hconst (d := .bool false) (dest := "download") (b := true) (mem_of _ _ (.inl (by simp [dataOptions])))
  | noDownload sc _ =>
    exact hconst (d := .bool true) (dest := "download") (b := false) (mem_of _ _ (.inl (by simp [dataOptions])))
  | dataset _ s h =>
    exact htext (ch := some ["cmu_arctic", "librispeech"]) (d := .str "cmu_arctic") (dest := "dataset") (by simpa using h)
      (mem_of _ _ (.inl (by simp [dataOptions])))
  | subset _ s =>
    exact htext (ch := none) (d := .str "train-clean-100") (dest := "subset") (by simp)
      (mem_of _ _ (.inl (by simp [dataOptions])))
  | numScenes _ s z h =>
    exact hint (d := .int 4) (dest := "num_scenes") h (mem_of _ _ (.inl (by simp [dataOptions])))
  | numSources _ _ s z h =>
    exact hint (d := .int 2) (dest := "num_sources") h ((script_mem _ _).mpr (by simp))
  | numMics _ _ s z h =>
    exact hint (d := .int 2) (dest := "num_mics") h ((script_mem _ _).mpr (by simp))
  | numMoving _ _ s z hp h =>
    rcases hp with rfl | rfl <;>
    exact hint (d := .int 1) (dest := "num_moving_sources") h (mem_of _ _ (.inr (.inl (by simp [movingOptions]))))
  | duration _ _ s x h =>
    exact hfloat (d := .float (.fin (durationDefault p))) (dest := "duration") h ((script_mem _ _).mpr (by simp))
  | seed _ _ s z h =>
    exact hint (d := .int 0) (dest := "seed") h ((script_mem _ _).mpr (by simp))
  | room _ _ s ss xs h =>
    exact ⟨_, script_store cv (o := ⟨"--room", "room", .storeMany .float,
      .list [.float (.fin 6), .float (.fin 4), .float (.fin 3)]⟩) ((script_mem _ _).mpr (by simp)) (s :: ss)
      (.list (xs.map .float)) ((storedValue_many _ _ _ _ _ _ _).mpr
        ⟨s, ss, _, rfl, (mapM_convert_float _ _ _).mpr ⟨xs, h, rfl⟩, rfl⟩)⟩
  | steps _ _ s z hp h =>
    rcases p with ⟨_ | _ | _⟩ | _
    · exact absurd rfl hp
    · exact hint (d := .int 16) (dest := "steps") h (mem_of _ _ (.inr (.inr (.inl (by simp [stepsOptions])))))
    · exact hint (d := .int 16) (dest := "steps") h (mem_of _ _ (.inr (.inr (.inl (by simp [stepsOptions])))))
    · exact hint (d := .int 64) (dest := "steps") h (mem_of _ _ (.inr (.inr (.inl (by simp [stepsOptions])))))
  | order _ _ s z h =>
    exact hint (d := .int (orderDefault p)) (dest := "order") h ((script_mem _ _).mpr (by simp))
  | tmax _ _ s x h =>
    exact hfloat (d := .float (.fin 0.4)) (dest := "tmax") h ((script_mem _ _).mpr (by simp))
  | device _ _ s =>
    exact htext (ch := none) (d := .str "cpu") (dest := "device") (by simp) ((script_mem _ _).mpr (by simp))
  | outDir _ _ s =>
    rcases p with sc | _
    · exact hpath (d := mkPath "outputs") (dest := "out_dir")
        (mem_of _ _ (.inr (.inr (.inr (by simp [outputOptions, outputArgs])))))
    · exact hpath (d := mkPath "outputs/dynamic_dataset") (dest := "out_dir")
        (mem_of _ _ (.inr (.inr (.inr (by simp [outputOptions, outputArgs])))))
  | plot _ _ =>
    exact hconst (d := .bool false) (dest := "plot") (b := true)
      (mem_of _ _ (.inr (.inr (.inr (by rcases p with sc | _ <;> simp [outputOptions, outputArgs])))))
  | shown sc _ =>
    exact hconst (d := .bool false) (dest := "show") (b := true)
      (mem_of _ _ (.inr (.inr (.inr (by simp [outputOptions, outputArgs])))))
  | level _ _ s =>
    exact htext (ch := none) (d := .str "INFO") (dest := "log_level") (by simp) ((script_mem _ _).mpr (by simp))

theorem sets_unique {cv : Conversions} {p : Program} {g g' : Given} {st a b : ScriptSettings} (ha : Sets cv p g st a)
    (hb : Sets cv p g' st b) (h : g = g') : a = b := by
  cases ha <;> cases hb <;> first
    | rfl
    | (simp only [Given.mk.injEq, String.reduceEq, false_and] at h; done)
    | simp_all

theorem agrees_defaults (p : Program) : Agrees (valueOf p []) (scriptDefaults p) := by
  have e1 : mkPath "datasets/cmu_arctic" = .path "datasets/cmu_arctic" := by
    unfold mkPath
    congr 1
  have e2 : mkPath "outputs" = .path "outputs" := by
    unfold mkPath
    congr 1
  have e3 : mkPath "outputs/dynamic_dataset" = .path "outputs/dynamic_dataset" := by
    unfold mkPath
    congr 1
  rcases p with ⟨_ | _ | _⟩ | _ <;> constructor <;>
  · simp [valueOf, lastStored, dflt, scriptParser, dataOptions, movingOptions, stepsOptions, outputOptions, outputArgs,
      scriptDefaults, asText, asPath, asOptionalPath, asBool, asInt, asFloat, asFloats, durationDefault, orderDefault, e1,
      e2, e3]
    try rfl

/-- The settings after the options. -/
theorem reads_of_stored {cv : Conversions} {p : Program} (given : List Given) : ∀ {stored : List (String × Val)},
    given.mapM (storeGiven cv (scriptParser p)) = .ok stored →
    ∃ st, Reads cv p given st ∧ Agrees (valueOf p stored) st := by
  induction given using List.reverseRecOn with
  | nil =>
    intro stored h
    cases h
    exact ⟨_, .start, agrees_defaults p⟩
  | append_singleton l g ih =>
    intro stored h
    rw [List.mapM_append, bind_eq_ok] at h
    obtain ⟨s1, h1, h⟩ := h
    obtain ⟨s2, h2, h⟩ := (bind_eq_ok _ _ _).mp h
    rw [List.mapM_cons, bind_eq_ok] at h2
    obtain ⟨x, hx, h2⟩ := h2
    cases h2
    cases h
    obtain ⟨st, i1, i2⟩ := ih h1
    obtain ⟨st', j1, j2⟩ := store_sets hx _ _ i2
    exact ⟨st', .next l g st st' i1 j1, by
      show Agrees (valueOf p (s1 ++ [x])) st'
      rw [valueOf_snoc]
      exact j2⟩

theorem stored_of_reads {cv : Conversions} {p : Program} {given : List Given} {st : ScriptSettings}
    (h : Reads cv p given st) : ∃ stored, given.mapM (storeGiven cv (scriptParser p)) = .ok stored := by
  induction h with
  | start => exact ⟨[], rfl⟩
  | next l g st st' _ hs ih =>
    obtain ⟨s, hs1⟩ := ih
    obtain ⟨x, hx⟩ := sets_store hs
    refine ⟨s ++ [x], ?_⟩
    rw [List.mapM_append, hs1, ok_bind, List.mapM_cons, hx]
    rfl

theorem reads_unique {cv : Conversions} {p : Program} {given : List Given} {a b : ScriptSettings}
    (ha : Reads cv p given a) (hb : Reads cv p given b) : a = b := by
  induction ha generalizing b with
  | start =>
    generalize hl : ([] : List Given) = l at hb
    cases hb with
    | start => rfl
    | next l' g st st' _ _ => simp at hl
  | next l g st st' _ hs ih =>
    generalize hl : l ++ [g] = l2 at hb
    cases hb with
    | start => simp at hl
    | next l' g' st1 st1' hr hs' =>
      obtain ⟨rfl, h2⟩ := List.append_inj' hl rfl
      obtain rfl := (List.cons.inj h2).1
      obtain rfl := ih hr
      exact sets_unique hs hs' rfl

end ScriptCli

open ScriptCli

/-- **C119 (settings).** A script works with the settings `st` exactly if these are what the options of its command
line, one after the other, make of the defaults. -/
theorem C119_settings_exactly (cv : Conversions) (p : Program) (given : List Given) (st : ScriptSettings) :
    scriptSettings cv p given = .ok st ↔ Reads cv p given st := by
  constructor
  · intro h
    have h' := h
    unfold scriptSettings parseArgs at h'
    obtain ⟨ns, h1, -⟩ := (bind_eq_ok _ _ _).mp h'
    obtain ⟨stored, hs, -⟩ := (bind_eq_ok _ _ _).mp h1
    obtain ⟨st', hr, ha⟩ := reads_of_stored given hs
    obtain rfl := ((settings_iff hs st).mp h).unique ha
    exact hr
  · intro h
    obtain ⟨stored, hs⟩ := stored_of_reads h
    obtain ⟨st', hr, ha⟩ := reads_of_stored given hs
    obtain rfl := reads_unique h hr
    exact (settings_iff hs st).mpr ha

/-- **C119 (accepted).** The command line is accepted exactly if every option on it is one of the script and its
arguments are of the right number and kind, whatever the other options. -/
theorem C119_accepted_exactly (cv : Conversions) (p : Program) (given : List Given) :
    (∃ st, scriptSettings cv p given = .ok st) ↔ ∀ g ∈ given, ∃ st st', Sets cv p g st st' := by
  constructor
  · rintro ⟨st, h⟩
    replace h := (C119_settings_exactly cv p given st).mp h
    induction h with
    | start => exact fun g hg => nomatch hg
    | next l g st st' _ hs ih =>
      intro g' hg'
      rcases List.mem_append.mp hg' with hg' | hg'
      · exact ih g' hg'
      · obtain rfl := List.mem_singleton.mp hg'
        exact ⟨st, st', hs⟩
  · intro h
    obtain ⟨stored, hs⟩ := mapM_succeeds (f := storeGiven cv (scriptParser p)) (l := given) fun g hg => by
      obtain ⟨st, st', hs⟩ := h g hg
      exact sets_store hs
    obtain ⟨st, hr, ha⟩ := reads_of_stored given hs
    exact ⟨st, (settings_iff hs st).mpr ha⟩

/-- **C119 (refused).** If an option is unknown or has the wrong arguments, the script ends with an error and writes no
file. -/
theorem C119_refused {ι : Type} (cv : Conversions) (conv : Flt → ℤ) (t : Torch) (w : TorchDevice → World) (gen : ℤ → Gen)
    (load : LoadCall → Gen → Except String (LoadedSources ι × ℕ)) (p : Program) (given : List Given) (g : Given)
    (hg : g ∈ given) (h : ∀ st st', ¬ Sets cv p g st st') :
    ∃ e, scriptMain cv conv t w gen load p given = some ⟨[], .error e⟩ := by
  unfold scriptMain
  cases hs : scriptSettings cv p given with
  | error e => exact ⟨e, rfl⟩
  | ok st =>
    obtain ⟨a, b, hab⟩ := (C119_accepted_exactly cv p given).mp ⟨st, hs⟩ g hg
    exact absurd hab (h a b)

/-- **C119 (level and device).** If the name given for the level of the log is not one of the eight, or the device is not
one, the script ends with an error and writes no file. -/
theorem C119_level_device {ι : Type} (cv : Conversions) (conv : Flt → ℤ) (t : Torch) (w : TorchDevice → World)
    (gen : ℤ → Gen) (load : LoadCall → Gen → Except String (LoadedSources ι × ℕ)) (p : Program) (given : List Given)
    (st : ScriptSettings) (hr : Reads cv p given st)
    (h : st.level.toUpper ∉ logLevels ∨ ∃ e, resolveDevice t (.str st.device) = .error e) :
    ∃ e, scriptMain cv conv t w gen load p given = some ⟨[], .error e⟩ := by
  have hprep : ∃ e, prepareScript t st = .error e := by
    unfold prepareScript
    cases hl : resolveLevel (.name st.level) with
    | error e => exact ⟨e, rfl⟩
    | ok n =>
      rw [ok_bind]
      refine h.resolve_left fun hn => hn ?_
      unfold resolveLevel at hl
      dsimp only at hl
      cases hk : levelNames.lookup st.level.toUpper with
      | none =>
        rw [hk] at hl
        cases hl
      | some n =>
        obtain ⟨l1, l2, e, -⟩ := List.lookup_eq_some_iff.mp hk
        have hm : (st.level.toUpper, n) ∈ levelNames := by
          rw [e]
          simp
        exact List.mem_map_of_mem (f := Prod.fst) hm
  obtain ⟨e, he⟩ := hprep
  unfold scriptMain
  rw [(C119_settings_exactly cv p given st).mpr hr]
  dsimp only
  rw [he]
  exact ⟨e, rfl⟩

namespace ScriptCli

theorem prepared {t : Torch} {st : ScriptSettings} {d : TorchDevice} (hl : st.level.toUpper ∈ logLevels)
    (hd : resolveDevice t (.str st.device) = .ok d) : prepareScript t st = .ok d := by
  have : ∃ n, resolveLevel (.name st.level) = .ok n := by
    unfold resolveLevel
    dsimp only
    unfold logLevels at hl
    simp only [List.mem_cons, List.not_mem_nil, or_false] at hl
    rcases hl with h | h | h | h | h | h | h | h <;> rw [h] <;> exact ⟨_, rfl⟩
  obtain ⟨n, hn⟩ := this
  unfold prepareScript
  rw [hn, ok_bind, hd]

theorem finite_room (room : Vec) : (room.map Flt.fin).mapM finite? = some room := by
  induction room with
  | nil => rfl
  | cons x xs ih =>
    rw [List.map_cons, List.mapM_cons, ih]
    rfl

end ScriptCli

/-- **C119 (run).** A script whose options are accepted loads the dataset with the directory, the number of sources, the
duration and the flag of its settings, with the generator of the seed of its settings, and then does the work of C95 and
C107 with room, microphones, moving sources, steps, order and length of its settings, on the device of its settings. -/
theorem C119_script_run {ι : Type} (cv : Conversions) (conv : Flt → ℤ) (t : Torch) (w : TorchDevice → World)
    (gen : ℤ → Gen) (load : LoadCall → Gen → Except String (LoadedSources ι × ℕ)) (sc : Script) (given : List Given)
    (st : ScriptSettings) (hr : Reads cv (.script sc) given st) (hl : st.level.toUpper ∈ logLevels) (d : TorchDevice)
    (hd : resolveDevice t (.str st.device) = .ok d) (room : Vec) (hroom : st.room = room.map .fin) (tmax : ℝ)
    (htmax : st.tmax = .fin tmax) (hn : 0 ≤ st.numSources) (dir : String) (hdir : st.datasetDir = some dir) (rows : List (List ℝ))
    (fs : ℕ) (info : List (String × List ι)) (k : ℕ)
    (hload : load ⟨"cmu_arctic", dir, "", st.download, st.numSources, st.duration⟩ (gen st.seed) = .ok ((rows, fs, info), k)) :
    scriptMain cv conv t w gen load (.script sc) given = some (scriptRun conv (w d) sc (gen st.seed)
      { room := room, numSources := st.numSources.toNat, numMics := st.numMics, numMoving := st.numMoving
        steps := st.steps, order := st.order, tmax := tmax } k (.ok (rows, fs, info))) := by
  have hfix : st.dataset = "cmu_arctic" ∧ st.subset = "" := by
    clear hl hd hroom htmax hn hdir hload
    generalize hp : Program.script sc = p at hr
    induction hr with
    | start => subst hp; exact ⟨rfl, rfl⟩
    | next l g st st' _ hs ih =>
      subst hp
      cases hs <;> exact ih
  have hcall : st.loadCall = ⟨"cmu_arctic", dir, "", st.download, st.numSources, st.duration⟩ := by
    unfold ScriptSettings.loadCall ScriptSettings.dataRoot
    rw [hfix.1, hfix.2, hdir]
    rfl
  unfold scriptMain
  rw [(C119_settings_exactly cv _ given st).mpr hr]
  dsimp only
  rw [prepared hl hd]
  dsimp only
  unfold scriptWork
  rw [hroom, finite_room, htmax]
  simp only [finite?, Option.bind_eq_bind, Option.bind_some, hcall, hload, loadOutcome, if_neg (not_lt.mpr hn)]
  rfl

/-- **C119 (run of the dataset script).** The same for `build_dynamic_dataset.py`; without `--dataset-dir` the directory
is that of the dataset. -/
theorem C119_dataset_run {ι : Type} (cv : Conversions) (conv : Flt → ℤ) (t : Torch) (w : TorchDevice → World)
    (gen : ℤ → Gen) (load : LoadCall → Gen → Except String (LoadedSources ι × ℕ)) (given : List Given)
    (st : ScriptSettings) (hr : Reads cv .dataset given st) (hl : st.level.toUpper ∈ logLevels) (d : TorchDevice)
    (hd : resolveDevice t (.str st.device) = .ok d) (room : Vec) (hroom : st.room = room.map .fin) (tmax : ℝ)
    (htmax : st.tmax = .fin tmax) (hn : 0 ≤ st.numSources) (dir : String)
    (hdir : st.datasetDir = some dir ∨ (st.datasetDir = none ∧
      ((st.dataset = "cmu_arctic" ∧ dir = "datasets/cmu_arctic") ∨
        (st.dataset = "librispeech" ∧ dir = "datasets/librispeech")))) :
    scriptMain cv conv t w gen load .dataset given = some (datasetRun conv (w d)
      { room := room, numScenes := st.numScenes.toNat, numSources := st.numSources.toNat, numMics := st.numMics
        numMoving := st.numMoving, steps := st.steps, order := st.order, tmax := tmax, seed := st.seed
        dataset := st.dataset, subset := st.subset } gen
      (load ⟨st.dataset, dir, st.subset, st.download, st.numSources, st.duration⟩)) := by
  have hcall : st.loadCall = ⟨st.dataset, dir, st.subset, st.download, st.numSources, st.duration⟩ := by
    unfold ScriptSettings.loadCall ScriptSettings.dataRoot
    rcases hdir with h | ⟨h, ⟨h1, rfl⟩ | ⟨h1, rfl⟩⟩
    · rw [h]
      rfl
    · rw [h, h1]
      rfl
    · rw [h, h1]
      rfl
  unfold scriptMain
  rw [(C119_settings_exactly cv _ given st).mpr hr]
  dsimp only
  rw [prepared hl hd]
  dsimp only
  unfold datasetWork
  rw [hroom, finite_room, htmax]
  simp only [finite?, Option.bind_eq_bind, Option.bind_some, hcall, loadOutcome, if_neg (not_lt.mpr hn)]
  rfl

/-- **C119 (negative).** With a negative number of sources the three scripts write the attribution only. -/
theorem C119_negative_sources {ι : Type} (cv : Conversions) (conv : Flt → ℤ) (t : Torch) (w : TorchDevice → World)
    (gen : ℤ → Gen) (load : LoadCall → Gen → Except String (LoadedSources ι × ℕ)) (sc : Script) (given : List Given)
    (st : ScriptSettings) (hr : Reads cv (.script sc) given st) (hn : st.numSources < 0) (r : Writing ι Unit)
    (h : scriptMain cv conv t w gen load (.script sc) given = some r) :
    (∃ e, r.result = .error e) ∧ ∀ f ∈ r.files, f.1 = "ATTRIBUTION.txt" := by
  unfold scriptMain at h
  rw [(C119_settings_exactly cv _ given st).mpr hr] at h
  dsimp only at h
  cases hp : prepareScript t st with
  | error e =>
    rw [hp] at h
    cases h
    exact ⟨⟨e, rfl⟩, fun f hf => nomatch hf⟩
  | ok d =>
    rw [hp] at h
    dsimp only at h
    unfold scriptWork at h
    simp only [Option.bind_eq_bind] at h
    obtain ⟨room, -, h⟩ := Option.bind_eq_some_iff.mp h
    obtain ⟨tmax, -, h⟩ := Option.bind_eq_some_iff.mp h
    rw [loadOutcome, if_pos hn] at h
    cases h
    unfold scriptRun
    cases ha : attributionFor "cmu_arctic" none with
    | error e =>
      rw [quietly_bind_error rfl]
      exact ⟨⟨e, rfl⟩, fun f hf => nomatch hf⟩
    | ok license =>
      rw [quietly_bind rfl]
      have hf : ∀ f ∈ (writeAttribution (ι := ι) license (modificationNotes sc.moves)).files, f.1 = "ATTRIBUTION.txt" := by
        intro f hf
        unfold writeAttribution at hf
        cases hs : saveAttribution (.fields license) (modificationNotes sc.moves) none with
        | mk a b =>
          rw [hs] at hf
          cases a with
          | none => cases hf
          | some a =>
            obtain rfl := List.mem_singleton.mp hf
            rfl
      cases hw : (writeAttribution (ι := ι) license (modificationNotes sc.moves)).result with
      | error e =>
        rw [bind_raised hw]
        exact ⟨⟨e, rfl⟩, hf⟩
      | ok u =>
        rw [bind_files hw]
        dsimp only [Except.map]
        rw [quietly_bind_error (e := "Sample larger than population or is negative") rfl]
        exact ⟨⟨_, rfl⟩, fun f hf' => hf f (by simpa using hf')⟩

namespace ScriptCli

theorem valueOf_skip (p : Program) (l1 l2 : List (String × Val)) (x : String × Val) (k : String) (hk : k ≠ x.1) :
    valueOf p (l1 ++ x :: l2) k = valueOf p (l1 ++ l2) k := by
  induction l2 using List.reverseRecOn with
  | nil => rw [valueOf_snoc, Function.update_of_ne hk, List.append_nil]
  | append_singleton l y ih =>
    rw [show l1 ++ x :: (l ++ [y]) = (l1 ++ x :: l) ++ [y] by simp, ← List.append_assoc, valueOf_snoc, valueOf_snoc,
      Function.update_apply, Function.update_apply, ih]

theorem same_dest {cv : Conversions} {p : Program} {g g' : Given} {x x' : String × Val}
    (h : storeGiven cv (scriptParser p) g = .ok x) (h' : storeGiven cv (scriptParser p) g' = .ok x')
    (hf : g.flag = g'.flag) : x.1 = x'.1 := by
  unfold storeGiven at h h'
  rw [hf] at h
  cases hm : (scriptParser p).find? (·.flag = g'.flag) with
  | none =>
    rw [hm] at h
    cases h
  | some o =>
    rw [hm] at h h'
    obtain ⟨v, -, h⟩ := (bind_eq_ok _ _ _).mp h
    obtain ⟨v', -, h'⟩ := (bind_eq_ok _ _ _).mp h'
    cases h
    cases h'
    rfl

theorem mapM_cut {cv : Conversions} {opts : List Opt} {l1 l2 : List Given} {s : List (String × Val)}
    (h : (l1 ++ l2).mapM (storeGiven cv opts) = .ok s) : ∃ s1 s2, l1.mapM (storeGiven cv opts) = .ok s1 ∧
      l2.mapM (storeGiven cv opts) = .ok s2 ∧ s = s1 ++ s2 := by
  rw [List.mapM_append, bind_eq_ok] at h
  obtain ⟨s1, h1, h⟩ := h
  obtain ⟨s2, h2, h⟩ := (bind_eq_ok _ _ _).mp h
  cases h
  exact ⟨s1, s2, h1, h2, rfl⟩

theorem mapM_paste {cv : Conversions} {opts : List Opt} {l1 l2 : List Given} {s1 s2 : List (String × Val)}
    (h1 : l1.mapM (storeGiven cv opts) = .ok s1) (h2 : l2.mapM (storeGiven cv opts) = .ok s2) :
    (l1 ++ l2).mapM (storeGiven cv opts) = .ok (s1 ++ s2) := by
  rw [List.mapM_append, h1, ok_bind, h2, ok_bind]
  rfl

theorem mapM_one {cv : Conversions} {opts : List Opt} {g : Given} {s : List (String × Val)}
    (h : [g].mapM (storeGiven cv opts) = .ok s) : ∃ x, storeGiven cv opts g = .ok x ∧ s = [x] := by
  rw [List.mapM_cons, bind_eq_ok] at h
  obtain ⟨x, hx, h⟩ := h
  cases h
  exact ⟨x, hx, rfl⟩

end ScriptCli

/-- **C119 (repeated).** If an option is given again later, its first occurrence has no effect. -/
theorem C119_repeated (cv : Conversions) (p : Program) (l1 l2 l3 : List Given) (g g' : Given) (hf : g.flag = g'.flag)
    (st : ScriptSettings) (h : scriptSettings cv p (l1 ++ [g] ++ l2 ++ [g'] ++ l3) = .ok st) :
    scriptSettings cv p (l1 ++ l2 ++ [g'] ++ l3) = .ok st := by
  obtain ⟨stored, hs⟩ := stored_of_reads ((C119_settings_exactly _ _ _ _).mp h)
  have ha := (settings_iff hs st).mp h
  obtain ⟨t4, s5, k4, h5, rfl⟩ := mapM_cut hs
  obtain ⟨t3, s4, k3, h4, rfl⟩ := mapM_cut k4
  obtain ⟨t2, s3, h2, h3, rfl⟩ := mapM_cut k3
  obtain ⟨s1, s2, h1, hg, rfl⟩ := mapM_cut h2
  obtain ⟨x, hx, rfl⟩ := mapM_one hg
  obtain ⟨x', hx', rfl⟩ := mapM_one h4
  refine (settings_iff (mapM_paste (mapM_paste (mapM_paste h1 h3) h4) h5) st).mpr ?_
  have e : ∀ l, valueOf p (s1 ++ [x] ++ s3 ++ [x'] ++ l) = valueOf p (s1 ++ s3 ++ [x'] ++ l) := by
    intro l
    induction l using List.reverseRecOn with
    | nil =>
      rw [List.append_nil, List.append_nil, valueOf_snoc, valueOf_snoc]
      funext k
      rw [Function.update_apply, Function.update_apply]
      split
      · rfl
      · rename_i hk
        rw [List.append_assoc s1 [x] s3]
        exact valueOf_skip p s1 s3 x k (by rw [same_dest hx hx' hf]; exact hk)
    | append_singleton l y ih => rw [← List.append_assoc, ← List.append_assoc, valueOf_snoc, valueOf_snoc, ih]
  rw [← e]
  exact ha

/-! ## Examples -/

example : Reads fewNumbers (.script .static) [⟨"--seed", ["3"]⟩, ⟨"--room", ["5", "5"]⟩, ⟨"--no-download", []⟩]
    { scriptDefaults (.script .static) with seed := 3, room := [.fin 5, .fin 5], download := false } :=
  .next [⟨"--seed", ["3"]⟩, ⟨"--room", ["5", "5"]⟩] _ _ _
    (.next [⟨"--seed", ["3"]⟩] _ _ _ (.next [] _ _ _ .start (.seed _ _ "3" 3 rfl)) (.room _ _ "5" ["5"] _ rfl))
    (.noDownload _ _)

/-- The later of the two wins. -/
example : ∃ st, scriptSettings fewNumbers (.script .dynamicMic) [⟨"--no-download", []⟩, ⟨"--download", []⟩] = .ok st ∧
    st.download = true :=
  ⟨_, (C119_settings_exactly _ _ _ _).mpr (.next [⟨"--no-download", []⟩] _ _ _
    (.next [] _ _ _ .start (.noDownload _ _)) (.download _ _)), rfl⟩

/-- `static.py` has no `--steps`. -/
example : ∀ st st', ¬ Sets fewNumbers (.script .static) ⟨"--steps", ["3"]⟩ st st' := by
  intro st st' h
  obtain ⟨x, hx⟩ := sets_store h
  obtain ⟨o, ho, hf, -⟩ := script_stored hx
  have : ∀ o ∈ scriptParser (.script .static), o.flag ≠ "--steps" := by
    intro o ho
    rw [script_mem] at ho
    simp only [dataOptions, movingOptions, stepsOptions, outputOptions, outputArgs, List.cons_append, List.nil_append,
      Bool.false_eq_true, if_false, if_true, List.append_nil, List.mem_cons, List.not_mem_nil, or_false, or_assoc,
      false_or] at ho
    rcases ho with rfl | rfl | rfl | rfl | rfl | rfl | rfl | rfl | rfl | rfl | rfl | rfl | rfl | rfl | rfl <;> decide
  exact this o ho hf

/-- Settings of a script that is run with a valid level. -/
example : (scriptDefaults .dataset).level.toUpper ∈ logLevels := by
  rw [show (scriptDefaults .dataset).level.toUpper = "INFO" by
    apply String.toList_inj.mp; simp [scriptDefaults, String.toUpper, String.toList_map]]
  simp [logLevels]

end Torchrir.Props
