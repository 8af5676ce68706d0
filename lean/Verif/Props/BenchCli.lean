import Verif.Spec.BenchCli
import Verif.Props.DatasetArgs
import Verif.Props.ScriptCli
import Verif.Props.Benchmark

/-!
# C132: the benchmark from the command line
-/

namespace Torchrir.Props

open Torchrir.Model Torchrir.Spec Torchrir.Lemmas

namespace BenchCli

theorem good : GoodOptions benchParser := by
  refine ⟨?_, ?_, by decide⟩
  · intro o ho
    simp only [benchParser, List.mem_cons, List.not_mem_nil, or_false] at ho
    rcases ho with rfl | rfl | rfl | rfl
    · exact ⟨'r', "epeats".toList, rfl⟩
    · exact ⟨'g', "pu".toList, rfl⟩
    · exact ⟨'d', "ynamic".toList, rfl⟩
    · exact ⟨'l', "og-level".toList, rfl⟩
  · intro o ho
    simp only [benchParser, List.mem_cons, List.not_mem_nil, or_false] at ho
    rcases ho with rfl | rfl | rfl | rfl <;> decide

/-- The value at a destination after some options. -/
def value (stored : List (String × Val)) (key : String) (d : Val) : Val := (lastStored stored key).getD d

theorem value_snoc (l : List (String × Val)) (x : String × Val) (key : String) (d : Val) :
    value (l ++ [x]) key d = if key = x.1 then x.2 else value l key d := by
  unfold value
  rw [ScriptCli.lastStored_snoc]
  split_ifs <;> rfl

/-- The stored values are those of the arguments. -/
def Agrees (stored : List (String × Val)) (a : BenchArgs) : Prop :=
  value stored "repeats" (.int 5) = .int a.repeats ∧ value stored "gpu" (.str "auto") = .str a.gpu ∧
  value stored "dynamic" (.bool false) = .bool a.dynamic ∧ value stored "log_level" (.str "INFO") = .str a.logLevel

theorem parse_eq (cv : Conversions) {given : List Given} {stored : List (String × Val)}
    (h : given.mapM (storeGiven cv benchParser) = .ok stored) : parseArgs cv benchParser [] given =
    .ok [("repeats", value stored "repeats" (.int 5)), ("gpu", value stored "gpu" (.str "auto")),
      ("dynamic", value stored "dynamic" (.bool false)), ("log_level", value stored "log_level" (.str "INFO"))] := by
  rw [parseArgs, h]
  simp only [benchParser, List.mapM_cons, List.mapM_nil, destValue, value, bind, Except.bind, pure, Except.pure, defaultValue,
    convert]
  rcases lastStored stored "repeats" <;> rcases lastStored stored "gpu" <;> rcases lastStored stored "dynamic" <;>
    rcases lastStored stored "log_level" <;> rfl

theorem args_eq {cv : Conversions} {given : List Given} {stored : List (String × Val)} {a : BenchArgs}
    (h : given.mapM (storeGiven cv benchParser) = .ok stored) (ha : Agrees stored a) :
    (parseArgs cv benchParser [] given >>= benchArgsOf) = .ok a := by
  rw [parse_eq cv h, ha.1, ha.2.1, ha.2.2.1, ha.2.2.2]
  rfl

theorem store_sets {cv : Conversions} {g : Given} {x : String × Val} (h : storeGiven cv benchParser g = .ok x)
    {stored : List (String × Val)} {a : BenchArgs} (ha : Agrees stored a) :
    ∃ a', BenchSets cv g a a' ∧ Agrees (stored ++ [x]) a' := by
  obtain ⟨flag, args⟩ := g
  unfold storeGiven at h
  rcases hf : benchParser.find? (·.flag = flag) with _ | o
  · rw [hf] at h; cases h
  · rw [hf] at h
    obtain ⟨v, hv, h⟩ := (bind_eq_ok _ _ _).mp h
    cases h
    have hfl : o.flag = flag := by simpa using List.find?_some hf
    have ho := List.mem_of_find?_eq_some hf
    subst hfl
    simp only [benchParser, List.mem_cons, List.not_mem_nil, or_false] at ho
    unfold Agrees at ha ⊢
    simp only [value_snoc]
    rcases ho with rfl | rfl | rfl | rfl
    · obtain ⟨s, rfl, hc, -⟩ := (storedValue_store _ _ _ _ _ _ _ _).mp hv
      obtain ⟨z, hz, rfl⟩ := (convert_int _ _ _).mp hc
      exact ⟨_, .repeats a s z hz, by simpa using ha.2⟩
    · obtain ⟨s, rfl, hc, -⟩ := (storedValue_store _ _ _ _ _ _ _ _).mp hv
      cases hc
      exact ⟨_, .gpu a s, by simpa using ⟨ha.1, ha.2.2⟩⟩
    · obtain ⟨rfl, rfl⟩ := (storedValue_const _ _ _ _ _ _ _).mp hv
      exact ⟨_, .dynamic a, by simpa using ⟨ha.1, ha.2.1, ha.2.2.2⟩⟩
    · obtain ⟨s, rfl, hc, -⟩ := (storedValue_store _ _ _ _ _ _ _ _).mp hv
      cases hc
      exact ⟨_, .level a s, by simpa using ⟨ha.1, ha.2.1, ha.2.2.1⟩⟩

theorem sets_store {cv : Conversions} {g : Given} {a a' : BenchArgs} (h : BenchSets cv g a a') :
    ∃ x, storeGiven cv benchParser g = .ok x := by
  cases h with
  | repeats _ s z h =>
    refine ⟨("repeats", .int z), ?_⟩
    simp [storeGiven, benchParser, storedValue, convert, h, raiseIf]
    rfl
  | gpu _ s => exact ⟨("gpu", .str s), by simp [storeGiven, benchParser, storedValue, convert, raiseIf]; rfl⟩
  | dynamic => exact ⟨("dynamic", .bool true), rfl⟩
  | level _ s => exact ⟨("log_level", .str s), by simp [storeGiven, benchParser, storedValue, convert, raiseIf]; rfl⟩

theorem reads_of_stored {cv : Conversions} (given : List Given) : ∀ {stored : List (String × Val)},
    given.mapM (storeGiven cv benchParser) = .ok stored → ∃ a, BenchReads cv given a ∧ Agrees stored a := by
  induction given using List.reverseRecOn with
  | nil =>
    intro stored h
    cases h
    exact ⟨_, .start, rfl, rfl, rfl, rfl⟩
  | append_singleton l g ih =>
    intro stored h
    rw [List.mapM_append, bind_eq_ok] at h
    obtain ⟨s1, h1, h⟩ := h
    obtain ⟨s2, h2, h⟩ := (bind_eq_ok _ _ _).mp h
    rw [List.mapM_cons, bind_eq_ok] at h2
    obtain ⟨x, hx, h2⟩ := h2
    cases h2
    cases h
    obtain ⟨a, i1, i2⟩ := ih h1
    obtain ⟨a', j1, j2⟩ := store_sets hx i2
    exact ⟨a', .next l g a a' i1 j1, j2⟩

theorem stored_of_reads {cv : Conversions} {given : List Given} {a : BenchArgs} (h : BenchReads cv given a) :
    ∃ stored, given.mapM (storeGiven cv benchParser) = .ok stored := by
  induction h with
  | start => exact ⟨[], rfl⟩
  | next l g a a' _ hs ih =>
    obtain ⟨s, hs1⟩ := ih
    obtain ⟨x, hx⟩ := sets_store hs
    refine ⟨s ++ [x], ?_⟩
    rw [List.mapM_append, hs1, ok_bind, List.mapM_cons, hx]
    rfl

theorem sets_unique {cv : Conversions} {g g' : Given} {st a b : BenchArgs} (ha : BenchSets cv g st a)
    (hb : BenchSets cv g' st b) (h : g = g') : a = b := by
  cases ha <;> cases hb <;> first
    | rfl
    | (simp only [Given.mk.injEq, String.reduceEq, false_and] at h; done)
    | simp_all

theorem reads_unique {cv : Conversions} {given : List Given} {a b : BenchArgs} (ha : BenchReads cv given a)
    (hb : BenchReads cv given b) : a = b := by
  induction ha generalizing b with
  | start =>
    generalize hl : ([] : List Given) = l at hb
    cases hb with
    | start => rfl
    | next l' g st st' _ _ => simp at hl
  | next l g st st' _ hs ih =>
    generalize hl : l ++ [g] = l2 at hb
    cases hb with
    | start => simp at hl
    | next l' g' st1 st1' hr hs' =>
      obtain ⟨rfl, h2⟩ := List.append_inj' hl rfl
      obtain rfl := (List.cons.inj h2).1
      obtain rfl := ih hr
      exact sets_unique hs hs' rfl

end BenchCli

open BenchCli

/-- **C132.** The script takes from the command line exactly the arguments that it means: those of the options, one
after the other, and otherwise the defaults. -/
theorem C132_exactly (cv : Conversions) (argv : List String) (a : BenchArgs) :
    benchArgv cv argv = .ok a ↔ BenchMeans cv argv a := by
  unfold benchArgv BenchMeans
  constructor
  · intro h
    obtain ⟨given, ht, h⟩ := (bind_eq_ok _ _ _).mp h
    refine ⟨given, (C130_exactly good argv given).1 ht, ?_⟩
    have h' := h
    unfold parseArgs at h'
    obtain ⟨ns, h1, -⟩ := (bind_eq_ok _ _ _).mp h'
    obtain ⟨stored, hs, -⟩ := (bind_eq_ok _ _ _).mp h1
    obtain ⟨a', hr, ha⟩ := reads_of_stored given hs
    have h2 := BenchCli.args_eq hs ha
    have h3 : (Except.ok a : Except String BenchArgs) = .ok a' := h.symm.trans h2
    cases h3
    exact hr
  · rintro ⟨given, ht, hr⟩
    obtain ⟨stored, hs⟩ := stored_of_reads hr
    obtain ⟨a', hr', ha⟩ := reads_of_stored given hs
    obtain rfl := reads_unique hr hr'
    rw [(C130_exactly good argv given).2 ht]
    exact BenchCli.args_eq hs ha

/-- **C132.** A command line means at most one thing. -/
theorem C132_one_meaning (cv : Conversions) (argv : List String) (a b : BenchArgs) (ha : BenchMeans cv argv a)
    (hb : BenchMeans cv argv b) : a = b := by
  have h := ((C132_exactly cv argv a).2 ha).symm.trans ((C132_exactly cv argv b).2 hb)
  exact Except.ok.inj h

/-- **C132.** The script does what `C107` says for the arguments that the command line means, and nothing at all if it
means nothing. -/
theorem C132_main (cv : Conversions) (conv : Flt → ℤ) (env : BenchEnv) (argv : List String) :
    (∀ a, BenchMeans cv argv a → benchMainArgv cv conv env argv = benchMain conv env a) ∧
    ((∀ a, ¬ BenchMeans cv argv a) → ∃ e, benchMainArgv cv conv env argv = ([], .error e)) := by
  constructor
  · intro a ha
    rw [benchMainArgv, (C132_exactly cv argv a).2 ha]
  · intro hno
    rw [benchMainArgv]
    rcases h : benchArgv cv argv with e | a
    · exact ⟨e, rfl⟩
    · exact absurd ((C132_exactly cv argv a).1 h) (hno a)

/-- **C132.** Everything the script can be told can be typed. -/
theorem C132_typable (cv : Conversions) (a : BenchArgs) (s : String) (hs : cv.int s = some a.repeats) :
    BenchMeans cv (["--repeats=" ++ s, "--gpu=" ++ a.gpu, "--log-level=" ++ a.logLevel] ++
      if a.dynamic then ["--dynamic"] else []) a := by
  have h1 : ∀ x : String, "--repeats=" ++ x = "--repeats" ++ "=" ++ x := fun x => by
    rw [show "--repeats" ++ "=" = "--repeats=" by decide]
  have h2 : ∀ x : String, "--gpu=" ++ x = "--gpu" ++ "=" ++ x := fun x => by
    rw [show "--gpu" ++ "=" = "--gpu=" by decide]
  have h3 : ∀ x : String, "--log-level=" ++ x = "--log-level" ++ "=" ++ x := fun x => by
    rw [show "--log-level" ++ "=" = "--log-level=" by decide]
  have hr : BenchReads cv [⟨"--repeats", [s]⟩, ⟨"--gpu", [a.gpu]⟩, ⟨"--log-level", [a.logLevel]⟩]
      ⟨a.repeats, a.gpu, false, a.logLevel⟩ :=
    .next [_, _] _ _ _ (.next [_] _ _ _ (.next [] _ _ _ .start (.repeats _ _ _ hs)) (.gpu _ _)) (.level _ _)
  rw [h1, h2, h3]
  refine ⟨[⟨"--repeats", [s]⟩, ⟨"--gpu", [a.gpu]⟩, ⟨"--log-level", [a.logLevel]⟩] ++
    if a.dynamic then [⟨"--dynamic", []⟩] else [], ?_, ?_⟩
  · refine DatasetArgs.typed_equals (f := "--repeats") rfl (by intro b; simp) _ ?_
    refine DatasetArgs.typed_equals (f := "--gpu") rfl (by intro b; simp) _ ?_
    refine DatasetArgs.typed_equals (f := "--log-level") rfl (by intro b; simp) _ ?_
    have := DatasetArgs.typed_switch (f := "--dynamic") (opts := benchParser) rfl rfl a.dynamic .nil
    simpa using this
  · obtain ⟨n, g, d, l⟩ := a
    cases d with
    | false => simpa using hr
    | true => exact .next _ _ _ _ hr (.dynamic _)

/-- `--rep 3 --dyn` means three repetitions of the moving workload. -/
example (cv : Conversions) (h : cv.int "3" = some 3) : BenchMeans cv ["--rep", "3", "--dyn"] ⟨3, "auto", true, "INFO"⟩ := by
  refine ⟨[⟨"--repeats", ["3"]⟩, ⟨"--dynamic", []⟩], ?_, ?_⟩
  · have h1 : TypedAs benchParser ["--dyn"] [⟨"--dynamic", []⟩] :=
      .switch "--dyn" ⟨"--dynamic", "dynamic", .storeConst true, .bool false⟩ true _ _
        (Argv.name_by (f := "--dynamic") rfl (by decide)) rfl .nil
    exact .one "--rep" "3" ⟨"--repeats", "repeats", .store .int none, .int 5⟩ .int none _ _
      (Argv.name_by (f := "--repeats") rfl (by decide)) rfl (.inl (by decide)) h1
  · exact .next [⟨"--repeats", ["3"]⟩] _ _ _ (.next [] _ _ _ .start (.repeats _ _ _ h)) (.dynamic _)

/-- Names with one dash do not exist. -/
example (cv : Conversions) (a : BenchArgs) : ¬ BenchMeans cv ["-r", "3"] a := by
  rintro ⟨given, ht, _⟩
  rcases C130_words ht "-r" (by simp) with ⟨o, hn⟩ | ⟨w, x, o, hs, hn⟩ | hv | hv | ⟨hv | hv, _⟩
  · obtain ⟨c, cs, hc⟩ := Argv.name_dashes good hn
    have : "-r".toList = ['-', 'r'] := rfl
    rw [this] at hc
    simp at hc
  · have : '=' ∈ "-r".toList := by rw [hs]; simp
    revert this
    decide
  · exact hv rfl
  · revert hv
    decide
  · rw [← Argv.isNegativeNumber_iff] at hv
    revert hv
    decide
  · revert hv
    decide

end Torchrir.Props
