import Verif.Model.ScriptRun
import Verif.Spec.ScriptRun
import Verif.Props.Scripts
import Verif.Props.LoadSuccess
import Verif.Props.Metadata
import Verif.Props.Outputs

/-!
# Files of the example scripts
-/

namespace Torchrir.Props

open Torchrir.Model Torchrir.Spec Torchrir.Lemmas

/-! ## Order of the files -/

theorem bind_files {ι α β : Type} {x : Writing ι α} {a : α} (h : x.result = .ok a) (f : α → Writing ι β) :
    x >>= f = ⟨x.files ++ (f a).files, (f a).result⟩ := by
  show Writing.andThen x f = _
  unfold Writing.andThen
  rw [h]

theorem bind_raised {ι α β : Type} {x : Writing ι α} {e : String} (h : x.result = .error e) (f : α → Writing ι β) :
    x >>= f = ⟨x.files, .error e⟩ := by
  show Writing.andThen x f = _
  unfold Writing.andThen
  rw [h]

theorem quietly_bind {ι α β : Type} {x : Except String α} {a : α} (h : x = .ok a) (f : α → Writing ι β) :
    quietly x >>= f = f a := by
  rw [bind_files (a := a) (x := quietly x) h]
  rfl

theorem quietly_bind_error {ι α β : Type} {x : Except String α} {e : String} (h : x = .error e) (f : α → Writing ι β) :
    quietly x >>= f = ⟨[], .error e⟩ := bind_raised (x := quietly x) h f

theorem writeFile_bind {ι β : Type} (name : String) (c : OutFile ι) (f : Unit → Writing ι β) :
    writeFile name c >>= f = ⟨(name, c) :: (f ()).files, (f ()).result⟩ := by
  rw [bind_files (x := writeFile name c) (a := ()) rfl]
  rfl

/-- The files written have the first of the given names, and if there was no exception, all of them. -/
def Follows {ι α : Type} (x : Writing ι α) (names : List String) : Prop :=
  x.files.map Prod.fst <+: names ∧ ∀ a, x.result = .ok a → x.files.map Prod.fst = names

theorem Follows.bind {ι α β : Type} {x : Writing ι α} {p q : List String} (hx : Follows x p) (f : α → Writing ι β)
    (hf : ∀ a, x.result = .ok a → Follows (f a) q) : Follows (x >>= f) (p ++ q) := by
  cases h : x.result with
  | error e =>
    rw [bind_raised h]
    exact ⟨hx.1.trans (List.prefix_append _ _), fun a ha => by cases ha⟩
  | ok a =>
    rw [bind_files h]
    obtain ⟨h1, h2⟩ := hf a h
    refine ⟨?_, fun b hb => ?_⟩
    · rw [List.map_append, hx.2 a h]
      exact (List.prefix_append_right_inj _).mpr h1
    · rw [List.map_append, hx.2 a h, h2 b hb]

theorem Follows.quiet {ι α : Type} (x : Except String α) : Follows (quietly x : Writing ι α) [] :=
  ⟨List.prefix_rfl, fun _ _ => rfl⟩

theorem Follows.then {ι α β : Type} {x : Except String α} {q : List String} {f : α → Writing ι β}
    (hf : ∀ a, x = .ok a → Follows (f a) q) : Follows (quietly x >>= f) q :=
  Follows.bind (Follows.quiet x) f hf

theorem Follows.write {ι : Type} (name : String) (c : OutFile ι) : Follows (writeFile name c) [name] :=
  ⟨List.prefix_rfl, fun _ _ => rfl⟩

theorem Follows.done {ι α : Type} (a : α) : Follows (pure a : Writing ι α) [] :=
  ⟨List.prefix_rfl, fun _ _ => rfl⟩

theorem writeReference_follows {ι : Type} (name : ℕ → String) (fs : ℕ) (reference : ℕ → Except String (Tensor ℝ))
    (info : List (String × List ι)) (s : ℕ) : Follows (writeReference name fs reference info s) [name s] := by
  unfold writeReference
  refine Follows.then fun ref _ => Follows.then fun file _ => ?_
  exact Follows.bind (p := [_]) (q := []) (Follows.write _ _) _ fun _ _ => Follows.then fun e _ => Follows.done _

theorem writeReferences_follows {ι : Type} (name : ℕ → String) (fs : ℕ) (reference : ℕ → Except String (Tensor ℝ))
    (info : List (String × List ι)) (l : List ℕ) :
    Follows (writeReferences name fs reference info l) (l.map name) := by
  induction l with
  | nil => exact Follows.done _
  | cons s rest ih =>
    show Follows (writeReference name fs reference info s >>= _) ([name s] ++ rest.map name)
    refine Follows.bind (writeReference_follows ..) _ fun e _ => ?_
    rw [← List.append_nil (rest.map name)]
    exact Follows.bind ih _ fun es _ => Follows.done _

/-- The attribution file that all runs begin with. -/
theorem attribution_ok {ι : Type} (notes : List String) : ∃ license text,
    attributionFor "cmu_arctic" none = .ok license ∧
    (writeAttribution license notes : Writing ι Unit) = writeFile "ATTRIBUTION.txt" (.text text) ∧
    license.lookup "dataset" = some (.shown "CMU ARCTIC") ∧
    HasLine text.toList ("Required attribution: ".toList ++
      "Carnegie Mellon University, Language Technologies Institute (CMU ARCTIC)".toList) ∧
    (∃ name url : String, name ≠ "" ∧ url ≠ "" ∧ HasLine text.toList ("License: ".toList ++ name.toList) ∧
      HasLine text.toList ("License URL: ".toList ++ url.toList)) ∧
    ∀ n ∈ notes, HasLine text.toList ("- ".toList ++ n.toList) := by
  obtain ⟨info, text, h1, h2, h3, h4, -, h5⟩ := C84_supported "cmu_arctic"
    "Carnegie Mellon University, Language Technologies Institute (CMU ARCTIC)" (by simp [licensed]) "cmu_arctic"
    (toLower_eq (by decide)) none notes none
  refine ⟨info, text, h1, ?_, ?_, h3, h4, h5⟩
  · unfold writeAttribution
    rw [h2]
    rfl
  · unfold attributionFor at h1
    rw [if_pos (toLower_eq (by decide))] at h1
    cases h1
    rfl

/-- A computation of which all files are there that ends with writing one has finished. -/
def RunEnds {ι α : Type} (x : Writing ι α) (names : List String) : Prop :=
  Follows x names ∧ (x.files.map Prod.fst = names → ∃ a, x.result = .ok a)

theorem RunEnds.bind {ι α β : Type} {x : Writing ι α} {p q : List String} (hx : Follows x p) (f : α → Writing ι β)
    (hq : q ≠ []) (hf : ∀ a, x.result = .ok a → RunEnds (f a) q) : RunEnds (x >>= f) (p ++ q) := by
  refine ⟨hx.bind f fun a h => (hf a h).1, fun h => ?_⟩
  cases hr : x.result with
  | error e =>
    rw [bind_raised hr] at h
    have h1 := hx.1.length_le
    have h2 := List.length_pos_of_ne_nil hq
    rw [h, List.length_append] at h1
    omega
  | ok a =>
    rw [bind_files hr] at h ⊢
    dsimp only at h ⊢
    rw [List.map_append, hx.2 a hr] at h
    exact (hf a hr).2 (List.append_cancel_left h)

theorem RunEnds.then {ι α β : Type} {x : Except String α} {q : List String} {f : α → Writing ι β} (hq : q ≠ [])
    (hf : ∀ a, x = .ok a → RunEnds (f a) q) : RunEnds (quietly x >>= f) q :=
  RunEnds.bind (Follows.quiet x) f hq hf

theorem RunEnds.write {ι : Type} (name : String) (c : OutFile ι) : RunEnds (writeFile name c) [name] :=
  ⟨Follows.write name c, fun _ => ⟨(), rfl⟩⟩

theorem afterLoading_ends {ι : Type} (conv : Flt → ℤ) (w : World) (sc : Script) (g : Gen) (a : ScriptArgs) (k : ℕ)
    (license : List (String × AttrValue)) (rows : List (List ℝ)) (fs : ℕ) (info : List (String × List ι)) :
    RunEnds (scriptAfterLoading conv w sc g a k license rows fs info)
      ((List.range a.numSources).map sc.refName ++ [sc.mixName, sc.metadataName]) := by
  unfold scriptAfterLoading
  refine RunEnds.then (by simp) fun room _ => RunEnds.then (by simp) fun scene _ => RunEnds.then (by simp) fun ry _ => ?_
  refine RunEnds.bind (writeReferences_follows ..) _ (by simp) fun refs _ => RunEnds.then (by simp) fun file _ => ?_
  exact RunEnds.bind (p := [_]) (q := [_]) (Follows.write _ _) _ (by simp) fun _ _ =>
    RunEnds.then (by simp) fun md _ => RunEnds.write _ _

/-- **C101, attribution.** Whatever happens later, the first thing a script writes is the attribution file: it names the
required attribution, the licence and where it is found, and the changes made to the recordings. -/
theorem C101_attribution_first {ι : Type} (conv : Flt → ℤ) (w : World) (script : Script) (g : Gen) (a : ScriptArgs)
    (k : ℕ) (loaded : Except String (List (List ℝ) × ℕ × List (String × List ι))) : ∃ text rest,
    (scriptRun conv w script g a k loaded).files = ("ATTRIBUTION.txt", .text text) :: rest ∧
    HasLine text.toList ("Required attribution: ".toList ++
      "Carnegie Mellon University, Language Technologies Institute (CMU ARCTIC)".toList) ∧
    (∃ name url : String, name ≠ "" ∧ url ≠ "" ∧ HasLine text.toList ("License: ".toList ++ name.toList) ∧
      HasLine text.toList ("License URL: ".toList ++ url.toList)) ∧
    HasLine text.toList (match script with
      | .static => "- Static room impulse responses are simulated with ISM at fixed geometry.".toList
      | _ => "- Dynamic room impulse responses are simulated with ISM over trajectories.".toList) := by
  obtain ⟨license, text, h1, h2, -, h3, h4, h5⟩ := attribution_ok (ι := ι) (modificationNotes script.moves)
  refine ⟨text, (quietly loaded >>= fun l => scriptAfterLoading conv w script g a k license l.1 l.2.1 l.2.2).files, ?_,
    h3, h4, ?_⟩
  · unfold scriptRun
    rw [quietly_bind h1, h2, writeFile_bind]
  · cases script
    · exact h5 _ (by simp [modificationNotes, Script.moves]; right; left; rfl)
    · exact h5 _ (by simp [modificationNotes, Script.moves]; right; left; rfl)
    · exact h5 _ (by simp [modificationNotes, Script.moves]; right; left; rfl)

theorem refName_ne_metadata (script : Script) (s : ℕ) : script.refName s ≠ script.prefix ++ "_metadata.json" := fun h => by
  have h := congrArg String.toList h
  rw [script_refName_chars, String.toList_append] at h
  have h := List.append_cancel_left h
  simp at h

/-- **C101, names.** No file of a run overwrites another one. -/
theorem C101_names (script : Script) (n : ℕ) : (scriptNames script n).Nodup := by
  have hmix : script.mixName ≠ script.prefix ++ "_metadata.json" := by
    cases script <;> decide
  have hattr : ∀ s, "ATTRIBUTION.txt" ≠ script.refName s := fun s h => by
    have h := congrArg String.toList h
    rw [script_refName_chars] at h
    cases script <;> simp [Script.prefix] at h
  unfold scriptNames
  rw [List.nodup_cons]
  refine ⟨fun h => ?_, ?_⟩
  · rcases List.mem_append.mp h with h | h
    · obtain ⟨s, -, h⟩ := List.mem_map.mp h
      exact hattr s h.symm
    · cases script <;> revert h <;> decide
  · rw [List.nodup_append]
    refine ⟨List.nodup_range.map fun s t h => ((C95_file_names script script s t).2.1.mp h).2, by simpa using hmix, ?_⟩
    rintro x hx y hy rfl
    obtain ⟨s, -, rfl⟩ := List.mem_map.mp hx
    simp only [List.mem_cons, List.not_mem_nil, or_false] at hy
    rcases hy with hy | hy
    · exact (C95_file_names script script s 0).2.2.1 hy
    · exact refName_ne_metadata script s hy

/-- The only beginning of a list without repetitions that has its last element is the list. -/
theorem prefix_with_last {α : Type} {l r : List α} {x : α} (hl : l <+: r ++ [x]) (hn : (r ++ [x]).Nodup) (hx : x ∈ l) :
    l = r ++ [x] := by
  rcases List.prefix_concat_iff.mp hl with h | h
  · exact h
  · rw [List.nodup_append] at hn
    exact absurd rfl (hn.2.2 x (h.subset hx) x (by simp))

/-- **C101, order.** The files are written in the order attribution, references, mixture, metadata; an exception leaves a
beginning of that list. The script finishes exactly if all of them are there, which is to say exactly if the metadata
is. -/
theorem C101_order {ι : Type} (conv : Flt → ℤ) (w : World) (script : Script) (g : Gen) (a : ScriptArgs) (k : ℕ)
    (loaded : Except String (List (List ℝ) × ℕ × List (String × List ι))) :
    let run := scriptRun conv w script g a k loaded
    run.files.map Prod.fst <+: scriptNames script a.numSources ∧
    (run.result = .ok () ↔ run.files.map Prod.fst = scriptNames script a.numSources) ∧
    (run.result = .ok () ↔ script.prefix ++ "_metadata.json" ∈ run.files.map Prod.fst) := by
  intro run
  obtain ⟨license, text, h1, h2, -⟩ := attribution_ok (ι := ι) (modificationNotes script.moves)
  have hrun : run = writeFile "ATTRIBUTION.txt" (.text text) >>= fun _ => quietly loaded >>= fun l =>
      scriptAfterLoading conv w script g a k license l.1 l.2.1 l.2.2 := by
    show scriptRun conv w script g a k loaded = _
    unfold scriptRun
    rw [quietly_bind h1, h2]
  have hf : RunEnds run (["ATTRIBUTION.txt"] ++ ((List.range a.numSources).map script.refName ++
      [script.mixName, script.metadataName])) := by
    rw [hrun]
    exact RunEnds.bind (Follows.write _ _) _ (by simp) fun _ _ => RunEnds.then (by simp) fun l _ => afterLoading_ends ..
  have h0 : scriptNames script a.numSources = ("ATTRIBUTION.txt" :: ((List.range a.numSources).map script.refName ++
      [script.mixName])) ++ [script.prefix ++ "_metadata.json"] := by
    simp [scriptNames]
  refine ⟨hf.1.1, ⟨fun h => hf.1.2 () h, fun h => (hf.2 h).elim fun _ h => h⟩, fun h => ?_, fun h => ?_⟩
  · rw [hf.1.2 () h]
    simp [Script.metadataName]
  · refine (hf.2 ?_).elim fun _ h => h
    have hn := C101_names script a.numSources
    have hp : run.files.map Prod.fst <+: scriptNames script a.numSources := hf.1.1
    rw [h0] at hn hp
    have := prefix_with_last hp hn h
    rw [this, ← h0]
    rfl

/-! ## Finished runs -/

theorem writeReferences_ok {ι : Type} (name : ℕ → String) (fs : ℕ) (reference : ℕ → Except String (Tensor ℝ))
    (info : List (String × List ι)) (who : ℕ → String × List ι) (l : List ℕ) (hw : ∀ s ∈ l, infoOf info s = .ok (who s)) :
    ∀ (refs : List (Tensor ℝ)) (fl : List (String × AudioFile)), l.mapM reference = .ok refs →
      ((refs.zip l).mapM fun p => do
        let f ← saveAudio p.1
        return (name p.2, f)) = .ok fl →
      writeReferences name fs reference info l = ⟨fl.map fun p => (p.1, .audio p.2 fs),
        .ok (l.map fun s => ⟨s, name s, (who s).1, (who s).2, "convolved"⟩)⟩ := by
  induction l with
  | nil =>
    intro refs fl h1 h2
    cases h1
    cases h2
    rfl
  | cons s rest ih =>
    intro refs fl h1 h2
    rw [List.mapM_cons] at h1
    obtain ⟨ref, hr, h1⟩ := (bind_eq_ok _ _ _).mp h1
    obtain ⟨refs', hrs, h1⟩ := (bind_eq_ok _ _ _).mp h1
    cases h1
    rw [List.zip_cons_cons, List.mapM_cons] at h2
    obtain ⟨q, hq, h2⟩ := (bind_eq_ok _ _ _).mp h2
    obtain ⟨f, hf, hq⟩ := (bind_eq_ok _ _ _).mp hq
    cases hq
    obtain ⟨fl', hfl, h2⟩ := (bind_eq_ok _ _ _).mp h2
    cases h2
    have ih := ih (fun t ht => hw t (List.mem_cons_of_mem _ ht)) refs' fl' hrs hfl
    have h1 : writeReference name fs reference info s = ⟨[(name s, .audio f fs)],
        .ok ⟨s, name s, (who s).1, (who s).2, "convolved"⟩⟩ := by
      unfold writeReference
      rw [quietly_bind hr, quietly_bind hf, writeFile_bind, quietly_bind (hw s (List.mem_cons_self ..))]
      rfl
    show writeReference name fs reference info s >>= _ = _
    rw [h1, bind_files rfl, ih, bind_files rfl]
    simp [show ∀ es : List (ReferenceEntry ι), (pure es : Writing ι _) = ⟨[], .ok es⟩ from fun _ => rfl]

theorem scriptRender_inv {w : World} {room : Room} {a : ScriptArgs} {signals : Tensor ℝ} {scene : CliScene}
    {rirs y : Tensor ℝ} {refs : List (Tensor ℝ)} (h : scriptRender w room a signals scene = .ok (rirs, y, refs)) :
    scriptMixture w room a signals scene = .ok (rirs, y) ∧
      (List.range a.numSources).mapM (scriptReference w.device scene signals rirs) = .ok refs := by
  unfold scriptRender at h
  unfold scriptMixture scriptReference
  cases ht : scene.trajs with
  | none =>
    rw [ht] at h
    dsimp only at h ⊢
    obtain ⟨r, h1, h⟩ := (bind_eq_ok _ _ _).mp h
    obtain ⟨⟨y', refs'⟩, h2, h⟩ := (bind_eq_ok _ _ _).mp h
    cases h
    unfold staticAudio at h2
    obtain ⟨y', h3, h2⟩ := (bind_eq_ok _ _ _).mp h2
    obtain ⟨refs', h4, h2⟩ := (bind_eq_ok _ _ _).mp h2
    cases h2
    rw [h1, ok_bind, h3]
    exact ⟨rfl, h4⟩
  | some p =>
    rw [ht] at h
    dsimp only at h ⊢
    obtain ⟨r, h1, h⟩ := (bind_eq_ok _ _ _).mp h
    obtain ⟨⟨y', refs'⟩, h2, h⟩ := (bind_eq_ok _ _ _).mp h
    cases h
    unfold sceneAudio at h2
    obtain ⟨y', h3, h2⟩ := (bind_eq_ok _ _ _).mp h2
    obtain ⟨refs', h4, h2⟩ := (bind_eq_ok _ _ _).mp h2
    cases h2
    rw [h1, ok_bind, h3]
    exact ⟨rfl, h4⟩

theorem mapM_length_ok {α β : Type} {f : α → Except String β} : ∀ {l : List α} {r : List β}, l.mapM f = .ok r →
    r.length = l.length
  | [], r, h => by
    cases h
    rfl
  | x :: l, r, h => by
    rw [List.mapM_cons] at h
    obtain ⟨y, -, h⟩ := (bind_eq_ok _ _ _).mp h
    obtain ⟨ys, hys, h⟩ := (bind_eq_ok _ _ _).mp h
    cases h
    simp [mapM_length_ok hys]

/-- If everything between the files succeeds, the run finishes with all of them. -/
theorem scriptRun_of_runScript {ι : Type} (conv : Flt → ℤ) (w : World) (sc : Script) (g : Gen) (a : ScriptArgs) (k : ℕ)
    (rows : List (List ℝ)) (fs : ℕ) (who : Fin a.numSources → String × List ι) (out : ScriptOutput) (md : Metadata)
    (h : runScript conv w sc g a (pointsTensor rows) fs k = .ok out)
    (hmd : scriptMetadata a.room.length fs out.scene out.rirs (pointsTensor rows) = .ok md) :
    ∃ text license, license.lookup "dataset" = some (.shown "CMU ARCTIC") ∧
      scriptRun conv w sc g a k (.ok (rows, fs, List.ofFn who)) = ⟨("ATTRIBUTION.txt", .text text) ::
        ((out.files.map fun p => (p.1, .audio p.2 fs)) ++ [(sc.prefix ++ "_metadata.json", .metadata md (List.ofFn who)
        ⟨sc.prefix, List.ofFn fun s : Fin a.numSources => ⟨s, sc.refName s, (who s).1, (who s).2, "convolved"⟩, license,
          modificationNotes sc.moves, "ATTRIBUTION.txt"⟩)]), .ok ()⟩ := by
  obtain ⟨license, text, h1, h2, h3, -⟩ := attribution_ok (ι := ι) (modificationNotes sc.moves)
  refine ⟨text, license, h3, ?_⟩
  unfold runScript at h
  obtain ⟨room, hroom, h⟩ := (bind_eq_ok _ _ _).mp h
  obtain ⟨scene, hscene, h⟩ := (bind_eq_ok _ _ _).mp h
  obtain ⟨⟨rirs, y, refs⟩, hrender, h⟩ := (bind_eq_ok _ _ _).mp h
  obtain ⟨files, hfiles, h⟩ := (bind_eq_ok _ _ _).mp h
  cases h
  obtain ⟨hmix, hrefs⟩ := scriptRender_inv hrender
  unfold scriptFiles at hfiles
  obtain ⟨fl, hfl, hfiles⟩ := (bind_eq_ok _ _ _).mp hfiles
  obtain ⟨mix, hsave, hfiles⟩ := (bind_eq_ok _ _ _).mp hfiles
  cases hfiles
  have hlen := mapM_length_ok hrefs
  rw [List.length_range] at hlen
  rw [List.zipIdx_eq_zip_range', hlen, ← List.range_eq_range'] at hfl
  have hw : ∀ s ∈ List.range a.numSources, infoOf (List.ofFn who) s
      = .ok (if hs : s < a.numSources then who ⟨s, hs⟩ else ("", [])) := fun s hs => by
    have hs := List.mem_range.mp hs
    unfold infoOf
    rw [List.getElem?_eq_getElem (by simpa using hs), dif_pos hs]
    simp
  have hr := writeReferences_ok sc.refName fs (scriptReference w.device scene (pointsTensor rows) rirs) (List.ofFn who) _ _ hw
    refs fl hrefs hfl
  unfold scriptRun
  rw [quietly_bind h1, h2, writeFile_bind, quietly_bind rfl]
  unfold scriptAfterLoading
  rw [quietly_bind hroom, quietly_bind hscene, quietly_bind hmix, hr, bind_files rfl, quietly_bind hsave, writeFile_bind,
    quietly_bind hmd]
  have e : ((List.range a.numSources).map fun s => (⟨s, sc.refName s, (if hs : s < a.numSources then who ⟨s, hs⟩
      else ("", [])).1, (if hs : s < a.numSources then who ⟨s, hs⟩ else ("", [])).2, "convolved"⟩ : ReferenceEntry ι))
      = List.ofFn fun s : Fin a.numSources => ⟨s, sc.refName s, (who s).1, (who s).2, "convolved"⟩ := by
    apply List.ext_getElem
    · simp
    · intro s h1 h2
      have hs : s < a.numSources := by simpa using h2
      simp [hs]
  rw [e]
  simp [writeFile, Script.metadataName]

/-- The loaded rows as signals of equal length. -/
theorem loaded_signals {ι : Type} {S n fs : ℕ} {data : String → SpeakerData ι} {rows : List (List ℝ)}
    {info : List (String × List ι)} (hr : rows.length = S)
    (h : List.Forall₂ (fun row e => IsSource (data e.1) fs n row e.2 ∧ e.2 ≠ []) rows info) :
    ∃ (x : Fin S → Fin n → ℝ) (who : Fin S → String × List ι), rows = Spec.rows x ∧ info = List.ofFn who ∧
      ∀ s, IsSource (data (who s).1) fs n (List.ofFn (x s)) (who s).2 ∧ (who s).2 ≠ [] := by
  have hi : info.length = S := by rw [← h.length_eq, hr]
  have hg : ∀ s : Fin S, IsSource (data (info[s]'(by omega)).1) fs n (rows[s]'(by omega)) (info[s]'(by omega)).2 ∧
      (info[s]'(by omega)).2 ≠ [] := fun s => (List.forall₂_iff_get.mp h).2 s (by omega) (by omega)
  have hl : ∀ s : Fin S, (rows[s]'(by omega)).length = n := fun s => (hg s).1.1
  have hx : ∀ s : Fin S, List.ofFn (fun i : Fin n => (rows[s]'(by omega))[i]'(by rw [hl s]; exact i.2))
      = rows[s]'(by omega) := fun s => by
    apply List.ext_getElem
    · rw [List.length_ofFn]
      exact (hl s).symm
    · intro i h1 h2
      simp
  refine ⟨fun s i => (rows[s]'(by omega))[i]'(by rw [hl s]; exact i.2), fun s => info[s]'(by omega), ?_, ?_, fun s => ?_⟩
  · unfold Spec.rows
    apply List.ext_getElem
    · simp [hr]
    · intro s h1 h2
      rw [List.getElem_ofFn]
      exact (hx ⟨s, by omega⟩).symm
  · apply List.ext_getElem
    · simp [hi]
    · intro s h1 h2
      simp
  · rw [hx s]
    exact hg s

/-- The metadata of a scene. -/
theorem metadata_describes {T S M d n : ℕ} (hd : d = 2 ∨ d = 3) (hT : 1 ≤ T) (fs : ℝ) (sp : Fin S → Fin d → ℝ)
    (mp : Fin M → Fin d → ℝ) (src : Fin T → Fin S → Fin d → ℝ) (mic : Fin T → Fin M → Fin d → ℝ)
    {srcTraj micTraj : Option (Tensor ℝ)} (hs : TrajIs srcTraj (tensor2 sp) src) (hm : TrajIs micTraj (tensor2 mp) mic)
    (shape : List ℕ) (hne : shape ≠ []) :
    ∃ md, buildMetadata d fs (tensor2 sp) (tensor2 mp) .floating shape srcTraj micTraj none (some (n : ℤ)) = .ok md ∧
      Describes md fs sp mp src mic shape n ∧
      ∃ az el : Fin T → Fin S → Fin M → ℝ,
        md.azimuth = (List.ofFn fun t => List.ofFn fun s => List.ofFn (az t s)) ∧
        md.elevation = (List.ofFn fun t => List.ofFn fun s => List.ofFn (el t s)) ∧
        ∀ t s m, PointsTo (fun i => src t s i - mic t m i) (az t s m) (el t s m) := by
  obtain ⟨center, hc⟩ : ∃ c, arrayCenter (tensor2 mp) .floating = .ok c := ⟨_, by unfold arrayCenter; rw [if_neg (by decide)]⟩
  have h := buildMetadata_eq fs mp src mic hs hm hT hT (.inl rfl) (by omega) shape hne none (some (n : ℤ)) center hc
  have hh : ∀ t : Fin T, held hT (t : ℕ) = t := fun t => Fin.ext (by unfold held; dsimp only; omega)
  have hmax : max T T = T := max_self T
  rw [hmax] at h
  simp only [hh] at h
  refine ⟨_, h, ⟨rfl, tensor2_rows sp, tensor2_rows mp, rfl, by simp, ?_, ?_, ?_⟩, ?_⟩
  · dsimp only
    rw [tensor3_planes]
    rfl
  · dsimp only
    rw [tensor3_planes]
    rfl
  · dsimp only
    unfold metadataTimestamps
    dsimp only
    by_cases h1 : 1 < T
    · rw [if_pos h1, if_pos h1]
      unfold linspace
      rw [if_neg (by omega)]
      congr 2
      refine List.ext_getElem (by simp) fun k h1 h2 => ?_
      simp only [List.getElem_map, List.getElem_range, List.getElem_ofFn]
      push_cast
      ring
    · rw [if_neg h1, if_neg h1]
  · exact ⟨_, _, rfl, rfl, fun t s m => pointsTo_angles hd _⟩

/-- Files of a finished run from those of `runScript`. -/
theorem finished_of {ι : Type} {M len : ℕ} {conv : Flt → ℤ} {w : World} {script : Script} {g : Gen} {a : ScriptArgs}
    {k fs : ℕ} {rows : List (List ℝ)} {who : Fin a.numSources → String × List ι} {out : ScriptOutput} {md : Metadata}
    {ref : Fin a.numSources → Fin M → ℕ → ℝ}
    (h : runScript conv w script g a (pointsTensor rows) fs k = .ok out)
    (hmd : scriptMetadata a.room.length fs out.scene out.rirs (pointsTensor rows) = .ok md)
    (hf : ScriptFiles script len (fun m k => ∑ s, ref s m k) ref out.files) :
    Finished script fs len ref who md (scriptRun conv w script g a k (.ok (rows, fs, List.ofFn who))) := by
  obtain ⟨text, license, h1, h2⟩ := scriptRun_of_runScript conv w script g a k rows fs who out md h hmd
  obtain ⟨mixFile, gain, refFile, refGain, hfiles, hmix, hrefs⟩ := hf
  rw [h2]
  refine ⟨rfl, text, license, refFile, refGain, mixFile, gain, ?_, h1, hrefs, hmix⟩
  rw [hfiles]
  simp [Function.comp_def]

/-- **C101, standing scene.** If the sources are loaded and placed, `static.py` finishes. The signal of every source is
the beginning of the listed utterances of the listed speaker; its reference is that signal convolved with the responses
of the image method from where it stands to the microphones; the file listed for the speaker holds that reference; and
the metadata gives the positions of the simulated scene. -/
theorem C101_static {ι : Type} {d M : ℕ} (hd : d = 2 ∨ d = 3) (hM : 0 < M) (h8 : M ≤ 8) (conv : Flt → ℤ) (w : World)
    {g : Gen} (hg : FairGen g) (L : Fin d → ℝ) (hL : ∀ i, 1 ≤ L i) (a : ScriptArgs) (ha : a.room = List.ofFn L)
    (hS : 0 < a.numSources) (hnum : a.numMics = M) (N : ℕ) (hN : a.order = N)
    (sample : List String → ℕ → List String) (hsample : Samples sample) (shuffle : ℕ → List ι → List ι)
    (hsh : Shuffles shuffle) (speakers : List String) (data : String → SpeakerData ι) (duration : ℝ) (hdur : 0 ≤ duration)
    (fuel : ℕ) (rows : List (List ℝ)) (fs : ℕ) (info : List (String × List ι))
    (hload : loadDatasetSources sample shuffle speakers data a.numSources duration fuel = some (.ok (rows, fs, info)))
    (hfs : 20 < fs) (K : ℕ) (hK : 0 < K) (ht : (K : ℤ) = ⌈a.tmax * fs⌉) (sos : w.Sos)
    (hsos : w.iirfilter 2 (10 / ((fs : ℝ) / 2)) [("rp", "5.0"), ("rs", "60.0"), ("ftype", "butter")] = .ok sos)
    (G : (Fin K → ℝ) →ₗ[ℝ] (Fin K → ℝ)) (hG : ActsAs w sos G) (k : ℕ) (sc : CliScene)
    (hp : placeScript .static g a k = .ok sc) :
    let n := ⌊duration * fs⌋₊
    ∃ (run : Writing ι Unit) (x : Fin a.numSources → Fin n → ℝ) (who : Fin a.numSources → String × List ι)
      (src : Fin a.numSources → Fin d → ℝ) (mic : Fin M → Fin d → ℝ) (md : Metadata)
      (ref : Fin a.numSources → Fin M → ℕ → ℝ),
      wholeScript conv w .static g a k sample shuffle speakers data duration fuel = some run ∧
      (∀ s, IsSource (data (who s).1) fs n (List.ofFn (x s)) (who s).2) ∧
      sc = ⟨Spec.rows src, Spec.rows mic, none⟩ ∧
      (∀ s m k, ref s m k = Spec.conv (x s) (cliResponse (w.device ≠ .mps) L fs N G (src s) (mic m)) k) ∧
      Finished .static fs (n + K - 1) ref who md run ∧
      Describes md fs src mic (fun _ : Fin 1 => src) (fun _ => mic) [a.numSources, M, K] n ∧
      ∃ az el : Fin 1 → Fin a.numSources → Fin M → ℝ,
        md.azimuth = (List.ofFn fun t => List.ofFn fun s => List.ofFn (az t s)) ∧
        md.elevation = (List.ofFn fun t => List.ofFn fun s => List.ofFn (el t s)) ∧
        ∀ t s m, PointsTo (fun i => src s i - mic m i) (az t s m) (el t s m) := by
  intro n
  obtain ⟨hr, -, -, -, hrows⟩ := C53_sources_partial sample hsample shuffle hsh speakers data a.numSources duration hdur fuel
    rows fs info hload
  obtain ⟨x, who, rfl, rfl, hx⟩ := loaded_signals (by exact_mod_cast hr) hrows
  have hx : ∀ s, IsSource (data (who s).1) fs n (List.ofFn (x s)) (who s).2 := fun s => (hx s).1
  obtain ⟨c, src, mic, rfl, -⟩ := C95_static_placement hg (by omega) L hL a ha hM hnum k sc hp
  obtain ⟨ref, files, hrun, href, hfiles⟩ := C95_static_output hd hM h8 conv w g L (fun i => by linarith [hL i]) a ha hS N hN
    fs (by exact_mod_cast hfs) K hK ht sos hsos G hG x k src mic hp
  obtain ⟨md, hmd, hdesc, hang⟩ := metadata_describes (n := n) hd le_rfl (fs : ℝ) src mic (fun _ : Fin 1 => src)
    (fun _ => mic) (srcTraj := none) (micTraj := none) (.inr (.inr ⟨rfl, rfl, by simp [tensor2, tensor3]⟩))
    (.inr (.inr ⟨rfl, rfl, by simp [tensor2, tensor3]⟩)) [a.numSources, M, K] (by simp)
  rw [← pointsTensor_rows hS] at hrun
  refine ⟨scriptRun conv w .static g a k (.ok (Spec.rows x, fs, List.ofFn who)), x, who, src, mic, md, ref, ?_, hx, rfl, href,
    finished_of hrun ?_ hfiles, hdesc, hang⟩
  · unfold wholeScript
    rw [hload]
    rfl
  · unfold scriptMetadata
    rw [ha, List.length_ofFn, pointsTensor_rows hS, pointsTensor_rows hM, pointsTensor_rows hS]
    exact hmd

/-- **C101, moving scenes.** The same for `dynamic_src.py` and `dynamic_mic.py`: every sample passes through the responses
from where its source is to where the microphones are at the current step, and the metadata gives these trajectories
and, for every step, the directions from the microphones to the sources. -/
theorem C101_dynamic {ι : Type} {d M T : ℕ} (hd : d = 2 ∨ d = 3) (hM : 0 < M) (h8 : M ≤ 8) (conv : Flt → ℤ) (w : World)
    {g : Gen} (hg : FairGen g) (script : Script) (hscript : script ≠ .static) (L : Fin d → ℝ) (hL : ∀ i, 1 ≤ L i)
    (a : ScriptArgs) (ha : a.room = List.ofFn L) (hS : 0 < a.numSources) (hnum : a.numMics = M)
    (hT : (T : ℤ) = max 2 a.steps) (N : ℕ) (hN : a.order = N)
    (sample : List String → ℕ → List String) (hsample : Samples sample) (shuffle : ℕ → List ι → List ι)
    (hsh : Shuffles shuffle) (speakers : List String) (data : String → SpeakerData ι) (duration : ℝ) (hdur : 0 ≤ duration)
    (fuel : ℕ) (rows : List (List ℝ)) (fs : ℕ) (info : List (String × List ι))
    (hload : loadDatasetSources sample shuffle speakers data a.numSources duration fuel = some (.ok (rows, fs, info)))
    (hfs : 20 < fs) (K : ℕ) (hK : 0 < K) (ht : (K : ℤ) = ⌈a.tmax * fs⌉) (sos : w.Sos)
    (hsos : w.iirfilter 2 (10 / ((fs : ℝ) / 2)) [("rp", "5.0"), ("rs", "60.0"), ("ftype", "butter")] = .ok sos)
    (G : (Fin K → ℝ) →ₗ[ℝ] (Fin K → ℝ)) (hG : ActsAs w sos G) (k : ℕ) (sc : CliScene)
    (hp : placeScript script g a k = .ok sc) (step : Fin ⌊duration * fs⌋₊ → Fin T)
    (hstep : CurrentStep (fun t : Fin T => (t : ℕ) * ⌊duration * fs⌋₊ / T) step) :
    let n := ⌊duration * fs⌋₊
    ∃ (run : Writing ι Unit) (x : Fin a.numSources → Fin n → ℝ) (who : Fin a.numSources → String × List ι)
      (src : Fin T → Fin a.numSources → Fin d → ℝ) (mic : Fin T → Fin M → Fin d → ℝ) (first : Fin T) (md : Metadata)
      (ref : Fin a.numSources → Fin M → ℕ → ℝ),
      wholeScript conv w script g a k sample shuffle speakers data duration fuel = some run ∧
      (∀ s, IsSource (data (who s).1) fs n (List.ofFn (x s)) (who s).2) ∧
      sc = ⟨Spec.rows (src first), Spec.rows (mic first), some (Spec.steps src, Spec.steps mic)⟩ ∧ (first : ℕ) = 0 ∧
      (∀ s m k, ref s m k =
        heard (x s) (fun t m => cliResponse (w.device ≠ .mps) L fs N G (src t s) (mic t m)) step m k) ∧
      Finished script fs (n + K - 1) ref who md run ∧
      Describes md fs (src first) (mic first) src mic [T, a.numSources, M, K] n ∧
      ∃ az el : Fin T → Fin a.numSources → Fin M → ℝ,
        md.azimuth = (List.ofFn fun t => List.ofFn fun s => List.ofFn (az t s)) ∧
        md.elevation = (List.ofFn fun t => List.ofFn fun s => List.ofFn (el t s)) ∧
        ∀ t s m, PointsTo (fun i => src t s i - mic t m i) (az t s m) (el t s m) := by
  intro n
  have hT2 : 2 ≤ T := by omega
  obtain ⟨hr, -, -, -, hrows⟩ := C53_sources_partial sample hsample shuffle hsh speakers data a.numSources duration hdur fuel
    rows fs info hload
  obtain ⟨x, who, rfl, rfl, hx⟩ := loaded_signals (by exact_mod_cast hr) hrows
  have hx : ∀ s, IsSource (data (who s).1) fs n (List.ofFn (x s)) (who s).2 := fun s => (hx s).1
  obtain ⟨src, mic, rfl⟩ : ∃ (src : Fin T → Fin a.numSources → Fin d → ℝ) (mic : Fin T → Fin M → Fin d → ℝ),
      sc = ⟨Spec.rows (src ⟨0, by omega⟩), Spec.rows (mic ⟨0, by omega⟩), some (Spec.steps src, Spec.steps mic)⟩ := by
    cases script with
    | static => exact absurd rfl hscript
    | dynamicSrc =>
      obtain ⟨c, start, src, mic, moving, rfl, -, -, -, -, -, h0⟩ := C95_src_placement hg (by omega) L hL a ha hM hnum k sc
        hp hT
      exact ⟨src, fun _ => mic, by rw [h0]⟩
    | dynamicMic =>
      obtain ⟨start, stop, c, src, mic, rfl, -⟩ := C95_mic_placement hg (by omega) L hL a ha hM hnum k sc hp hT
      exact ⟨fun _ => src, mic, rfl⟩
  obtain ⟨ref, files, hrun, href, hfiles⟩ := C95_dynamic_output hd hM h8 (by omega) conv w script g L
    (fun i => by linarith [hL i]) a ha hS N hN fs (by exact_mod_cast hfs) K hK ht sos hsos G hG x k src mic _ _ hp step hstep
  obtain ⟨md, hmd, hdesc, hang⟩ := metadata_describes (n := n) hd (by omega) (fs : ℝ) (src ⟨0, by omega⟩) (mic ⟨0, by omega⟩)
    src mic (srcTraj := some (tensor3 src)) (micTraj := some (tensor3 mic)) (.inl rfl) (.inl rfl)
    [T, a.numSources, M, K] (by simp)
  rw [← pointsTensor_rows hS] at hrun
  refine ⟨scriptRun conv w script g a k (.ok (Spec.rows x, fs, List.ofFn who)), x, who, src, mic, ⟨0, by omega⟩, md, ref, ?_,
    hx, rfl, rfl, href, finished_of hrun ?_ hfiles, hdesc, hang⟩
  · unfold wholeScript
    rw [hload]
    rfl
  · unfold scriptMetadata
    rw [ha, List.length_ofFn, pointsTensor_rows hS, pointsTensor_rows hM, pointsTensor_rows hS]
    dsimp only [Option.map]
    rw [trajTensor_steps (by omega) hS, trajTensor_steps (by omega) hM]
    exact hmd

/-! ## Directories that are used again -/

theorem lookup_of_nodup {α β : Type} [DecidableEq α] {l : List (α × β)} {x : α} {y : β} (h : (l.map Prod.fst).Nodup)
    (hm : (x, y) ∈ l) : l.lookup x = some y := by
  induction l with
  | nil => cases hm
  | cons p l ih =>
    rw [List.map_cons, List.nodup_cons] at h
    rcases List.mem_cons.mp hm with e | hx
    · rw [← e]
      simp
    · have hne : x ≠ p.1 := fun e => h.1 (by rw [← e]; exact List.mem_map_of_mem (f := Prod.fst) hx)
      obtain ⟨p1, p2⟩ := p
      rw [List.lookup_cons, beq_false_of_ne hne]
      exact ih h.2 hx

theorem lookup_absent {α β : Type} [DecidableEq α] {l : List (α × β)} {x : α} (h : x ∉ l.map Prod.fst) :
    l.lookup x = none := by
  induction l with
  | nil => rfl
  | cons p l ih =>
    rw [List.map_cons, List.mem_cons, not_or] at h
    obtain ⟨p1, p2⟩ := p
    rw [List.lookup_cons, beq_false_of_ne h.1]
    exact ih h.2

/-- **C101, directories.** A run leaves in its directory exactly what it wrote under the names of its files, and every
file with another name as it was. -/
theorem C101_directory {ι : Type} (dir : String → Option (OutFile ι)) (conv : Flt → ℤ) (w : World) (script : Script)
    (g : Gen) (a : ScriptArgs) (k : ℕ) (loaded : Except String (List (List ℝ) × ℕ × List (String × List ι))) :
    let run := scriptRun conv w script g a k loaded
    (∀ name f, (name, f) ∈ run.files → overwritten dir run.files name = some f) ∧
    (∀ name, name ∉ run.files.map Prod.fst → overwritten dir run.files name = dir name) := by
  intro run
  obtain ⟨h1, -⟩ := C101_order conv w script g a k loaded
  have hn : (run.files.map Prod.fst).Nodup := (C101_names script a.numSources).sublist h1.sublist
  refine ⟨fun name f hf => ?_, fun name hname => ?_⟩
  · unfold overwritten
    rw [lookup_of_nodup (by rw [List.map_reverse]; exact List.nodup_reverse.mpr hn) (List.mem_reverse.mpr hf)]
  · unfold overwritten
    rw [lookup_absent (by rw [List.map_reverse, List.mem_reverse]; exact hname)]

/-- **C101 fails for directories that are used again.** A run with fewer sources than the one before, even if it finishes,
leaves the references of the other sources of the earlier run among its own. -/
theorem C101_leftovers_fails {ι : Type} (dir : String → Option (OutFile ι)) (conv conv' : Flt → ℤ) (w w' : World)
    (script : Script) (g g' : Gen) (a a' : ScriptArgs) (k k' : ℕ)
    (loaded loaded' : Except String (List (List ℝ) × ℕ × List (String × List ι)))
    (h : (scriptRun conv w script g a k loaded).result = .ok ()) (s : ℕ) (hs : s < a.numSources)
    (hs' : a'.numSources ≤ s) : ∃ f, (script.refName s, f) ∈ (scriptRun conv w script g a k loaded).files ∧
      overwritten (overwritten dir (scriptRun conv w script g a k loaded).files)
        (scriptRun conv' w' script g' a' k' loaded').files (script.refName s) = some f := by
  obtain ⟨-, h2, -⟩ := C101_order conv w script g a k loaded
  have hmem : script.refName s ∈ (scriptRun conv w script g a k loaded).files.map Prod.fst := by
    rw [h2.mp h]
    unfold scriptNames
    exact List.mem_cons_of_mem _ (List.mem_append_left _ (List.mem_map_of_mem (List.mem_range.mpr hs)))
  obtain ⟨⟨name, f⟩, hf, rfl⟩ := List.mem_map.mp hmem
  refine ⟨f, hf, ?_⟩
  rw [(C101_directory _ conv' w' script g' a' k' loaded').2 _ fun hm => ?_]
  · exact (C101_directory dir conv w script g a k loaded).1 _ _ hf
  · have hm := (C101_order conv' w' script g' a' k' loaded').1.subset hm
    unfold scriptNames at hm
    rcases List.mem_cons.mp hm with hm | hm
    · have h := congrArg String.toList hm
      rw [script_refName_chars] at h
      cases script <;> simp [Script.prefix] at h
    · rcases List.mem_append.mp hm with hm | hm
      · obtain ⟨t, ht, e⟩ := List.mem_map.mp hm
        have := ((C95_file_names script script t s).2.1.mp e).2
        have := List.mem_range.mp ht
        omega
      · simp only [List.mem_cons, List.not_mem_nil, or_false] at hm
        rcases hm with hm | hm
        · exact (C95_file_names script script s 0).2.2.1 hm
        · exact refName_ne_metadata script s hm

/-! ## Cases meeting the hypotheses -/

/-- Three speakers with a short and a long utterance. -/
def threeSpeakers : String → SpeakerData ℕ :=
  fun _ => ⟨[0, 1], fun u => .ok (List.replicate (3000 * u) 1, 16000)⟩

theorem threeSpeakers_load : ∃ fuel rows info, loadDatasetSources (fun l n => l.take n) (fun _ l => l.reverse)
    ["aew", "bdl", "slt"] threeSpeakers (3 : ℕ) 0.5 fuel = some (.ok (rows, 16000, info)) :=
  C53_succeeds _ samples_take _ (fun _ l => l.reverse_perm) _ _ 3 (by norm_num) (by simp) _ _ (by norm_num)
    fun s _ => ⟨fun u _ => ⟨_, rfl⟩, 1, by simp [threeSpeakers], _, rfl, fun h => by
      have := congrArg List.length h
      rw [List.length_replicate] at this
      cases this⟩

/-- `static.py` with three sources of half a second and five microphones: it finishes. -/
theorem three_static (conv : Flt → ℤ) (randn : ℤ → List ℕ → List ℝ) : ∃ fuel run,
    wholeScript conv (halvingWorld randn) .static cornerGen { room := List.ofFn ![6, 4], numSources := 3, numMics := 5 } 0
      (fun l n => l.take n) (fun _ l => l.reverse) ["aew", "bdl", "slt"] threeSpeakers 0.5 fuel = some run ∧
    run.result = .ok () := by
  obtain ⟨fuel, rows, info, hload⟩ := threeSpeakers_load
  obtain ⟨sc, hsc⟩ := corner_script .static 5 1 (by norm_num)
  obtain ⟨run, x, who, src, mic, md, ref, hrun, -, -, -, hf, -⟩ := C101_static (Or.inl rfl) (M := 5) (by norm_num)
    (by norm_num) conv (halvingWorld randn) cornerGen_fair ![6, 4] sides64
    { room := List.ofFn ![6, 4], numSources := 3, numMics := 5 } rfl (by norm_num) rfl 8 rfl _ samples_take _
    (fun _ l => l.reverse_perm) _ threeSpeakers 0.5 (by norm_num) fuel rows 16000 info hload (by norm_num) 6400 (by norm_num)
    (by rw [eq_comm, Int.ceil_eq_iff]; norm_num) () rfl _ (halving_acts randn 6400) 0 sc hsc
  exact ⟨fuel, run, hrun, hf.1⟩

/-- `dynamic_mic.py` likewise. -/
example (conv : Flt → ℤ) (randn : ℤ → List ℕ → List ℝ) : ∃ fuel run,
    wholeScript conv (halvingWorld randn) .dynamicMic cornerGen
      { room := List.ofFn ![6, 4], numSources := 3, numMics := 4 } 0
      (fun l n => l.take n) (fun _ l => l.reverse) ["aew", "bdl", "slt"] threeSpeakers 0.5 fuel = some run ∧
    run.result = .ok () := by
  obtain ⟨fuel, rows, info, hload⟩ := threeSpeakers_load
  obtain ⟨sc, hsc⟩ := corner_script .dynamicMic 4 1 (by norm_num)
  obtain ⟨step, hstep, -⟩ := C24_every_sample_has_one_step (T := 16) (N := ⌊(0.5 : ℝ) * (16000 : ℕ)⌋₊) (by norm_num)
    (.uniform none)
  obtain ⟨run, x, who, src, mic, first, md, ref, hrun, -, -, -, -, hf, -⟩ := C101_dynamic (T := 16) (Or.inl rfl) (M := 4)
    (by norm_num) (by norm_num) conv (halvingWorld randn) cornerGen_fair .dynamicMic (by simp) ![6, 4] sides64
    { room := List.ofFn ![6, 4], numSources := 3, numMics := 4 } rfl (by norm_num) rfl rfl 8 rfl _ samples_take _
    (fun _ l => l.reverse_perm) _ threeSpeakers 0.5 (by norm_num) fuel rows 16000 info hload (by norm_num) 6400 (by norm_num)
    (by rw [eq_comm, Int.ceil_eq_iff]; norm_num) () rfl _ (halving_acts randn 6400) 0 sc hsc step hstep
  exact ⟨fuel, run, hrun, hf.1⟩

/-- The third reference survives a later run for one source. -/
example (conv : Flt → ℤ) (randn : ℤ → List ℕ → List ℝ) (dir : String → Option (OutFile ℕ)) (g : Gen)
    (loaded' : Except String (List (List ℝ) × ℕ × List (String × List ℕ))) : ∃ loaded f,
    overwritten (overwritten dir (scriptRun conv (halvingWorld randn) .static cornerGen
        { room := List.ofFn ![6, 4], numSources := 3, numMics := 5 } 0 loaded).files)
      (scriptRun conv (halvingWorld randn) .static g { numSources := 1 } 0 loaded').files (Script.static.refName 2)
      = some f := by
  obtain ⟨fuel, run, hrun, hok⟩ := three_static conv randn
  unfold wholeScript at hrun
  obtain ⟨loaded, -, rfl⟩ := Option.map_eq_some_iff.mp hrun
  obtain ⟨f, -, hf⟩ := C101_leftovers_fails dir conv conv _ (halvingWorld randn) .static _ g _ { numSources := 1 } 0 0 loaded
    loaded' hok 2 (by norm_num) (by norm_num)
  exact ⟨loaded, f, hf⟩

end Torchrir.Props
