import Verif.Lemmas.Download
import Verif.Props.Archive

/-! # Downloads: C49 and C51 -/

namespace Torchrir.Props

open Torchrir.Model

/-- A response with an announced length: the server announces the length of the body, and what arrives,
in whatever chunks and however it ends, is the beginning of the body. -/
structure Announced (r : Response) : Prop where
  length : r.length = some r.full.length
  arrives : sentData r.reads <+: r.full

/-- Every response of the network announces its length and has a body in `S`. -/
def Serves (S : Bytes → Prop) (net : Network) : Prop := ∀ k r, net k = .ok r → Announced r ∧ S r.full

/-- At the path there is nothing, or a file with one of the bodies of `S`. -/
def CompleteFile (S : Bytes → Prop) (p : DiskPath) (d : Disk) : Prop :=
  d p = none ∨ ∃ b, S b ∧ d p = some (.file b)

theorem plain_final {base : DiskPath} {name : String} (hb : Plain (base ++ [name])) :
    resolve (base ++ [name]) = base ++ [name] := resolve_plain hb

theorem plain_part {base : DiskPath} {name : String} (hb : Plain (base ++ [name])) :
    resolve (partPath base name) = partPath base name := by
  refine resolve_plain ?_
  unfold partPath
  refine Plain.append (Plain.of_prefix (List.prefix_append _ _) hb) ?_
  intro s hs
  rw [List.mem_singleton.mp hs]
  constructor <;> intro h <;> have := congrArg String.length h <;> rw [String.length_append] at this <;>
    · have h5 : ".part".length = 5 := by decide
      have h1 : ".".length = 1 := by decide
      have h2 : "..".length = 2 := by decide
      omega

theorem complete_download {S : Bytes → Prop} {net : Network} (hnet : Serves S net) {base : DiskPath}
    {name : String} (hplain : Plain (base ++ [name])) :
    Keeps (fun m => CompleteFile S (base ++ [name]) m.disk) (download net base name) := by
  have hne : base ++ [name] ≠ partPath base name := fun h => partPath_ne base name h.symm
  refine triple_downloadLoop (triple_streamDownload (fun m hm => hm) ?_ ?_ ?_) ?_ 1
  · intro m hm
    unfold CompleteFile
    dsimp only
    rw [plain_part hplain, put_ne _ _ hne]
    exact hm
  · intro m c hm _
    unfold CompleteFile
    dsimp only
    rw [plain_part hplain, put_ne _ _ hne]
    exact hm
  · intro k r body m hk hpre hlen _ _
    obtain ⟨ha, hS⟩ := hnet k r hk
    refine Or.inr ⟨r.full, hS, ?_⟩
    dsimp only
    rw [plain_part hplain, put_ne _ _ hne, plain_final hplain, put_self]
    have hp := hpre.trans ha.arrives
    rw [ha.length, Option.getD_some] at hlen
    have : body = r.full := by
      refine hp.eq_of_length ?_
      by_cases h0 : 0 < r.full.length
      · exact hlen h0
      · have := hp.length_le
        omega
    rw [this]
  · intro m _
    refine Or.inl ?_
    dsimp only
    rw [plain_final hplain, put_self]

/-- **C49 (one download).** Whatever the server does (any chunking, early end, exceptions while
connecting or reading) and at every moment of the download, including the retry: the file under the
final name is absent or holds a complete announced body. -/
theorem C49_download (S : Bytes → Prop) (net : Network) (hnet : Serves S net) (base : DiskPath)
    (name : String) (hplain : Plain (base ++ [name])) (m : Machine)
    (hm : CompleteFile S (base ++ [name]) m.disk) (d : Disk) (hd : Seen (download net base name m) d) :
    CompleteFile S (base ++ [name]) d :=
  Triple.seen (complete_download hnet hplain) hm (fun _ h => h) hd

/-- A network whose first response ends early and whose second one is complete. -/
def flakyNet : Network := fun k =>
  if k = 0 then .ok ⟨[1, 2, 3], some 3, [.ok [1], .ok []]⟩
  else .ok ⟨[1, 2, 3], some 3, [.ok [1], .ok [2, 3]]⟩

theorem flakyNet_serves : Serves (fun b => b = [1, 2, 3]) flakyNet := by
  intro k r h
  unfold flakyNet at h
  split_ifs at h <;> cases h <;> exact ⟨⟨rfl, by decide⟩, rfl⟩

-- the second attempt repairs the first one
example : (download flakyNet ["data"] "a.tar" ⟨dataDisk, 0⟩).result = .ok () ∧
    (download flakyNet ["data"] "a.tar" ⟨dataDisk, 0⟩).last.disk ["data", "a.tar"] =
      some (.file [1, 2, 3]) ∧
    (download flakyNet ["data"] "a.tar" ⟨dataDisk, 0⟩).last.requests = 2 := by
  refine ⟨by rfl, by decide, by rfl⟩

-- and at no moment is there an incomplete file under the final name
example (d : Disk) (hd : Seen (download flakyNet ["data"] "a.tar" ⟨dataDisk, 0⟩) d) :
    CompleteFile (fun b => b = [1, 2, 3]) ["data", "a.tar"] d :=
  C49_download _ _ flakyNet_serves ["data"] "a.tar" (by unfold Plain; decide) _ (Or.inl (by decide)) d hd

theorem complete_openAndExtract {S : Bytes → Prop} {untar : Bytes → Except Exc (List Member)}
    {L : Layout} (hplain : Plain (L.base ++ [L.name]))
    (hmem : ∀ b ms, S b → untar b = .ok ms → ∀ x ∈ ms, ∀ c, x.kind = .regular c →
      resolve (joined L.base x) ≠ L.base ++ [L.name]) :
    Keeps (fun m => CompleteFile S (L.base ++ [L.name]) m.disk) (openAndExtract untar L) := by
  unfold openAndExtract readFile
  refine Triple.bind (R := fun body m => S body ∧ m.disk (L.base ++ [L.name]) = some (.file body))
    (Triple.look ?_ fun m e hm _ => hm) fun body => ?_
  · intro m a hm ha
    unfold nodeAt at ha
    cases hl : lookup m.disk [] (L.base ++ [L.name]) with
    | none =>
      rw [hl] at ha
      cases ha
    | some p =>
      obtain rfl := lookup_resolve hl
      rw [hl, Option.bind_some, plain_final hplain] at ha
      rcases hm with hm | ⟨b, hb, hm⟩
      · rw [hm] at ha
        cases ha
      · rw [hm] at ha
        cases ha
        exact ⟨hb, hm⟩
  · refine Triple.bind (R := fun ms m => (S body ∧ untar body = .ok ms) ∧
      m.disk (L.base ++ [L.name]) = some (.file body))
      (Triple.look (fun m ms hm h => ⟨⟨hm.1, h⟩, hm.2⟩) fun m e hm _ => Or.inr ⟨body, hm.1, hm.2⟩)
      fun ms => ?_
    by_cases hS : S body ∧ untar body = .ok ms
    swap
    · intro m hm
      exact absurd hm.1 hS
    have hk : Keeps (fun m => m.disk (L.base ++ [L.name]) = some (.file body))
        (safeExtractAll L.base ms) := by
      refine triple_safeExtractAll ?_ ?_
      · intro x hx _ _ c hc m c' hm _
        dsimp only
        rw [put_ne _ _ fun e => hmem body ms hS.1 hS.2 x hx c hc e.symm]
        exact hm
      · intro x _ _ pre _ _ m hm hnone
        dsimp only
        by_cases he : L.base ++ [L.name] = resolve pre
        · rw [← he, hm] at hnone
          cases hnone
        · rw [put_ne _ _ he]
          exact hm
    exact hk.mono (fun m hm => Or.inr ⟨body, hS.1, hm⟩) (fun m hm => hm.2)
      (fun _ m hm => Or.inr ⟨body, hS.1, hm⟩) fun _ m hm => Or.inr ⟨body, hS.1, hm⟩

theorem complete_construct {S : Bytes → Prop} {untar : Bytes → Except Exc (List Member)} {net : Network}
    (hnet : Serves S net) {L : Layout} (hplain : Plain (L.base ++ [L.name]))
    (hmem : ∀ b ms, S b → untar b = .ok ms → ∀ x ∈ ms, ∀ c, x.kind = .regular c →
      resolve (joined L.base x) ≠ L.base ++ [L.name]) :
    Keeps (fun m => CompleteFile S (L.base ++ [L.name]) m.disk) (constructDataset untar net L) := by
  have hrm : Keeps (fun m => CompleteFile S (L.base ++ [L.name]) m.disk) (unlink (L.base ++ [L.name])) :=
    triple_unlink fun m _ => Or.inl (by
      dsimp only
      rw [plain_final hplain, put_self])
  have hx := complete_openAndExtract (L := L) hplain hmem
  unfold constructDataset downloadAndExtract extractOrRepair
  refine Keeps.bind (Keeps.bind (triple_makedirs _ ?_) fun _ => Keeps.bind
    (Keeps.whenState (complete_download hnet hplain)) fun _ => Keeps.whenState
      (Triple.catchWith hx fun e => ?_)) fun _ => Triple.look (fun m _ hm _ => hm) fun m _ hm _ => hm
  · intro pre hpre m hm _
    rw [List.reverse_reverse] at hpre
    have hp : resolve pre = pre := resolve_plain
      (Plain.of_prefix (hpre.trans (List.prefix_append _ _)) hplain)
    unfold CompleteFile
    dsimp only
    have : L.base ++ [L.name] ≠ pre := by
      intro e
      have := hpre.length_le
      rw [← e, List.length_append, List.length_singleton] at this
      omega
    rw [hp, put_ne _ _ this]
    exact hm
  · split_ifs
    · exact Keeps.bind (Keeps.whenState hrm) fun _ =>
        Keeps.bind (complete_download hnet hplain) fun _ => hx
    · exact Triple.throw fun m hm => hm

/-- The disks that any sequence of constructions with `download=True` can leave behind, each of them
running to its end or killed at any moment, with a different network each time. -/
inductive Restarted (untar : Bytes → Except Exc (List Member)) (L : Layout) (good : Network → Prop)
    (d0 : Disk) : Disk → Prop
  | start : Restarted untar L good d0 d0
  | again (d d' : Disk) (net : Network) (n : ℕ) : Restarted untar L good d0 d → good net →
      Seen (constructDataset untar net L ⟨d, n⟩) d' → Restarted untar L good d0 d'

/-- **C49 (restarts).** After any number of constructions of the dataset, each finished, failed or
killed at any moment, the file under the final archive name is absent or holds a complete announced
body. Assumed: the archives contain no file with the name of the archive itself (extraction goes into
the directory of the archive). -/
theorem C49_restarts (S : Bytes → Prop) (untar : Bytes → Except Exc (List Member)) (L : Layout)
    (hplain : Plain (L.base ++ [L.name]))
    (hmem : ∀ b ms, S b → untar b = .ok ms → ∀ x ∈ ms, ∀ c, x.kind = .regular c →
      resolve (joined L.base x) ≠ L.base ++ [L.name]) (d0 : Disk)
    (h0 : CompleteFile S (L.base ++ [L.name]) d0) (d : Disk) (hd : Restarted untar L (Serves S) d0 d) :
    CompleteFile S (L.base ++ [L.name]) d := by
  induction hd with
  | start => exact h0
  | again d d' net n _ hnet hs ih =>
    exact Triple.seen (complete_construct hnet hplain hmem) ih (fun _ h => h) hs

-- both datasets: the layouts meet the hypotheses
example (root : DiskPath) (h : Plain root) :
    Plain ((cmuLayout root "bdl").base ++ [(cmuLayout root "bdl").name]) := by
  unfold cmuLayout
  exact (h.append (by unfold Plain; decide)).append (by unfold Plain; dsimp only; decide)

example (S : Bytes → Prop) (d : Disk)
    (hd : Restarted (fun _ => .ok [⟨false, ["LibriSpeech", "dev-clean", "a.flac"], .regular [9]⟩])
      (libriLayout ["data"] "dev-clean") (Serves S) dataDisk d) :
    CompleteFile S ["data", "dev-clean.tar.gz"] d :=
  C49_restarts S _ (libriLayout ["data"] "dev-clean") (by unfold Plain; decide)
    (by
      intro b ms _ h x hx c _
      cases h
      rw [List.mem_singleton.mp hx]
      decide)
    dataDisk (Or.inl (by decide)) d hd

/-- What the announcement is needed for: if the server announces no length, a body that ends early is
accepted as complete. -/
theorem C49_unannounced_truncation :
    ∃ (r : Response), r.length = none ∧ sentData r.reads <+: r.full ∧
      (download (fun _ => .ok r) ["data"] "a.tar" ⟨dataDisk, 0⟩).result = .ok () ∧
      (download (fun _ => .ok r) ["data"] "a.tar" ⟨dataDisk, 0⟩).last.disk ["data", "a.tar"] ≠
        some (.file r.full) :=
  ⟨⟨[1, 2, 3], none, [.ok [1]]⟩, rfl, by decide, by rfl, by decide⟩

/-! ## C51 -/

/-- The number of requests grows from `a` by at most `n`. -/
def Sends {α : Type} (p : Prog α) (n : ℕ) : Prop := ∀ m, (p m).last.requests ≤ m.requests + n

theorem Sends.bind {α β : Type} {p : Prog α} {f : α → Prog β} {a b : ℕ} (h : Sends p a)
    (h' : ∀ x, Sends (f x) b) : Sends (Prog.bind p f) (a + b) := by
  intro m
  unfold Prog.bind
  have h1 := h m
  cases (p m).result with
  | error e => dsimp only; omega
  | ok x =>
    have := h' x (p m).last
    dsimp only
    omega

theorem Sends.catchWith {α : Type} {p : Prog α} {f : Exc → Prog α} {a b : ℕ} (h : Sends p a)
    (h' : ∀ x, Sends (f x) b) : Sends (Prog.catchWith p f) (a + b) := by
  intro m
  unfold Prog.catchWith
  have h1 := h m
  cases (p m).result with
  | ok e => dsimp only; omega
  | error x =>
    have := h' x (p m).last
    dsimp only
    omega

theorem Sends.whenState {c : Machine → Bool} {p : Prog Unit} {n : ℕ} (h : Sends p n) :
    Sends (Prog.whenState c p) n := by
  intro m
  unfold Prog.whenState
  split_ifs
  · exact h m
  · exact Nat.le_add_right _ _

/-- A program that keeps the counter below any bound sends nothing. -/
theorem Keeps.sends {α : Type} {p : Prog α} (h : ∀ n, Keeps (fun m => m.requests ≤ n) p) : Sends p 0 := by
  intro m
  obtain ⟨-, h2, h3⟩ := h m.requests m le_rfl
  cases hr : (p m).result with
  | ok a => exact h2 a hr
  | error e => exact h3 e hr

theorem sends_look {α : Type} (f : Machine → Except Exc α) : Sends (Prog.look f) 0 := fun _ => le_rfl

theorem sends_unlink (segs : List String) : Sends (unlink segs) 0 :=
  Keeps.sends fun _ => triple_unlink fun _ h => h

theorem sends_stream (net : Network) (base : DiskPath) (name : String) :
    Sends (streamDownload net base name) 1 := by
  unfold streamDownload
  refine Sends.bind (a := 0) (b := 1) (Sends.whenState (sends_unlink _)) fun _ => ?_
  refine Sends.bind (a := 1) (b := 0) (fun m => le_rfl) fun r => ?_
  refine Sends.bind (a := 0) (b := 0) (Keeps.sends fun n => ?_) fun p => ?_
  · refine (triple_openWrite (I := fun m => m.requests ≤ n) fun m c h _ => h).mono (fun _ h => h)
      (fun _ h => h) (fun _ _ h => h.2.1) fun _ _ h => h
  refine Sends.bind (a := 0) (b := 0) ?_ fun body => ?_
  · generalize r.reads = reads
    generalize ([] : Bytes) = old
    induction reads generalizing old with
    | nil => exact fun m => le_rfl
    | cons x rest ih =>
      cases x with
      | error e => exact fun m => le_rfl
      | ok c =>
        cases c with
        | nil => exact fun m => le_rfl
        | cons b c =>
          refine Sends.bind (a := 0) (b := 0) ?_ fun _ => ih _
          generalize b :: c = l
          generalize old = old'
          induction l generalizing old' with
          | nil => exact fun m => le_rfl
          | cons y l ih' => exact Sends.bind (a := 0) (b := 0) (fun m => le_rfl) fun _ => ih' _
  · refine Sends.bind (a := 0) (b := 0) ?_ fun _ => Keeps.sends fun n => ?_
    · unfold checkLength
      split_ifs <;> exact fun m => le_rfl
    · exact triple_replaceFile (P := fun m => m.requests ≤ n) (fun _ h => h) fun m c h _ _ => h

theorem sends_loop (net : Network) (base : DiskPath) (name : String) :
    ∀ k, Sends (downloadLoop net base name k) (k + 1)
  | 0 => by
    refine Sends.catchWith (a := 1) (b := 0) (sends_stream net base name) fun e => ?_
    exact Sends.bind (a := 0) (b := 0) (Sends.whenState (sends_unlink _)) fun _ m => le_rfl
  | k + 1 => by
    have h : Sends (downloadLoop net base name (k + 1)) (1 + (0 + (k + 1))) :=
      Sends.catchWith (sends_stream net base name) fun e =>
        Sends.bind (Sends.whenState (sends_unlink _)) fun _ => sends_loop net base name k
    intro m
    have := h m
    omega

/-- **C51 (requests per download).** `_download(url, dest, retries)` sends at most `retries + 1`
requests; with the default `retries=1` at most two. -/
theorem C51_requests_per_download (net : Network) (base : DiskPath) (name : String) (m : Machine) :
    (∀ retries, (downloadLoop net base name retries m).last.requests ≤ m.requests + (retries + 1)) ∧
      (download net base name m).last.requests ≤ m.requests + 2 :=
  ⟨fun k => sends_loop net base name k m, sends_loop net base name 1 m⟩

theorem sends_extract (untar : Bytes → Except Exc (List Member)) (L : Layout) :
    Sends (openAndExtract untar L) 0 :=
  Sends.bind (a := 0) (b := 0) (sends_look _) fun _ =>
    Sends.bind (a := 0) (b := 0) (sends_look _) fun _ => Keeps.sends fun _ =>
      triple_safeExtractAll (fun _ _ _ _ _ _ _ _ h _ => h) fun _ _ _ _ _ _ _ h _ => h

/-- **C51 (requests per construction).** Constructing a dataset sends at most four requests, whatever
the network and the disk. -/
theorem C51_requests_per_construction (untar : Bytes → Except Exc (List Member)) (net : Network)
    (L : Layout) (m : Machine) : (constructDataset untar net L m).last.requests ≤ m.requests + 4 := by
  have hd : Sends (download net L.base L.name) 2 := sends_loop net L.base L.name 1
  have hx := sends_extract untar L
  refine Sends.bind (a := 4) (b := 0) ?_ (fun _ => sends_look _) m
  unfold downloadAndExtract extractOrRepair
  refine Sends.bind (a := 0) (b := 4) (Keeps.sends fun _ => triple_makedirs _ fun _ _ _ h _ => h)
    fun _ => ?_
  refine Sends.bind (a := 2) (b := 2) (Sends.whenState hd) fun _ => Sends.whenState ?_
  refine Sends.catchWith (a := 0) (b := 2) hx fun e => ?_
  split_ifs
  · refine Sends.bind (a := 0) (b := 2) (Sends.whenState (sends_unlink _)) fun _ => ?_
    exact Sends.bind (a := 2) (b := 0) hd fun _ => hx
  · exact fun m => Nat.le_add_right _ _

-- four requests do occur: an archive that cannot be read, and every first attempt refused
example : (constructDataset (fun _ => .error (.read "not a bz2 file"))
    (fun k => if k % 2 = 0 then .error (.os "refused") else .ok ⟨[1], some 1, [.ok [1]]⟩)
    (cmuLayout ["data"] "bdl") ⟨dataDisk, 0⟩).last.requests = 4 := by rfl

/-- Deleting a file that may or may not be there. -/
theorem unlinkIf (segs : List String) (m : Machine) (h : nodeAt m.disk segs ≠ some .dir) :
    (Prog.whenState (pathExists segs) (unlink segs) m).result = .ok () ∧
    (Prog.whenState (pathExists segs) (unlink segs) m).last.requests = m.requests ∧
    pathExists segs (Prog.whenState (pathExists segs) (unlink segs) m).last = false ∧
    ∀ q ≠ resolve segs, (Prog.whenState (pathExists segs) (unlink segs) m).last.disk q = m.disk q := by
  unfold Prog.whenState
  by_cases hex : pathExists segs m = true
  swap
  · rw [if_neg hex]
    exact ⟨rfl, rfl, by simpa using hex, fun _ _ => rfl⟩
  rw [if_pos hex]
  unfold unlink
  unfold pathExists at hex
  cases hl : lookup m.disk [] segs with
  | none =>
    unfold nodeAt at hex
    rw [hl] at hex
    cases hex
  | some p =>
    obtain rfl := lookup_resolve hl
    unfold nodeAt at hex h
    rw [hl, Option.bind_some] at hex h
    dsimp only
    cases hp : m.disk (resolve segs) with
    | none =>
      rw [hp] at hex
      cases hex
    | some n =>
      cases n with
      | dir => exact absurd hp h
      | file c =>
        refine ⟨rfl, rfl, ?_, fun q hq => put_ne _ _ hq⟩
        unfold pathExists nodeAt
        show (((lookup (m.disk.put (resolve segs) none) [] segs).bind
          (m.disk.put (resolve segs) none)).isSome) = false
        cases hl' : lookup (m.disk.put (resolve segs) none) [] segs with
        | none => rfl
        | some p' =>
          obtain rfl := lookup_resolve hl'
          rw [Option.bind_some, put_self]
          rfl

theorem stream_not_dir {net : Network} {base : DiskPath} {name : String}
    (hplain : Plain (base ++ [name])) (m : Machine) (h : m.disk (base ++ [name]) ≠ some .dir) :
    (streamDownload net base name m).last.disk (base ++ [name]) ≠ some .dir := by
  have hne : base ++ [name] ≠ partPath base name := fun h => partPath_ne base name h.symm
  refine Triple.seen (I := fun m => m.disk (base ++ [name]) ≠ some .dir)
    (J := fun d => d (base ++ [name]) ≠ some .dir)
    (triple_streamDownload (net := net) (fun m hm => hm) ?_ ?_ ?_) h (fun _ h => h) (Or.inr rfl)
  · intro m hm
    dsimp only
    rw [plain_part hplain, put_ne _ _ hne]
    exact hm
  · intro m c hm _
    dsimp only
    rw [plain_part hplain, put_ne _ _ hne]
    exact hm
  · intro k r body m _ _ _ _ _
    dsimp only
    rw [plain_part hplain, put_ne _ _ hne, plain_final hplain, put_self]
    exact fun h => (nomatch h)

theorem nodeAt_not_dir {d : Disk} {p : DiskPath} (hp : Plain p) (h : d p ≠ some .dir) :
    nodeAt d p ≠ some .dir := by
  unfold nodeAt
  cases hl : lookup d [] p with
  | none => exact fun h => (nomatch h)
  | some q =>
    obtain rfl := lookup_resolve hl
    rw [Option.bind_some, resolve_plain hp]
    exact h

/-- **C51 (outcome).** A download has the outcome of its first attempt if that succeeds. Otherwise it
deletes what is under the final name and has exactly the outcome, exception included, of a second
attempt. (`m'` is the state between the two attempts.) -/
theorem C51_outcome (net : Network) (base : DiskPath) (name : String)
    (hplain : Plain (base ++ [name])) (m : Machine) (h : m.disk (base ++ [name]) ≠ some .dir) :
    ((streamDownload net base name m).result = .ok () ∧ (download net base name m).result = .ok ()) ∨
    ∃ e m', (streamDownload net base name m).result = .error e ∧
      m'.requests = (streamDownload net base name m).last.requests ∧
      pathExists (base ++ [name]) m' = false ∧
      (∀ q ≠ base ++ [name], m'.disk q = (streamDownload net base name m).last.disk q) ∧
      (download net base name m).result = (streamDownload net base name m').result := by
  have hnd := stream_not_dir (net := net) hplain m h
  show ((streamDownload net base name m).result = .ok () ∧
    (downloadLoop net base name 1 m).result = .ok ()) ∨ _
  cases hr : (streamDownload net base name m).result with
  | ok u =>
    refine Or.inl ⟨rfl, ?_⟩
    unfold downloadLoop Prog.catchWith
    rw [hr]
  | error e =>
    refine Or.inr ?_
    obtain ⟨h1, h2, h3, h4⟩ := unlinkIf (base ++ [name]) (streamDownload net base name m).last
      (nodeAt_not_dir hplain hnd)
    set m' := (Prog.whenState (pathExists (base ++ [name])) (unlink (base ++ [name]))
      (streamDownload net base name m).last).last with hm'
    refine ⟨e, m', rfl, h2, h3, ?_, ?_⟩
    · rw [plain_final hplain] at h4
      exact h4
    · have hstep : (download net base name m).result = (downloadLoop net base name 0 m').result := by
        unfold download downloadLoop Prog.catchWith
        rw [hr]
        dsimp only
        unfold Prog.bind
        rw [h1]
        rfl
      rw [hstep]
      have hnd' : m'.disk (base ++ [name]) ≠ some .dir := by
        have hk := triple_unlink (I := fun m => m.disk (base ++ [name]) ≠ some .dir)
          (segs := base ++ [name]) (fun m _ => by
            dsimp only
            rw [plain_final hplain, put_self]
            exact fun h => (nomatch h))
        exact ((Keeps.whenState (c := pathExists (base ++ [name])) hk) _ hnd).2.1 () h1
      have hnd2 := stream_not_dir (net := net) hplain m' hnd'
      obtain ⟨k1, -, -, -⟩ := unlinkIf (base ++ [name]) (streamDownload net base name m').last
        (nodeAt_not_dir hplain hnd2)
      unfold downloadLoop Prog.catchWith
      cases hr' : (streamDownload net base name m').result with
      | ok u => rfl
      | error e' =>
        dsimp only
        unfold Prog.bind
        rw [k1]
        rfl

/-- **C51 (clean-up).** After a failed download there is nothing under the final name. -/
theorem C51_no_file_after_failure (net : Network) (base : DiskPath) (name : String)
    (hplain : Plain (base ++ [name])) (m : Machine) (h : m.disk (base ++ [name]) ≠ some .dir) (e : Exc)
    (he : (download net base name m).result = .error e) :
    pathExists (base ++ [name]) (download net base name m).last = false := by
  have base0 : ∀ m : Machine, m.disk (base ++ [name]) ≠ some .dir → ∀ e,
      (downloadLoop net base name 0 m).result = .error e →
      pathExists (base ++ [name]) (downloadLoop net base name 0 m).last = false := by
    intro m h e he
    have hnd := stream_not_dir (net := net) hplain m h
    obtain ⟨k1, -, k3, -⟩ := unlinkIf (base ++ [name]) (streamDownload net base name m).last
      (nodeAt_not_dir hplain hnd)
    unfold downloadLoop Prog.catchWith at he ⊢
    cases hr : (streamDownload net base name m).result with
    | ok u =>
      rw [hr] at he
      cases he
    | error e' =>
      dsimp only
      unfold Prog.bind
      rw [k1]
      exact k3
  have hnd := stream_not_dir (net := net) hplain m h
  obtain ⟨k1, -, k3, -⟩ := unlinkIf (base ++ [name]) (streamDownload net base name m).last
    (nodeAt_not_dir hplain hnd)
  unfold download downloadLoop Prog.catchWith at he ⊢
  cases hr : (streamDownload net base name m).result with
  | ok u =>
    rw [hr] at he
    cases he
  | error e' =>
    rw [hr] at he
    dsimp only at he ⊢
    unfold Prog.bind at he ⊢
    rw [k1] at he ⊢
    dsimp only at he ⊢
    refine base0 _ ?_ e he
    have hk := triple_unlink (I := fun m => m.disk (base ++ [name]) ≠ some .dir)
      (segs := base ++ [name]) (fun m _ => by
        dsimp only
        rw [plain_final hplain, put_self]
        exact fun h => (nomatch h))
    exact ((Keeps.whenState (c := pathExists (base ++ [name])) hk) _ hnd).2.1 () k1

-- a server that refuses every request: two requests, the second exception, no file
example : (download (fun k => .error (.os (if k = 0 then "first" else "second"))) ["data"] "a.tar"
      ⟨dataDisk, 0⟩).result = .error (.os "second") ∧
    (download (fun k => .error (.os (if k = 0 then "first" else "second"))) ["data"] "a.tar"
      ⟨dataDisk, 0⟩).last.requests = 2 := ⟨by rfl, by rfl⟩

end Torchrir.Props
