import Verif.Spec.Neighbours
import Verif.Props.Reuse

/-! # C91: datasets that share a directory -/

namespace Torchrir.Props

open Torchrir.Model
open Torchrir.Spec

/-- A path that is neither the archive nor its temporary name, not on the way to them, and not on the way to a member
of any archive, keeps what it has. -/
theorem keeps_elsewhere {untar : Bytes → Except Exc (List Member)} {net : Network} {L : Layout}
    (hplain : Plain (L.base ++ [L.name])) {q : DiskPath} (v : Option Node) (h1 : q ≠ L.base ++ [L.name])
    (h2 : q ≠ partPath L.base L.name) (h3 : ¬ q <+: L.base)
    (h4 : ∀ b ms, untar b = .ok ms → ∀ x ∈ ms, x.absolute = false ∧ Plain x.segments ∧ ¬ q <+: L.base ++ x.segments) :
    Keeps (fun m => m.disk q = v) (constructDataset untar net L) := by
  have hput : ∀ (m : Machine) (p : DiskPath) (n : Option Node), q ≠ p → m.disk q = v →
      (m.disk.put p n) q = v := fun m p n h hm => by rw [put_ne _ _ h]; exact hm
  have hrm : Keeps (fun m => m.disk q = v) (unlink (L.base ++ [L.name])) :=
    triple_unlink fun m hm => hput m _ _ (by rw [plain_final hplain]; exact h1) hm
  have hdl : Keeps (fun m => m.disk q = v) (download net L.base L.name) := by
    refine triple_downloadLoop (triple_streamDownload (fun m hm => hm) ?_ ?_ ?_) ?_ 1
    · exact fun m hm => hput m _ _ (by rw [plain_part hplain]; exact h2) hm
    · exact fun m c hm _ => hput m _ _ (by rw [plain_part hplain]; exact h2) hm
    · intro k r body m _ _ _ hm _
      dsimp only
      rw [plain_part hplain, put_ne _ _ h2]
      exact hput m _ _ (by rw [plain_final hplain]; exact h1) hm
    · exact fun m hm => hput m _ _ (by rw [plain_final hplain]; exact h1) hm
  have hbase : Plain L.base := Plain.of_prefix (List.prefix_append _ _) hplain
  have hx : Keeps (fun m => m.disk q = v) (openAndExtract untar L) := by
    unfold openAndExtract readFile
    refine Triple.bind (R := fun _ m => m.disk q = v) (Triple.look (fun m _ hm _ => hm) fun m _ hm _ => hm)
      fun body => ?_
    refine Triple.bind (R := fun ms m => untar body = .ok ms ∧ m.disk q = v)
      (Triple.look (fun m ms hm h => ⟨h, hm⟩) fun m e hm _ => hm) fun ms => ?_
    by_cases hu : untar body = .ok ms
    swap
    · intro m hm
      exact absurd hm.1 hu
    have hpre : ∀ x ∈ ms, ∀ pre, pre <+: joined L.base x → q ≠ resolve pre := by
      intro x hx pre hp e
      obtain ⟨ha, hpl, hn⟩ := h4 body ms hu x hx
      rw [joined, ha] at hp
      have hp : pre <+: L.base ++ x.segments := hp
      rw [resolve_plain (Plain.of_prefix hp (hbase.append hpl))] at e
      exact hn (e ▸ hp)
    have hk : Keeps (fun m => m.disk q = v) (safeExtractAll L.base ms) := by
      refine triple_safeExtractAll ?_ ?_
      · intro x hx _ _ c hc m c' hm _
        exact hput m _ _ (hpre x hx _ List.prefix_rfl) hm
      · intro x hx _ pre hp _ m hm hnone
        exact hput m _ _ (hpre x hx pre hp) hm
    exact hk.pre fun m hm => hm.2
  unfold constructDataset downloadAndExtract extractOrRepair
  refine Keeps.bind (Keeps.bind (triple_makedirs _ ?_) fun _ => Keeps.bind
    (Keeps.whenState hdl) fun _ => Keeps.whenState
      (Triple.catchWith hx fun e => ?_)) fun _ => Triple.look (fun m _ hm _ => hm) fun m _ hm _ => hm
  · intro pre hpre m hm _
    rw [List.reverse_reverse] at hpre
    refine hput m _ _ (fun e => ?_) hm
    rw [resolve_plain (Plain.of_prefix hpre hbase)] at e
    exact h3 (e ▸ hpre)
  · split_ifs
    · exact Keeps.bind (Keeps.whenState hrm) fun _ => Keeps.bind hdl fun _ => hx
    · exact Triple.throw fun m hm => hm

/-- No name of the first kind is one of the second. -/
theorem suffix_ne (a b s t : String) (h : ¬ s.toList <:+ t.toList) (h' : ¬ t.toList <:+ s.toList) : a ++ s ≠ b ++ t := by
  intro e
  have e := congrArg String.toList e
  rw [String.toList_append, String.toList_append] at e
  rcases List.suffix_or_suffix_of_suffix (List.suffix_append a.toList s.toList)
    (e ▸ List.suffix_append b.toList t.toList) with h1 | h1
  · exact h h1
  · exact h' h1

theorem append_right_ne {a b : String} (s : String) (h : a ≠ b) : a ++ s ≠ b ++ s := fun e =>
  h (String.toList_injective (List.append_cancel_right (by
    have := congrArg String.toList e
    rwa [String.toList_append, String.toList_append] at this)))

theorem append_left_ne {a b : String} (s : String) (h : a ≠ b) : s ++ a ≠ s ++ b := fun e =>
  h (String.toList_injective (List.append_cancel_left (by
    have := congrArg String.toList e
    rwa [String.toList_append, String.toList_append] at this)))

/-- Where constructing a dataset can create or write something, below the directory. -/
def Touches : DatasetName → DatasetName → DiskPath → Prop
  | .cmuArctic s, _, p => p[0]? = some "ARCTIC" ∧ (p[1]? = none ∨ p[1]? = some ("cmu_us_" ++ s ++ "_arctic.tar.bz2") ∨
      p[1]? = some ("cmu_us_" ++ s ++ "_arctic.tar.bz2" ++ ".part") ∨ p[1]? = some ("cmu_us_" ++ s ++ "_arctic"))
  | .libriSpeech s, b, p => p[0]? = none ∨ p[0]? = some (s ++ ".tar.gz") ∨ p[0]? = some (s ++ ".tar.gz" ++ ".part") ∨
      p[0]? = some "LibriSpeech" ∧ ∀ t, b = .libriSpeech t → p[1]? ≠ some t

theorem prefix_get {l p : DiskPath} (h : l <+: p) {i : ℕ} {x : String} (hx : l[i]? = some x) : p[i]? = some x := by
  obtain ⟨r, rfl⟩ := h
  have hi : i < l.length := by
    by_contra hi
    rw [List.getElem?_eq_none (by omega)] at hx
    cases hx
  rw [List.getElem?_append_left hi]
  exact hx

theorem owned_not_touched {a b : DatasetName} (hab : a ≠ b) {l p : DiskPath} (hl : Owns [] b l) (hp : Touches a b p) :
    ¬ l <+: p := by
  intro h
  have tarNe : ∀ (s : String) (x : String), ¬ ".tar.gz".toList <:+ x.toList → ¬ x.toList <:+ ".tar.gz".toList →
      s ++ ".tar.gz" ≠ x := fun s x h1 h2 e =>
    suffix_ne s "" ".tar.gz" x h1 h2 (e.trans (String.empty_append).symm)
  have partNe : ∀ (s : String) (x : String), ¬ ".part".toList <:+ x.toList → ¬ x.toList <:+ ".part".toList →
      s ++ ".tar.gz" ++ ".part" ≠ x := fun s x h1 h2 e =>
    suffix_ne (s ++ ".tar.gz") "" ".part" x h1 h2 (e.trans (String.empty_append).symm)
  cases b with
  | cmuArctic t =>
    have h0 : l[0]? = some "ARCTIC" ∧ (l[1]? = some ("cmu_us_" ++ t ++ "_arctic.tar.bz2") ∨
        l[1]? = some ("cmu_us_" ++ t ++ "_arctic.tar.bz2" ++ ".part") ∨ l[1]? = some ("cmu_us_" ++ t ++ "_arctic")) := by
      rcases hl with rfl | rfl | hl
      · exact ⟨rfl, .inl rfl⟩
      · exact ⟨rfl, .inr (.inl rfl)⟩
      · exact ⟨prefix_get hl rfl, .inr (.inr (prefix_get hl rfl))⟩
    obtain ⟨h0, h1⟩ := h0
    have p0 := prefix_get h h0
    have p1 := h1.imp (prefix_get h) (Or.imp (prefix_get h) (prefix_get h))
    cases a with
    | cmuArctic s =>
      have hst : s ≠ t := fun e => hab (by rw [e])
      have n1 : ∀ x, "cmu_us_" ++ s ++ x ≠ "cmu_us_" ++ t ++ x := fun x => append_right_ne x (append_left_ne "cmu_us_" hst)
      obtain ⟨-, q⟩ := hp
      rcases q with q | q | q | q <;> rcases p1 with r | r | r <;> rw [q] at r <;> try cases r
      all_goals replace r := Option.some.inj r
      · exact n1 _ r
      · exact suffix_ne _ _ _ _ (by decide) (by decide) r
      · exact suffix_ne _ _ _ _ (by decide) (by decide) r
      · exact suffix_ne _ _ _ _ (by decide) (by decide) r
      · exact append_right_ne _ (n1 _) r
      · exact suffix_ne _ _ _ _ (by decide) (by decide) r
      · exact suffix_ne _ _ _ _ (by decide) (by decide) r
      · exact suffix_ne _ _ _ _ (by decide) (by decide) r
      · exact n1 _ r
    | libriSpeech s =>
      rcases hp with q | q | q | ⟨q, -⟩ <;> rw [q] at p0
      · cases p0
      · exact tarNe s _ (by decide) (by decide) (Option.some.inj p0)
      · exact partNe s _ (by decide) (by decide) (Option.some.inj p0)
      · exact absurd (Option.some.inj p0) (by decide)
  | libriSpeech t =>
    have h0 : l[0]? = some (t ++ ".tar.gz") ∨ l[0]? = some (t ++ ".tar.gz" ++ ".part") ∨
        l[0]? = some "LibriSpeech" ∧ l[1]? = some t := by
      rcases hl with rfl | rfl | hl
      · exact .inl rfl
      · exact .inr (.inl rfl)
      · exact .inr (.inr ⟨prefix_get hl rfl, prefix_get hl rfl⟩)
    have p0 := h0.imp (prefix_get h) (Or.imp (prefix_get h) (And.imp (prefix_get h) (prefix_get h)))
    cases a with
    | cmuArctic s =>
      obtain ⟨q, -⟩ := hp
      rw [q] at p0
      rcases p0 with r | r | ⟨r, -⟩
      · exact tarNe t _ (by decide) (by decide) (Option.some.inj r).symm
      · exact partNe t _ (by decide) (by decide) (Option.some.inj r).symm
      · exact absurd (Option.some.inj r) (by decide)
    | libriSpeech s =>
      have hst : s ≠ t := fun e => hab (by rw [e])
      rcases hp with q | q | q | ⟨q, q'⟩ <;> rw [q] at p0 <;> rcases p0 with r | r | ⟨r, r'⟩ <;> try cases r
      all_goals try replace r := Option.some.inj r
      · exact append_right_ne _ hst r
      · exact suffix_ne _ _ _ _ (by decide) (by decide) r
      · exact tarNe s _ (by decide) (by decide) r
      · exact suffix_ne _ _ _ _ (by decide) (by decide) r
      · exact append_right_ne _ (append_right_ne _ hst) r
      · exact partNe s _ (by decide) (by decide) r
      · exact tarNe t _ (by decide) (by decide) r.symm
      · exact partNe t _ (by decide) (by decide) r.symm
      · exact q' t rfl r'

/-- **C91.** Constructing a dataset does not touch another one in the same directory: at every moment, also when it is
killed or fails, every path that belongs to the other dataset holds what it held before. -/
theorem C91_neighbour (root : DiskPath) (a b : DatasetName) (hab : a ≠ b)
    (hplain : Plain ((a.layout root).base ++ [(a.layout root).name])) (untar : Bytes → Except Exc (List Member))
    (hc : ∀ body ms, untar body = .ok ms → ∀ x ∈ ms, x.absolute = false ∧ Plain x.segments ∧ Contents a b x.segments)
    (net : Network) (m : Machine) (d : Disk) (hd : Seen (constructDataset untar net (a.layout root) m) d)
    (q : DiskPath) (hq : Owns root b q) : d q = m.disk q := by
  obtain ⟨l, rfl, hl⟩ : ∃ l, q = root ++ l ∧ Owns [] b l := by
    cases b with
    | cmuArctic t =>
      rcases hq with rfl | rfl | ⟨r, rfl⟩
      · exact ⟨_, rfl, .inl rfl⟩
      · exact ⟨_, rfl, .inr (.inl rfl)⟩
      · exact ⟨_, List.append_assoc _ _ _, .inr (.inr (List.prefix_append _ _))⟩
    | libriSpeech t =>
      rcases hq with rfl | rfl | ⟨r, rfl⟩
      · exact ⟨_, rfl, .inl rfl⟩
      · exact ⟨_, rfl, .inr (.inl rfl)⟩
      · exact ⟨_, List.append_assoc _ _ _, .inr (.inr (List.prefix_append _ _))⟩
  have key : ∀ p, Touches a b p → ¬ root ++ l <+: root ++ p := fun p hp h =>
    owned_not_touched hab hl hp ((List.prefix_append_right_inj root).mp h)
  refine Triple.seen (J := fun d => d (root ++ l) = m.disk (root ++ l))
    (keeps_elsewhere (q := root ++ l) hplain (m.disk (root ++ l)) ?_ ?_ ?_ ?_) rfl (fun _ h => h) hd
  · intro e
    cases a with
    | cmuArctic s =>
      refine key ["ARCTIC", "cmu_us_" ++ s ++ "_arctic.tar.bz2"] ⟨rfl, .inr (.inl rfl)⟩ ?_
      rw [e]
      exact (List.append_assoc _ _ _) ▸ List.prefix_rfl
    | libriSpeech s => exact key [s ++ ".tar.gz"] (.inr (.inl rfl)) (e ▸ List.prefix_rfl)
  · intro e
    cases a with
    | cmuArctic s =>
      refine key ["ARCTIC", "cmu_us_" ++ s ++ "_arctic.tar.bz2" ++ ".part"] ⟨rfl, .inr (.inr (.inl rfl))⟩ ?_
      rw [e]
      unfold partPath DatasetName.layout cmuLayout
      dsimp only
      rw [List.append_assoc]
      exact List.prefix_rfl
    | libriSpeech s => exact key [s ++ ".tar.gz" ++ ".part"] (.inr (.inr (.inl rfl))) (e ▸ List.prefix_rfl)
  · cases a with
    | cmuArctic s => exact key ["ARCTIC"] ⟨rfl, .inl rfl⟩
    | libriSpeech s =>
      have := key [] (.inl rfl)
      rwa [List.append_nil] at this
  · intro body ms hu x hx
    obtain ⟨h1, h2, h3⟩ := hc body ms hu x hx
    refine ⟨h1, h2, ?_⟩
    cases a with
    | cmuArctic s =>
      have h3 : x.segments.head? = some ("cmu_us_" ++ s ++ "_arctic") := h3
      have := key ("ARCTIC" :: x.segments) ⟨rfl, .inr (.inr (.inr (by
        rw [List.getElem?_cons_succ, ← List.head?_eq_getElem?]; exact h3)))⟩
      rwa [List.append_cons] at this
    | libriSpeech s =>
      obtain ⟨h3, h4⟩ := h3
      refine key x.segments (.inr (.inr (.inr ⟨by rw [← List.head?_eq_getElem?]; exact h3, fun t hb ht => ?_⟩)))
      refine h4 t hb ?_
      cases hs : x.segments with
      | nil => rw [hs] at h3; cases h3
      | cons u r =>
        rw [hs] at h3 ht
        cases h3
        cases r with
        | nil => cases ht
        | cons v r =>
          cases ht
          exact List.prefix_append ["LibriSpeech", t] r

/-- Constructions of datasets other than `b` in the directory, one after the other, each killed at any moment or run to its
end, with any network. -/
inductive OthersConstructed (root : DiskPath) (b : DatasetName) (d0 : Disk) : Disk → Prop
  | start : OthersConstructed root b d0 d0
  | again (d d' : Disk) (a : DatasetName) (untar : Bytes → Except Exc (List Member)) (net : Network) (n : ℕ) :
      OthersConstructed root b d0 d → a ≠ b → Plain ((a.layout root).base ++ [(a.layout root).name]) →
      (∀ body ms, untar body = .ok ms → ∀ x ∈ ms, x.absolute = false ∧ Plain x.segments ∧ Contents a b x.segments) →
      Seen (constructDataset untar net (a.layout root) ⟨d, n⟩) d' → OthersConstructed root b d0 d'

/-- **C91, many datasets.** Whatever other datasets were constructed in the directory and however that ended, the files of
a dataset are as they were; if it was not there, it does not count as extracted. -/
theorem C91_neighbours (root : DiskPath) (b : DatasetName) (d0 d : Disk) (h : OthersConstructed root b d0 d) :
    (∀ q, Owns root b q → d q = d0 q) ∧
    (d0 (b.layout root).dataset = none → Plain (b.layout root).dataset → ∀ n,
      pathExists (b.layout root).dataset ⟨d, n⟩ = false) := by
  have key : ∀ q, Owns root b q → d q = d0 q := by
    induction h with
    | start => exact fun _ _ => rfl
    | again d d' a untar net n _ hab hp hc hs ih =>
      exact fun q hq => (C91_neighbour root a b hab hp untar hc net _ d' hs q hq).trans (ih q hq)
  refine ⟨key, fun h0 hp n => ?_⟩
  have hown : Owns root b (b.layout root).dataset := by
    cases b with
    | cmuArctic s =>
      refine .inr (.inr ?_)
      unfold DatasetName.layout cmuLayout
      dsimp only
      rw [List.append_assoc]
      exact List.prefix_rfl
    | libriSpeech s => exact .inr (.inr List.prefix_rfl)
  have hd := (key _ hown).trans h0
  unfold pathExists nodeAt
  cases hl : lookup d [] (b.layout root).dataset with
  | none => rfl
  | some p =>
    obtain rfl := lookup_resolve hl
    rw [Option.bind_some, resolve_plain hp]
    exact congrArg Option.isSome hd

/-- The archive of `train-clean` with a file besides the subset. -/
def trainArchive : List Member :=
  [⟨false, ["LibriSpeech", "README.TXT"], .regular [1]⟩, ⟨false, ["LibriSpeech", "train-clean", "a.flac"], .regular [2]⟩]

-- constructing `train-clean` leaves `dev-clean` alone
example (net : Network) (m : Machine) (d : Disk)
    (hd : Seen (constructDataset (fun _ => .ok trainArchive) net (libriLayout ["data"] "train-clean") m) d) :
    d ["data", "LibriSpeech", "dev-clean", "a.flac"] = m.disk ["data", "LibriSpeech", "dev-clean", "a.flac"] := by
  refine C91_neighbour ["data"] (.libriSpeech "train-clean") (.libriSpeech "dev-clean") (by decide)
    (by unfold Plain; decide) _ ?_ net m d hd _ (.inr (.inr (by decide)))
  intro body ms h x hx
  cases h
  unfold trainArchive at hx
  rcases List.mem_cons.mp hx with rfl | hx
  · refine ⟨rfl, by unfold Plain; decide, rfl, fun t ht => ?_⟩
    cases ht
    decide
  · obtain rfl := List.mem_singleton.mp hx
    refine ⟨rfl, by unfold Plain; decide, rfl, fun t ht => ?_⟩
    cases ht
    decide

end Torchrir.Props
