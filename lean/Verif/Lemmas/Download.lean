import Verif.Lemmas.Fs

/-! # Lemmas about downloads -/

namespace Torchrir.Model

/-- No component is `.` or `..`. -/
def Plain (p : DiskPath) : Prop := ∀ s ∈ p, s ≠ "." ∧ s ≠ ".."

theorem resolve_plain_from : ∀ (p cur : DiskPath), Plain p → p.foldl stepPath cur = cur ++ p
  | [], cur, _ => by simp
  | s :: p, cur, h => by
    have hs := h s (List.mem_cons_self ..)
    rw [List.foldl_cons, resolve_plain_from p _ fun t ht => h t (List.mem_cons_of_mem _ ht)]
    unfold stepPath
    rw [if_neg hs.1, if_neg hs.2, List.append_assoc, List.singleton_append]

theorem resolve_plain {p : DiskPath} (h : Plain p) : resolve p = p := by
  unfold resolve
  rw [resolve_plain_from p [] h, List.nil_append]

theorem Plain.of_prefix {p q : DiskPath} (h : p <+: q) (hq : Plain q) : Plain p :=
  fun s hs => hq s (h.subset hs)

theorem Plain.append {p q : DiskPath} (hp : Plain p) (hq : Plain q) : Plain (p ++ q) := by
  intro s hs
  rcases List.mem_append.mp hs with h | h
  · exact hp s h
  · exact hq s h

theorem triple_unlink {I : Machine → Prop} {segs : List String}
    (h : ∀ m, I m → I ⟨m.disk.put (resolve segs) none, m.requests⟩) : Keeps I (unlink segs) := by
  intro m hm
  unfold unlink
  cases hl : lookup m.disk [] segs with
  | none => exact ⟨fun d hd => (nomatch hd), fun a ha => (nomatch ha), fun e he => hm⟩
  | some p =>
    obtain rfl := lookup_resolve hl
    dsimp only
    cases hp : m.disk (resolve segs) with
    | none => exact ⟨fun d hd => (nomatch hd), fun a ha => (nomatch ha), fun e he => hm⟩
    | some n =>
      cases n with
      | dir => exact ⟨fun d hd => (nomatch hd), fun a ha => (nomatch ha), fun e he => hm⟩
      | file c =>
        refine ⟨fun d hd => ?_, fun _ _ => h m hm, fun e he => (nomatch he)⟩
        rw [List.mem_singleton.mp hd]
        exact h m hm

theorem triple_urlopen {I P : Machine → Prop} {net : Network} {Q : Response → Machine → Prop}
    {E : Exc → Machine → Prop} (h : ∀ m, P m → I ⟨m.disk, m.requests + 1⟩)
    (hQ : ∀ m r, P m → net m.requests = .ok r → Q r ⟨m.disk, m.requests + 1⟩)
    (hE : ∀ m e, P m → net m.requests = .error e → E e ⟨m.disk, m.requests + 1⟩) :
    Triple I P (urlopen net) Q E := by
  intro m hm
  refine ⟨fun d hd => ?_, fun r hr => hQ m r hm hr, fun e he => hE m e hm he⟩
  rw [List.mem_singleton.mp hd]
  exact h m hm

/-- The bytes of the successful reads. -/
def sentData (reads : List (Except Exc Bytes)) : Bytes :=
  (reads.map fun r => match r with | .ok c => c | .error _ => []).flatten

theorem triple_readLoop {I : Machine → Prop} {p : DiskPath} (h : WriteKeeps I p) :
    ∀ (reads : List (Except Exc Bytes)) (old : Bytes),
    Triple I (fun m => I m ∧ m.disk p = some (.file old)) (readLoop p old reads)
      (fun body m => I m ∧ m.disk p = some (.file body) ∧ body <+: old ++ sentData reads) (fun _ => I)
  | [], old => Triple.pure fun m hm => ⟨hm.1, hm.2, List.prefix_append _ _⟩
  | .error e :: rest, old => Triple.throw fun m hm => hm.1
  | .ok [] :: rest, old => Triple.pure fun m hm => ⟨hm.1, hm.2, List.prefix_append _ _⟩
  | .ok (b :: c) :: rest, old => by
    unfold readLoop
    refine Triple.bind ((triple_append h (b :: c) old).mono (fun _ h => h) (fun _ h => h)
      (fun _ _ h => h) fun _ _ h => h.elim) fun _ => ?_
    refine (triple_readLoop h rest (old ++ b :: c)).mono (fun _ h => h) (fun _ h => h) ?_ fun _ _ h => h
    intro body m hm
    refine ⟨hm.1, hm.2.1, ?_⟩
    have := hm.2.2
    unfold sentData at this ⊢
    rwa [List.map_cons, List.flatten_cons, ← List.append_assoc]

theorem triple_checkLength {I P : Machine → Prop} {total : Option ℕ} {n : ℕ}
    {E : Exc → Machine → Prop} (h : ∀ m e, P m → E e m) :
    Triple I P (checkLength total n)
      (fun _ m => P m ∧ (0 < total.getD 0 → n = total.getD 0)) E := by
  unfold checkLength
  split_ifs with hc
  · exact Triple.throw fun m hm => h m _ hm
  · refine Triple.pure fun m hm => ⟨hm, fun h0 => ?_⟩
    by_contra hne
    exact hc ⟨h0, hne⟩

theorem triple_replaceFile {I : Machine → Prop} {src dst : List String} {P : Machine → Prop}
    (hPI : ∀ m, P m → I m)
    (h : ∀ m c, P m → m.disk (resolve src) = some (.file c) → m.disk (resolve dst) ≠ some .dir →
      I ⟨(m.disk.put (resolve dst) (some (.file c))).put (resolve src) none, m.requests⟩) :
    Triple I P (replaceFile src dst) (fun _ => I) (fun _ => I) := by
  intro m hm
  have hbad : ∀ e : Exc, (∀ d ∈ (Prog.throw (α := Unit) e m).trace, I d) ∧
      (∀ a, (Prog.throw (α := Unit) e m).result = .ok a → I (Prog.throw (α := Unit) e m).last) ∧
      ∀ e', (Prog.throw (α := Unit) e m).result = .error e' → I (Prog.throw (α := Unit) e m).last :=
    fun e => ⟨fun d hd => (nomatch hd), fun a ha => (nomatch ha), fun e he => hPI m hm⟩
  unfold replaceFile
  cases hs : lookup m.disk [] src with
  | none => exact hbad _
  | some s =>
    obtain rfl := lookup_resolve hs
    cases hd : lookup m.disk [] dst with
    | none => exact hbad _
    | some d =>
      obtain rfl := lookup_resolve hd
      dsimp only
      have key : ∀ c, m.disk (resolve src) = some (.file c) → m.disk (resolve dst) ≠ some .dir →
          I ⟨(m.disk.put (resolve dst) (some (.file c))).put (resolve src) none, m.requests⟩ :=
        fun c hc hne => h m c hm hc hne
      cases hsn : m.disk (resolve src) with
      | none => exact hbad _
      | some ns =>
        cases ns with
        | dir => exact hbad _
        | file c =>
          cases hdn : m.disk (resolve dst) with
          | none =>
            have := key c hsn (by rw [hdn]; exact fun h => (nomatch h))
            refine ⟨fun d hd => ?_, fun _ _ => this, fun e he => (nomatch he)⟩
            rw [List.mem_singleton.mp hd]
            exact this
          | some nd =>
            cases nd with
            | dir => exact hbad _
            | file c' =>
              have := key c hsn (by rw [hdn]; exact fun h => (nomatch h))
              refine ⟨fun d hd => ?_, fun _ _ => this, fun e he => (nomatch he)⟩
              rw [List.mem_singleton.mp hd]
              exact this

theorem append_part_ne (name : String) : name ++ ".part" ≠ name := by
  intro h
  have := congrArg String.length h
  rw [String.length_append] at this
  have h5 : ".part".length = 5 := by decide
  omega

theorem partPath_ne (base : DiskPath) (name : String) : partPath base name ≠ base ++ [name] := by
  unfold partPath
  intro h
  have := List.append_cancel_left h
  exact append_part_ne name (by simpa using this)

/-- What `streamDownload` needs to keep an invariant: it may touch the temporary file in any way, and
put a file under the final name that holds a body matching the announced length. -/
theorem triple_streamDownload {I : Machine → Prop} {net : Network} {base : DiskPath} {name : String}
    (hreq : ∀ m, I m → I ⟨m.disk, m.requests + 1⟩)
    (hpart : ∀ m, I m → I ⟨m.disk.put (resolve (partPath base name)) none, m.requests⟩)
    (hwrite : WriteKeeps I (resolve (partPath base name)))
    (hfinal : ∀ k r body m, net k = .ok r → body <+: sentData r.reads →
      (0 < r.length.getD 0 → body.length = r.length.getD 0) → I m →
      m.disk (resolve (base ++ [name])) ≠ some .dir →
      I ⟨(m.disk.put (resolve (base ++ [name])) (some (.file body))).put (resolve (partPath base name)) none,
        m.requests⟩) :
    Keeps I (streamDownload net base name) := by
  unfold streamDownload
  refine Keeps.bind (Keeps.whenState (triple_unlink hpart)) fun _ => ?_
  refine Triple.bind (R := fun r m => I m ∧ ∃ k, net k = .ok r)
    (triple_urlopen hreq (fun m r hm hr => ⟨hreq m hm, _, hr⟩) fun m e hm _ => hreq m hm) fun r => ?_
  by_cases hr : ∃ k, net k = .ok r
  swap
  · intro m hm
    exact absurd hm.2 hr
  obtain ⟨k, hk⟩ := hr
  refine Triple.bind ((triple_openWrite hwrite).pre fun m hm => hm.1) fun p => ?_
  by_cases hp : p = resolve (partPath base name)
  swap
  · intro m hm
    exact absurd hm.1 hp
  subst hp
  refine Triple.bind ((triple_readLoop hwrite r.reads []).pre fun m hm => hm.2) fun body => ?_
  refine Triple.bind (triple_checkLength fun m e hm => hm.1) fun _ => ?_
  refine triple_replaceFile (fun m hm => hm.1.1) fun m c hm hc hne => ?_
  obtain ⟨⟨hI, hb, hpre⟩, hlen⟩ := hm
  rw [hb] at hc
  cases hc
  exact hfinal k r body m hk (by simpa using hpre) hlen hI hne

theorem triple_downloadLoop {I : Machine → Prop} {net : Network} {base : DiskPath} {name : String}
    (h : Keeps I (streamDownload net base name))
    (hrm : ∀ m, I m → I ⟨m.disk.put (resolve (base ++ [name])) none, m.requests⟩) :
    ∀ k, Keeps I (downloadLoop net base name k)
  | 0 => by
    unfold downloadLoop
    exact Triple.catchWith h fun e =>
      Keeps.bind (Keeps.whenState (triple_unlink hrm)) fun _ => Triple.throw fun m hm => hm
  | k + 1 => by
    unfold downloadLoop
    exact Triple.catchWith h fun e =>
      Keeps.bind (Keeps.whenState (triple_unlink hrm)) fun _ => triple_downloadLoop h hrm k

end Torchrir.Model
