import Verif.Merkle.Lemmas

/-!
Properties of the persistent Merkle tree (C01 - C11).  `runTree c H ops` runs the history `ops` with the
modelled code on an empty store; `Spec.run ops` is the abstract history of `Verif/Merkle/Spec.lean`.
-/

namespace Verif.Merkle

section
variable {F : Type} [Zero F] (c : Codec F) (H : F → F → F → F)

/-- C01: after any history, the next addition returns the number of leaves in the tree and `entry_count`
goes up by one. -/
theorem C01_uids_consecutive (ops : List (Op F)) (h : F) (hcap : adds ops < 3 ^ 20) :
    ∃ t t', runTree c H ops = some t ∧ t.entryCount = (Spec.run ops).cur.length ∧
      t.add c H h = some (t', (Spec.run ops).cur.length) ∧
      t'.entryCount = (Spec.run ops).cur.length + 1 := by
  obtain ⟨t, h1, h2, h3⟩ := sim_run c H ops (le_of_lt hcap)
  have hb := h3.1
  obtain ⟨t', ha, _, hc, _⟩ := add_rep H c h h2.cur h2.count (lt_of_le_of_lt hb hcap)
  exact ⟨t, t', h1, h2.count, ha, hc⟩

/-- C01: in a history without crash or refused commit, whatever commits and re-openings it has, the
returned uid is the number of additions made before. -/
theorem C01_uid_counts_additions (ops : List (Op F)) (h : F) (hcap : adds ops < 3 ^ 20)
    (hnc : ∀ o ∈ ops, o ≠ .crash ∧ o ≠ .failCommit) :
    ∃ t t', runTree c H ops = some t ∧ t.entryCount = adds ops ∧
      t.add c H h = some (t', adds ops) ∧ t'.entryCount = adds ops + 1 := by
  have hlen : ∀ (l : List (Op F)) (s : Spec F), (∀ o ∈ l, o ≠ .crash ∧ o ≠ .failCommit) →
      (l.foldl Spec.step s).cur.length = s.cur.length + adds l := by
    intro l
    induction l with
    | nil => intro s _; simp [adds]
    | cons o l ih =>
      intro s hl
      have e : adds (o :: l) = adds [o] + adds l := adds_append [o] l
      rw [List.foldl_cons, ih _ (fun o' ho' => hl o' (List.mem_cons_of_mem _ ho')), e]
      have ho := hl o (by simp)
      cases o with
      | add x => simp [Spec.step, adds]; omega
      | commit => simp [Spec.step, adds]
      | reopen => simp [Spec.step, adds]
      | crash => exact absurd rfl ho.1
      | failCommit => exact absurd rfl ho.2
  have := hlen ops Spec.init hnc
  obtain ⟨t, t', h1, h2, h3, h4⟩ := C01_uids_consecutive c H ops h hcap
  have e : (Spec.run ops).cur.length = adds ops := by
    rw [Spec.run, this]; simp [Spec.init]
  rw [e] at h2 h3 h4
  exact ⟨t, t', h1, h2, h3, h4⟩

/-- C02: after any history within capacity, every leaf in the tree has a proof that `verify` accepts, whose
root is the current root and whose uid is the leaf's uid. -/
theorem C02_membership_proofs [DecidableEq F] (ops : List (Op F)) (hcap : adds ops ≤ 3 ^ 20)
    (uid : Nat) (leaf : F) (hleaf : (Spec.run ops).cur[uid]? = some leaf) :
    ∃ t p, runTree c H ops = some t ∧ t.generateProof c uid = some p ∧
      verify H leaf p = true ∧ t.getRoot c = some p.root ∧ p.uid = uid ∧ p.nodes.length = 20 := by
  obtain ⟨t, h1, h2, h3⟩ := sim_run c H ops hcap
  have hlt : uid < (Spec.run ops).cur.length := by
    by_contra hge
    rw [List.getElem?_eq_none (by omega)] at hleaf
    cases hleaf
  have hu : uid < 3 ^ TREE_DEPTH := lt_of_lt_of_le hlt (le_trans h3.1 hcap)
  have hroot : t.getRootWithDepth c TREE_DEPTH =
      some (specRoot H TREE_DEPTH (Spec.run ops).cur) := by
    unfold Tree.getRootWithDepth
    rw [if_neg (lt_irrefl _), rep_root_top c H h2.cur]
    exact c.dec_enc _
  have hm := mapM_proofNode c H h2.cur h2.cur TREE_DEPTH TREE_DEPTH 0 uid (by simp) (le_refl _)
    hu (by rw [node, hleaf]; simp)
  refine ⟨t, { nodes := specProofNodes H (Spec.run ops).cur TREE_DEPTH 0 uid,
               root := specRoot H TREE_DEPTH (Spec.run ops).cur,
               rootVersion := t.version, uid := uid }, h1, ?_, ?_, hroot, rfl,
             specProofNodes_length H _ _ _ _⟩
  · unfold Tree.generateProof Tree.generateProofWithDepth
    rw [if_neg (by push Not; exact ⟨le_refl _, le_of_lt hu⟩), getPathKeys, leaf_start_eq, hm,
      hroot]
    rfl
  · have hf := fold_specProofNodes H (leaves := (Spec.run ops).cur) TREE_DEPTH 0 uid leaf
      (by rw [node]; exact hleaf)
    rw [Nat.div_eq_of_lt hu, Nat.zero_add] at hf
    simp [verify, specRoot, hf]

/-- C03: the root is the root of the abstract tree over the current leaves. -/
theorem C03_root_is_tree_root (ops : List (Op F)) (hcap : adds ops ≤ 3 ^ 20) :
    ∃ t, runTree c H ops = some t ∧ t.getRoot c = some (specRoot H 20 (Spec.run ops).cur) := by
  obtain ⟨t, h1, h2, _⟩ := sim_run c H ops hcap
  refine ⟨t, h1, ?_⟩
  unfold Tree.getRoot Tree.getRootWithDepth
  rw [if_neg (lt_irrefl _), rep_root_top c H h2.cur]
  exact c.dec_enc _

/-- C03: two histories that put the same leaves in the tree, in whatever way, give the same root. -/
theorem C03_root_depends_on_leaves_only (ops ops' : List (Op F)) (hcap : adds ops ≤ 3 ^ 20)
    (hcap' : adds ops' ≤ 3 ^ 20) (hl : (Spec.run ops).cur = (Spec.run ops').cur) :
    ∃ t t', runTree c H ops = some t ∧ runTree c H ops' = some t' ∧
      t.getRoot c = t'.getRoot c ∧ (t.getRoot c).isSome := by
  obtain ⟨t, h1, h2⟩ := C03_root_is_tree_root c H ops hcap
  obtain ⟨t', h1', h2'⟩ := C03_root_is_tree_root c H ops' hcap'
  refine ⟨t, t', h1, h1', ?_, by simp [h2]⟩
  rw [h2, h2', hl]

/-! #### C04 -/

/-- the three values hashed at a proof node -/
def nodeTriple {F : Type} (x : F) (n : ProofNode F) : F × F × F :=
  match n.path with
  | .left => (x, n.siblings1, n.siblings2)
  | .middle => (n.siblings1, x, n.siblings2)
  | .right => (n.siblings1, n.siblings2, x)

/-- walks two proofs in parallel and returns the first pair of different hash inputs with equal hash -/
def findCollision {F : Type} [DecidableEq F] (H : F → F → F → F) :
    F → List (ProofNode F) → F → List (ProofNode F) → Option ((F × F × F) × (F × F × F))
  | x, n :: ns, y, m :: ms =>
    let a := nodeTriple x n
    let b := nodeTriple y m
    let ha := H a.1 a.2.1 a.2.2
    let hb := H b.1 b.2.1 b.2.2
    if ha = hb ∧ a ≠ b then some (a, b) else findCollision H ha ns hb ms
  | _, _, _, _ => none

theorem verifyStep_eq {F : Type} (H : F → F → F → F) (x : F) (n : ProofNode F) :
    verifyStep H x n = H (nodeTriple x n).1 (nodeTriple x n).2.1 (nodeTriple x n).2.2 := by
  unfold verifyStep nodeTriple
  cases n.path <;> rfl

theorem findCollision_some {F : Type} [DecidableEq F] (H : F → F → F → F)
    (ns ms : List (ProofNode F)) (x y : F) (hp : ns.map (·.path) = ms.map (·.path))
    (hf : ns.foldl (verifyStep H) x = ms.foldl (verifyStep H) y) (hxy : x ≠ y) :
    ∃ a b, findCollision H x ns y ms = some (a, b) ∧ a ≠ b ∧
      H a.1 a.2.1 a.2.2 = H b.1 b.2.1 b.2.2 := by
  induction ns generalizing ms x y with
  | nil =>
    cases ms with
    | nil => exact absurd hf hxy
    | cons m ms => simp at hp
  | cons n ns ih =>
    cases ms with
    | nil => simp at hp
    | cons m ms =>
      simp only [List.map_cons, List.cons.injEq] at hp
      simp only [List.foldl_cons] at hf
      rw [verifyStep_eq, verifyStep_eq] at hf
      have hne : nodeTriple x n ≠ nodeTriple y m := by
        unfold nodeTriple
        rw [hp.1]
        intro e
        cases hm : m.path <;> simp only [hm, Prod.mk.injEq] at e
        · exact hxy e.1
        · exact hxy e.2.1
        · exact hxy e.2.2
      simp only [findCollision]
      split
      · rename_i hc
        exact ⟨_, _, rfl, hc.2, hc.1⟩
      · rename_i hc
        exact ih ms _ _ hp.2 hf (fun e => hc ⟨e, hne⟩)

/-- C04: two accepted proofs for the same root along the same directions prove the same leaf, or the
two proofs contain an explicit collision of the hash (found by `findCollision`). -/
theorem C04_proof_binding [DecidableEq F] (p q : Proof F) (x y : F)
    (hp : verify H x p = true) (hq : verify H y q = true) (hroot : p.root = q.root)
    (hpath : p.nodes.map (·.path) = q.nodes.map (·.path)) (hxy : x ≠ y) :
    ∃ a b, findCollision H x p.nodes y q.nodes = some (a, b) ∧ a ≠ b ∧
      H a.1 a.2.1 a.2.2 = H b.1 b.2.1 b.2.2 := by
  apply findCollision_some H _ _ _ _ hpath _ hxy
  have h1 : p.nodes.foldl (verifyStep H) x = p.root := by simpa [verify] using hp
  have h2 : q.nodes.foldl (verifyStep H) y = q.root := by simpa [verify] using hq
  rw [h1, h2, hroot]

/-- C04: a proof that is accepted for the current root of a tree along the directions of a uid in the tree
is for the leaf stored there, or together with the honest proof it yields a hash collision. -/
theorem C04_accepted_proof_is_for_stored_leaf [DecidableEq F] (ops : List (Op F))
    (hcap : adds ops ≤ 3 ^ 20) (uid : Nat) (leaf : F)
    (hleaf : (Spec.run ops).cur[uid]? = some leaf) :
    ∃ t honest, runTree c H ops = some t ∧ t.generateProof c uid = some honest ∧
      ∀ (q : Proof F) (y : F), verify H y q = true → t.getRoot c = some q.root →
        q.nodes.map (·.path) = honest.nodes.map (·.path) →
        y = leaf ∨ ∃ a b, findCollision H leaf honest.nodes y q.nodes = some (a, b) ∧ a ≠ b ∧
          H a.1 a.2.1 a.2.2 = H b.1 b.2.1 b.2.2 := by
  obtain ⟨t, p, h1, h2, h3, h4, _⟩ := C02_membership_proofs c H ops hcap uid leaf hleaf
  refine ⟨t, p, h1, h2, fun q y hq hr hpath => ?_⟩
  by_cases hy : y = leaf
  · exact Or.inl hy
  · right
    rw [h4] at hr
    exact C04_proof_binding H p q leaf y h3 hq (Option.some.inj hr) hpath.symm (fun e => hy e.symm)

/-! #### C05, C06 -/

theorem versions_extend (ops : List (Op F)) (s : Spec F) :
    ∃ new, (ops.foldl Spec.step s).versions = new ++ s.versions := by
  induction ops generalizing s with
  | nil => exact ⟨[], rfl⟩
  | cons o ops ih =>
    obtain ⟨new, hn⟩ := ih (s.step o)
    cases o with
    | commit => exact ⟨new ++ [s.cur], by rw [List.foldl_cons, hn]; simp [Spec.step]⟩
    | add x => exact ⟨new, by rw [List.foldl_cons, hn]; rfl⟩
    | reopen => exact ⟨new, by rw [List.foldl_cons, hn]; rfl⟩
    | crash => exact ⟨new, by rw [List.foldl_cons, hn]; rfl⟩
    | failCommit => exact ⟨new, by rw [List.foldl_cons, hn]; rfl⟩

/-- C05: a committed version's root, at every depth, is the same before and after any further history. -/
theorem C05_versions_immutable (ops ops' : List (Op F)) (hcap : adds (ops ++ ops') ≤ 3 ^ 20) :
    ∃ t t', runTree c H ops = some t ∧ runTree c H (ops ++ ops') = some t' ∧
      t.version ≤ t'.version ∧
      ∀ depth version, version ≤ t.version →
        t'.getRootWithDepthAndVersion c depth version =
          t.getRootWithDepthAndVersion c depth version := by
  have hcap1 : adds ops ≤ 3 ^ 20 := by rw [adds_append] at hcap; omega
  obtain ⟨t, h1, h2, _⟩ := sim_run c H ops hcap1
  obtain ⟨t', h1', h2', _⟩ := sim_run c H (ops ++ ops') hcap
  have hrun : Spec.run (ops ++ ops') = ops'.foldl Spec.step (Spec.run ops) := by
    simp [Spec.run]
  obtain ⟨new, hnew⟩ := versions_extend ops' (Spec.run ops)
  have hv : t.version ≤ t'.version := by
    have e1 := h2.nver
    have e2 := h2'.nver
    rw [hrun, hnew, List.length_append] at e2
    simp only [Tree.version]; omega
  refine ⟨t, t', h1, h1', hv, ?_⟩
  intro depth version hver
  unfold Tree.getRootWithDepthAndVersion
  by_cases h0 : version = 0
  · simp [h0]
  by_cases hd : TREE_DEPTH < depth
  · simp [h0, hd]
  simp only [h0, hd, if_false]
  have hvt : version ≤ t.store.height := hver
  have hvt' : version ≤ t'.store.height := le_trans hver hv
  have hlen : version < (Spec.run ops).versions.reverse.length := by
    rw [List.length_reverse, h2.nver]; omega
  obtain ⟨leaves, hl⟩ : ∃ leaves, (Spec.run ops).versions.reverse[version]? = some leaves :=
    ⟨_, List.getElem?_eq_getElem hlen⟩
  have r1 := h2.vers version leaves hl
  have r2 := h2'.vers version leaves (by
    rw [hrun, hnew, List.reverse_append, List.getElem?_append_left hlen]; exact hl)
  simp only [Store.getV, hvt, hvt', if_true]
  by_cases hne : leaves = []
  · subst hne
    by_cases hdd : depth = TREE_DEPTH
    · subst hdd
      rw [rep_root_top c H r1, rep_root_top c H r2]
    · rw [rep_root_empty c H r1 depth (by omega), rep_root_empty c H r2 depth (by omega)]
  · rw [rep_root c H r1 depth (by omega) hne, rep_root c H r2 depth (by omega) hne]

/-- C05: the value returned for a committed version is the root of the leaves at that commit. -/
theorem C05_version_root (ops ops' : List (Op F))
    (hcap : adds (ops ++ .commit :: ops') ≤ 3 ^ 20) :
    ∃ t, runTree c H (ops ++ .commit :: ops') = some t ∧
      t.getRootWithDepthAndVersion c 20 (Spec.run ops).versions.length =
        some (specRoot H 20 (Spec.run ops).cur) := by
  obtain ⟨t, h1, h2, _⟩ := sim_run c H _ hcap
  obtain ⟨new, hnew⟩ := versions_extend ops' ((Spec.run ops).step .commit)
  have hrun : Spec.run (ops ++ .commit :: ops') =
      ops'.foldl Spec.step ((Spec.run ops).step .commit) := by simp [Spec.run]
  refine ⟨t, h1, ?_⟩
  have hpos : (Spec.run ops).versions.length ≠ 0 := by
    obtain ⟨n, hn⟩ := versions_extend ops (Spec.init (F := F))
    rw [Spec.run, hn]; simp [Spec.init]
  have hl : (Spec.run (ops ++ .commit :: ops')).versions.reverse[(Spec.run ops).versions.length]? =
      some (Spec.run ops).cur := by
    rw [hrun, hnew]; simp [Spec.step]
  have hle : (Spec.run ops).versions.length ≤ t.store.height := by
    have e := h2.nver
    rw [hrun, hnew] at e
    simp [Spec.step] at e
    omega
  have r := h2.vers _ _ hl
  have hdd : ¬ TREE_DEPTH < 20 := by decide
  unfold Tree.getRootWithDepthAndVersion
  simp only [hpos, if_false, hdd, Store.getV, hle, if_true]
  have := rep_root_top c H r
  rw [TREE_DEPTH] at this
  rw [this]
  exact c.dec_enc _

/-- C06: whatever happens after a commit short of another commit (additions, re-openings, refused
commits, earlier crashes), a crash brings back exactly the tree as it was right after the commit. -/
theorem C06_crash_recovers_commit (ops ops' : List (Op F))
    (hcap : adds (ops ++ .commit :: ops') ≤ 3 ^ 20) (hnc : ∀ o ∈ ops', o ≠ .commit) :
    ∃ t, runTree c H (ops ++ [.commit]) = some t ∧
      runTree c H (ops ++ .commit :: (ops' ++ [.crash])) = some t := by
  have hcap1 : adds (ops ++ [.commit]) ≤ 3 ^ 20 := by
    rw [adds_append] at hcap ⊢
    have : adds (Op.commit :: ops') = adds [Op.commit] + adds ops' := adds_append [Op.commit] ops'
    omega
  obtain ⟨t, h1, h2, _⟩ := sim_run c H _ hcap1
  obtain ⟨t0, h0, _, _⟩ := sim_run c H ops (by rw [adds_append] at hcap; unfold TREE_DEPTH; omega)
  have ht : t = (t0.commit true).1 := by
    rw [runTree_append, h0] at h1
    simp [Tree.runFrom, Tree.step, Tree.commit] at h1
    rw [← h1]; rfl
  refine ⟨t, h1, ?_⟩
  have e : ops ++ .commit :: (ops' ++ [.crash]) = ((ops ++ [.commit]) ++ ops') ++ [.crash] := by simp
  have hcap2 : adds ((ops ++ [.commit]) ++ ops') ≤ 3 ^ 20 := by simpa using hcap
  obtain ⟨t2, g1, g2, _⟩ := sim_run c H _ hcap2
  rw [e, runTree_append, g1]
  -- history and height unchanged by `ops'`
  have hkeep : ∀ (l : List (Op F)) (a b : Tree), (∀ o ∈ l, o ≠ .commit) →
      a.store.get ENTRY_COUNT_KEY ≠ none → a.store.hist a.store.height ENTRY_COUNT_KEY ≠ none →
      Tree.runFrom c H a l = some b →
      b.store.hist = a.store.hist ∧ b.store.height = a.store.height := by
    intro l
    induction l with
    | nil => intro a b _ _ _ hr; simp [Tree.runFrom] at hr; subst hr; exact ⟨rfl, rfl⟩
    | cons o l ih =>
      intro a b hl ha hh hr
      simp only [Tree.runFrom, Option.bind_eq_some_iff] at hr
      obtain ⟨m, hm, hr⟩ := hr
      have hnew : ∀ (s : Store) (m : Tree), s.get ENTRY_COUNT_KEY ≠ none →
          (Tree.new c s).2 = some m → m.store = s := by
        intro s m hs he
        unfold Tree.new at he
        cases hg : s.get ENTRY_COUNT_KEY with
        | none => exact absurd hg hs
        | some v =>
          simp only [hg] at he
          split at he
          · simp at he; rw [← he]
          · simp at he
      have hmid : m.store.hist = a.store.hist ∧ m.store.height = a.store.height ∧
          m.store.get ENTRY_COUNT_KEY ≠ none := by
        cases o with
        | add x =>
          simp only [Tree.step, Option.map_eq_some_iff] at hm
          obtain ⟨⟨m', u⟩, hadd, rfl⟩ := hm
          unfold Tree.add at hadd
          simp only at hadd
          cases hk : getPathKeys a.entryCount with
          | nil => simp [hk] at hadd
          | cons k ks =>
            simp only [hk] at hadd
            cases hu : updateLoop c H a.store (k :: ks) (Cache.set [] k.1 (c.enc x)) with
            | none => simp [hu] at hadd
            | some cache =>
              simp only [hu, Option.some.injEq, Prod.mk.injEq] at hadd
              obtain ⟨hadd, _⟩ := hadd
              subst hadd
              have := flush_hist cache a.store
              refine ⟨this.1, this.2, ?_⟩
              simp
        | commit => exact absurd rfl (hl _ (by simp))
        | reopen =>
          have := hnew _ _ ha hm
          rw [this]; exact ⟨rfl, rfl, ha⟩
        | crash =>
          have hd : a.store.discard.get ENTRY_COUNT_KEY ≠ none := by rw [get_discard]; exact hh
          have := hnew _ _ hd hm
          rw [this]; exact ⟨rfl, rfl, hd⟩
        | failCommit =>
          have hd : a.store.discard.get ENTRY_COUNT_KEY ≠ none := by rw [get_discard]; exact hh
          have := hnew _ _ hd hm
          rw [this]; exact ⟨rfl, rfl, hd⟩
      have := ih m b (fun o' ho' => hl o' (List.mem_cons_of_mem _ ho')) hmid.2.2
        (by rw [hmid.1, hmid.2.1]; exact hh) hr
      exact ⟨this.1.trans hmid.1, this.2.trans hmid.2.1⟩
  have hcount := h2.cur.count
  have hget : t.store.hist t.store.height = t.store.get := by
    rw [ht]; funext k; simp [Tree.commit, Store.commit, Store.get]
  have hk := hkeep ops' t t2 hnc (by rw [hcount]; simp) (by rw [hget, hcount]; simp) (by
    rw [runTree_append, h1] at g1; simpa using g1)
  have hdisc : t2.store.discard = t.store := by
    have hs : t.store.session = fun _ => none := by rw [ht]; rfl
    have e1 : t2.store.discard = ⟨fun _ => none, t2.store.hist, t2.store.height⟩ := rfl
    rw [e1, hk.1, hk.2, ← hs]
  have hbnd : (Spec.run (ops ++ [.commit])).cur.length ≤ 3 ^ TREE_DEPTH := by
    obtain ⟨_, hx, _, hb⟩ := sim_run c H _ hcap1
    exact le_trans hb.1 hcap1
  change Tree.runFrom c H t2 [Op.crash] = some t
  simp only [Tree.runFrom, Tree.step]
  rw [hdisc, new_of_rep c H h2.cur hbnd]
  have := h2.count
  simp [← this]

/-- C06: re-opening at any point without a crash changes nothing. -/
theorem C06_reopen_is_identity (ops : List (Op F)) (hcap : adds ops ≤ 3 ^ 20) :
    ∃ t, runTree c H ops = some t ∧ runTree c H (ops ++ [.reopen]) = some t := by
  obtain ⟨t, h1, h2, h3⟩ := sim_run c H ops hcap
  refine ⟨t, h1, ?_⟩
  rw [runTree_append, h1]
  change Tree.runFrom c H t [Op.reopen] = some t
  simp only [Tree.runFrom, Tree.step]
  rw [new_of_rep c H h2.cur (le_trans h3.1 hcap)]
  have := h2.count
  simp [← this]

/-! #### C07 -/

/-- C07 (part): for ids that do fit, a depth-limited proof exists exactly for the leaves in the tree, and it
verifies for that leaf against the root at that depth.  Missing from the full claim: ids that do not fit are
not always refused, see `C07_oversized_id_accepted`. -/
theorem C07_depth_proofs_partial [DecidableEq F] (ops : List (Op F)) (hcap : adds ops ≤ 3 ^ 20)
    (id depth : Nat) (hd : depth ≤ 20) (hid : id < 3 ^ depth) :
    ∃ t, runTree c H ops = some t ∧
      (∀ leaf, (Spec.run ops).cur[id]? = some leaf →
        ∃ p, t.generateProofWithDepth c id depth = some p ∧ verify H leaf p = true ∧
          t.getRootWithDepth c depth = some p.root ∧
          p.root = specRoot H depth (Spec.run ops).cur ∧ p.nodes.length = depth) ∧
      ((Spec.run ops).cur[id]? = none → 0 < depth → t.generateProofWithDepth c id depth = none) := by
  obtain ⟨t, h1, h2, h3⟩ := sim_run c H ops hcap
  have hle : (3 : Nat) ^ depth ≤ 3 ^ TREE_DEPTH := Nat.pow_le_pow_right (by omega) hd
  have hu : id < 3 ^ TREE_DEPTH := lt_of_lt_of_le hid hle
  refine ⟨t, h1, ?_, ?_⟩
  · intro leaf hleaf
    have hne : (Spec.run ops).cur ≠ [] := by rintro e; rw [e] at hleaf; simp at hleaf
    have hroot : t.getRootWithDepth c depth =
        some (specRoot H depth (Spec.run ops).cur) := by
      unfold Tree.getRootWithDepth
      rw [if_neg (by unfold TREE_DEPTH; omega), rep_root c H h2.cur depth hd hne]
      exact c.dec_enc _
    have hm := mapM_proofNode c H h2.cur h2.cur TREE_DEPTH depth 0 id (by simp) hd
      hu (by rw [node, hleaf]; simp)
    refine ⟨{ nodes := specProofNodes H (Spec.run ops).cur depth 0 id,
              root := specRoot H depth (Spec.run ops).cur,
              rootVersion := t.version, uid := id }, ?_, ?_, hroot, rfl,
            specProofNodes_length H _ _ _ _⟩
    · unfold Tree.generateProofWithDepth
      rw [if_neg (by push Not; exact ⟨hd, le_of_lt hid⟩), getPathKeys, leaf_start_eq, hm, hroot]
      rfl
    · have hf := fold_specProofNodes H (leaves := (Spec.run ops).cur) depth 0 id leaf
        (by rw [node]; exact hleaf)
      rw [Nat.div_eq_of_lt hid, Nat.zero_add] at hf
      simp [verify, specRoot, hf]
  · intro hnone hpos
    unfold Tree.generateProofWithDepth
    rw [if_neg (by push Not; exact ⟨hd, le_of_lt hid⟩), getPathKeys, leaf_start_eq]
    obtain ⟨n, rfl⟩ : ∃ n, depth = n + 1 := ⟨depth - 1, by omega⟩
    have : pathKeysFrom (TREE_DEPTH + 1) (lvlStart TREE_DEPTH + id) =
      (lvlStart TREE_DEPTH + id, side id) ::
        pathKeysFrom TREE_DEPTH (lvlStart 19 + id / 3) := pathKeys_succ 20 19 id
    rw [this, List.take_succ_cons, List.mapM_cons,
      show lvlStart TREE_DEPTH = lvlStart (19 + 1) from rfl,
      proofNode_eq c H h2.cur h2.cur (l := 19) (d := 0) rfl hu, if_pos (by rw [node]; exact hnone)]
    rfl

/-- C07 is violated: with one leaf in the tree, `generate_proof_with_depth(1, 0)` (id 1 does not fit in
a tree of depth 0, and has not been added) returns a proof, which `verify` accepts for leaf 0. -/
theorem C07_oversized_id_accepted [DecidableEq F] (h : F) :
    ∃ t p, runTree c H [.add h] = some t ∧ ¬ 1 < 3 ^ 0 ∧ (Spec.run [Op.add h]).cur[1]? = none ∧
      t.generateProofWithDepth c 1 0 = some p ∧ p.uid = 1 ∧ verify H h p = true := by
  obtain ⟨t, h1, h2, h3⟩ := sim_run c H [.add h] (by simp [adds, TREE_DEPTH])
  have hne : (Spec.run [Op.add h]).cur ≠ [] := by simp [Spec.run, Spec.step, Spec.init]
  have hroot : t.getRootWithDepth c 0 = some h := by
    unfold Tree.getRootWithDepth
    rw [if_neg (by decide), rep_root c H h2.cur 0 (by decide) hne]
    simp [c.dec_enc, specRoot, node, Spec.run, Spec.step, Spec.init]
  refine ⟨t, { nodes := [], root := h, rootVersion := t.version, uid := 1 }, h1, by decide, ?_, ?_,
    rfl, by simp [verify]⟩
  · simp [Spec.run, Spec.step, Spec.init]
  · unfold Tree.generateProofWithDepth
    rw [if_neg (by decide), hroot]
    simp

/-- C07 is violated at every depth: with more than `3^depth` leaves in the tree the proof returned for
`id = 3^depth` carries the root of the first subtree but recomputes the second one, so it does not verify
whenever these differ. -/
theorem C07_oversized_proof_does_not_verify [DecidableEq F] (ops : List (Op F))
    (hcap : adds ops ≤ 3 ^ 20) (depth : Nat) (hd : depth < 20) (leaf : F)
    (hleaf : (Spec.run ops).cur[3 ^ depth]? = some leaf)
    (hdiff : node H (Spec.run ops).cur depth 1 ≠ node H (Spec.run ops).cur depth 0) :
    ∃ t p, runTree c H ops = some t ∧ t.generateProofWithDepth c (3 ^ depth) depth = some p ∧
      verify H leaf p = false := by
  obtain ⟨t, h1, h2, h3⟩ := sim_run c H ops hcap
  have hlt : (3 : Nat) ^ depth < 3 ^ TREE_DEPTH := Nat.pow_lt_pow_right (by omega) hd
  have hne : (Spec.run ops).cur ≠ [] := by rintro e; rw [e] at hleaf; simp at hleaf
  have hd' : depth ≤ TREE_DEPTH := by unfold TREE_DEPTH; omega
  have hroot : t.getRootWithDepth c depth = some (specRoot H depth (Spec.run ops).cur) := by
    unfold Tree.getRootWithDepth
    rw [if_neg (by omega), rep_root c H h2.cur depth hd' hne]
    exact c.dec_enc _
  have hm := mapM_proofNode c H h2.cur h2.cur TREE_DEPTH depth 0 (3 ^ depth) (by simp)
    hd' hlt (by rw [node, hleaf]; simp)
  refine ⟨t, { nodes := specProofNodes H (Spec.run ops).cur depth 0 (3 ^ depth),
               root := specRoot H depth (Spec.run ops).cur,
               rootVersion := t.version, uid := 3 ^ depth }, h1, ?_, ?_⟩
  · unfold Tree.generateProofWithDepth
    rw [if_neg (by push Not; exact ⟨hd', le_refl _⟩), getPathKeys, leaf_start_eq, hm, hroot]
    rfl
  · have hf := fold_specProofNodes H (leaves := (Spec.run ops).cur) depth 0 (3 ^ depth) leaf
      (by rw [node]; exact hleaf)
    rw [Nat.div_self (by positivity), Nat.zero_add] at hf
    simp only [verify, decide_eq_false_iff_not]
    intro e
    apply hdiff
    rw [hf, e]
    cases hn : node H (Spec.run ops).cur depth 0 with
    | none => exact absurd hn (node_zero_ne_none H hne depth)
    | some v => simp [specRoot, hn]

/-! #### C08 -/

/-- C08 (part): reading with the internal key of the leaf returns the leaf.  Missing: the public function is
called with the uid, see `C08_get_leaf_returns_root`. -/
theorem C08_get_leaf_by_key_partial (ops : List (Op F)) (hcap : adds ops ≤ 3 ^ 20) (uid : Nat)
    (hu : uid < 3 ^ 20) :
    ∃ t, runTree c H ops = some t ∧
      t.getLeaf c (LEAF_START + uid) = some ((Spec.run ops).cur[uid]?) := by
  obtain ⟨t, h1, h2, _⟩ := sim_run c H ops hcap
  refine ⟨t, h1, ?_⟩
  have := h2.cur.node_eq TREE_DEPTH 0 uid rfl hu (Or.inl (by decide))
  rw [leaf_start_eq, Tree.getLeaf, this, node]
  cases (Spec.run ops).cur[uid]? with
  | none => rfl
  | some v => simp [c.dec_enc]

/-- C08 is violated: `get_leaf(0)` returns the root of the tree, not the first leaf. -/
theorem C08_get_leaf_returns_root (ops : List (Op F)) (hcap : adds ops ≤ 3 ^ 20) :
    ∃ t, runTree c H ops = some t ∧
      t.getLeaf c 0 = some (some (specRoot H 20 (Spec.run ops).cur)) := by
  obtain ⟨t, h1, h2, _⟩ := sim_run c H ops hcap
  refine ⟨t, h1, ?_⟩
  have := rep_root_top c H h2.cur
  have e : rootPos TREE_DEPTH = 0 := by decide
  rw [e] at this
  rw [Tree.getLeaf, this]
  simp [c.dec_enc, TREE_DEPTH]

/-! #### C10 -/

/-- C10 is violated: after an addition and a refused commit, the handle still counts one entry although the
store has none; the next addition is given uid 1 and position 0 has no proof. -/
theorem C10_failed_commit_keeps_count (h : F) :
    ∃ t, runTree c H [.add h] = some t ∧
      let t' := (t.commit false).1
      (t.commit false).2 = none ∧ t'.entryCount = 1 ∧
      t'.store.get ENTRY_COUNT_KEY = some (beBytes 8 0) ∧
      t'.getRoot c = some 0 ∧ t'.generateProof c 0 = none := by
  obtain ⟨t, h1, h2, h3⟩ := sim_run c H [.add h] (by simp [adds, TREE_DEPTH])
  have hcom : (Spec.run [Op.add h]).committed = [] := by
    simp [Spec.run, Spec.step, Spec.init, Spec.committed]
  have hr := h2.committed
  rw [hcom] at hr
  have hr' : Rep H c t.store.discard.get [] := by rw [get_discard]; exact hr
  refine ⟨t, h1, rfl, ?_, ?_, ?_, ?_⟩
  · have := h2.count
    simpa [Spec.run, Spec.step, Spec.init, Tree.commit] using this
  · exact hr'.count
  · have := rep_root_top c H hr'
    change (Tree.getRoot c { entryCount := t.entryCount, store := t.store.discard }) = _
    unfold Tree.getRoot Tree.getRootWithDepth
    rw [if_neg (lt_irrefl _)]
    simp only
    rw [this]
    have hn : node H ([] : List F) TREE_DEPTH 0 = none := by rw [node_isNone_iff]; simp
    simp [c.dec_enc, specRoot, hn]
  · change (Tree.generateProof c { entryCount := t.entryCount, store := t.store.discard } 0) = _
    unfold Tree.generateProof Tree.generateProofWithDepth
    rw [if_neg (by decide), getPathKeys, leaf_start_eq]
    have : pathKeysFrom (TREE_DEPTH + 1) (lvlStart TREE_DEPTH + 0) =
      (lvlStart TREE_DEPTH + 0, side 0) ::
        pathKeysFrom TREE_DEPTH (lvlStart 19 + 0 / 3) := pathKeys_succ 20 19 0
    rw [this, show TREE_DEPTH = 19 + 1 from rfl, List.take_succ_cons, List.mapM_cons,
      proofNode_eq c H hr' hr' (l := 19) (d := 0) rfl (by positivity), if_pos (by simp [node])]
    rfl

/-- C10 (part): a refused commit followed by re-opening the tree gives the last committed tree. -/
theorem C10_failed_commit_reopen_partial (ops : List (Op F)) (hcap : adds ops ≤ 3 ^ 20) :
    ∃ t t', runTree c H ops = some t ∧ runTree c H (ops ++ [.failCommit]) = some t' ∧
      t'.entryCount = (Spec.run ops).committed.length ∧
      t'.getRoot c = some (specRoot H 20 (Spec.run ops).committed) := by
  obtain ⟨t, h1, _, _⟩ := sim_run c H ops hcap
  obtain ⟨t', h1', h2', _⟩ := sim_run c H (ops ++ [.failCommit]) (by
    rw [adds_append]; simpa [adds, TREE_DEPTH] using hcap)
  obtain ⟨t2, e1, e2⟩ := C03_root_is_tree_root c H (ops ++ [.failCommit]) (by
    rw [adds_append]; simpa [adds] using hcap)
  rw [h1'] at e1
  cases e1
  have hs : (Spec.run (ops ++ [.failCommit])).cur = (Spec.run ops).committed := by
    simp [Spec.run, Spec.step]
  refine ⟨t, t', h1, h1', ?_, ?_⟩
  · rw [h2'.count, hs]
  · rw [e2, hs]

end

/-! #### C11 -/

/-- which of the three children a direction denotes -/
def TreePath.child : TreePath → Nat
  | .left => 0
  | .middle => 1
  | .right => 2

theorem pathKeys_geometry (l : Nat) : ∀ i, i < 3 ^ l → ∀ j (_ : j < l), ∃ k p k' p',
    (pathKeysFrom (l + 1) (lvlStart l + i))[j]? = some (k, p) ∧
    (pathKeysFrom (l + 1) (lvlStart l + i))[j + 1]? = some (k', p') ∧
    k = 3 * k' + 1 + p.child := by
  induction l with
  | zero => intro i _ j hj; omega
  | succ l ih =>
    intro i hi j hj
    rw [pathKeys_succ]
    have hi3 : i / 3 < 3 ^ l := by rw [pow_succ] at hi; omega
    cases j with
    | zero =>
      have e2 : (pathStep (lvlStart l + i / 3)).1.1 = lvlStart l + i / 3 := by
        unfold pathStep; split
        · rfl
        · split <;> rfl
      refine ⟨_, _, lvlStart l + i / 3, (pathStep (lvlStart l + i / 3)).1.2, rfl, ?_, ?_⟩
      · simp only [pathKeysFrom, List.getElem?_cons_succ, List.getElem?_cons_zero, Option.some.injEq]
        exact Prod.ext e2 rfl
      · have h3 : i % 3 = 0 ∨ i % 3 = 1 ∨ i % 3 = 2 := by omega
        simp only [lvlStart]
        rcases h3 with h | h | h <;> simp [side, h, TreePath.child] <;> omega
    | succ j =>
      obtain ⟨k, p, k', p', h1, h2, h3⟩ := ih (i / 3) hi3 j (by omega)
      exact ⟨k, p, k', p', by simpa using h1, by simpa using h2, h3⟩

theorem pathKeys_last (l : Nat) : ∀ i, i < 3 ^ l →
    ((pathKeysFrom (l + 1) (lvlStart l + i))[l]?).map Prod.fst = some 0 := by
  induction l with
  | zero => intro i hi; rw [pathKeys_zero i hi]; rfl
  | succ l ih =>
    intro i hi
    rw [pathKeys_succ]
    have hi3 : i / 3 < 3 ^ l := by rw [pow_succ] at hi; omega
    simpa using ih (i / 3) hi3

/-- C11: shape of the path of a uid: 21 keys, starting at the leaf's key, every key being the stated child
of the next one (heap numbering: children of `k` are `3k+1, 3k+2, 3k+3`), ending at the root. -/
theorem C11_path_keys (uid : Nat) (hu : uid < 3 ^ 20) :
    (getPathKeys uid).length = 21 ∧
    ((getPathKeys uid)[0]?).map Prod.fst = some (LEAF_START + uid) ∧
    ((getPathKeys uid)[20]?).map Prod.fst = some 0 ∧
    ∀ j, j < 20 → ∃ k p k' p', (getPathKeys uid)[j]? = some (k, p) ∧
      (getPathKeys uid)[j + 1]? = some (k', p') ∧ k = 3 * k' + 1 + p.child := by
  refine ⟨pathKeysFrom_length _ _, ?_, ?_, ?_⟩
  · unfold getPathKeys
    simp only [pathKeysFrom, List.getElem?_cons_zero, Option.map_some, Option.some.injEq]
    unfold pathStep; split
    · rfl
    · split <;> rfl
  · rw [getPathKeys, leaf_start_eq]; exact pathKeys_last 20 uid hu
  · rw [getPathKeys, leaf_start_eq]; exact pathKeys_geometry 20 uid hu

/-- C11: keys in the database: different nodes (below `2^64`) have different keys, none of them is the
entry counter's, and the key of node 0 is the root key written by `new`. -/
theorem C11_store_keys (a b : Nat) (ha : a < 2 ^ 64) (hb : b < 2 ^ 64) :
    (storeKey a = storeKey b ↔ a = b) ∧ storeKey a ≠ ENTRY_COUNT_KEY ∧ storeKey 0 = ROOT_KEY :=
  ⟨⟨fun h => storeKey_inj (by norm_num; omega) (by norm_num; omega) h, fun h => by rw [h]⟩,
    storeKey_ne_count a, storeKey_zero⟩

/-! #### Non-vacuity -/

/-- a codec for natural numbers (unary), used in examples -/
def natCodec : Codec Nat where
  enc n := List.replicate n 0
  dec b := some b.length
  dec_enc := by simp

/-- a hash on natural numbers, used in examples -/
def natHash (a b d : Nat) : Nat := a + 2 * b + 4 * d + 1

/-- a history with two additions, a commit, a lost addition, a crash and one more addition -/
def exampleOps : List (Op Nat) := [.add 5, .add 6, .commit, .add 7, .crash, .reopen, .add 8]

example : adds exampleOps < 3 ^ 20 ∧ (Spec.run exampleOps).cur = [5, 6, 8] ∧
    (Spec.run exampleOps).versions = [[5, 6], []] := by decide

example : ∃ t p, runTree natCodec natHash exampleOps = some t ∧
    t.generateProof natCodec 2 = some p ∧ verify natHash 8 p = true := by
  obtain ⟨t, p, h1, h2, h3, _⟩ :=
    C02_membership_proofs natCodec natHash exampleOps (by decide) 2 8 (by decide)
  exact ⟨t, p, h1, h2, h3⟩

/-- the hypotheses of `C01_uid_counts_additions` -/
example : ∀ o ∈ ([.add 5, .commit, .reopen, .add 6] : List (Op Nat)), o ≠ .crash ∧ o ≠ .failCommit := by
  simp

/-- the hypotheses of `C03_root_depends_on_leaves_only`: different histories, same leaves -/
example : (Spec.run exampleOps).cur = (Spec.run [Op.add 5, .add 6, .add 8]).cur := by decide

/-- the hypotheses of `C04_proof_binding` (with a hash that has collisions) -/
example : ∃ (p q : Proof Nat) (x y : Nat), verify (fun _ _ d => d) x p = true ∧
    verify (fun _ _ d => d) y q = true ∧ p.root = q.root ∧
    p.nodes.map (·.path) = q.nodes.map (·.path) ∧ x ≠ y :=
  ⟨⟨[⟨1, 2, .left⟩], 2, 0, 0⟩, ⟨[⟨1, 2, .left⟩], 2, 0, 0⟩, 3, 4, by decide, by decide, rfl, rfl,
    by decide⟩

/-- the hypotheses of `C07_oversized_proof_does_not_verify`: four leaves, depth 1 -/
example : (Spec.run [Op.add 1, .add 2, .add 3, .add 4]).cur[3 ^ 1]? = some 4 ∧
    node natHash (Spec.run [Op.add 1, .add 2, .add 3, .add 4]).cur 1 1 ≠
      node natHash (Spec.run [Op.add 1, .add 2, .add 3, .add 4]).cur 1 0 := by decide

/-- `get_leaf(0)` of a tree holding only leaf 5 is not 5 -/
example : specRoot natHash 20 (Spec.run [Op.add 5]).cur ≠ 5 := by
  have hd : ∀ d, node natHash [5] d 0 = some (5 + d) := by
    intro d
    induction d with
    | zero => rfl
    | succ d ih =>
      have h3 : 1 ≤ 3 ^ d := Nat.one_le_pow _ _ (by omega)
      have h1 : node natHash [5] d (3 * 0 + 1) = none := by
        rw [node_isNone_iff]; simpa using h3
      have h2 : node natHash [5] d (3 * 0 + 2) = none := by
        rw [node_isNone_iff]; simp; omega
      rw [node_succ, Nat.mul_zero, ih, h1, h2]
      simp [natHash]; omega
  simp [Spec.run, Spec.step, Spec.init, specRoot, hd]

/-- C06 example: additions after the commit are lost by the crash -/
example : ∀ o ∈ ([.add 7, .reopen] : List (Op Nat)), o ≠ .commit := by simp

end Verif.Merkle
