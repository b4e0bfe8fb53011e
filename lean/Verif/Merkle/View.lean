import Verif.Merkle.Props

/-!
# The read-only view of the tree (C96)

`ImmutablePersistentMerkleTree` (accumulators/src/merkle_tree.rs:279-409) is opened on a store that somebody else writes to.
The theorems say what it reports in every reachable state of that store, with or without pending writes.
-/

namespace Verif.Merkle

section
variable {F : Type} [Zero F] (c : Codec F) (H : F → F → F → F)

/-- a node of a proof read from the snapshot `get`, which holds `leaves`, when the presence of the node is asked of a store
that holds `leaves'` -/
theorem proofNode_mixed {s : Store} {get : Snapshot} {leaves leaves' : List F}
    (hs : Rep H c s.get leaves') (hr : Rep H c get leaves) {l d i : Nat}
    (hl : l + 1 + d = TREE_DEPTH) (hi : i < 3 ^ (l + 1)) :
    proofNode c s get (lvlStart (l + 1) + i, side i) =
      if node H leaves' d i = none then none else some (specProofNode H leaves d i) := by
  have hp : 3 * (3 ^ l) = 3 ^ (l + 1) := by rw [pow_succ]; omega
  have key : ∀ j, j < 3 → sibling c get (lvlStart (l + 1) + (3 * (i / 3) + j)) =
      some ((node H leaves d (3 * (i / 3) + j)).getD 0) := fun j hj =>
    sibling_eq c H hr hl (by omega)
  have k0 := key 0 (by omega)
  have k1 := key 1 (by omega)
  have k2 := key 2 (by omega)
  unfold proofNode Store.exists
  rw [hs.node_eq (l + 1) d i hl hi (Or.inl (by omega))]
  cases hv : node H leaves' d i with
  | none => simp
  | some v =>
    simp only [Option.map_some, Option.isSome_some, if_true, reduceCtorEq, if_false]
    have h3 : i % 3 = 0 ∨ i % 3 = 1 ∨ i % 3 = 2 := by omega
    have hst : 0 < lvlStart (l + 1) := by simp [lvlStart]
    rcases h3 with h | h | h
    · have e1 : lvlStart (l + 1) + i + 1 = lvlStart (l + 1) + (3 * (i / 3) + 1) := by omega
      have e2 : lvlStart (l + 1) + i + 2 = lvlStart (l + 1) + (3 * (i / 3) + 2) := by omega
      have hsd : side i = .left := by simp [side, h]
      simp only [hsd, siblingKeys, specProofNode]
      rw [e1, e2, k1, k2]; rfl
    · have e1 : lvlStart (l + 1) + i - 1 = lvlStart (l + 1) + (3 * (i / 3) + 0) := by omega
      have e2 : lvlStart (l + 1) + i + 1 = lvlStart (l + 1) + (3 * (i / 3) + 2) := by omega
      have hsd : side i = .middle := by simp [side, h]
      simp only [hsd, siblingKeys, specProofNode]
      rw [e1, e2, k0, k2]; rfl
    · have e1 : lvlStart (l + 1) + i - 2 = lvlStart (l + 1) + (3 * (i / 3) + 0) := by omega
      have e2 : lvlStart (l + 1) + i - 1 = lvlStart (l + 1) + (3 * (i / 3) + 1) := by omega
      have hsd : side i = .right := by simp [side, h]
      simp only [hsd, siblingKeys, specProofNode]
      rw [e1, e2, k0, k1]; rfl

theorem mapM_proofNode_mixed {s : Store} {get : Snapshot} {leaves leaves' : List F}
    (hs : Rep H c s.get leaves') (hr : Rep H c get leaves) (l : Nat) :
    ∀ (n d i : Nat), l + d = TREE_DEPTH → n ≤ l → i < 3 ^ l → node H leaves' d i ≠ none →
      ((pathKeysFrom (l + 1) (lvlStart l + i)).take n).mapM (proofNode c s get) =
        some (specProofNodes H leaves n d i) := by
  induction l with
  | zero =>
    intro n d i hl hn _ _
    have : n = 0 := by omega
    subst this; simp [specProofNodes]
  | succ l ih =>
    intro n d i hl hn hi hne
    cases n with
    | zero => simp [specProofNodes]
    | succ n =>
      rw [pathKeys_succ, List.take_succ_cons, List.mapM_cons, proofNode_mixed c H hs hr hl hi,
        if_neg hne, ih n (d + 1) (i / 3) (by omega) (by omega) (by rw [pow_succ] at hi; omega)
          (node_div_ne_none H hne)]
      rfl

omit [Zero F] in
/-- what is committed is a beginning of what is in the tree -/
theorem committed_prefix (ops : List (Op F)) : (Spec.run ops).committed <+: (Spec.run ops).cur := by
  suffices h : ∀ (l : List (Op F)) (s : Spec F), s.committed <+: s.cur →
      (l.foldl Spec.step s).committed <+: (l.foldl Spec.step s).cur from
    h ops Spec.init (by simp [Spec.init, Spec.committed])
  intro l
  induction l with
  | nil => intro s h; exact h
  | cons o l ih =>
    intro s h
    apply ih
    cases o with
    | add x => exact h.trans (List.prefix_append _ _)
    | commit => simp [Spec.step, Spec.committed]
    | reopen => exact h
    | crash => simp [Spec.step, Spec.committed]
    | failCommit => simp [Spec.step, Spec.committed]

/-- nothing is committed before the first commit -/
theorem committed_of_height_zero {t : Tree} {ops : List (Op F)} (h : Sim c H t (Spec.run ops))
    (h0 : t.store.height = 0) : (Spec.run ops).committed = [] := by
  obtain ⟨new, hn⟩ := versions_extend ops (Spec.init (F := F))
  have e := h.nver
  rw [Spec.run, hn, h0] at e
  have : new = [] := by
    rw [← List.length_eq_zero_iff]
    simp [Spec.init] at e
    simpa using e
  rw [Spec.committed, Spec.run, hn, this]
  rfl

/-- a store that holds the versions of a history, whatever its pending writes -/
theorem view_root {s : Store} {leaves : List F} (hr : Rep H c (s.hist s.height) leaves)
    (h0 : s.height = 0 → leaves = []) (n depth : Nat) (hd : depth ≤ TREE_DEPTH) (hne : leaves ≠ [] ∨ depth = TREE_DEPTH) :
    Immutable.getRootWithDepth c { entryCount := n, store := s } depth = some (specRoot H depth leaves) := by
  have hn : ∀ d, node H ([] : List F) d 0 = none := fun d => by rw [node_isNone_iff]; simp
  unfold Immutable.getRootWithDepth Tree.getRootWithDepthAndVersion
  by_cases hz : s.height = 0
  · simp [Tree.version, hz, h0 hz, specRoot, hn]
  · simp only [Tree.version, hz, if_false, Nat.not_lt.mpr hd, Store.getV, le_refl, if_true]
    rcases hne with hne | hne
    · rw [rep_root c H hr depth hd hne]; exact c.dec_enc _
    · rw [hne, rep_root_top c H hr]; exact c.dec_enc _

/-- the proof that a view gives for a leaf that the store has -/
theorem view_proof {s : Store} {leaves leaves' : List F} (hs : Rep H c s.get leaves')
    (hr : Rep H c (s.hist s.height) leaves) (h0 : s.height = 0 → leaves = []) (n id depth : Nat) (hd : depth ≤ TREE_DEPTH)
    (hne : leaves ≠ [] ∨ depth = TREE_DEPTH) (hid : id < 3 ^ depth) (hmem : leaves'[id]? ≠ none) :
    Immutable.generateProofWithDepth c { entryCount := n, store := s } id depth =
      some { nodes := specProofNodes H leaves TREE_DEPTH 0 id, root := specRoot H depth leaves,
             rootVersion := s.height, uid := id } := by
  have hu : id < 3 ^ TREE_DEPTH := lt_of_lt_of_le hid (Nat.pow_le_pow_right (by omega) hd)
  have hg : (fun k => Store.getV s k (Tree.version { entryCount := n, store := s })) = s.hist s.height := by
    funext k; simp [Store.getV, Tree.version]
  unfold Immutable.generateProofWithDepth
  rw [if_neg (by push Not; exact ⟨hd, le_of_lt hid⟩), view_root c H hr h0 n depth hd hne, getPathKeys, leaf_start_eq]
  simp only [hg]
  rw [mapM_proofNode_mixed c H hs hr TREE_DEPTH TREE_DEPTH 0 id (by simp) (le_refl _) hu (by rw [node]; exact hmem)]
  rfl

/-- C96: a view opened on a store reports, whatever additions are pending, the root of the last committed tree; and the
committed leaves under their internal keys. -/
theorem C96_view_shows_commit (ops : List (Op F)) (hcap : adds ops ≤ 3 ^ 20) :
    ∃ t v, runTree c H ops = some t ∧ Immutable.new t.store = some v ∧
      v.version + 1 = (Spec.run ops).versions.length ∧
      Immutable.getRootWithDepth c v 20 = some (specRoot H 20 (Spec.run ops).committed) ∧
      (∀ depth ≤ 20, (Spec.run ops).committed ≠ [] →
        Immutable.getRootWithDepth c v depth = some (specRoot H depth (Spec.run ops).committed)) ∧
      ∀ uid < 3 ^ 20, Immutable.getLeaf c v (LEAF_START + uid) = some ((Spec.run ops).committed[uid]?) := by
  obtain ⟨t, h1, h2, h3⟩ := sim_run c H ops hcap
  have hcount := h2.cur.count
  have h0 := committed_of_height_zero c H h2
  have hlen : (beBytes 8 (Spec.run ops).cur.length).length = 8 := by simp
  refine ⟨t, { entryCount := ofBE ((beBytes 8 (Spec.run ops).cur.length).take 8), store := t.store }, h1, ?_, ?_, ?_, ?_, ?_⟩
  · unfold Immutable.new
    rw [hcount]
    simp
  · exact h2.nver.symm
  · exact view_root c H h2.committed h0 _ 20 (le_refl _) (Or.inr rfl)
  · exact fun d hd hne => view_root c H h2.committed h0 _ d hd (Or.inl hne)
  · intro uid hu
    have := h2.committed.node_eq TREE_DEPTH 0 uid rfl hu (Or.inl (by decide))
    rw [Immutable.getLeaf, leaf_start_eq]
    simp only [Store.getV, Tree.version, le_refl, if_true]
    rw [this, node]
    cases (Spec.run ops).committed[uid]? with
    | none => rfl
    | some x => simp [c.dec_enc]

/-- C96: the view gives, whatever additions are pending, for every committed leaf a proof that `verify` accepts, for the root
of the last committed tree. -/
theorem C96_view_proofs [DecidableEq F] (ops : List (Op F)) (hcap : adds ops ≤ 3 ^ 20) (uid : Nat) (leaf : F)
    (hleaf : (Spec.run ops).committed[uid]? = some leaf) :
    ∃ t v p, runTree c H ops = some t ∧ Immutable.new t.store = some v ∧
      Immutable.generateProofWithDepth c v uid 20 = some p ∧ verify H leaf p = true ∧
      p.root = specRoot H 20 (Spec.run ops).committed ∧ p.uid = uid ∧ p.nodes.length = 20 ∧
      p.rootVersion + 1 = (Spec.run ops).versions.length := by
  obtain ⟨t, h1, h2, h3⟩ := sim_run c H ops hcap
  have hcount := h2.cur.count
  have h0 := committed_of_height_zero c H h2
  obtain ⟨rest, hpre⟩ := committed_prefix ops
  have hlt : uid < (Spec.run ops).committed.length := by
    by_contra hge
    rw [List.getElem?_eq_none (by omega)] at hleaf
    cases hleaf
  have hle : (Spec.run ops).committed.length ≤ (Spec.run ops).cur.length := by rw [← hpre, List.length_append]; omega
  have hu : uid < 3 ^ 20 := lt_of_lt_of_le hlt (le_trans hle (le_trans h3.1 hcap))
  refine ⟨t, { entryCount := ofBE ((beBytes 8 (Spec.run ops).cur.length).take 8), store := t.store }, _, h1, ?_,
    view_proof c H h2.cur h2.committed h0 _ uid 20 (le_refl _) (Or.inr rfl) hu ?_, ?_, rfl, rfl,
    specProofNodes_length H _ _ _ _, h2.nver.symm⟩
  · unfold Immutable.new
    rw [hcount]
    simp
  · rw [← hpre, List.getElem?_append_left hlt, hleaf]; simp
  · have hf := fold_specProofNodes H (leaves := (Spec.run ops).committed) TREE_DEPTH 0 uid leaf
      (by rw [node]; exact hleaf)
    rw [Nat.div_eq_of_lt (show uid < 3 ^ TREE_DEPTH from hu), Nat.zero_add] at hf
    change decide (_ = (node H (Spec.run ops).committed TREE_DEPTH 0).getD 0) = true
    rw [hf]; simp

/-- C96 (part): opened on a store without pending writes, the view counts the committed leaves and refuses proofs for all
other positions.  Missing: with pending writes neither is true, see `C96_pending_violated`. -/
theorem C96_view_without_pending_partial (ops : List (Op F)) (hcap : adds ops ≤ 3 ^ 20) :
    ∃ t v, runTree c H ops = some t ∧ Immutable.new t.store.discard = some v ∧
      v.entryCount = (Spec.run ops).committed.length ∧
      ∀ uid < 3 ^ 20, ((Immutable.generateProofWithDepth c v uid 20).isSome ↔ uid < (Spec.run ops).committed.length) := by
  obtain ⟨t, h1, h2, h3⟩ := sim_run c H ops hcap
  have h0 := committed_of_height_zero c H h2
  have hr : Rep H c t.store.discard.get (Spec.run ops).committed := by rw [get_discard]; exact h2.committed
  have hcount := hr.count
  obtain ⟨rest, hpre⟩ := committed_prefix ops
  have hle : (Spec.run ops).committed.length ≤ (Spec.run ops).cur.length := by rw [← hpre, List.length_append]; omega
  have hb : (Spec.run ops).committed.length < 256 ^ 8 :=
    lt_of_le_of_lt (le_trans hle (le_trans h3.1 hcap)) (by norm_num)
  refine ⟨t, { entryCount := (Spec.run ops).committed.length, store := t.store.discard }, h1, ?_, rfl, ?_⟩
  · unfold Immutable.new
    rw [hcount]
    have e := ofBE_beBytes 8 (Spec.run ops).committed.length
    rw [Nat.mod_eq_of_lt hb] at e
    have ht : (beBytes 8 (Spec.run ops).committed.length).take 8 = beBytes 8 (Spec.run ops).committed.length :=
      List.take_of_length_le (by simp)
    simp [ht, e]
  · intro uid hu
    constructor
    · intro hsome
      by_contra hge
      have hnone : (Spec.run ops).committed[uid]? = none := List.getElem?_eq_none (by omega)
      have hg : (fun k => Store.getV t.store.discard k
          (Tree.version { entryCount := (Spec.run ops).committed.length, store := t.store.discard })) =
          t.store.discard.hist t.store.discard.height := by
        funext k; simp [Store.getV, Tree.version]
      have : pathKeysFrom (TREE_DEPTH + 1) (lvlStart TREE_DEPTH + uid) =
        (lvlStart TREE_DEPTH + uid, side uid) ::
          pathKeysFrom TREE_DEPTH (lvlStart 19 + uid / 3) := pathKeys_succ 20 19 uid
      unfold Immutable.generateProofWithDepth at hsome
      rw [if_neg (by push Not; exact ⟨le_refl _, le_of_lt hu⟩), getPathKeys, leaf_start_eq] at hsome
      simp only [hg] at hsome
      rw [this, show TREE_DEPTH = 19 + 1 from rfl, List.take_succ_cons, List.mapM_cons,
        proofNode_mixed c H (get := t.store.discard.hist t.store.discard.height) hr h2.committed (l := 19) (d := 0) rfl hu, if_pos (by rw [node]; exact hnone)] at hsome
      exact Bool.false_ne_true hsome
    · intro hlt
      rw [view_proof c H (s := t.store.discard) hr h2.committed h0 _ uid 20 (le_refl _) (Or.inr rfl) hu
        (by rw [List.getElem?_eq_getElem hlt]; simp)]
      rfl

/-- C96 is violated: opened while an addition is pending, the view counts the leaf that is not committed and gives a proof for
it, with the root of the tree without it, which `verify` refuses. -/
theorem C96_pending_violated [DecidableEq F] (h : F) (hz : specRoot H 20 [h] ≠ 0) :
    ∃ t v p, runTree c H [.add h] = some t ∧ (Spec.run [Op.add h]).committed = [] ∧ Immutable.new t.store = some v ∧
      v.entryCount = 1 ∧ Immutable.getRootWithDepth c v 20 = some 0 ∧
      Immutable.generateProofWithDepth c v 0 20 = some p ∧ verify H h p = false := by
  obtain ⟨t, h1, h2, h3⟩ := sim_run c H [.add h] (by simp [adds, TREE_DEPTH])
  have h0 := committed_of_height_zero c H h2
  have hcom : (Spec.run [Op.add h]).committed = [] := by simp [Spec.run, Spec.step, Spec.init, Spec.committed]
  have hcur : (Spec.run [Op.add h]).cur = [h] := by simp [Spec.run, Spec.step, Spec.init]
  have hr := h2.committed
  rw [hcom] at hr
  have hn : ∀ d i, node H ([] : List F) d i = none := fun d i => by rw [node_isNone_iff]; simp
  have hcount := h2.cur.count
  rw [hcur] at hcount
  refine ⟨t, { entryCount := 1, store := t.store }, _, h1, hcom, ?_, rfl, ?_,
    view_proof c H h2.cur hr (fun _ => rfl) _ 0 20 (le_refl _) (Or.inr rfl) (by positivity) (by rw [hcur]; simp), ?_⟩
  · unfold Immutable.new
    rw [hcount]
    have e : ofBE ((beBytes 8 1).take 8) = 1 := by decide
    simp [e]
  · rw [view_root c H hr (fun _ => rfl) _ 20 (le_refl _) (Or.inr rfl)]
    simp [specRoot, hn]
  · have hnode : ∀ d, specProofNode H ([] : List F) d 0 = specProofNode H [h] d 0 := by
      intro d
      have h3 : 1 ≤ 3 ^ d := Nat.one_le_pow _ _ (by omega)
      have e1 : node H [h] d 1 = none := by rw [node_isNone_iff]; simpa using h3
      have e2 : node H [h] d 2 = none := by rw [node_isNone_iff]; simp; omega
      simp [specProofNode, side, hn, e1, e2]
    have hnodes : ∀ n d, specProofNodes H ([] : List F) n d 0 = specProofNodes H [h] n d 0 := by
      intro n
      induction n with
      | zero => intro d; rfl
      | succ n ih => intro d; simp only [specProofNodes, hnode, Nat.zero_div, ih]
    have hf := fold_specProofNodes H (leaves := [h]) TREE_DEPTH 0 0 h rfl
    rw [Nat.zero_div, Nat.zero_add] at hf
    simp only [verify, decide_eq_false_iff_not]
    rw [hnodes]
    intro e
    apply hz
    change (node H [h] TREE_DEPTH 0).getD 0 = 0
    rw [hf, Option.getD_some, e]
    simp [specRoot, hn]

/-- C96 is violated: a proof of the view for a smaller depth has the nodes of the whole path but the root of the subtree, so
`verify` refuses it whenever the two roots differ. -/
theorem C96_depth_proof_violated [DecidableEq F] (ops : List (Op F)) (hcap : adds ops ≤ 3 ^ 20) (depth uid : Nat)
    (hd : depth ≤ 20) (hu : uid < 3 ^ depth) (leaf : F) (hleaf : (Spec.run ops).committed[uid]? = some leaf)
    (hdiff : specRoot H depth (Spec.run ops).committed ≠ specRoot H 20 (Spec.run ops).committed) :
    ∃ t v p, runTree c H ops = some t ∧ Immutable.new t.store = some v ∧
      Immutable.generateProofWithDepth c v uid depth = some p ∧
      Immutable.getRootWithDepth c v depth = some p.root ∧ p.nodes.length = 20 ∧ verify H leaf p = false := by
  obtain ⟨t, h1, h2, h3⟩ := sim_run c H ops hcap
  have hcount := h2.cur.count
  have h0 := committed_of_height_zero c H h2
  obtain ⟨rest, hpre⟩ := committed_prefix ops
  have hlt : uid < (Spec.run ops).committed.length := by
    by_contra hge
    rw [List.getElem?_eq_none (by omega)] at hleaf
    cases hleaf
  have hne : (Spec.run ops).committed ≠ [] := by rintro e; rw [e] at hleaf; simp at hleaf
  have hu' : uid < 3 ^ TREE_DEPTH := lt_of_lt_of_le hu (Nat.pow_le_pow_right (by omega) hd)
  refine ⟨t, { entryCount := ofBE ((beBytes 8 (Spec.run ops).cur.length).take 8), store := t.store }, _, h1, ?_,
    view_proof c H h2.cur h2.committed h0 _ uid depth hd (Or.inl hne) hu ?_,
    view_root c H h2.committed h0 _ depth hd (Or.inl hne), specProofNodes_length H _ _ _ _, ?_⟩
  · unfold Immutable.new
    rw [hcount]
    simp
  · rw [← hpre, List.getElem?_append_left hlt, hleaf]; simp
  · have hf := fold_specProofNodes H (leaves := (Spec.run ops).committed) TREE_DEPTH 0 uid leaf
      (by rw [node]; exact hleaf)
    rw [Nat.div_eq_of_lt hu', Nat.zero_add] at hf
    simp only [verify, decide_eq_false_iff_not]
    intro e
    apply hdiff
    rw [← e]
    change _ = (node H (Spec.run ops).committed TREE_DEPTH 0).getD 0
    rw [hf]; rfl

/-- C96 is violated: `get_leaf(0)` of the view returns the root. -/
theorem C96_get_leaf_violated (ops : List (Op F)) (hcap : adds ops ≤ 3 ^ 20) :
    ∃ t v, runTree c H ops = some t ∧ Immutable.new t.store = some v ∧
      Immutable.getLeaf c v 0 = some (some (specRoot H 20 (Spec.run ops).committed)) := by
  obtain ⟨t, h1, h2, h3⟩ := sim_run c H ops hcap
  have hcount := h2.cur.count
  refine ⟨t, { entryCount := ofBE ((beBytes 8 (Spec.run ops).cur.length).take 8), store := t.store }, h1, ?_, ?_⟩
  · unfold Immutable.new
    rw [hcount]
    simp
  · have := rep_root_top c H h2.committed
    have e : rootPos TREE_DEPTH = 0 := by decide
    rw [e] at this
    rw [Immutable.getLeaf]
    simp only [Store.getV, Tree.version, le_refl, if_true]
    rw [this]
    simp [c.dec_enc, TREE_DEPTH]

end

end Verif.Merkle
