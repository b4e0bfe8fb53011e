import Verif.Merkle.Props
import Verif.Merkle.Position
import Verif.Merkle.Capacity
import Verif.Merkle.View

/-!
# The tree theorems at a concrete history

Each theorem about the Merkle tree is applied to a history with additions, commits, a crash and a reopen, so that
every hypothesis is seen to hold of a reachable state.  The leaves, the codec and the hash are those of `Merkle/Props.lean`.
-/

namespace Verif.Merkle

/-- two more leaves and a second commit after the history of `exampleOps` -/
def laterOps : List (Op Nat) := [.add 9, .commit, .add 10]

/-- C01: the next leaf of a tree holding `[5, 6, 8]` gets the number 3 -/
example := C01_uids_consecutive natCodec natHash exampleOps 77 (by decide)

example := C01_uid_counts_additions natCodec natHash [.add 5, .commit, .reopen, .add 6] 77 (by decide) (by simp)

/-- C03: the root of the tree reached by `exampleOps` -/
example := C03_root_is_tree_root natCodec natHash exampleOps (by decide)

example := C03_root_depends_on_leaves_only natCodec natHash exampleOps [.add 5, .add 6, .add 8] (by decide) (by decide)
  (by decide)

/-- C04: what is accepted for position 2, where 8 is stored -/
example := C04_accepted_proof_is_for_stored_leaf natCodec natHash exampleOps (by decide) 2 8 (by decide)

/-- C04: a proof that the verifier accepts against the root of that tree, in the theorem about positions -/
example : ∃ q : Proof Nat, q.nodes.length = 20 ∧ verify natHash 8 q = true ∧
    ∃ t, runTree natCodec natHash exampleOps = some t ∧ t.getRoot natCodec = some q.root ∧
      ((Spec.run exampleOps).cur[position (q.nodes.map (·.path))]? = some 8 ∨
        ∃ r, breakOf natHash (Spec.run exampleOps).cur 0 8 q.nodes = some r ∧ r.Valid natHash) := by
  obtain ⟨t, q, h1, -, h3, h4, -, h6⟩ := C02_membership_proofs natCodec natHash exampleOps (by decide) 2 8 (by decide)
  obtain ⟨t', h1', h⟩ := C04_accepted_proof_position natCodec natHash exampleOps (by decide) q 8 h6 h3
  have : t = t' := by rw [h1] at h1'; exact Option.some.inj h1'
  subst this
  rcases h h4 with h | h | h
  · exact ⟨q, h6, h3, t, h1, h4, Or.inl h⟩
  · exact absurd h (by decide)
  · exact ⟨q, h6, h3, t, h1, h4, Or.inr h⟩

/-- C05: the versions of `exampleOps` after `laterOps` -/
example := C05_versions_immutable natCodec natHash exampleOps laterOps (by decide)

example := C05_version_root natCodec natHash exampleOps laterOps (by decide)

/-- C06: a commit, an addition that is lost, a reopen and a crash -/
example := C06_crash_recovers_commit natCodec natHash exampleOps [.add 7, .reopen] (by decide) (by simp)

example := C06_reopen_is_identity natCodec natHash exampleOps (by decide)

/-- C07: position 2 at depth 1, where 8 is stored, and position 8 at depth 2, where nothing is stored -/
example := C07_depth_proofs_partial natCodec natHash exampleOps (by decide) 2 1 (by decide) (by decide)

example := C07_depth_proofs_partial natCodec natHash exampleOps (by decide) 8 2 (by decide) (by decide)

example := C07_oversized_id_accepted natCodec natHash 5

example := C07_oversized_proof_does_not_verify natCodec natHash [.add 1, .add 2, .add 3, .add 4] (by decide) 1
  (by decide) 4 (by decide) (by decide)

/-- C08: leaf 2, the unused leaf 100, and the root under the number 0 -/
example := C08_get_leaf_by_key_partial natCodec natHash exampleOps (by decide) 2 (by decide)

example := C08_get_leaf_by_key_partial natCodec natHash exampleOps (by decide) 100 (by decide)

example := C08_get_leaf_returns_root natCodec natHash exampleOps (by decide)

/-- C09: an addition below capacity, and one to a full tree -/
example := C09_below_capacity_partial natCodec natHash exampleOps 77 (by decide)

example (N : Nat) (hN : N = 3 ^ 20) : ∃ ops : List (Op Nat), adds ops = N ∧
    ∃ t t', runTree natCodec natHash ops = some t ∧ t.add natCodec natHash 7 = some (t', 3 ^ 20) ∧
      t'.entryCount = 3 ^ 20 + 1 ∧ t'.getRoot natCodec = t.getRoot natCodec := by
  have h1 : ∀ n, adds (List.replicate n (Op.add 1)) = n := by simp [adds]
  have h2 : ∀ n (s : Spec Nat), ((List.replicate n (Op.add 1)).foldl Spec.step s).cur.length = s.cur.length + n := by
    intro n
    induction n with
    | zero => simp
    | succ n ih => intro s; rw [List.replicate_succ, List.foldl_cons, ih]; simp [Spec.step]; omega
  obtain ⟨t, t', a, b, c, d, -⟩ := C09_full_tree_accepts_addition natCodec natHash (List.replicate N (Op.add 1))
    (by rw [h1, hN]) (by rw [Spec.run, h2, ← hN]; simp [Spec.init]) 7
  exact ⟨_, h1 _, t, t', a, b, c, d⟩

/-- C10: a commit of `exampleOps` that fails, then a reopen -/
example := C10_failed_commit_reopen_partial natCodec natHash exampleOps (by decide)

example := C10_failed_commit_keeps_count natCodec natHash 5

/-- C11: the path of leaf 8, and the keys of two nodes -/
example := C11_path_keys 8 (by decide)

example := C11_store_keys 13 40 (by decide) (by decide)

/-- C96: views of the store after `exampleOps`, where 8 is pending on top of the committed `[5, 6]` -/
example := C96_view_shows_commit natCodec natHash exampleOps (by decide)

example : (Spec.run exampleOps).committed = [5, 6] ∧ (Spec.run exampleOps).cur = [5, 6, 8] := by decide

example := C96_view_proofs natCodec natHash exampleOps (by decide) 1 6 (by decide)

example := C96_view_without_pending_partial natCodec natHash exampleOps (by decide)

/-- the root of the tree with the leaf 5 -/
theorem root_of_five (d : Nat) : specRoot natHash (d + 1) [5] ≠ 0 := by
  rw [specRoot]
  cases h : node natHash [5] (d + 1) 0 with
  | none => exact absurd h (node_zero_ne_none natHash (by simp) (d + 1))
  | some v =>
    rw [node_succ] at h
    split at h
    · cases h
    · simp only [natHash, Option.some.injEq] at h; simp; omega

example := C96_pending_violated natCodec natHash 5 (root_of_five 19)

/-- C96: the two committed leaves lie in the subtree of depth 1, whose root is 18; the root of the whole tree is larger -/
example := C96_depth_proof_violated natCodec natHash exampleOps (by decide) 1 1 (by decide) (by decide) 6 (by decide) (by
  have hc : (Spec.run exampleOps).committed = [5, 6] := by decide
  have hd : ∀ d, node natHash [5, 6] (d + 1) 0 = some (18 + d) := by
    intro d
    induction d with
    | zero => decide
    | succ d ih =>
      have h3 : 3 ≤ 3 ^ (d + 1) := by rw [pow_succ]; have := Nat.one_le_pow d 3 (by omega); omega
      have h1 : node natHash [5, 6] (d + 1) (3 * 0 + 1) = none := by rw [node_isNone_iff]; simp; omega
      have h2 : node natHash [5, 6] (d + 1) (3 * 0 + 2) = none := by rw [node_isNone_iff]; simp; omega
      rw [node_succ, Nat.mul_zero, ih, h1, h2]
      simp [natHash]; omega
  have hd' : ∀ d, specRoot natHash (d + 1) [5, 6] = 18 + d := fun d => by rw [specRoot, hd d]; rfl
  rw [hc, hd' 0, hd' 19]
  omega)

example := C96_get_leaf_violated natCodec natHash exampleOps (by decide)

end Verif.Merkle
