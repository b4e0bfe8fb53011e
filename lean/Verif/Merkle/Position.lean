import Verif.Merkle.Props

/-!
Property C04, continued: what an accepted proof says about the tree, for any directions.  The directions of a proof are a
position; a proof accepted for the root of the tree shows that the leaf at that position is the claimed one, or it contains
an explicit collision or preimage of zero, found by the function `breakOf`.
-/

namespace Verif.Merkle

/-- the position of a child below its parent -/
def dirNat : TreePath → Nat
  | .left => 0
  | .middle => 1
  | .right => 2

/-- the position of a leaf, from the directions listed from the leaf to the root -/
def position : List TreePath → Nat
  | [] => 0
  | d :: ds => dirNat d + 3 * position ds

/-- evidence against the hash -/
inductive Break (F : Type) where
  | collision (a b : F × F × F)
  | zero (a : F × F × F)

/-- the evidence is what it claims to be -/
def Break.Valid {F : Type} [Zero F] (H : F → F → F → F) : Break F → Prop
  | .collision a b => a ≠ b ∧ H a.1 a.2.1 a.2.2 = H b.1 b.2.1 b.2.2
  | .zero a => H a.1 a.2.1 a.2.2 = 0

section
variable {F : Type} [Zero F] [DecidableEq F] (H : F → F → F → F) (leaves : List F)

/-- the three children of node `i` at height `d + 1` -/
def children (d i : Nat) : F × F × F :=
  ((node H leaves d (3 * i)).getD 0, (node H leaves d (3 * i + 1)).getD 0, (node H leaves d (3 * i + 2)).getD 0)

/-- compares the hash inputs of a proof, from the root down, with those of the tree: `d` is the height and `x` the value of
the node the proof starts from -/
def breakOf : Nat → F → List (ProofNode F) → Option (Break F)
  | _, _, [] => none
  | d, x, n :: ns =>
    let a := nodeTriple x n
    match breakOf (d + 1) (H a.1 a.2.1 a.2.2) ns with
    | some r => some r
    | none =>
      let i := position (ns.map (·.path))
      match node H leaves (d + 1) i with
      | none => some (.zero a)
      | some _ => if a = children H leaves d i then none else some (.collision a (children H leaves d i))

theorem node_children (d i : Nat) (x : F) (h : node H leaves (d + 1) i = some x) :
    x = H (children H leaves d i).1 (children H leaves d i).2.1 (children H leaves d i).2.2 := by
  unfold node at h
  unfold children
  split at h
  · cases h
  · simpa using h.symm

theorem breakOf_spec (ns : List (ProofNode F)) (d : Nat) (x : F)
    (h : ns.foldl (verifyStep H) x = (node H leaves (d + ns.length) 0).getD 0) :
    match breakOf H leaves d x ns with
    | some r => r.Valid H
    | none => x = (node H leaves d (position (ns.map (·.path)))).getD 0 := by
  induction ns generalizing d x with
  | nil => simpa [breakOf, position] using h
  | cons n ns ih =>
    rw [List.foldl_cons, verifyStep_eq] at h
    have h' := ih (d + 1) (H (nodeTriple x n).1 (nodeTriple x n).2.1 (nodeTriple x n).2.2) (by
      rw [h, List.length_cons]
      congr 2
      omega)
    simp only [breakOf]
    split at h'
    · rename_i r hr
      exact h'
    · cases hn : node H leaves (d + 1) (position (ns.map (·.path))) with
      | none =>
        rw [hn] at h'
        exact h'
      | some y =>
        rw [hn] at h'
        have hy := node_children H leaves d _ y hn
        simp only [Option.getD_some] at h'
        by_cases hc : nodeTriple x n = children H leaves d (position (ns.map (·.path)))
        · simp only [if_pos hc]
          unfold nodeTriple children at hc
          simp only [List.map_cons, position]
          cases hp : n.path <;> simp only [hp, Prod.mk.injEq] at hc
          · simpa [dirNat] using hc.1
          · rw [hc.2.1]; simp [dirNat, Nat.add_comm]
          · rw [hc.2.2]; simp [dirNat, Nat.add_comm]
        · simp only [if_neg hc]
          exact ⟨hc, by rw [h', hy]⟩

end

/-- C04: whatever the directions of a proof of 20 levels, if it is accepted for the current root of a tree reached by any
history, then the leaf stored at the position given by the directions is the claimed leaf, or the claimed leaf is zero, or
the proof contains a collision of the hash or a preimage of zero, which `breakOf` finds. -/
theorem C04_accepted_proof_position {F : Type} [Zero F] [DecidableEq F] (c : Codec F) (H : F → F → F → F)
    (ops : List (Op F)) (hcap : adds ops ≤ 3 ^ 20) (q : Proof F) (y : F) (hlen : q.nodes.length = 20)
    (hq : verify H y q = true) :
    ∃ t, runTree c H ops = some t ∧ (t.getRoot c = some q.root →
      (Spec.run ops).cur[position (q.nodes.map (·.path))]? = some y ∨ y = 0 ∨
      ∃ r, breakOf H (Spec.run ops).cur 0 y q.nodes = some r ∧ r.Valid H) := by
  obtain ⟨t, h1, h2⟩ := C03_root_is_tree_root c H ops hcap
  refine ⟨t, h1, fun hr => ?_⟩
  rw [h2] at hr
  have hq : q.nodes.foldl (verifyStep H) y = q.root := by simpa [verify] using hq
  have := breakOf_spec H (Spec.run ops).cur q.nodes 0 y (by
    rw [hq, hlen, ← Option.some.inj hr]
    rfl)
  split at this
  · exact .inr (.inr ⟨_, by assumption, this⟩)
  · simp only [node] at this
    cases hl : (Spec.run ops).cur[position (q.nodes.map (·.path))]? with
    | none =>
      rw [hl] at this
      exact .inr (.inl this)
    | some z =>
      rw [hl] at this
      exact .inl (by rw [this]; rfl)

/-- the hypotheses are met: the proof generated for the leaf under uid 2 of the example history -/
example : ∃ t q, runTree natCodec natHash exampleOps = some t ∧ q.nodes.length = 20 ∧ verify natHash 8 q = true ∧
    t.getRoot natCodec = some q.root := by
  obtain ⟨t, q, h1, -, h3, h4, -, h6⟩ :=
    C02_membership_proofs natCodec natHash exampleOps (by decide) 2 8 (by decide)
  exact ⟨t, q, h1, h6, h3, h4⟩

end Verif.Merkle
