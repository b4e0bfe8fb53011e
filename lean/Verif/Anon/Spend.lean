import Verif.Anon.TransferRun
import Verif.Merkle.Position

/-!
Property C55: commitments and nullifiers bind what they are computed from.
Property C68: an anonymous transfer spends stored records only, and a record has one nullifier.

A statement "or a collision exists" would be true of any compressing hash, so every theorem names the collision: it is the
value of an explicit function of the two colliding computations.
-/

namespace Verif.Anon

open Verif.Plonk Verif.Plonk.Spec Spec

variable {F : Type} [Field F] (p : Rescue.Params F)

/-- two different inputs of the permutation with the same first output word -/
def Collides (a b : Rescue.State F) : Prop :=
  a ≠ b ∧ hash4 p a.1 a.2.1 a.2.2.1 a.2.2.2 = hash4 p b.1 b.2.1 b.2.2.1 b.2.2.2

/-- what a commitment is computed from -/
structure CommitIn (F : Type) where
  pk : PK F
  blind : F
  amount : F
  ty : F
  deriving DecidableEq

/-- the commitment of an input -/
def CommitIn.eval (x : CommitIn F) : F := commit p x.pk x.blind x.amount x.ty

/-- the two hash inputs of a commitment -/
def CommitIn.inner (x : CommitIn F) : Rescue.State F := (x.blind, x.amount, x.ty, x.pk.1)

/-- the outer one -/
def CommitIn.outer (x : CommitIn F) : Rescue.State F :=
  (hash4 p x.blind x.amount x.ty x.pk.1, x.pk.2.1, x.pk.2.2, 0)

/-- what a nullifier is computed from -/
structure NullIn (F : Type) where
  pk : PK F
  sk : SK F
  uid : F
  amount : F
  ty : F
  deriving DecidableEq

/-- the nullifier -/
def NullIn.eval (x : NullIn F) : F := nullify p x.pk x.sk x.uid x.amount x.ty

/-- its inner hash input -/
def NullIn.inner (x : NullIn F) : Rescue.State F := (x.uid * 2 ^ 64 + x.amount, x.ty, x.pk.1, x.pk.2.1)

/-- its outer hash input -/
def NullIn.outer (x : NullIn F) : Rescue.State F :=
  (hash4 p (x.uid * 2 ^ 64 + x.amount) x.ty x.pk.1 x.pk.2.1, x.pk.2.2, x.sk.1, x.sk.2)

variable [DecidableEq F]

/-- the collision in two commitments -/
def commitCollision (x y : CommitIn F) : Rescue.State F × Rescue.State F :=
  if x.outer p = y.outer p then (x.inner, y.inner) else (x.outer p, y.outer p)

/-- the collision in two nullifiers -/
def nullCollision (x y : NullIn F) : Rescue.State F × Rescue.State F :=
  if x.outer p = y.outer p then (x.inner, y.inner) else (x.outer p, y.outer p)

/-- C55: two different openings of one commitment contain the collision `commitCollision`. -/
theorem C55_commitment_binding (x y : CommitIn F) (h : x.eval p = y.eval p) (hne : x ≠ y) :
    Collides p (commitCollision p x y).1 (commitCollision p x y).2 := by
  unfold commitCollision
  split
  · rename_i ho
    refine ⟨fun hi => hne ?_, ?_⟩
    · obtain ⟨⟨a, b, c⟩, d, e, f⟩ := x
      obtain ⟨⟨a', b', c'⟩, d', e', f'⟩ := y
      simp only [CommitIn.outer, CommitIn.inner, Prod.mk.injEq] at ho hi
      obtain ⟨rfl, rfl, rfl, rfl⟩ := hi
      obtain ⟨-, rfl, rfl, -⟩ := ho
      rfl
    · have := congrArg Prod.fst ho
      exact this
  · rename_i ho
    exact ⟨ho, h⟩

/-- C55: two nullifiers that agree although something they are computed from differs contain the collision
`nullCollision`; uids and amounts are the 64-bit numbers of the code. -/
theorem C55_nullifier_binding [ScalarRepr F] (ho : 2 ^ 128 ≤ ScalarRepr.order F) (pk pk' : PK F) (sk sk' : SK F)
    (uid uid' amount amount' : Nat) (ty ty' : F) (hu : uid < 2 ^ 64) (hu' : uid' < 2 ^ 64) (ha : amount < 2 ^ 64)
    (ha' : amount' < 2 ^ 64)
    (h : nullify p pk sk (uid : F) (amount : F) ty = nullify p pk' sk' (uid' : F) (amount' : F) ty') :
    (pk = pk' ∧ sk = sk' ∧ uid = uid' ∧ amount = amount' ∧ ty = ty') ∨
    Collides p (nullCollision p ⟨pk, sk, uid, amount, ty⟩ ⟨pk', sk', uid', amount', ty'⟩).1
      (nullCollision p ⟨pk, sk, uid, amount, ty⟩ ⟨pk', sk', uid', amount', ty'⟩).2 := by
  unfold nullCollision
  split
  · rename_i hout
    by_cases hin : NullIn.inner (⟨pk, sk, uid, amount, ty⟩ : NullIn F) = NullIn.inner ⟨pk', sk', uid', amount', ty'⟩
    · left
      obtain ⟨a, b, c⟩ := pk
      obtain ⟨a', b', c'⟩ := pk'
      obtain ⟨d, e⟩ := sk
      obtain ⟨d', e'⟩ := sk'
      simp only [NullIn.outer, NullIn.inner, Prod.mk.injEq] at hout hin
      obtain ⟨hn, rfl, rfl, rfl⟩ := hin
      obtain ⟨-, rfl, rfl, rfl⟩ := hout
      have : uid * 2 ^ 64 + amount = uid' * 2 ^ 64 + amount' := by
        refine cast_inj_of_lt (F := F) (by omega) (by omega) ?_
        rw [Nat.cast_add, Nat.cast_add, Nat.cast_mul, Nat.cast_mul, Nat.cast_pow]
        exact hn
      exact ⟨rfl, rfl, by omega, by omega, rfl⟩
    · have := congrArg Prod.fst hout
      exact .inr ⟨hin, this⟩
  · rename_i hout
    exact .inr ⟨hout, h⟩

/-! ### Spending -/

omit [DecidableEq F] in
/-- the leaf hash is the hash of a tree node: leaves and inner nodes are not separated, only the fixed depth keeps them
apart -/
theorem C68_leaf_is_node_hash (a b : F) : leafHash p a b = treeHash p a b 0 := rfl

namespace Spec

/-- the leaves of a tree that stores the commitments `stored`, each under its uid -/
def leavesOf (stored : List F) : List F := stored.mapIdx (fun j c => leafHash p (j : F) c)

end Spec

/-- evidence against the hash from an input that is not stored -/
def spendBreak (stored : List F) (pk : PK F) (s : Spent F) : Merkle.Break F :=
  match Merkle.breakOf (treeHash p) (leavesOf p stored) 0 (s.leaf p pk) s.nodes with
  | some r => r
  | none =>
    match stored[Merkle.position (s.nodes.map (·.path))]? with
    | none => .zero (s.uid, commit p pk s.blind s.amount s.ty, 0)
    | some c => .collision (s.uid, commit p pk s.blind s.amount s.ty, 0)
        ((Merkle.position (s.nodes.map (·.path)) : F), c, 0)

/-- One input: let a tree of the accumulator, after any history, store the commitments `stored`.  An opening with a Merkle
proof of the depth of the tree for its root is that of a stored record; otherwise `spendBreak` is a collision of the tree
hash or a preimage of zero. -/
theorem C68_input_stored (c : Merkle.Codec F) (ops : List (Merkle.Op F)) (hcap : Merkle.adds ops ≤ 3 ^ 20)
    (stored : List F) (hst : (Merkle.Spec.run ops).cur = leavesOf p stored) (pk : PK F) (root : F) :
    ∃ t, Merkle.runTree c (treeHash p) ops = some t ∧ (t.getRoot c = some root → ∀ s : Spent F, s.nodes.length = 20 →
      (∀ v u, Merkle.verify (treeHash p) (s.leaf p pk) ⟨s.nodes, root, v, u⟩ = true) →
      (∃ j : Nat, stored[j]? = some (commit p pk s.blind s.amount s.ty) ∧ s.uid = (j : F)) ∨
      (spendBreak p stored pk s).Valid (treeHash p)) := by
  obtain ⟨t, ht, hroot⟩ := Merkle.C03_root_is_tree_root c (treeHash p) ops hcap
  refine ⟨t, ht, fun hr s hlen hv => ?_⟩
  rw [hroot] at hr
  have hver := hv 0 0
  unfold Merkle.verify at hver
  simp only [decide_eq_true_eq] at hver
  have hb := Merkle.breakOf_spec (treeHash p) (leavesOf p stored) s.nodes 0 (s.leaf p pk) (by
    rw [hver, hlen, ← Option.some.inj hr, hst]
    rfl)
  unfold spendBreak
  cases hbr : Merkle.breakOf (treeHash p) (leavesOf p stored) 0 (s.leaf p pk) s.nodes with
  | some r =>
    rw [hbr] at hb
    exact .inr hb
  | none =>
    rw [hbr] at hb
    simp only [Merkle.node] at hb
    have hl : (leavesOf p stored)[Merkle.position (s.nodes.map (·.path))]? =
        (stored[Merkle.position (s.nodes.map (·.path))]?).map
          (fun x => leafHash p ((Merkle.position (s.nodes.map (·.path)) : Nat) : F) x) := by
      unfold leavesOf
      rw [List.getElem?_mapIdx]
    rw [hl] at hb
    cases hx : stored[Merkle.position (s.nodes.map (·.path))]? with
    | none =>
      rw [hx] at hb
      exact .inr hb
    | some x =>
      rw [hx] at hb
      simp only [Option.map_some, Option.getD_some] at hb
      by_cases he : s.uid = ((Merkle.position (s.nodes.map (·.path)) : Nat) : F) ∧
          commit p pk s.blind s.amount s.ty = x
      · exact .inl ⟨_, by rw [hx, he.2], he.1⟩
      · refine .inr ⟨?_, hb⟩
        simp only [ne_eq, Prod.mk.injEq, and_true]
        exact he

/-- C68: let a tree of the accumulator, after any history, store the commitments `stored`, and let a valid transfer (the
conclusion of `C67_transfer_sound_partial`) be for the root of this tree, with paths of the depth of the tree.  Then every
input is a stored record: the tree has, under the uid of the input, the commitment the input opens; otherwise `spendBreak`
is a collision of the tree hash or a preimage of zero. -/
theorem C68_spends_stored [ScalarRepr F] (c : Merkle.Codec F) (ops : List (Merkle.Op F)) (hcap : Merkle.adds ops ≤ 3 ^ 20)
    (stored : List F) (hst : (Merkle.Spec.run ops).cur = leavesOf p stored) (pk : PK F) (sk : SK F)
    (spent : List (Spent F)) (created : List (Payee F)) (feeType fee root : F) (nuls coms : List F)
    (hv : Valid p pk sk spent created feeType fee nuls root coms) (hlen : ∀ s ∈ spent, s.nodes.length = 20) :
    ∃ t, Merkle.runTree c (treeHash p) ops = some t ∧ (t.getRoot c = some root → ∀ s ∈ spent,
      (∃ j : Nat, stored[j]? = some (commit p pk s.blind s.amount s.ty) ∧ s.uid = (j : F)) ∨
      (spendBreak p stored pk s).Valid (treeHash p)) := by
  obtain ⟨t, ht, h⟩ := C68_input_stored p c ops hcap stored hst pk root
  exact ⟨t, ht, fun hr s hs => h hr s (hlen s hs) (hv.roots s hs)⟩

/-- C68: a stored record has one nullifier.  Two inputs, of the same or of different valid transfers, that open the record
stored under the same uid have the same nullifier, provided a public key has only one secret key; otherwise their openings
contain the collision `commitCollision`. -/
theorem C68_one_nullifier (Key : PK F → SK F → Prop) (hkey : ∀ pk sk sk', Key pk sk → Key pk sk' → sk = sk')
    (pk pk' : PK F) (sk sk' : SK F) (hk : Key pk sk) (hk' : Key pk' sk') (s s' : Spent F) (hu : s.uid = s'.uid)
    (hc : commit p pk s.blind s.amount s.ty = commit p pk' s'.blind s'.amount s'.ty) :
    nullify p pk sk s.uid s.amount s.ty = nullify p pk' sk' s'.uid s'.amount s'.ty ∨
    Collides p (commitCollision p ⟨pk, s.blind, s.amount, s.ty⟩ ⟨pk', s'.blind, s'.amount, s'.ty⟩).1
      (commitCollision p ⟨pk, s.blind, s.amount, s.ty⟩ ⟨pk', s'.blind, s'.amount, s'.ty⟩).2 := by
  by_cases he : (⟨pk, s.blind, s.amount, s.ty⟩ : CommitIn F) = ⟨pk', s'.blind, s'.amount, s'.ty⟩
  · left
    simp only [CommitIn.mk.injEq] at he
    obtain ⟨rfl, -, h2, h3⟩ := he
    rw [hkey pk sk sk' hk hk', hu, h2, h3]
  · exact .inr (C55_commitment_binding p _ _ hc he)

/-! ### A concrete transfer meets the hypotheses -/

/-- a codec for the field of the code, used in examples -/
def sampleCodec : Merkle.Codec (ZMod Bls.r) where
  enc n := List.replicate n.val 0
  dec b := some (b.length : ZMod Bls.r)
  dec_enc := by intro x; simp

/-- the key pair of the example -/
def samplePk : PK (ZMod Bls.r) := (2, 3, 4)

/-- its secret part -/
def sampleSk : SK (ZMod Bls.r) := (5, 6)

/-- the commitment of a record of amount 7 and type 9 -/
def sampleCom (p : Rescue.Params (ZMod Bls.r)) : ZMod Bls.r := commit p samplePk 8 (7 : Nat) 9

/-- the record stored under uid 0 -/
def samplePayer (ns : List (Merkle.ProofNode (ZMod Bls.r))) : Payer (ZMod Bls.r) :=
  ⟨(0 : Nat), (7 : Nat), 9, 8, ns.map mtNode⟩

/-- a record of amount 5, so that the fee is 2 -/
def samplePayee : Payee (ZMod Bls.r) := ⟨(5 : Nat), 10, 9, (11, 12, 13)⟩

theorem sample_val (n : Nat) (h : n < 2 ^ 64) : ScalarRepr.val ((n : Nat) : ZMod Bls.r) = n :=
  ScalarRepr.val_cast n (lt_of_lt_of_le h (by
    show 2 ^ 64 ≤ Bls.r
    unfold Bls.r
    norm_num))

theorem sample_balanced (ns : List (Merkle.ProofNode (ZMod Bls.r))) :
    Balanced [samplePayer ns] [samplePayee] 9 ((2 : Nat) : ZMod Bls.r) where
  hasFee := ⟨samplePayer ns, by simp, rfl⟩
  outIn := by simp [samplePayee, samplePayer]
  inOut := by simp [samplePayee, samplePayer]
  balance := by
    intro t
    by_cases h : (9 : ZMod Bls.r) = t
    · subst h
      simp only [samplePayer, samplePayee, decide_true, List.filter_cons, if_true, List.filter_nil, List.map_cons,
        List.map_nil, List.sum_cons, List.sum_nil]
      rw [sample_val 7 (by norm_num), sample_val 5 (by norm_num), sample_val 2 (by norm_num)]
      norm_num
    · simp [samplePayer, samplePayee, h, Ne.symm h]

/-- The hypotheses of the theorems of C67 and C68 are met over the field and hash of the code: a tree with one record, the
transfer of this record to another one with a fee (the address folding left out), the satisfied circuit, and the
conclusions of `C67_transfer_sound_partial` and `C68_spends_stored` for it. -/
example : ∃ t root cs nul com w, Merkle.runTree sampleCodec (treeHash Rescue.blsParams)
      [.add (leafHash Rescue.blsParams (0 : Nat) (sampleCom Rescue.blsParams)), .commit] = some t ∧
    t.getRoot sampleCodec = some root ∧ Sat cs w [nul, root, com, ((2 : Nat) : ZMod Bls.r)] ∧ w 1 = 1 ∧
    ∃ pk sk spent created, Valid Rescue.blsParams pk sk spent created 9 ((2 : Nat) : ZMod Bls.r) [nul] root [com] ∧
      ∀ s ∈ spent,
        (∃ j : Nat, [sampleCom Rescue.blsParams][j]? = some (commit Rescue.blsParams pk s.blind s.amount s.ty) ∧
          s.uid = (j : ZMod Bls.r)) ∨
        (spendBreak Rescue.blsParams [sampleCom Rescue.blsParams] pk s).Valid (treeHash Rescue.blsParams) := by
  have hp := goodBls
  generalize Rescue.blsParams = p at hp
  set ops : List (Merkle.Op (ZMod Bls.r)) := [.add (leafHash p (0 : Nat) (sampleCom p)), .commit] with hops
  have hcur : (Merkle.Spec.run ops).cur = leavesOf p [sampleCom p] := by
    rw [hops]
    rfl
  have hcap : Merkle.adds ops ≤ 3 ^ 20 := by
    rw [hops]
    show 1 ≤ 3 ^ 20
    norm_num
  obtain ⟨t, q, ht, hq, hver, hroot, -, hlen⟩ := Merkle.C02_membership_proofs sampleCodec (treeHash p) ops hcap 0
    (leafHash p (0 : Nat) (sampleCom p)) (by rw [hcur]; rfl)
  have hpr : payerRoot p samplePk (samplePayer q.nodes) = q.root := by
    unfold Merkle.verify at hver
    simp only [decide_eq_true_eq] at hver
    rw [← hver]
    unfold payerRoot samplePayer
    simp only [List.foldl_map, C53_native_agrees]
    rfl
  obtain ⟨vars, cs, pubs, hb, hpub, hon, hs, h1⟩ := C67_transfer_complete p hp (fun _ _ => pure ()) [samplePayer q.nodes]
    [samplePayee] samplePk sampleSk ((2 : Nat) : ZMod Bls.r) 9 q.root [] (fun cs _ _ _ _ _ _ => RunsP.pure _ _ _ .nil)
    (by simp) (by simp) (by
      intro s hs
      simp only [List.mem_singleton] at hs
      subst hs
      refine ⟨?_, ?_, hpr⟩
      · intro n hn
        obtain ⟨m, -, rfl⟩ := List.mem_map.mp hn
        exact goodNode_mtNode m
      · unfold samplePayer
        rw [sample_val 7 (by norm_num)]
        norm_num) (by
      intro s hs
      simp only [List.mem_singleton] at hs
      subst hs
      unfold samplePayee
      rw [sample_val 5 (by norm_num)]
      norm_num) (sample_balanced q.nodes)
  simp only [pubInputs, hpr, Option.some.injEq] at hpub
  subst hpub
  have hord : 2 ^ 66 < ScalarRepr.order (ZMod Bls.r) := by
    show 2 ^ 66 < Bls.r
    unfold Bls.r
    norm_num
  obtain ⟨-, hv, hl, -⟩ := C67_transfer_sound_partial p hp (by
      intro h
      have : ((2 : Nat) : ZMod Bls.r) = ((0 : Nat) : ZMod Bls.r) := by exact_mod_cast h
      exact absurd (cast_inj_of_lt (F := ZMod Bls.r) (by omega) (by omega) this) (by norm_num))
    (fun _ _ => pure ()) (fun _ _ _ _ _ => True)
    (fun pk sk => SoundP.pure _ _ (fun _ _ => trivial)) [samplePayer q.nodes] [samplePayee] samplePk sampleSk
    ((2 : Nat) : ZMod Bls.r) 9 (by simp only [List.length_singleton]; omega) (by simp only [List.length_singleton]; omega)
    vars cs hb [nullify p samplePk sampleSk (samplePayer q.nodes).uid (samplePayer q.nodes).amount (samplePayer q.nodes).ty]
    [commit p samplePayee.pk samplePayee.blind samplePayee.amount samplePayee.ty] [] q.root ((2 : Nat) : ZMod Bls.r)
    rfl rfl (by
      have := congrArg List.length hon
      unfold CS.online at this
      rw [List.length_map] at this
      rw [this]
      simp) (by rw [sample_val 2 (by norm_num)]; norm_num) cs.value (by simpa using hs) h1
  obtain ⟨t', ht', h⟩ := C68_spends_stored p sampleCodec ops hcap [sampleCom p] hcur _ _ _ _ 9 _ q.root _ _ hv
    (by
      have hm : ∀ s ∈ vars.payers.map (fun v => v.path.length), s = 20 := by
        rw [hl]
        simp [samplePayer, hlen]
      intro s hs
      obtain ⟨v, hv, rfl⟩ := List.mem_map.mp hs
      simp only [spentVal, List.length_map]
      exact hm _ (List.mem_map.mpr ⟨v, hv, rfl⟩))
  rw [ht] at ht'
  cases ht'
  exact ⟨t, q.root, cs, _, _, cs.value, ht, hroot, by simpa using hs, h1, _, _, _, _, hv, h hroot⟩

/-- the hypotheses of `C67_transfer_unsound`: the record of amount 7 becomes one of amount 5, without a fee or any other
explanation -/
example (ns : List (Merkle.ProofNode (ZMod Bls.r))) : ∃ vars cs pubs w,
    buildMultiXfr Rescue.blsParams (fun _ _ => pure ()) [samplePayer ns] [samplePayee] samplePk sampleSk 0 9 CS.new =
      some (vars, cs) ∧
    pubInputs Rescue.blsParams samplePk sampleSk [samplePayer ns] [samplePayee] 0 = some pubs ∧
    Sat cs w pubs := by
  obtain ⟨vars, cs, pubs, w, h1, h2, -, h3⟩ := C67_transfer_unsound Rescue.blsParams goodBls (fun _ _ => pure ())
    (fun _ _ => pure ()) (fun _ _ => Uniform.pure _ _ rfl) [samplePayer ns] [samplePayer ns] [samplePayee] [samplePayee]
    samplePk samplePk sampleSk sampleSk 0 0 9 (payerRoot Rescue.blsParams samplePk (samplePayer ns)) []
    (fun cs _ _ _ _ _ => RunsP.pure _ _ _ .nil) (by simp) (by simp) (by
      intro s hs
      simp only [List.mem_singleton] at hs
      subst hs
      refine ⟨?_, ?_, rfl⟩
      · intro n hn
        obtain ⟨m, -, rfl⟩ := List.mem_map.mp hn
        exact goodNode_mtNode m
      · unfold samplePayer
        rw [sample_val 7 (by norm_num)]
        norm_num) (by
      intro s hs
      simp only [List.mem_singleton] at hs
      subst hs
      unfold samplePayee
      rw [sample_val 5 (by norm_num)]
      norm_num) (by simp [samplePayer]) (by simp [samplePayee]) rfl rfl
  exact ⟨vars, cs, pubs, w, h1, h2, by simpa using h3⟩

/-- the bound of `C55_nullifier_binding` holds for the field of the code; its other hypotheses are met by equal records -/
example : 2 ^ 128 ≤ ScalarRepr.order (ZMod Bls.r) := by
  show 2 ^ 128 ≤ Bls.r
  unfold Bls.r
  norm_num

/-- the hypotheses of `C55_commitment_binding` are met by the permutation with no rounds -/
example : ∃ (p : Rescue.Params (ZMod Bls.r)) (x y : CommitIn (ZMod Bls.r)), x ≠ y ∧ x.eval p = y.eval p := by
  have h01 : (0 : ZMod Bls.r) ≠ 1 := fun h => by
    have : ((0 : Nat) : ZMod Bls.r) = ((1 : Nat) : ZMod Bls.r) := by exact_mod_cast h
    have ho : 2 < ScalarRepr.order (ZMod Bls.r) := by
      show 2 < Bls.r
      unfold Bls.r
      norm_num
    exact absurd (cast_inj_of_lt (F := ZMod Bls.r) (by omega) (by omega) this) (by norm_num)
  refine ⟨⟨0, 0, 0, 0, 1, [1], 0⟩, ⟨(0, 0, 0), 0, 0, 0⟩, ⟨(1, 0, 0), 0, 0, 0⟩, ?_, ?_⟩
  · simp [h01]
  · simp [CommitIn.eval, commit, hash4, Rescue.rescue, Rescue.keyScheduling, Rescue.addState]

end Verif.Anon
